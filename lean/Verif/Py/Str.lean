import Lean

/-!
# Python strings as character lists

Only the operations that the modelled code applies to strings.
-/
namespace Verif.Py

open Lean in
/-- `c% "abc"` is notation for the character list `['a', 'b', 'c']`. -/
macro "c% " s:str : term => do
  let cs : Array (TSyntax `term) := (s.getString.toList.map (fun c => ⟨Syntax.mkCharLit c⟩)).toArray
  `([$cs,*])

/-- A Python `str`. -/
abbrev Str := List Char

/-- `s.split(ab)` for a two-character separator `ab`: left-to-right, non-overlapping. -/
def split2 (a b : Char) : Str → List Str
  | [] => [[]]
  | [c] => [[c]]
  | c :: d :: s =>
    if c = a ∧ d = b then [] :: split2 a b s
    else match split2 a b (d :: s) with
      | [] => [[c]]
      | h :: t => (c :: h) :: t

/-- `s.split(ab)[-1]`. -/
def lastPart2 (a b : Char) (s : Str) : Str := ((split2 a b s).getLast?).getD []

theorem split2_ne_nil (a b : Char) (s : Str) : split2 a b s ≠ [] := by
  fun_cases split2 a b s
  · simp
  · simp
  · simp
  · simp
  · simp

/-- `s.split(c)` for a single character. -/
def split1 (c : Char) : Str → List Str
  | [] => [[]]
  | d :: s =>
    if d = c then [] :: split1 c s
    else match split1 c s with
      | [] => [[d]]
      | h :: t => (d :: h) :: t

theorem split1_ne_nil (c : Char) (s : Str) : split1 c s ≠ [] := by
  induction s with
  | nil => simp [split1]
  | cons d s ih =>
    unfold split1
    split
    · simp
    · split <;> simp

/-- Left-to-right scan used by `replaceAll`; the number counts characters still to be skipped. -/
def replaceAux (pat rep : Str) : Str → Nat → Str
  | [], _ => []
  | _ :: s, k + 1 => replaceAux pat rep s k
  | c :: s, 0 =>
    if pat.isPrefixOf (c :: s) then rep ++ replaceAux pat rep s (pat.length - 1)
    else c :: replaceAux pat rep s 0

/-- `s.replace(pat, rep)` for a non-empty pattern: all occurrences, left to right, non-overlapping. -/
def replaceAll (pat rep s : Str) : Str := replaceAux pat rep s 0

/-- `c in s` for strings: substring test. -/
def containsSub (sub s : Str) : Bool := sub.isPrefixOf s || match s with
  | [] => false
  | _ :: t => containsSub sub t

/-- `sep.join(parts)` for a one-character separator. -/
def joinWith (sep : Char) : List Str → Str
  | [] => []
  | [p] => p
  | p :: q :: ps => p ++ sep :: joinWith sep (q :: ps)

/-- Python's `<=` on strings (code point order). -/
def strLe (a b : Str) : Bool := match a, b with
  | [], _ => true
  | _ :: _, [] => false
  | x :: a, y :: b => if x = y then strLe a b else decide (x < y)

/-- Insertion step of `sortedStr`. -/
def insertStr (x : Str) : List Str → List Str
  | [] => [x]
  | y :: l => if strLe x y then x :: y :: l else y :: insertStr x l

/-- Python `sorted` on strings (stable; equal strings are indistinguishable). -/
def sortedStr (l : List Str) : List Str := l.foldr insertStr []

theorem mem_insertStr (x c : Str) (l : List Str) : c ∈ insertStr x l ↔ c = x ∨ c ∈ l := by
  induction l with
  | nil => simp [insertStr]
  | cons y l ih =>
    unfold insertStr
    split
    · simp
    · simp only [List.mem_cons, ih]
      constructor
      · rintro (h | h | h) <;> simp [h]
      · rintro (h | h | h) <;> simp [h]

theorem mem_sortedStr (c : Str) (l : List Str) : c ∈ sortedStr l ↔ c ∈ l := by
  induction l with
  | nil => simp [sortedStr]
  | cons a l ih =>
    have : sortedStr (a :: l) = insertStr a (sortedStr l) := rfl
    rw [this, mem_insertStr, ih, List.mem_cons]

theorem replaceAux_skip (pat rep : Str) (s t : Str) :
    replaceAux pat rep (s ++ t) s.length = replaceAux pat rep t 0 := by
  induction s with
  | nil => simp
  | cons c s ih => simp [replaceAux, ih]

/-- If the pattern occurs in `base ++ pat` only at the end, removing it gives `base`. -/
theorem replaceAll_suffix (pat base : Str) (hp : pat ≠ [])
    (h : ∀ i, i < base.length → ¬ pat <+: (base ++ pat).drop i) :
    replaceAll pat [] (base ++ pat) = base := by
  unfold replaceAll
  induction base with
  | nil =>
    cases pat with
    | nil => exact absurd rfl hp
    | cons c s =>
      have h1 : (c :: s).isPrefixOf (c :: s) = true := by
        rw [List.isPrefixOf_iff_prefix]; exact List.prefix_refl _
      simp only [List.nil_append, replaceAux, h1, if_true, List.length_cons, Nat.add_sub_cancel]
      have := replaceAux_skip (c :: s) [] s []
      simpa [replaceAux] using this
  | cons c base ih =>
    have h0 : ¬ pat <+: (c :: base ++ pat) := by simpa using h 0 (by simp)
    have h0' : pat.isPrefixOf (c :: (base ++ pat)) = false := by
      rw [Bool.eq_false_iff]; intro hh
      exact h0 (by simpa using (List.isPrefixOf_iff_prefix.1 hh))
    simp only [List.cons_append, replaceAux, h0', Bool.false_eq_true, if_false]
    congr 1
    apply ih
    intro i hi
    have := h (i + 1) (by simp; omega)
    simpa using this

theorem split1_of_not_mem (c : Char) (s : Str) (h : c ∉ s) : split1 c s = [s] := by
  induction s with
  | nil => rfl
  | cons d s ih =>
    simp at h
    unfold split1
    rw [if_neg (Ne.symm h.1), ih h.2]

theorem split1_append_sep (c : Char) (s t : Str) (h : c ∉ s) :
    split1 c (s ++ c :: t) = s :: split1 c t := by
  induction s with
  | nil => simp [split1]
  | cons d s ih =>
    simp at h
    simp only [List.cons_append]
    rw [split1, if_neg (Ne.symm h.1), ih h.2]

/-- Splitting a joined list of separator-free parts gives the parts back. -/
theorem split1_joinWith (c : Char) (ps : List Str) (hne : ps ≠ []) (h : ∀ p ∈ ps, c ∉ p) :
    split1 c (joinWith c ps) = ps := by
  induction ps with
  | nil => exact absurd rfl hne
  | cons p ps ih =>
    cases ps with
    | nil => simpa [joinWith] using split1_of_not_mem c p (h p (by simp))
    | cons q ps =>
      rw [joinWith, split1_append_sep c p _ (h p (by simp)), ih (by simp) ?_]
      intro x hx; exact h x (List.mem_cons_of_mem _ hx)

theorem split1_not_mem (c : Char) (s : Str) : ∀ p ∈ split1 c s, c ∉ p := by
  induction s with
  | nil => simp [split1]
  | cons d s ih =>
    unfold split1
    by_cases hd : d = c
    · rw [if_pos hd]
      intro p hp
      rcases List.mem_cons.1 hp with h | h
      · subst h; simp
      · exact ih p h
    · rw [if_neg hd]
      cases hs : split1 c s with
      | nil => exact absurd hs (split1_ne_nil c s)
      | cons a b =>
        rw [hs] at ih
        intro p hp
        simp only at hp
        rcases List.mem_cons.1 hp with h | h
        · subst h
          have := ih a (by simp)
          simp [this, Ne.symm hd]
        · exact ih p (by simp [h])

end Verif.Py
