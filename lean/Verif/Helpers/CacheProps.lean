import Verif.Helpers.Cache
import Mathlib.Data.List.Forall2
import Mathlib.Order.Basic

/-!
# C33: caches return what recomputation would return
-/
namespace Verif.Helpers
open Verif.Py

section
variable {β η E : Type} [DecidableEq η] [DecidableEq E]

/-! ## Specification -/

/-- What computing afresh gives. -/
def Call.fresh (V : CacheEnv β η E) : Call E → Result E
  | .clangFormat code opts =>
    match V.clang code opts with
    | some out => .value (.str out)
    | none => .formatError
  | .simplify e => .value (.expr (if e = V.zero then V.zero else V.simplify e))

/-- What identifies the call in the cache, if it is cached at all. -/
def Call.ident (V : CacheEnv β η E) : Call E → Option (List β)
  | .clangFormat code opts => some (V.utf8 (V.modName ++ code ++ opts))
  | .simplify e => V.pickle e

/-- Pickling is a round trip and a file cut short cannot be loaded. -/
structure PickleOk (V : CacheEnv β η E) : Prop where
  load_dump : ∀ o, V.load (V.dump o) = some o
  cut : ∀ o j, j < (V.dump o).length → V.load ((V.dump o).take j) = none

/-- On the given calls the file name determines the call. -/
def NamesOk (V : CacheEnv β η E) (calls : List (Call E)) : Prop :=
  ∀ a ∈ calls, ∀ b ∈ calls, (a.ident V).isSome → (a.ident V).map V.hash = (b.ident V).map V.hash → a = b

/-! ## Proofs -/

/-- Every file holds the result of one of the calls, possibly cut short; `full`: no file is cut short. -/
def DiskInv (V : CacheEnv β η E) (calls : List (Call E)) (full : Prop) (d : Disk β η) : Prop :=
  ∀ h f, d h = some f → ∃ c ∈ calls, ∃ i o, c.ident V = some i ∧ V.hash i = h ∧ c.fresh V = .value o ∧
    ∃ n, f = (V.dump o).take n ∧ (full → (V.dump o).length ≤ n)

omit [DecidableEq η] in
theorem DiskInv.update [DecidableEq η] {V : CacheEnv β η E} {calls : List (Call E)} {full : Prop} {d : Disk β η}
    (h : DiskInv V calls full d) {c : Call E} (hc : c ∈ calls) {i : List β} {o : Obj E} (hi : c.ident V = some i)
    (ho : c.fresh V = .value o) (n : Nat) (hn : full → (V.dump o).length ≤ n) :
    DiskInv V calls full (Function.update d (V.hash i) (some ((V.dump o).take n))) := by
  intro k f hf
  by_cases e : k = V.hash i
  · subst e
    rw [Function.update_self] at hf
    cases hf
    exact ⟨c, hc, i, o, hi, rfl, ho, n, rfl, hn⟩
  · rw [Function.update_of_ne e] at hf
    exact h k f hf

/-- Reading a file of the invariant: the fresh value, or an error if cut short. -/
theorem read_inv {V : CacheEnv β η E} (hp : PickleOk V) {calls : List (Call E)} (hk : NamesOk V calls) {full : Prop}
    {d : Disk β η} (h : DiskInv V calls full d) {c : Call E} (hc : c ∈ calls) {i : List β} (hi : c.ident V = some i)
    {f : List β} (hf : d (V.hash i) = some f) :
    readCached V f = c.fresh V ∨ (¬ full ∧ readCached V f = .loadError) := by
  obtain ⟨c', hc', i', o, hi', hh, ho, n, rfl, hn⟩ := h _ _ hf
  obtain rfl := hk c' hc' c hc (by rw [hi']; rfl) (by rw [hi', hi, Option.map_some, Option.map_some, hh])
  by_cases hl : (V.dump o).length ≤ n
  · left
    rw [List.take_of_length_le hl, readCached, hp.load_dump, ho]
  · right
    refine ⟨fun hfull => hl (hn hfull), ?_⟩
    rw [readCached, hp.cut o n (by omega)]

theorem run_inv {V : CacheEnv β η E} (hp : PickleOk V) {calls : List (Call E)} (hk : NamesOk V calls) {full : Prop}
    {d : Disk β η} (h : DiskInv V calls full d) {c : Call E} (hc : c ∈ calls) (j : Option Nat) (hj : full → j = none) :
    DiskInv V calls full (Call.run V c d j).2 ∧
      ∀ r, (Call.run V c d j).1 = some r → r = c.fresh V ∨ (¬ full ∧ r = .loadError) := by
  cases c with
  | clangFormat code opts =>
    simp only [Call.run, cachedFormat]
    have hi : (Call.clangFormat code opts : Call E).ident V = some (V.utf8 (V.modName ++ code ++ opts)) := rfl
    generalize V.utf8 (V.modName ++ code ++ opts) = i at hi ⊢
    cases hd : d (V.hash i) with
    | some f =>
      refine ⟨h, fun r hr => ?_⟩
      cases hr
      exact read_inv hp hk h hc hi hd
    | none =>
      cases hcl : V.clang code opts with
      | none =>
        refine ⟨h, fun r hr => ?_⟩
        cases hr
        left
        simp only [Call.fresh, hcl]
      | some out =>
        have ho : (Call.clangFormat code opts : Call E).fresh V = .value (.str out) := by simp only [Call.fresh, hcl]
        cases j with
        | none =>
          have := h.update hc hi ho (V.dump (.str out)).length (fun _ => Nat.le_refl _)
          rw [List.take_length] at this
          refine ⟨this, fun r hr => ?_⟩
          cases hr
          exact Or.inl ho.symm
        | some j =>
          exact ⟨h.update hc hi ho j (fun hfull => absurd (hj hfull) (by simp)), fun r hr => by cases hr⟩
  | simplify e =>
    simp only [Call.run, cachedSimplify]
    by_cases he : e = V.zero
    · rw [if_pos he]
      refine ⟨h, fun r hr => ?_⟩
      cases hr
      left
      simp only [Call.fresh, if_pos he]
    · rw [if_neg he]
      have ho : (Call.simplify e).fresh V = .value (.expr (V.simplify e)) := by simp only [Call.fresh, if_neg he]
      cases hpk : V.pickle e with
      | none =>
        refine ⟨h, fun r hr => ?_⟩
        cases hr
        exact Or.inl ho.symm
      | some i =>
        have hi : (Call.simplify e).ident V = some i := hpk
        dsimp only
        cases hd : d (V.hash i) with
        | some f =>
          refine ⟨h, fun r hr => ?_⟩
          cases hr
          exact read_inv hp hk h hc hi hd
        | none =>
          cases j with
          | none =>
            have := h.update hc hi ho (V.dump (.expr (V.simplify e))).length (fun _ => Nat.le_refl _)
            rw [List.take_length] at this
            refine ⟨this, fun r hr => ?_⟩
            cases hr
            exact Or.inl ho.symm
          | some j =>
            exact ⟨h.update hc hi ho j (fun hfull => absurd (hj hfull) (by simp)), fun r hr => by cases hr⟩

theorem history_inv {V : CacheEnv β η E} (hp : PickleOk V) {calls : List (Call E)} (hk : NamesOk V calls)
    {full : Prop} : ∀ (l : List (Call E × Option Nat)) (d : Disk β η), DiskInv V calls full d →
      (∀ p ∈ l, p.1 ∈ calls) → (full → ∀ p ∈ l, p.2 = none) →
      List.Forall₂ (fun p r => ∀ x, r = some x → x = p.1.fresh V ∨ (¬ full ∧ x = .loadError)) l (history V l d).1
  | [], _, _, _, _ => .nil
  | (c, j) :: l, d, h, hc, hj => by
    have hr := run_inv hp hk h (hc _ List.mem_cons_self) j (fun hf => hj hf _ List.mem_cons_self)
    exact .cons hr.2 (history_inv hp hk l _ hr.1 (fun p hp => hc p (List.mem_cons_of_mem _ hp))
      (fun hf p hp => hj hf p (List.mem_cons_of_mem _ hp)))

/-- Without a crash every call has a result. -/
theorem run_some (V : CacheEnv β η E) (c : Call E) (d : Disk β η) : ((Call.run V c d none).1).isSome := by
  cases c with
  | clangFormat code opts =>
    simp only [Call.run, cachedFormat]
    split
    · rfl
    split <;> rfl
  | simplify e =>
    simp only [Call.run, cachedSimplify]
    split
    · rfl
    split
    · rfl
    split <;> rfl

theorem run_some_history (V : CacheEnv β η E) : ∀ (l : List (Call E)) (d : Disk β η),
    ∀ r ∈ (history V (l.map (·, none)) d).1, r.isSome
  | [], _ => by simp [history]
  | c :: l, d => by
    intro r hr
    simp only [List.map_cons, history, List.mem_cons] at hr
    rcases hr with rfl | hr
    · exact run_some V c d
    · exact run_some_history V l _ r hr

theorem empty_inv (V : CacheEnv β η E) (calls : List (Call E)) (full : Prop) :
    DiskInv V calls full (fun _ => none : Disk β η) := by
  intro h f hf
  cases hf

/-! ## Theorems -/

/-- **C33** (no crashes): starting from an empty cache, in every history of calls every call returns exactly what
computing afresh returns, provided the file names determine the calls. -/
theorem C33_fresh (V : CacheEnv β η E) (hp : PickleOk V) (l : List (Call E)) (hk : NamesOk V l) :
    (history V (l.map (·, none)) (fun _ => none)).1 = l.map fun c => some (c.fresh V) := by
  have h := history_inv hp hk (full := True) (l.map (·, none)) _ (empty_inv V l True) (by simp) (by simp)
  have hs := run_some_history V l (fun _ => none)
  generalize (history V (l.map (·, none)) fun _ => none).1 = rs at h hs
  clear hk
  induction l generalizing rs with
  | nil => cases h; rfl
  | cons c l ih =>
    cases h with
    | cons h1 h2 =>
      rename_i r rs
      obtain ⟨x, rfl⟩ := Option.isSome_iff_exists.1 (hs r List.mem_cons_self)
      have hx := h1 x rfl
      simp only [not_true_eq_false, false_and, or_false] at hx
      rw [List.map_cons, hx, ih rs h2 (fun r hr => hs r (List.mem_cons_of_mem _ hr))]

/-- **C33** (partial: with crashes): whatever the crash points, no call ever returns a wrong value; it returns the fresh
result or raises a loading error.  The full statement, that it returns the fresh result, fails, see `C33_stuck`. -/
theorem C33_crash_partial (V : CacheEnv β η E) (hp : PickleOk V) (l : List (Call E × Option Nat))
    (hk : NamesOk V (l.map (·.1))) :
    List.Forall₂ (fun p r => r = none ∨ r = some (p.1.fresh V) ∨ r = some .loadError) l
      (history V l (fun _ => none)).1 := by
  have h := history_inv hp hk (full := False) l _ (empty_inv V _ False)
    (fun p hp => List.mem_map_of_mem hp) (fun h => h.elim)
  refine h.imp fun p r h => ?_
  cases r with
  | none => exact Or.inl rfl
  | some x =>
    right
    rcases h x rfl with h | h
    · exact Or.inl (by rw [h])
    · exact Or.inr (by rw [h.2])

/-- A file once written is never changed. -/
theorem run_keeps (V : CacheEnv β η E) (c : Call E) (d : Disk β η) (j : Option Nat) (k : η) (f : List β)
    (h : d k = some f) : (Call.run V c d j).2 k = some f := by
  have key : ∀ i x, d i = none → Function.update d i (some x) k = some f := by
    intro i x hi
    rw [Function.update_of_ne, h]
    rintro rfl
    rw [hi] at h
    cases h
  cases c with
  | clangFormat code opts =>
    simp only [Call.run, cachedFormat]
    split
    · exact h
    · next hd =>
      split
      · split <;> exact key _ _ hd
      · exact h
  | simplify e =>
    simp only [Call.run, cachedSimplify]
    split
    · exact h
    split
    · exact h
    split
    · exact h
    · next hd => split <;> exact key _ _ hd

theorem history_keeps (V : CacheEnv β η E) : ∀ (l : List (Call E × Option Nat)) (d : Disk β η) (k : η) (f : List β),
    d k = some f → (history V l d).2 k = some f
  | [], _, _, _, h => h
  | (c, j) :: l, d, k, f, h => history_keeps V l _ k f (run_keeps V c d j k f h)

/-- Violation: after a crash that cuts the cache file of a `clang_format` call short, the same call raises a loading
error for ever, whatever happens in between, although computing afresh would succeed. -/
theorem C33_stuck (V : CacheEnv β η E) (hp : PickleOk V) (code opts out : Str) (hout : V.clang code opts = some out)
    (j : Nat) (hj : j < (V.dump (.str out)).length) (l : List (Call E × Option Nat)) (crash : Option Nat) :
    (Call.run V (.clangFormat code opts) (history V ((.clangFormat code opts, some j) :: l) (fun _ => none)).2
      crash).1 = some .loadError ∧
    (Call.clangFormat code opts : Call E).fresh V = .value (.str out) := by
  refine ⟨?_, by simp only [Call.fresh, hout]⟩
  have h0 : (Call.run V (.clangFormat code opts) (fun _ => none : Disk β η) (some j)).2
      (V.hash (V.utf8 (V.modName ++ code ++ opts))) = some ((V.dump (.str out)).take j) := by
    simp only [Call.run, cachedFormat, hout]
    exact Function.update_self ..
  have h1 := history_keeps V l _ _ _ h0
  simp only [history]
  generalize (history V l _).2 = d at h1
  simp only [Call.run, cachedFormat, h1, readCached, hp.cut _ _ hj]

/-- **C33** (keys): if no option string used is a proper suffix of another one and encoding is injective, then the key
of `clang_format` determines code and options. -/
theorem C33_keys (V : CacheEnv β η E) (hu : Function.Injective V.utf8) (code code' opts opts' : Str)
    (hs : opts <:+ opts' → opts = opts') (hs' : opts' <:+ opts → opts' = opts)
    (h : (Call.clangFormat code opts : Call E).ident V = (Call.clangFormat code' opts' : Call E).ident V) :
    code = code' ∧ opts = opts' := by
  have h := hu (Option.some.inj h)
  rw [List.append_assoc, List.append_assoc] at h
  have h := List.append_cancel_left h
  have h1 : opts <:+ code ++ opts := List.suffix_append _ _
  have h2 : opts' <:+ code ++ opts := by rw [h]; exact List.suffix_append _ _
  have ho : opts = opts' := by
    rcases List.suffix_or_suffix_of_suffix h1 h2 with h | h
    · exact hs h
    · exact (hs' h).symm
  subst ho
  exact ⟨List.append_cancel_right h, rfl⟩

/-- Violation: code and options are concatenated without a separator, so two different calls can share a key; the
second one then returns the result of the first one. -/
theorem C33_collision (V : CacheEnv β η E) (hp : PickleOk V) (code a opts out : Str)
    (hout : V.clang code (a ++ opts) = some out) :
    (history V [(.clangFormat code (a ++ opts), none), (.clangFormat (code ++ a) opts, none)] (fun _ => none)).1 =
      [some (.value (.str out)), some (.value (.str out))] := by
  have e : V.modName ++ (code ++ a) ++ opts = V.modName ++ code ++ (a ++ opts) := by simp [List.append_assoc]
  simp only [history, Call.run, cachedFormat, hout, e, Function.update_self, readCached, hp.load_dump]

end

/-! ## A concrete environment that meets the hypotheses -/

/-- Objects as character lists with an end mark; expressions are numbers. -/
def demoDump : Obj Nat → List Char
  | .str s => 's' :: s.flatMap (fun c => ['.', c]) ++ ['!']
  | .expr n => 'n' :: List.replicate n '.' ++ ['!']

def demoStr : List Char → Option Str
  | ['!'] => some []
  | '.' :: c :: l => (demoStr l).map (c :: ·)
  | _ => none

def demoNum : List Char → Option Nat
  | ['!'] => some 0
  | '.' :: l => (demoNum l).map (· + 1)
  | _ => none

def demoLoad : List Char → Option (Obj Nat)
  | 's' :: l => (demoStr l).map .str
  | 'n' :: l => (demoNum l).map .expr
  | _ => none

def demoEnv : CacheEnv Char (List Char) Nat where
  hash := id
  utf8 := id
  dump := demoDump
  load := demoLoad
  pickle n := some (demoDump (.expr n))
  clang code opts := if opts = (c% "-bad") then none else some (code ++ (c% "//") ++ opts)
  simplify n := n % 10
  zero := 0
  modName := (c% "nrpy.helpers.generic")

theorem demoStr_dump : ∀ s : Str, demoStr (s.flatMap (fun c => ['.', c]) ++ ['!']) = some s
  | [] => rfl
  | c :: s => by
    have := demoStr_dump s
    simp only [List.flatMap_cons, List.cons_append, List.nil_append]
    rw [demoStr, this]
    rfl

theorem demoStr_cut : ∀ (s : Str) (j : Nat), j < (s.flatMap (fun c => ['.', c]) ++ ['!']).length →
    demoStr ((s.flatMap (fun c => ['.', c]) ++ ['!']).take j) = none
  | [], j, h => by
    have : j = 0 := by simpa using h
    subst this
    rfl
  | c :: s, 0, _ => rfl
  | c :: s, 1, _ => rfl
  | c :: s, j + 2, h => by
    simp only [List.flatMap_cons, List.cons_append, List.nil_append, List.length_cons] at h
    have := demoStr_cut s j (by omega)
    simp only [List.flatMap_cons, List.cons_append, List.nil_append, List.take_succ_cons]
    rw [demoStr, this]
    rfl

theorem demoNum_dump : ∀ n : Nat, demoNum (List.replicate n '.' ++ ['!']) = some n
  | 0 => rfl
  | n + 1 => by
    have := demoNum_dump n
    simp only [List.replicate_succ, List.cons_append]
    rw [demoNum, this]
    rfl

theorem demoNum_cut : ∀ (n j : Nat), j < (List.replicate n '.' ++ ['!']).length →
    demoNum ((List.replicate n '.' ++ ['!']).take j) = none
  | 0, j, h => by
    have : j = 0 := by simpa using h
    subst this
    rfl
  | n + 1, 0, _ => rfl
  | n + 1, j + 1, h => by
    simp only [List.replicate_succ, List.cons_append, List.length_cons] at h
    have := demoNum_cut n j (by omega)
    simp only [List.replicate_succ, List.cons_append, List.take_succ_cons]
    rw [demoNum, this]
    rfl

theorem demo_ok : PickleOk demoEnv where
  load_dump o := by
    cases o with
    | str s => exact congrArg (Option.map Obj.str) (demoStr_dump s)
    | expr n => exact congrArg (Option.map Obj.expr) (demoNum_dump n)
  cut o j h := by
    cases j with
    | zero => rfl
    | succ j =>
      cases o with
      | str s => exact congrArg (Option.map Obj.str) (demoStr_cut s j (by simpa [demoEnv, demoDump] using h))
      | expr n => exact congrArg (Option.map Obj.expr) (demoNum_cut n j (by simpa [demoEnv, demoDump] using h))

/-- Repeated calls of both kinds, with a failing one: the file names determine the calls. -/
example : NamesOk demoEnv [.clangFormat (c% "int x;") (c% "-style"), .simplify 12, .clangFormat (c% "int x;") (c% "-bad"),
    .clangFormat (c% "int x;") (c% "-style"), .simplify 12, .simplify 0] := by
  unfold NamesOk
  decide +kernel

/-- Two calls with one key: formatting `int x;-style=` with options `LLVM` gives the text of the first call. -/
example : (history demoEnv [(.clangFormat (c% "int x;") (c% "-style=LLVM"), none),
      (.clangFormat (c% "int x;-style=") (c% "LLVM"), none)] (fun _ => none)).1 =
      [some (.value (.str (c% "int x;//-style=LLVM"))), some (.value (.str (c% "int x;//-style=LLVM")))] ∧
    (Call.clangFormat (c% "int x;-style=") (c% "LLVM") : Call Nat).fresh demoEnv =
      .value (.str (c% "int x;-style=//LLVM")) := by
  constructor
  · exact C33_collision demoEnv demo_ok (c% "int x;") (c% "-style=") (c% "LLVM") _ rfl
  · rfl

/-- A crash after three bytes. -/
example : (history demoEnv [(.clangFormat (c% "int x;") (c% "-s"), some 3), (.clangFormat (c% "int x;") (c% "-s"), none)]
    (fun _ => none)).1 = [none, some .loadError] := by
  decide +kernel

end Verif.Helpers
