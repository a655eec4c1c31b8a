import Verif.Grid.Model
import Verif.IndexedExp.NamesProps

/-!
# C10: gridfunction registration
-/
namespace Verif.Grid
open Verif.Py Verif.IndexedExp

/-! ## One call -/

theorem regFrom_keeps (infra : Infra) (dim : Nat) (kw : Kw) (i : Nat) (l : List Str) (d : Registry)
    (k : Str) (gf : GF) (h : d.get? k = some gf) : (regFrom infra dim kw i l d).1.get? k = some gf := by
  induction l generalizing i d with
  | nil => exact h
  | cons n l ih =>
    unfold regFrom
    split
    · exact ih _ _ h
    · next hc =>
      split
      · exact h
      · refine ih _ _ ?_
        rw [Dict.get?_set_ne]
        · exact h
        · rintro rfl
          rw [Bool.not_eq_true, Dict.contains_false_iff, h] at hc
          cases hc

/-- What a successful loop leaves behind. -/
theorem regFrom_spec (infra : Infra) (dim : Nat) (kw : Kw) (i : Nat) (l : List Str) (d : Registry)
    (hb : ∀ j n, l[j]? = some n → d.get? n = none → ∃ gf, build infra dim kw (i + j) n = .ok gf) :
    (regFrom infra dim kw i l d).2 = .ok () ∧
    (∀ n, n ∈ (regFrom infra dim kw i l d).1.keys ↔ n ∈ d.keys ∨ n ∈ l) ∧
    (∀ n ∈ l, d.get? n = none → ∃ j gf, l[j]? = some n ∧ (∀ j' < j, l[j']? ≠ some n) ∧
      build infra dim kw (i + j) n = .ok gf ∧
      (regFrom infra dim kw i l d).1.get? n = some gf) := by
  induction l generalizing i d with
  | nil => simp [regFrom]
  | cons n l ih =>
    have shift : ∀ j, i + (j + 1) = i + 1 + j := by intro j; omega
    unfold regFrom
    by_cases hc : d.contains n = true
    · rw [if_pos hc]
      obtain ⟨v, hv⟩ := (Dict.contains_iff d n).1 hc
      obtain ⟨h1, h2, h3⟩ := ih (i + 1) d (fun j m hj hm => by
        rw [← shift]; exact hb (j + 1) m (by simpa using hj) hm)
      refine ⟨h1, fun m => ?_, fun m hm hmn => ?_⟩
      · rw [h2, List.mem_cons]
        constructor
        · rintro (h | h)
          · exact .inl h
          · exact .inr (.inr h)
        · rintro (h | rfl | h)
          · exact .inl h
          · exact .inl ((Dict.mem_keys_iff d m).2 ⟨v, hv⟩)
          · exact .inr h
      · rcases List.mem_cons.1 hm with rfl | hm
        · rw [hv] at hmn; cases hmn
        · obtain ⟨j, gf, g1, g2, g3, g4⟩ := h3 m hm hmn
          refine ⟨j + 1, gf, by simpa using g1, fun j' hj' => ?_, by rw [shift]; exact g3, g4⟩
          cases j' with
          | zero =>
            simp only [List.getElem?_cons_zero, ne_eq, Option.some.injEq]
            rintro rfl
            rw [hv] at hmn; cases hmn
          | succ j' => simpa using g2 j' (by omega)
    · have hn : d.get? n = none := by
        rw [Bool.not_eq_true, Dict.contains_false_iff] at hc; exact hc
      rw [if_neg hc]
      obtain ⟨gf, hgf⟩ := hb 0 n rfl hn
      rw [Nat.add_zero] at hgf
      rw [hgf]
      simp only
      obtain ⟨h1, h2, h3⟩ := ih (i + 1) (d.set n gf) (fun j m hj hm => by
        rw [← shift]
        refine hb (j + 1) m (by simpa using hj) ?_
        by_cases e : m = n
        · subst e; rw [Dict.get?_set_self] at hm; cases hm
        · rwa [Dict.get?_set_ne _ _ e] at hm)
      have hkeep := regFrom_keeps infra dim kw (i + 1) l (d.set n gf) n gf (Dict.get?_set_self _ _ _)
      refine ⟨h1, fun m => ?_, fun m hm hmn => ?_⟩
      · rw [h2, Dict.mem_keys_iff, Dict.mem_keys_iff, List.mem_cons, Dict.get?_set]
        by_cases e : m = n
        · simp [e]
        · simp [e]
      · by_cases e : m = n
        · subst e
          exact ⟨0, gf, rfl, by simp, by simpa using hgf, hkeep⟩
        · rcases List.mem_cons.1 hm with hm | hm
          · exact absurd hm e
          · obtain ⟨j, gf', g1, g2, g3, g4⟩ := h3 m hm (by rw [Dict.get?_set_ne _ _ e]; exact hmn)
            refine ⟨j + 1, gf', by simpa using g1, fun j' hj' => ?_, by rw [shift]; exact g3, g4⟩
            cases j' with
            | zero => simpa using Ne.symm e
            | succ j' => simpa using g2 j' (by omega)

/-! ## Histories -/

/-- A registration call; the infrastructure parameter may change between calls. -/
inductive Op (R : Type)
  | many (infra : Infra) (names : List Str) (dim : Nat) (kw : Kw)
  | rank1 (infra : Infra) (dim : Nat) (T : Tensor 1 R) (kw : Kw)
  | rank2 (infra : Infra) (dim : Nat) (T : Tensor 2 R) (kw : Kw)
  | rankN (infra : Infra) (dim r : Nat) (T : Tensor r R) (kw : Kw)

section
variable {R : Type} (str : R → Str) (setOrder : List Str → List Str)

/-- Registry after a call, whether it raises or not. -/
def Op.run (d : Registry) : Op R → Registry
  | .many infra names dim kw => (register infra d names dim kw).1
  | .rank1 infra dim T kw => (registerRank1 str infra d dim T kw).1
  | .rank2 infra dim T kw => (registerRank2 str infra d dim T kw).1
  | .rankN infra dim r T kw => (registerRankN str setOrder infra d dim r T kw).1

theorem register_fst (infra : Infra) (d : Registry) (names : List Str) (dim : Nat) (kw : Kw) :
    (register infra d names dim kw).1 = (regFrom infra dim kw 0 names d).1 := by
  unfold register
  split <;> simp_all

theorem op_is_register (d : Registry) (op : Op R) :
    op.run str setOrder d = d ∨ ∃ infra names dim kw,
      op.run str setOrder d = (register infra d names dim kw).1 := by
  cases op with
  | many infra names dim kw => exact .inr ⟨_, _, _, _, rfl⟩
  | rank1 infra dim T kw =>
    simp only [Op.run, registerRank1]
    split
    · exact .inl rfl
    · right
      refine ⟨infra, (List.range 3).map fun i : Nat => str (T fun _ => i), dim,
        { kw with isBasename := false, rank := 1 }, ?_⟩
      split <;> simp_all
  | rank2 infra dim T kw =>
    simp only [Op.run, registerRank2]
    right
    refine ⟨infra, firstOccurrences ((tuples 2 dim).map fun x => str (T x)) [], dim,
      { kw with isBasename := false, rank := 2 }, ?_⟩
    split <;> simp_all
  | rankN infra dim r T kw =>
    simp only [Op.run, registerRankN]
    split
    · exact .inl rfl
    · right
      refine ⟨infra, setOrder ((tuples r dim).map fun x => str (T x)), dim,
        { kw with isBasename := false, rank := r }, ?_⟩
      split <;> simp_all

/-- **C10, first registration wins.**  Whatever calls follow – repeated names, other groups, other
infrastructures, calls that raise – an entry once in the registry is never changed or removed. -/
theorem C10_first_wins (ops : List (Op R)) (d : Registry) (k : Str) (gf : GF)
    (h : d.get? k = some gf) : (ops.foldl (fun d op => op.run str setOrder d) d).get? k = some gf := by
  induction ops generalizing d with
  | nil => exact h
  | cons op ops ih =>
    refine ih _ ?_
    show Dict.get? (op.run str setOrder d) k = some gf
    rcases op_is_register str setOrder d op with e | ⟨infra, names, dim, kw, e⟩
    · rw [e]; exact h
    · rw [e, register_fst]; exact regFrom_keeps _ _ _ _ _ _ _ _ h

/-- Registries a user can reach with BHaH: one entry per key, stored under its own name, in a known
group. -/
def Reachable (d : Registry) : Prop :=
  d.Wf ∧ ∀ k gf, (k, gf) ∈ d → gf.name = k ∧ gf.group ∈ bhahGroups

theorem regFrom_reachable (dim : Nat) (kw : Kw) (i : Nat) (l : List Str) (d : Registry)
    (h : Reachable d) : Reachable (regFrom .bhah dim kw i l d).1 := by
  induction l generalizing i d with
  | nil => exact h
  | cons n l ih =>
    unfold regFrom
    split
    · exact ih _ _ h
    · split
      · exact h
      · next gf hgf =>
        refine ih _ _ ⟨h.1.set n gf, fun k g hk => ?_⟩
        have hk' := Dict.get?_of_mem (h.1.set n gf) hk
        rw [Dict.get?_set] at hk'
        split at hk'
        · next e =>
          cases hk'
          subst e
          unfold build at hgf
          split at hgf
          · cases hgf
          · split at hgf
            · cases hgf
            · unfold mkGF at hgf
              split at hgf
              · cases hgf
              · simp only at hgf
                split at hgf
                · next hg => cases hgf; exact ⟨rfl, hg⟩
                · cases hgf
        · exact h.2 k g (Dict.mem_of_get? hk')

/-- The infrastructure a call runs under. -/
def Op.infra : Op R → Infra
  | .many infra _ _ _ => infra
  | .rank1 infra _ _ _ => infra
  | .rank2 infra _ _ _ => infra
  | .rankN infra _ _ _ _ => infra

/-- **C10.**  Every registry reached by BHaH registration calls (including raising ones) stores each
gridfunction once, under its own name, in one of the three groups. -/
theorem C10_reachable (ops : List (Op R)) (hi : ∀ op ∈ ops, op.infra = .bhah) (d : Registry)
    (h : Reachable d) : Reachable (ops.foldl (fun d op => op.run str setOrder d) d) := by
  induction ops generalizing d with
  | nil => exact h
  | cons op ops ih =>
    refine ih (fun o ho => hi o (by simp [ho])) _ ?_
    have hop := hi op (by simp)
    have key : ∀ names dim kw, Reachable (register .bhah d names dim kw).1 := by
      intro names dim kw
      rw [register_fst]; exact regFrom_reachable _ _ _ _ _ h
    cases op with
    | many infra names dim kw => cases hop; exact key _ _ _
    | rank1 infra dim T kw =>
      cases hop
      simp only [Op.run, registerRank1]
      split
      · exact h
      · have := key ((List.range 3).map fun i : Nat => str (T fun _ => i)) dim
          { kw with isBasename := false, rank := 1 }
        split <;> simp_all
    | rank2 infra dim T kw =>
      cases hop
      simp only [Op.run, registerRank2]
      have := key (firstOccurrences ((tuples 2 dim).map fun x => str (T x)) []) dim
        { kw with isBasename := false, rank := 2 }
      split <;> simp_all
    | rankN infra dim r T kw =>
      cases hop
      simp only [Op.run, registerRankN]
      split
      · exact h
      · have := key (setOrder ((tuples r dim).map fun x => str (T x))) dim
          { kw with isBasename := false, rank := r }
        split <;> simp_all

/-! ## What a call registers -/

/-- **C10, plain registration.**  If every name not yet registered can be built, the call succeeds;
afterwards exactly the old names and the given names are registered, and each new entry has the
requested group, rank, dimension and the value of `f_infinity` and `wavespeed` given for its first
position in the list. -/
theorem C10_register (infra : Infra) (d : Registry) (names : List Str) (dim : Nat) (kw : Kw)
    (hb : ∀ j n, names[j]? = some n → d.get? n = none → ∃ gf, build infra dim kw j n = .ok gf) :
    (register infra d names dim kw).2 = .ok names ∧
    (∀ n, n ∈ (register infra d names dim kw).1.keys ↔ n ∈ d.keys ∨ n ∈ names) ∧
    (∀ n ∈ names, d.get? n = none → ∃ j gf, names[j]? = some n ∧ (∀ j' < j, names[j']? ≠ some n) ∧
      build infra dim kw j n = .ok gf ∧ (register infra d names dim kw).1.get? n = some gf) := by
  obtain ⟨h1, h2, h3⟩ := regFrom_spec infra dim kw 0 names d (by simpa using hb)
  rw [register_fst]
  refine ⟨?_, h2, by simpa using h3⟩
  unfold register
  split
  · rfl
  · next e => rw [e] at h1; cases h1

/-- When BHaH accepts an argument set. -/
theorem build_bhah (dim : Nat) (kw : Kw) (f w : Str) (hf : kw.fInfinity = .one f)
    (hw : kw.wavespeed = .one w) (hg : kw.group ∈ bhahGroups) (j : Nat) (n : Str)
    (hn : kw.isBasename = true → basenameOk n = true) :
    build .bhah dim kw j n = .ok ⟨n, kw.group, kw.rank, dim, f, w, kw.isBasename⟩ := by
  unfold build
  simp only [hf, hw, FArg.at, mkGF]
  rw [if_neg, if_pos hg]
  simp only [Bool.and_eq_true, Bool.not_eq_true', not_and, Bool.not_eq_false]
  exact hn

theorem mem_firstOccurrences (l acc : List Str) (s : Str) :
    s ∈ firstOccurrences l acc ↔ s ∈ acc ∨ s ∈ l := by
  induction l generalizing acc with
  | nil => simp [firstOccurrences]
  | cons a l ih =>
    rw [firstOccurrences, ih]
    split
    · next h =>
      constructor
      · rintro (h1 | h1) <;> simp [h1]
      · rintro (h1 | h1)
        · exact .inl h1
        · rcases List.mem_cons.1 h1 with rfl | h1
          · exact .inl h
          · exact .inr h1
    · simp only [List.mem_append, List.mem_singleton, List.mem_cons]
      tauto

/-- Exactly the components of a tensor of rank `r` in `dim` dimensions are added to `d`. -/
def RegistersComponents {r : Nat} (d d' : Registry) (dim : Nat) (T : Tensor r R) (kw : Kw) : Prop :=
  (∀ n, n ∈ d'.keys ↔ n ∈ d.keys ∨ ∃ x : Fin r → Nat, (∀ k, x k < dim) ∧ n = str (T x)) ∧
  (∀ x : Fin r → Nat, (∀ k, x k < dim) → d.get? (str (T x)) = none →
    ∃ gf, d'.get? (str (T x)) = some gf ∧ gf.group = kw.group ∧ gf.rank = r ∧ gf.dimension = dim)

theorem registers_of_names {r : Nat} (d : Registry) (dim : Nat) (T : Tensor r R) (kw : Kw)
    (f w : Str) (hf : kw.fInfinity = .one f) (hw : kw.wavespeed = .one w)
    (hg : kw.group ∈ bhahGroups) (names : List Str)
    (hn : ∀ n, n ∈ names ↔ ∃ x : Fin r → Nat, (∀ k, x k < dim) ∧ n = str (T x)) :
    (register .bhah d names dim { kw with isBasename := false, rank := r }).2 = .ok names ∧
    RegistersComponents str d (register .bhah d names dim { kw with isBasename := false, rank := r }).1
      dim T kw := by
  have hbuild : ∀ (j : Nat) (n : Str), build .bhah dim { kw with isBasename := false, rank := r } j n =
      .ok ⟨n, kw.group, r, dim, f, w, false⟩ := fun j n =>
    build_bhah dim { kw with isBasename := false, rank := r } f w hf hw hg j n (by simp)
  obtain ⟨h1, h2, h3⟩ := C10_register .bhah d names dim { kw with isBasename := false, rank := r }
    (fun j n _ _ => ⟨_, hbuild j n⟩)
  refine ⟨h1, fun n => by rw [h2, hn], fun x hx hd => ?_⟩
  obtain ⟨j, gf, _, _, g3, g4⟩ := h3 _ ((hn _).2 ⟨x, hx, rfl⟩) hd
  rw [hbuild] at g3
  cases g3
  exact ⟨_, g4, rfl, rfl, rfl⟩

/-- **C10, rank 1 in three dimensions.** -/
theorem C10_rank1_partial (d : Registry) (T : Tensor 1 R) (kw : Kw) (f w : Str)
    (hf : kw.fInfinity = .one f) (hw : kw.wavespeed = .one w) (hg : kw.group ∈ bhahGroups) :
    ∃ d', registerRank1 str .bhah d 3 T kw = (d', .ok T) ∧ RegistersComponents str d d' 3 T kw := by
  obtain ⟨h1, h2⟩ := registers_of_names str d 3 T kw f w hf hw hg
    ((List.range 3).map fun i : Nat => str (T fun _ => i)) (fun n => by
      simp only [List.mem_map, List.mem_range]
      constructor
      · rintro ⟨i, hi, rfl⟩
        exact ⟨fun _ => i, fun _ => hi, rfl⟩
      · rintro ⟨x, hx, rfl⟩
        refine ⟨x 0, hx 0, ?_⟩
        congr 2
        funext k
        rw [Subsingleton.elim k 0])
  refine ⟨_, ?_, h2⟩
  unfold registerRank1
  rw [if_neg (by omega)]
  simp only
  split
  · next e => rw [e]
  · next e => rw [e] at h1; cases h1

/-- **C10 fails for rank 1 in other dimensions**: in dimension 1 or 2 the call raises `IndexError`,
in dimension 4 the fourth component is not registered. -/
theorem C10_rank1_dimension (infra : Infra) (d : Registry) (T : Tensor 1 R) (kw : Kw) :
    (∀ dim < 3, registerRank1 str infra d dim T kw = (d, .error .indexError)) ∧
    (∀ dim n, 3 ≤ dim → n ∈ (registerRank1 str infra d dim T kw).1.keys →
      n ∈ d.keys ∨ ∃ i < 3, n = str (T fun _ => i)) := by
  have sub : ∀ (dim : Nat) (kw : Kw) (i : Nat) (l : List Str) (d : Registry) (n : Str),
      n ∈ (regFrom infra dim kw i l d).1.keys → n ∈ d.keys ∨ n ∈ l := by
    intro dim kw i l
    induction l generalizing i with
    | nil => intro d n h; exact .inl h
    | cons a l ih =>
      intro d n h
      unfold regFrom at h
      split at h
      · rcases ih _ _ _ h with h | h <;> simp [h]
      · split at h
        · exact .inl h
        · rcases ih _ _ _ h with h | h
          · rw [Dict.mem_keys_iff, Dict.get?_set] at h
            by_cases e : n = a
            · simp [e]
            · rw [if_neg e] at h
              exact .inl ((Dict.mem_keys_iff _ _).2 h)
          · simp [h]
  refine ⟨fun dim hd => by unfold registerRank1; rw [if_pos hd], fun dim n hd h => ?_⟩
  unfold registerRank1 at h
  rw [if_neg (by omega)] at h
  simp only at h
  have : n ∈ (register infra d ((List.range 3).map fun i : Nat => str (T fun _ => i)) dim
      { kw with isBasename := false, rank := 1 }).1.keys := by
    split at h <;> simp_all
  rw [register_fst] at this
  rcases sub _ _ _ _ _ _ this with h | h
  · exact .inl h
  · simp only [List.mem_map, List.mem_range] at h
    obtain ⟨i, hi, rfl⟩ := h
    exact .inr ⟨i, hi, rfl⟩

/-- **C10, rank 2**, every dimension: the call succeeds, returns the declared tensor and registers
exactly the printed components. -/
theorem C10_rank2 (d : Registry) (dim : Nat) (T : Tensor 2 R) (kw : Kw) (f w : Str)
    (hf : kw.fInfinity = .one f) (hw : kw.wavespeed = .one w) (hg : kw.group ∈ bhahGroups) :
    ∃ d', registerRank2 str .bhah d dim T kw = (d', .ok T) ∧ RegistersComponents str d d' dim T kw := by
  obtain ⟨h1, h2⟩ := registers_of_names str d dim T kw f w hf hw hg
    (firstOccurrences ((tuples 2 dim).map fun x => str (T x)) []) (fun n => by
      simp only [mem_firstOccurrences, List.not_mem_nil, false_or, List.mem_map, mem_tuples]
      exact ⟨fun ⟨x, hx, e⟩ => ⟨x, hx, e.symm⟩, fun ⟨x, hx, e⟩ => ⟨x, hx, e.symm⟩⟩)
  refine ⟨_, ?_, h2⟩
  unfold registerRank2
  simp only
  split
  · next e => rw [e]
  · next e => rw [e] at h1; cases h1

/-- **C10, ranks 1 to 4**, every dimension, whatever order Python enumerates the set in. -/
theorem C10_rankN (horder : ∀ l s, s ∈ setOrder l ↔ s ∈ l) (d : Registry) (dim r : Nat)
    (hr : 1 ≤ r ∧ r ≤ 4) (T : Tensor r R) (kw : Kw) (f w : Str)
    (hf : kw.fInfinity = .one f) (hw : kw.wavespeed = .one w) (hg : kw.group ∈ bhahGroups) :
    ∃ d', registerRankN str setOrder .bhah d dim r T kw = (d', .ok T) ∧
      RegistersComponents str d d' dim T kw := by
  obtain ⟨h1, h2⟩ := registers_of_names str d dim T kw f w hf hw hg
    (setOrder ((tuples r dim).map fun x => str (T x))) (fun n => by
      simp only [horder, List.mem_map, mem_tuples]
      exact ⟨fun ⟨x, hx, e⟩ => ⟨x, hx, e.symm⟩, fun ⟨x, hx, e⟩ => ⟨x, hx, e.symm⟩⟩)
  refine ⟨_, ?_, h2⟩
  unfold registerRankN
  rw [if_neg (by omega)]
  simp only
  split
  · next e => rw [e]
  · next e => rw [e] at h1; cases h1

end

/-! ## Which names these are -/

theorem go_sign_one {r : Nat} (x : Fin r → Nat) (L : List (Int × Fin r × Fin r))
    (h : ∀ o ∈ L, o.1 = 1) : (go x L).1 = 1 := by
  induction L with
  | nil => rfl
  | cons o L ih =>
    obtain ⟨s, p, q⟩ := o
    have hs : s = 1 := h (s, p, q) (by simp)
    have := ih fun o ho => h o (by simp [ho])
    subst hs
    simp only [go]
    split
    · simpa using this
    · split
      · omega
      · exact this

/-- **C10.**  With the requested symmetries all of type `sym…`, the component stored at index `x` is the
symbol `base` followed by the digits of an index tuple identified with `x` (so, with C12, the registered
names are in one-to-one correspondence with the independent components). -/
theorem C10_component_names (r : Nat) (l : List SymReq) (hl : l ∈ requests r)
    (hsym : ∀ s ∈ l, s.anti = false) (dim : Nat) (base : Str)
    (T' : Tensor r (MvPolynomial Str ℤ))
    (h : symmetrize r (renderReqs l) dim
      (fun x => (MvPolynomial.X (base ++ (List.ofFn x).flatMap dec) : MvPolynomial Str ℤ)) = some T')
    (x : Fin r → Nat) (hx : ∀ k, x k < dim) :
    ∃ y : Fin r → Nat, (∀ k, y k < dim) ∧ Identified l x y ∧
      T' x = MvPolynomial.X (base ++ (List.ofFn y).flatMap dec) := by
  have hok := okAll_all r l hl
  unfold okAll at hok
  cases hp : passesOf r l with
  | none => rw [hp] at hok; cases hok
  | some L =>
    rw [hp] at hok
    simp only [Bool.and_eq_true, List.all_eq_true, List.any_eq_true, decide_eq_true_eq] at hok
    obtain ⟨⟨_, hpass⟩, _⟩ := hok
    have hL : ∀ o ∈ L, o.1 = 1 := by
      intro o ho
      obtain ⟨s, hs, ⟨_, h⟩, _⟩ := hpass o ho
      simpa [hsym s hs] using h
    have hL2 : ∀ o ∈ L, ∃ s ∈ l, o.2.1.val ∈ s.idx ∧ o.2.2.val ∈ s.idx := by
      intro o ho
      obtain ⟨s, hs, ⟨⟨h1, h2⟩, _⟩, _⟩ := hpass o ho
      exact ⟨s, hs, h1, h2⟩
    unfold symmetrize at h
    rw [runItems_of_passes dim _ L _ hp] at h
    cases h
    refine ⟨x ∘ (go x L).2, fun k => hx _, go_identified l L hL2 x, ?_⟩
    rw [foldl_pass dim L _ x hx, go_sign_one x L hL]
    simp

/-- **C10 fails for antisymmetric tensors**: the diagonal components are printed as `0`, and `0` is
registered as a gridfunction (as is `-A01`). -/
theorem C10_antisymmetric_registers_zero (str : MvPolynomial Str ℤ → Str)
    (hstr : str 0 = (c% "0")) (base : Str) (dim : Nat) (hdim : 0 < dim) (d : Registry) :
    ∃ T' d', symmetrize 2 (c% "anti01") dim
        (fun x => (MvPolynomial.X (base ++ (List.ofFn x).flatMap dec) : MvPolynomial Str ℤ)) = some T' ∧
      registerRank2 str .bhah d dim T' {} = (d', .ok T') ∧ (c% "0") ∈ d'.keys := by
  obtain ⟨T', h1, h2, -⟩ := C11_symmetrize 2 [⟨true, [0, 1]⟩] (by decide) dim
    (fun x => (MvPolynomial.X (base ++ (List.ofFn x).flatMap dec) : MvPolynomial Str ℤ))
  obtain ⟨d', h3, h4, -⟩ := C10_rank2 str d dim T' {} _ _ rfl rfl (by decide)
  refine ⟨T', d', h1, h3, ?_⟩
  rw [h4]
  right
  refine ⟨fun _ => 0, fun _ => hdim, ?_⟩
  have := (h2 ⟨true, [0, 1]⟩ (by simp) 0 (by simp) 1 (by simp) (by simp) (fun _ => 0)
    (fun _ => hdim)).2 rfl (by funext k; simp [exch])
  rw [this, hstr]

/-- Non-vacuity: a symmetric metric in three dimensions, its six components. -/
example : (registerRank2 id .bhah [] 3 (fun x => (c% "gDD") ++
    (if x 0 ≤ x 1 then dec (x 0) ++ dec (x 1) else dec (x 1) ++ dec (x 0))) {}).1.keys =
    [(c% "gDD00"), (c% "gDD01"), (c% "gDD02"), (c% "gDD11"), (c% "gDD12"), (c% "gDD22")] := by decide

end Verif.Grid
