import Verif.Grid.RegProps
import Mathlib.Data.Char
import Mathlib.Tactic.IntervalCases
import Mathlib.Algebra.BigOperators.Group.List.Basic

/-!
# C08: gridfunction indices; C09: parity types
-/
namespace Verif.Grid
open Verif.Py Verif.IndexedExp

/-! ## Orders and case -/

theorem strLe_refl (a : Str) : strLe a a = true := by
  induction a with
  | nil => rfl
  | cons x a ih => simp [strLe, ih]

theorem strLe_total (a b : Str) : strLe a b = true ∨ strLe b a = true := by
  induction a generalizing b with
  | nil => left; simp [strLe]
  | cons x a ih =>
    cases b with
    | nil => right; rfl
    | cons y b =>
      by_cases h : x = y
      · subst h; simpa [strLe] using ih b
      · simp only [strLe, h, Ne.symm h, if_false, decide_eq_true_eq]
        rcases lt_trichotomy x y with h1 | h1 | h1
        · exact .inl h1
        · exact absurd h1 h
        · exact .inr h1

theorem strLe_antisymm (a b : Str) (h1 : strLe a b = true) (h2 : strLe b a = true) : a = b := by
  induction a generalizing b with
  | nil => cases b with
    | nil => rfl
    | cons y b => simp [strLe] at h2
  | cons x a ih =>
    cases b with
    | nil => simp [strLe] at h1
    | cons y b =>
      by_cases h : x = y
      · subst h
        simp only [strLe, if_true] at h1 h2
        rw [ih b h1 h2]
      · simp only [strLe, h, Ne.symm h, if_false, decide_eq_true_eq] at h1 h2
        exact absurd (h1.trans h2) (lt_irrefl _)

theorem strLe_trans (a b c : Str) (h1 : strLe a b = true) (h2 : strLe b c = true) :
    strLe a c = true := by
  induction a generalizing b c with
  | nil => simp [strLe]
  | cons x a ih =>
    cases b with
    | nil => simp [strLe] at h1
    | cons y b =>
      cases c with
      | nil => simp [strLe] at h2
      | cons z c =>
        by_cases hxy : x = y
        · subst hxy
          simp only [strLe, if_true] at h1
          by_cases hxz : x = z
          · subst hxz
            simp only [strLe, if_true] at h2 ⊢
            exact ih b c h1 h2
          · simpa [strLe, hxz] using h2
        · simp only [strLe, hxy, if_false, decide_eq_true_eq] at h1
          by_cases hyz : y = z
          · subst hyz
            simpa [strLe, hxy] using h1
          · simp only [strLe, hyz, if_false, decide_eq_true_eq] at h2
            have := h1.trans h2
            simp only [strLe, this.ne, if_false, decide_eq_true_eq]
            exact this

theorem insertLower_perm (x : Str) (l : List Str) : (insertLower x l).Perm (x :: l) := by
  induction l with
  | nil => exact .refl _
  | cons y l ih =>
    rw [insertLower]
    split
    · exact .refl _
    · exact (ih.cons y).trans (.swap ..)

theorem sortLower_perm (l : List Str) : (sortLower l).Perm l := by
  induction l with
  | nil => exact .refl _
  | cons y l ih => exact (insertLower_perm y _).trans (ih.cons y)

theorem insertLower_sorted (x : Str) (l : List Str)
    (h : l.Pairwise fun a b => strLe (lower a) (lower b) = true) :
    (insertLower x l).Pairwise fun a b => strLe (lower a) (lower b) = true := by
  induction l with
  | nil => simp [insertLower]
  | cons y l ih =>
    rw [List.pairwise_cons] at h
    rw [insertLower]
    split
    · next hxy =>
      refine List.pairwise_cons.mpr ⟨?_, List.pairwise_cons.mpr h⟩
      intro b hb
      rcases List.mem_cons.mp hb with rfl | hb
      · exact hxy
      · exact strLe_trans _ _ _ hxy (h.1 b hb)
    · next hxy =>
      refine List.pairwise_cons.mpr ⟨?_, ih h.2⟩
      intro b hb
      rcases List.mem_cons.mp ((insertLower_perm x l).mem_iff.mp hb) with rfl | hb
      · exact (strLe_total _ _).resolve_left hxy
      · exact h.1 b hb

theorem sortLower_sorted (l : List Str) :
    (sortLower l).Pairwise fun a b => strLe (lower a) (lower b) = true := by
  induction l with
  | nil => simp [sortLower]
  | cons y l ih => exact insertLower_sorted y _ ih

theorem toLower_toUpper (c : Char) : c.toUpper.toLower = c.toLower := by
  by_cases h : 97 ≤ c.toNat ∧ c.toNat ≤ 122
  · obtain ⟨h1, h2⟩ := h
    have key : ∀ n, 97 ≤ n → n ≤ 122 → (Char.ofNat n).toUpper.toLower = (Char.ofNat n).toLower := by
      intro n h1 h2
      interval_cases n <;> decide
    have := key c.toNat h1 h2
    rwa [Char.ofNat_toNat] at this
  · have : c.toUpper = c := by
      unfold Char.toUpper
      rw [dif_neg]
      exact fun h' => h ⟨h'.1, h'.2⟩
    rw [this]

theorem lower_of_upper {a b : Str} (h : upper a = upper b) : lower a = lower b := by
  have : ∀ s : Str, (upper s).map Char.toLower = lower s := by
    intro s
    simp [upper, lower, toLower_toUpper]
  rw [← this a, ← this b, h]

/-! ## C08 -/

/-- Registered names are distinct ignoring case. -/
def CaseDistinct (d : Registry) : Prop :=
  ∀ k ∈ d.keys, ∀ k' ∈ d.keys, lower k = lower k' → k = k'

theorem groupList_nodup {d : Registry} (hd : Reachable d) (g : Str) : (groupList d g).Nodup := by
  rw [groupList, (sortLower_perm _).nodup_iff]
  have e : ((d.filter fun kv => decide (kv.2.group = g)).map fun kv => kv.2.name) =
      ((d.filter fun kv => decide (kv.2.group = g)).map Prod.fst) := by
    apply List.map_congr_left
    intro kv hkv
    exact (hd.2 kv.1 kv.2 (List.mem_of_mem_filter hkv)).1
  rw [e]
  exact (List.Sublist.map Prod.fst List.filter_sublist).nodup hd.1

theorem mem_groupList {d : Registry} (hd : Reachable d) (g n : Str) :
    n ∈ groupList d g ↔ ∃ gf, d.get? n = some gf ∧ gf.group = g := by
  rw [groupList, (sortLower_perm _).mem_iff]
  simp only [List.mem_map, List.mem_filter, decide_eq_true_eq]
  constructor
  · rintro ⟨⟨k, gf⟩, ⟨h1, h2⟩, rfl⟩
    refine ⟨gf, ?_, h2⟩
    have := (hd.2 k gf h1).1
    simp only at this ⊢
    rw [this]
    exact Dict.get?_of_mem hd.1 h1
  · rintro ⟨gf, h1, h2⟩
    have hm := Dict.mem_of_get? h1
    exact ⟨(n, gf), ⟨hm, h2⟩, (hd.2 n gf hm).1⟩

theorem macro_ne_num (n g : Str) : upper n ++ (c% "GF") ≠ (c% "NUM_") ++ g ++ (c% "_GFS") := by
  intro h
  have := congrArg List.getLast? h
  rw [List.getLast?_append, List.getLast?_append] at this
  have : some 'F' = some 'S' := this
  cases this

/-- **C08.**  In every registry reachable with BHaH whose names are distinct ignoring case, the emitted
`#define`s have pairwise different macro names; for each of the three groups there is a list without
repetitions of exactly the registered gridfunctions of that group such that the macro of its `i`-th
element is defined as `i`, and `NUM_<group>_GFS` is its length. -/
theorem C08_indices (d : Registry) (hd : Reachable d) (hc : CaseDistinct d) :
    ((defines d).map Prod.fst).Nodup ∧
    ∀ g ∈ bhahGroups, ∃ L : List Str, L.Nodup ∧
      (∀ n, n ∈ L ↔ ∃ gf, d.get? n = some gf ∧ gf.group = g) ∧
      ((c% "NUM_") ++ g ++ (c% "_GFS"), L.length) ∈ defines d ∧
      ∀ i n, L[i]? = some n → (upper n ++ (c% "GF"), i) ∈ defines d := by
  constructor
  · have hfst : ∀ g, (defineGfs g (groupList d g)).map Prod.fst =
        ((c% "NUM_") ++ upper g ++ (c% "_GFS")) ::
          (groupList d g).map fun n => upper n ++ (c% "GF") := by
      intro g
      simp only [defineGfs, List.map_cons, List.map_map]
      congr 1
      conv_rhs => rw [← List.zipIdx_map_fst 0 (groupList d g), List.map_map]
      rfl
    have hmem : ∀ g n, n ∈ groupList d g → n ∈ d.keys := by
      intro g n h
      obtain ⟨gf, h1, _⟩ := (mem_groupList hd g n).1 h
      exact (Dict.mem_keys_iff _ _).2 ⟨gf, h1⟩
    have hinj : ∀ n n', n ∈ d.keys → n' ∈ d.keys →
        upper n ++ (c% "GF") = upper n' ++ (c% "GF") → n = n' := fun n n' h1 h2 h3 =>
      hc n h1 n' h2 (lower_of_upper (List.append_cancel_right h3))
    have hnd : ∀ g, ((groupList d g).map fun n => upper n ++ (c% "GF")).Nodup := fun g =>
      (groupList_nodup hd g).map_on fun a ha b hb h => hinj a b (hmem g a ha) (hmem g b hb) h
    have hdis : ∀ g g', g ≠ g' → ∀ n ∈ groupList d g, ∀ n' ∈ groupList d g',
        upper n ++ (c% "GF") ≠ upper n' ++ (c% "GF") := by
      intro g g' hne n hn n' hn' h
      have := hinj n n' (hmem g n hn) (hmem g' n' hn') h
      subst this
      obtain ⟨gf, h1, h2⟩ := (mem_groupList hd g n).1 hn
      obtain ⟨gf', h1', h2'⟩ := (mem_groupList hd g' n).1 hn'
      rw [h1] at h1'; cases h1'
      exact hne (h2 ▸ h2'.symm ▸ rfl)
    have e1 : (c% "EVOL") ≠ (c% "AUX") := by decide
    have e2 : (c% "EVOL") ≠ (c% "AUXEVOL") := by decide
    have e3 : (c% "AUX") ≠ (c% "AUXEVOL") := by decide
    have u : ∀ a b : Str, upper a ≠ upper b →
        (c% "NUM_") ++ upper a ++ (c% "_GFS") ≠ (c% "NUM_") ++ upper b ++ (c% "_GFS") := by
      intro a b h h'
      exact h (List.append_cancel_left (List.append_cancel_right h'))
    have u1 := u (c% "EVOL") (c% "AUX") (by decide)
    have u2 := u (c% "EVOL") (c% "AUXEVOL") (by decide)
    have u3 := u (c% "AUX") (c% "AUXEVOL") (by decide)
    rw [defines, List.map_append, List.map_append, hfst, hfst, hfst]
    rw [List.nodup_append', List.nodup_append']
    have hone : ∀ g, (((c% "NUM_") ++ upper g ++ (c% "_GFS")) ::
        (groupList d g).map fun n => upper n ++ (c% "GF")).Nodup := by
      intro g
      rw [List.nodup_cons]
      refine ⟨?_, hnd g⟩
      rw [List.mem_map]
      rintro ⟨n, _, h⟩
      exact macro_ne_num n (upper g) h
    have hdj : ∀ g g', g ≠ g' → upper g ≠ upper g' → List.Disjoint
        (((c% "NUM_") ++ upper g ++ (c% "_GFS")) ::
          (groupList d g).map fun n => upper n ++ (c% "GF"))
        (((c% "NUM_") ++ upper g' ++ (c% "_GFS")) ::
          (groupList d g').map fun n => upper n ++ (c% "GF")) := by
      intro g g' hne hue x hx hx'
      simp only [List.mem_cons, List.mem_map] at hx hx'
      rcases hx with rfl | ⟨n, hn, rfl⟩ <;> rcases hx' with h | ⟨n', hn', h⟩
      · exact u g g' hue h
      · exact macro_ne_num n' _ h
      · exact macro_ne_num n _ h
      · exact hdis g g' hne n hn n' hn' h.symm
    refine ⟨⟨hone _, hone _, hdj _ _ e1 (by decide)⟩, hone _, ?_⟩
    intro x hx hx'
    rcases List.mem_append.1 hx with hx | hx
    · exact hdj _ _ e2 (by decide) hx hx'
    · exact hdj _ _ e3 (by decide) hx hx'
  · intro g hg
    refine ⟨groupList d g, groupList_nodup hd g, mem_groupList hd g, ?_⟩
    have hsub : ∀ p ∈ defineGfs g (groupList d g), p ∈ defines d := by
      intro p hp
      simp only [bhahGroups, List.mem_cons, List.not_mem_nil, or_false] at hg
      unfold defines
      rcases hg with rfl | rfl | rfl <;> simp [hp]
    have hup : upper g = g := by
      simp only [bhahGroups, List.mem_cons, List.not_mem_nil, or_false] at hg
      rcases hg with rfl | rfl | rfl <;> decide
    constructor
    · apply hsub
      rw [defineGfs, hup]
      exact List.mem_cons_self
    · intro i n hi
      apply hsub
      rw [defineGfs]
      refine List.mem_cons_of_mem _ (List.mem_map.2 ⟨(n, i), ?_, rfl⟩)
      exact List.mem_zipIdx_iff_getElem?.2 hi

/-- **C08.**  The indices do not depend on the order of registration: two reachable registries with the
same gridfunctions in the same groups give the same `#define`s. -/
theorem C08_order_independent (d d' : Registry) (hd : Reachable d) (hd' : Reachable d')
    (hc : CaseDistinct d)
    (h : ∀ n g, (∃ gf, d.get? n = some gf ∧ gf.group = g) ↔ (∃ gf, d'.get? n = some gf ∧ gf.group = g)) :
    defines d = defines d' := by
  have key : ∀ g, groupList d g = groupList d' g := by
    intro g
    have hp : (groupList d g).Perm (groupList d' g) := by
      rw [List.perm_ext_iff_of_nodup (groupList_nodup hd g) (groupList_nodup hd' g)]
      intro n
      rw [mem_groupList hd, mem_groupList hd', h]
    refine hp.eq_of_pairwise ?_ (sortLower_sorted _) (sortLower_sorted _)
    intro a b ha hb h1 h2
    have hk : ∀ n ∈ groupList d g, n ∈ d.keys := by
      intro n hn
      obtain ⟨gf, h1, _⟩ := (mem_groupList hd g n).1 hn
      exact (Dict.mem_keys_iff _ _).2 ⟨gf, h1⟩
    exact hc a (hk a ha) b (hk b (hp.mem_iff.2 hb)) (strLe_antisymm _ _ h1 h2)
  simp only [defines, key]

/-- **C08, arrays.**  `gridfunctions_f_infinity[i]` and `gridfunctions_wavespeed[i]` belong to the
evolved gridfunction with index `i`. -/
theorem C08_arrays (d : Registry) (hd : Reachable d) :
    ∃ (fs ws : List Str), evolArrays d = .ok (fs, ws) ∧ fs.length = (groupList d (c% "EVOL")).length ∧
      ws.length = fs.length ∧
      ∀ (i : Nat) (n : Str), (groupList d (c% "EVOL"))[i]? = some n → ∃ gf, d.get? n = some gf ∧
        fs[i]? = some gf.fInfinity ∧ ws[i]? = some gf.wavespeed := by
  have key : ∀ l : List Str, (∀ n ∈ l, ∃ gf, d.get? n = some gf) →
      ∃ gfs : List GF, (l.mapM fun v => match d.get? v with
        | some gf => Except.ok gf
        | none => Except.error Err.keyError) = .ok gfs ∧ l.map (fun n => d.get? n) = gfs.map some := by
    intro l
    induction l with
    | nil => intro _; exact ⟨[], rfl, rfl⟩
    | cons n l ih =>
      intro h
      obtain ⟨gf, hgf⟩ := h n (by simp)
      obtain ⟨gfs, h1, h2⟩ := ih fun m hm => h m (by simp [hm])
      refine ⟨gf :: gfs, ?_, by simp [hgf, h2]⟩
      rw [List.mapM_cons, hgf, h1]
      rfl
  obtain ⟨gfs, h1, h2⟩ := key (groupList d (c% "EVOL")) (fun n hn => by
    obtain ⟨gf, h, _⟩ := (mem_groupList hd _ n).1 hn
    exact ⟨gf, h⟩)
  have hok : evolArrays d = .ok (gfs.map (·.fInfinity), gfs.map (·.wavespeed)) :=
    congrArg (fun r : Except Err (List GF) => Except.bind r
      fun gfs => Except.ok (gfs.map GF.fInfinity, gfs.map GF.wavespeed)) h1
  refine ⟨_, _, hok, ?_, by simp, ?_⟩
  · have := congrArg List.length h2
    simpa using this.symm
  · intro i n hi
    have := congrArg (fun l => l[i]?) h2
    simp only [List.getElem?_map, hi, Option.map_some] at this
    cases hg : gfs[i]? with
    | none => rw [hg] at this; cases this
    | some gf =>
      rw [hg] at this
      simp only [Option.map_some, Option.some.injEq] at this
      exact ⟨gf, this, by simp [hg], by simp [hg]⟩

/-- The condition on case is needed: `aB` and `Ab` share the macro `ABGF`, which is defined twice with
different values. -/
theorem C08_case_collision :
    let d := (register .bhah [] [(c% "aB"), (c% "Ab")] 3 {}).1
    ((c% "ABGF"), 0) ∈ defines d ∧ ((c% "ABGF"), 1) ∈ defines d := by
  constructor <;> decide

/-- Non-vacuity: four gridfunctions in three groups. -/
def sampleReg : Registry :=
  let d := (register .bhah [] [(c% "uu"), (c% "RbarDD"), (c% "cf")] 3 {}).1
  (register .bhah d [(c% "psi")] 3 { group := c% "AUX" }).1

example : Reachable sampleReg ∧ CaseDistinct sampleReg ∧
    defines sampleReg = [((c% "NUM_EVOL_GFS"), 3), ((c% "CFGF"), 0), ((c% "RBARDDGF"), 1),
      ((c% "UUGF"), 2), ((c% "NUM_AUX_GFS"), 1), ((c% "PSIGF"), 0), ((c% "NUM_AUXEVOL_GFS"), 0)] := by
  refine ⟨⟨by unfold Dict.Wf; decide, ?_⟩, by unfold CaseDistinct; decide, by decide⟩
  have : ∀ e ∈ sampleReg, e.2.name = e.1 ∧ e.2.group ∈ bhahGroups := by decide
  exact fun k gf h => this (k, gf) h

/-! ## C09 -/

/-- Sign of a tensor index under the map of basis vectors with dot products `e`: spatial index `i` in
three dimensions; in four dimensions index 0 is time, which no spatial reflection changes. -/
def indexSign {K : Type} [One K] (dim : Nat) (e : Nat → K) (i : Nat) : K :=
  if dim = 4 then (if i = 0 then 1 else e (i - 1)) else e i

/-- A component gridfunction: name = base name followed by one digit per index. -/
structure IsComponent (gf : GF) (base : Str) (idx : List Nat) : Prop where
  name : gf.name = base ++ idx.map Nat.digitChar
  rank : gf.rank = idx.length
  range : ∀ i ∈ idx, i < gf.dimension

section
variable {K : Type} [CommMonoid K]

theorem table3 (a b : Nat) (ha : a < 3) (hb : b < 3) (e : Nat → K) :
    ∃ kv, parity3.find? (fun kv => kv.1 = (Nat.digitChar a, Nat.digitChar b)) = some kv ∧
      (parityArray e)[kv.2]? = some (e a * e b) := by
  interval_cases a <;> interval_cases b <;>
    exact ⟨_, rfl, by simp [parityArray, List.range_succ, mul_comm]⟩

theorem table4 (a b : Nat) (ha : a < 4) (hb : b < 4) (e : Nat → K) :
    ∃ kv, parity4.find? (fun kv => kv.1 = (Nat.digitChar a, Nat.digitChar b)) = some kv ∧
      (parityArray e)[kv.2]? = some (indexSign 4 e a * indexSign 4 e b) := by
  interval_cases a <;> interval_cases b <;>
    exact ⟨_, rfl, by simp [parityArray, List.range_succ, indexSign, mul_comm]⟩

/-- **C09.**  Rank 0, 1 or 2 in three dimensions, rank 0 or 2 in four: the parity type of a component is
determined, and the entry of the parity array it selects is the product of the signs of its indices, for
every choice of the three basis-vector dot products. -/
theorem C09_parity_partial (gf : GF) (base : Str) (idx : List Nat) (h : IsComponent gf base idx)
    (hr : gf.rank ≤ 2) (hd : gf.dimension = 3 ∨ (gf.dimension = 4 ∧ gf.rank ≠ 1)) :
    ∃ p, parityOf gf = .ok p ∧ ∀ e : Nat → K,
      (parityArray e)[p]? = some ((idx.map (indexSign gf.dimension e)).prod) := by
  obtain ⟨hn, hrk, hi⟩ := h
  unfold parityOf
  match idx, hrk with
  | [], hrk =>
    rw [if_pos (by simpa using hrk)]
    exact ⟨0, rfl, fun e => by simp [parityArray]⟩
  | [a], hrk =>
    have hd3 : gf.dimension = 3 := by
      rcases hd with h | ⟨_, h⟩
      · exact h
      · exact absurd (by simpa using hrk) h
    have ha : a < 3 := hd3 ▸ hi a (by simp)
    rw [if_neg (by simp [hrk]), if_pos (by simpa using hrk), hn, hd3]
    simp only [List.map_cons, List.map_nil, List.getLast?_append, List.getLast?_singleton,
      Option.some_or]
    interval_cases a
    · exact ⟨1, rfl, fun e => by simp [parityArray, indexSign]⟩
    · exact ⟨2, rfl, fun e => by simp [parityArray, indexSign]⟩
    · exact ⟨3, rfl, fun e => by simp [parityArray, indexSign]⟩
  | [a, b], hrk =>
    rw [if_neg (by simp [hrk]), if_neg (by simp [hrk]), if_pos (by simpa using hrk), hn]
    simp only [List.map_cons, List.map_nil, List.reverse_append, List.reverse_cons, List.reverse_nil,
      List.nil_append, List.cons_append]
    rcases hd with h3 | ⟨h4, _⟩
    · obtain ⟨kv, e1, _⟩ := table3 a b (h3 ▸ hi a (by simp)) (h3 ▸ hi b (by simp)) (fun _ => (1 : K))
      rw [if_pos h3, e1]
      refine ⟨kv.2, rfl, fun e => ?_⟩
      obtain ⟨kv', e1', e2'⟩ := table3 a b (h3 ▸ hi a (by simp)) (h3 ▸ hi b (by simp)) e
      rw [e1] at e1'; cases e1'
      rw [e2', h3]
      simp [indexSign]
    · obtain ⟨kv, e1, _⟩ := table4 a b (h4 ▸ hi a (by simp)) (h4 ▸ hi b (by simp)) (fun _ => (1 : K))
      rw [if_neg (by omega), if_pos h4, e1]
      refine ⟨kv.2, rfl, fun e => ?_⟩
      obtain ⟨kv', e1', e2'⟩ := table4 a b (h4 ▸ hi a (by simp)) (h4 ▸ hi b (by simp)) e
      rw [e1] at e1'; cases e1'
      rw [e2', h4]
      simp
  | a :: b :: c :: l, hrk => simp at hrk; omega

/-- **C09, symmetric components.**  Exchanging the two indices does not change the parity type. -/
theorem C09_symmetric (gf gf' : GF) (base base' : Str) (a b : Nat) (h : IsComponent gf base [a, b])
    (h' : IsComponent gf' base' [b, a]) (hd : gf.dimension = 3 ∨ gf.dimension = 4)
    (hdd : gf'.dimension = gf.dimension) : parityOf gf = parityOf gf' := by
  have h1 := h.range a (by simp)
  have h2 := h.range b (by simp)
  unfold parityOf
  have r1 : gf.rank = 2 := by simpa using h.rank
  have r2 : gf'.rank = 2 := by simpa using h'.rank
  rw [r1, r2, h.name, h'.name, hdd]
  simp only [List.map_cons, List.map_nil, List.reverse_append, List.reverse_cons, List.reverse_nil,
    List.nil_append, List.cons_append]
  rcases hd with h3 | h4
  · rw [h3] at h1 h2 ⊢
    interval_cases a <;> interval_cases b <;> rfl
  · rw [h4] at h1 h2 ⊢
    interval_cases a <;> interval_cases b <;> rfl

end

/-- Different reflection behaviour, different types: if two components have the same type, every
assignment of signs to the axes acts on them in the same way. -/
theorem C09_same_type_same_sign (gf gf' : GF) (base base' : Str) (idx idx' : List Nat)
    (h : IsComponent gf base idx) (h' : IsComponent gf' base' idx')
    (hr : gf.rank ≤ 2) (hr' : gf'.rank ≤ 2)
    (hd : gf.dimension = 3 ∨ (gf.dimension = 4 ∧ gf.rank ≠ 1))
    (hd' : gf'.dimension = 3 ∨ (gf'.dimension = 4 ∧ gf'.rank ≠ 1))
    (heq : parityOf gf = parityOf gf') (e : Nat → ℤ) :
    (idx.map (indexSign gf.dimension e)).prod = (idx'.map (indexSign gf'.dimension e)).prod := by
  obtain ⟨p, h1, h2⟩ := C09_parity_partial (K := ℤ) gf base idx h hr hd
  obtain ⟨p', h1', h2'⟩ := C09_parity_partial (K := ℤ) gf' base' idx' h' hr' hd'
  rw [h1, h1'] at heq
  cases heq
  have := (h2 e).symm.trans (h2' e)
  simpa using this

/-- **C09, the emitted array.**  For a reachable registry all of whose listed gridfunctions have a
parity type, `set_parity_types` succeeds and its `i`-th entry is the type of the gridfunction named by
the `i`-th name. -/
theorem C09_list (d : Registry) (hd : Reachable d) (names : List Str)
    (h : ∀ n ∈ names, ∃ gf p, d.get? n = some gf ∧ parityOf gf = .ok p) :
    ∃ ps, setParityTypes d names = .ok ps ∧ ps.length = names.length ∧
      ∀ (i : Nat) (n : Str), names[i]? = some n → ∃ gf p, d.get? n = some gf ∧ parityOf gf = .ok p ∧ ps[i]? = some p := by
  have hone : ∀ n gf, d.get? n = some gf →
      (d.filter fun kv => decide (kv.2.name = n)).map (·.2) = [gf] := by
    intro n gf hn
    have e : (d.filter fun kv => decide (kv.2.name = n)) = d.filter fun kv => decide (kv.1 = n) := by
      apply List.filter_congr
      intro kv hkv
      rw [(hd.2 kv.1 kv.2 hkv).1]
    rw [e]
    have hw := hd.1
    clear hd e h
    induction d with
    | nil => cases hn
    | cons a d ih =>
      obtain ⟨k, v⟩ := a
      have hw' : k ∉ Dict.keys d ∧ Dict.Wf d := by
        have : (k :: Dict.keys d).Nodup := hw
        exact ⟨(List.nodup_cons.1 this).1, (List.nodup_cons.1 this).2⟩
      by_cases hk : k = n
      · subst hk
        simp only [Dict.get?, if_true, Option.some.injEq] at hn
        subst hn
        rw [List.filter_cons, if_pos (by simp)]
        have : (d.filter fun kv => decide (kv.1 = k)) = [] := by
          rw [List.filter_eq_nil_iff]
          intro kv hkv hh
          simp only [decide_eq_true_eq] at hh
          exact hw'.1 (hh ▸ List.mem_map.2 ⟨kv, hkv, rfl⟩)
        simp [this]
      · rw [List.filter_cons, if_neg (by simpa using hk)]
        apply ih _ hw'.2
        simpa [Dict.get?, hk] using hn
  have key : ∀ l : List Str, (∀ n ∈ l, ∃ gf p, d.get? n = some gf ∧ parityOf gf = .ok p) →
      ∃ ps, (l.flatMap fun n => (d.filter fun kv => decide (kv.2.name = n)).map (·.2)).mapM parityOf =
        .ok ps ∧ ps.length = l.length ∧
      ∀ (i : Nat) (n : Str), l[i]? = some n → ∃ gf p, d.get? n = some gf ∧ parityOf gf = .ok p ∧ ps[i]? = some p := by
    intro l
    induction l with
    | nil => intro _; exact ⟨[], rfl, rfl, by simp⟩
    | cons n l ih =>
      intro hl
      obtain ⟨gf, p, h1, h2⟩ := hl n (by simp)
      obtain ⟨ps, g1, g2, g3⟩ := ih fun m hm => hl m (by simp [hm])
      refine ⟨p :: ps, ?_, by simp [g2], ?_⟩
      · rw [List.flatMap_cons, hone n gf h1, List.singleton_append, List.mapM_cons, h2, g1]
        rfl
      · intro i m hi
        cases i with
        | zero =>
          simp only [List.getElem?_cons_zero, Option.some.injEq] at hi
          subst hi
          exact ⟨gf, p, h1, h2, rfl⟩
        | succ i => simpa using g3 i m (by simpa using hi)
  obtain ⟨ps, h1, h2, h3⟩ := key names h
  refine ⟨ps, ?_, h2, h3⟩
  unfold setParityTypes
  rw [h1]
  simp only [bind, Except.bind, h2, ne_eq, not_true_eq_false, if_false]
  rfl

/-- **C09 fails for rank 1 in four dimensions**: the time component gets the type of an `x0` vector
component and the third spatial component that of an `x0 x0` tensor component. -/
theorem C09_rank1_dimension4 :
    (∃ gf : GF, IsComponent gf (c% "uU") [0] ∧ gf.dimension = 4 ∧ parityOf gf = .ok 1 ∧
      ∃ e : Nat → ℤ, (parityArray e)[1]? ≠ some ([0].map (indexSign 4 e)).prod) ∧
    (∃ gf : GF, IsComponent gf (c% "uU") [3] ∧ gf.dimension = 4 ∧ parityOf gf = .ok 4 ∧
      ∃ e : Nat → ℤ, (parityArray e)[4]? ≠ some ([3].map (indexSign 4 e)).prod) := by
  refine ⟨⟨⟨c% "uU0", c% "EVOL", 1, 4, [], [], false⟩, ⟨rfl, rfl, by simp⟩, rfl, rfl, fun _ => -1, ?_⟩,
    ⟨⟨c% "uU3", c% "EVOL", 1, 4, [], [], false⟩, ⟨rfl, rfl, by simp⟩, rfl, rfl, fun _ => -1, ?_⟩⟩ <;>
    decide

/-- Non-vacuity of `C09_parity_partial`: a metric component. -/
example : IsComponent ⟨c% "hDD12", c% "EVOL", 2, 3, [], [], false⟩ (c% "hDD") [1, 2] ∧
    parityOf ⟨c% "hDD12", c% "EVOL", 2, 3, [], [], false⟩ = .ok 8 :=
  ⟨⟨rfl, rfl, by simp⟩, rfl⟩

end Verif.Grid
