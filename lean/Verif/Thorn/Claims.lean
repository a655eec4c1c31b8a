import Verif.Thorn.Model
import Verif.Grid.IndexProps
import Verif.Py.Dict

/-!
# C106: gridfunctions of generated thorns

Specification: `signs` are the signs of a tensor component under the reflections of the three axes.
-/
namespace Verif.Thorn
open Verif.Py Verif.Grid

/-- The factors of the basis vectors under the reflection of axis `d`. -/
def reflect (d i : ℕ) : ℤ := if i = d then -1 else 1

/-- The sign of the component with indices `idx` under the reflection of axis `d`. -/
def sign (dim : ℕ) (idx : List ℕ) (d : ℕ) : ℤ := (idx.map (indexSign dim (reflect d))).prod

/-- The gridfunction is a component with indices `idx`, of a tensor of the supported kinds. -/
structure Supported (gf : GF) (base : Str) (idx : List ℕ) : Prop extends IsComponent gf base idx where
  base_ne : base ≠ []
  base_digits : ∀ c ∈ base, c.isDigit = false
  rank2 : gf.rank ≤ 2
  dims : gf.dimension = 3 ∨ (gf.dimension = 4 ∧ gf.rank ≠ 1)

/-- A registry as the registration functions build it: no key twice, no name twice, and gridfunctions of the three groups have
their key as name. -/
structure WfReg (d : Registry) : Prop where
  keys : (d.map Prod.fst).Nodup
  names : (d.map fun kv => kv.2.name).Nodup
  own : ∀ kv ∈ d, kv.2.group ∈ bhahGroups → kv.2.name = kv.1

/-! ### Symmetries (ETLegacy) -/

theorem base_isDig {base : Str} (h : ∀ c ∈ base, c.isDigit = false) (k : ℕ) :
    ((base.reverse[k]?).map Char.isDigit).getD false = false := by
  cases hk : base.reverse[k]? with
  | none => rfl
  | some c =>
    have : c ∈ base.reverse := List.mem_of_getElem? hk
    simpa using h c (List.mem_reverse.1 this)

theorem digit_isDigit {a : ℕ} (h : a < 4) : (Nat.digitChar a).isDigit = true ∧ (Nat.digitChar a).toNat - 48 = a := by
  interval_cases a <;> decide

/-- **C106, parities.** The parities registered for a gridfunction of an ETLegacy thorn are its signs under the three
reflections. -/
theorem C106_legacy_parity_partial {gf : GF} {base : Str} {idx : List ℕ} (h : Supported gf base idx)
    (hb : gf.rank = 2 → 2 ≤ base.length) :
    ∃ l, symStmts gf.name gf.dimension = .ok l ∧ ∃ s, symRun l = some s ∧ ∀ d : Fin 3, s d = sign gf.dimension idx d := by
  obtain ⟨⟨hn, hr, hi⟩, hne, hdig, hr2, hdim⟩ := h
  have hlen : 1 ≤ base.length := by
    rcases base with _ | ⟨c, b⟩
    · exact absurd rfl hne
    · simp
  match idx, hr with
  | [], hr =>
    rw [List.map_nil, List.append_nil] at hn
    rw [hn]
    refine ⟨[], ?_, _, rfl, fun d => by simp [sign]⟩
    unfold symStmts
    simp only [base_isDig hdig, Bool.false_eq_true, and_false, if_false]
    rfl
  | [a], hr =>
    have hd3 : gf.dimension = 3 := by
      rcases hdim with h | ⟨_, h⟩
      · exact h
      · exact absurd (by simpa using hr) h
    have ha : a < 3 := hd3 ▸ hi a (by simp)
    obtain ⟨g1, g2⟩ := digit_isDigit (show a < 4 by omega)
    rw [hn, hd3]
    refine ⟨[.set a], ?_, ?_⟩
    · unfold symStmts
      simp only [List.map_cons, List.map_nil, List.reverse_append, List.reverse_cons, List.reverse_nil, List.nil_append,
        List.cons_append, List.getElem?_cons_succ, List.getElem?_cons_zero, base_isDig hdig, Bool.false_eq_true, and_false, if_false,
        Option.map_some, Option.getD_some, g1, g2, if_true]
      rfl
    · interval_cases a <;> exact ⟨_, rfl, by decide⟩
  | [a, b], hr =>
    have h4 : a < 4 ∧ b < 4 := by
      have h1 := hi a (by simp)
      have h2 := hi b (by simp)
      omega
    obtain ⟨g1, g2⟩ := digit_isDigit h4.1
    obtain ⟨g3, g4⟩ := digit_isDigit h4.2
    have hl : (base ++ [Nat.digitChar a, Nat.digitChar b]).length > 3 := by
      have := hb (by simpa using hr)
      rw [List.length_append]
      simp only [List.length_cons, List.length_nil]
      omega
    rw [hn]
    unfold symStmts
    simp only [List.map_cons, List.map_nil, List.reverse_append, List.reverse_cons, List.reverse_nil, List.nil_append,
      List.cons_append, List.getElem?_cons_succ, List.getElem?_cons_zero, base_isDig hdig, Bool.false_eq_true, and_false, if_false,
      Option.map_some, Option.getD_some, g1, g2, g3, g4, if_true, hl, true_and]
    rcases hdim with h3 | ⟨h4', -⟩
    · have h1 := hi a (by simp)
      have h2 := hi b (by simp)
      rw [h3] at h1 h2 ⊢
      interval_cases a <;> interval_cases b <;> exact ⟨_, rfl, _, rfl, by decide⟩
    · have h1 := h4.1
      have h2 := h4.2
      rw [h4']
      interval_cases a <;> interval_cases b <;> exact ⟨_, rfl, _, rfl, by decide⟩
  | a :: b :: c :: l, hr => simp at hr; omega

example : Supported ⟨(c% "aDD12"), (c% "EVOL"), 2, 3, (c% "0.0"), (c% "1.0"), false⟩ (c% "aDD") [1, 2] :=
  ⟨⟨rfl, rfl, by decide⟩, by decide, by decide, by decide, .inl rfl⟩

/-- Four-vectors: the time component changes sign at x = 0, and the third component is written out of bounds. -/
theorem C106_fourvector_violation :
    symStmts (c% "smallbU0") 4 = .ok [.set 0] ∧ symRun [.set 0] ≠ some (fun d : Fin 3 => sign 4 [0] d) ∧
    symStmts (c% "smallbU3") 4 = .ok [.set 3] ∧ symRun [.set 3] = none := by
  refine ⟨by decide +kernel, ?_, by decide +kernel, by decide⟩
  intro h
  have := congrFun (Option.some.inj h) 0
  revert this
  decide

/-- Tensors with a name of one letter: the first index is ignored. -/
theorem C106_short_violation :
    symStmts (c% "h01") 3 = .ok [.set 1] ∧ symRun [.set 1] ≠ some (fun d : Fin 3 => sign 3 [0, 1] d) := by
  refine ⟨by decide +kernel, fun h => ?_⟩
  have := congrFun (Option.some.inj h) 0
  revert this
  decide

/-! ### Registries -/

/-- Entries of the three groups. -/
def inGroups (kv : Str × GF) : Prop := kv.2.group = (c% "EVOL") ∨ kv.2.group = (c% "AUXEVOL") ∨ kv.2.group = (c% "AUX")

instance : DecidablePred inGroups := fun _ => inferInstanceAs (Decidable (_ ∨ _ ∨ _))

theorem inGroups_mem {kv : Str × GF} (h : inGroups kv) : kv.2.group ∈ bhahGroups := by
  rcases h with h | h | h <;> rw [h] <;> decide

/-- Names of the gridfunctions of a group, as registered. -/
def namesOf (d : Registry) (g : Str) : List Str := (d.filter fun kv => kv.2.group = g).map Prod.fst

theorem groupList_perm {d : Registry} (hd : WfReg d) {g : Str} (hg : g ∈ bhahGroups) : (groupList d g).Perm (namesOf d g) := by
  refine (sortLower_perm _).trans ?_
  refine List.Perm.of_eq (List.map_congr_left fun kv h => ?_)
  obtain ⟨h1, h2⟩ := List.mem_filter.1 h
  exact hd.own kv h1 (by rw [of_decide_eq_true h2]; exact hg)

theorem mapM_ok {α β ε : Type} {g : α → Except ε β} : ∀ {l : List α}, (∀ v ∈ l, ∃ t, g v = .ok t) →
    ∃ ts, l.mapM g = .ok ts ∧ List.Forall₂ (fun v t => g v = .ok t) l ts
  | [], _ => ⟨[], rfl, .nil⟩
  | a :: l, h => by
    obtain ⟨t, ht⟩ := h a List.mem_cons_self
    obtain ⟨ts, e, hf⟩ := mapM_ok (g := g) (l := l) fun v hv => h v (List.mem_cons_of_mem _ hv)
    exact ⟨t :: ts, by rw [List.mapM_cons, ht, e]; rfl, .cons ht hf⟩

/-- **C106, symmetries.** An ETLegacy thorn registers the parities of every gridfunction of the three groups, once, and they
are its signs under the three reflections. -/
theorem C106_symmetries_partial (d : Registry) (hd : WfReg d)
    (hs : ∀ kv ∈ d, inGroups kv → ∃ base idx, Supported kv.2 base idx ∧ (kv.2.rank = 2 → 2 ≤ base.length)) :
    ∃ l, symmetries d = .ok l ∧ List.Forall₂ (fun (kv : Str × GF) c => c.1 = gfName kv.1 ∧ ∃ base idx, Supported kv.2 base idx ∧
      c.2 = some fun d : Fin 3 => sign kv.2.dimension idx d) (d.filter fun kv => inGroups kv) l := by
  have key : ∀ kv ∈ d.filter (fun kv => inGroups kv), ∃ base idx l, Supported kv.2 base idx ∧ symStmts kv.1 kv.2.dimension = .ok l ∧
      symRun l = some fun d : Fin 3 => sign kv.2.dimension idx d := by
    intro kv h
    obtain ⟨h1, h2⟩ := List.mem_filter.1 h
    obtain ⟨base, idx, h3, h4⟩ := hs kv h1 (of_decide_eq_true h2)
    obtain ⟨l, e1, s, e2, h5⟩ := C106_legacy_parity_partial h3 h4
    rw [hd.own kv h1 (inGroups_mem (of_decide_eq_true h2))] at e1
    exact ⟨base, idx, l, h3, e1, by rw [e2]; congr 1; funext d; exact h5 d⟩
  obtain ⟨ts, e, hf⟩ := mapM_ok (l := d.filter fun kv => inGroups kv)
    (g := fun kv => (symStmts kv.1 kv.2.dimension).bind fun l => Except.ok (gfName kv.1, symRun l)) (fun kv h => by
      obtain ⟨_, _, l, _, e, _⟩ := key kv h
      exact ⟨(gfName kv.1, symRun l), by rw [e]; rfl⟩)
  refine ⟨ts, e, ?_⟩
  have : ∀ (l : List (Str × GF)) m, (∀ kv ∈ l, kv ∈ d.filter fun kv => inGroups kv) →
      List.Forall₂ (fun kv t => ((symStmts kv.1 kv.2.dimension).bind fun l => Except.ok (gfName kv.1, symRun l)) = .ok t) l m →
      List.Forall₂ (fun (kv : Str × GF) c => c.1 = gfName kv.1 ∧ ∃ base idx, Supported kv.2 base idx ∧
        c.2 = some fun d : Fin 3 => sign kv.2.dimension idx d) l m := by
    intro l m hl hf
    induction hf with
    | nil => exact .nil
    | cons hr _ ih =>
      refine .cons ?_ (ih fun kv h => hl kv (List.mem_cons_of_mem _ h))
      obtain ⟨base, idx, l', h1, e1, e2⟩ := key _ (hl _ List.mem_cons_self)
      rw [e1] at hr
      cases hr
      exact ⟨rfl, base, idx, h1, e2⟩
  exact this _ _ (fun _ h => h) hf

/-! ### interface.ccl -/

theorem perm_nil {d : Registry} (hd : WfReg d) {g : Str} (hg : g ∈ bhahGroups) : groupList d g = [] ↔ namesOf d g = [] := by
  constructor
  · intro h
    have := groupList_perm hd hg
    rw [h] at this
    exact List.nil_perm.1 this
  · intro h
    have := groupList_perm hd hg
    rw [h] at this
    exact List.perm_nil.1 this

/-- **C106, pairs.** In the groups that are given to MoL every evolved gridfunction is at the same place as its right-hand
side. -/
theorem C106_mol_pairs (d : Registry) (hd : WfReg d) (he : namesOf d (c% "EVOL") ≠ []) :
    ∃ L : List Str, L.Perm (namesOf d (c% "EVOL")) ∧
      (∀ g ∈ interfaceLegacy d true, g.name = molPair.1 → g.vars = L.map gfName) ∧
      (∀ g ∈ interfaceLegacy d true, g.name = molPair.2 → g.vars = L.map rhsName) ∧
      (∃ g ∈ interfaceLegacy d true, g.name = molPair.1) ∧ ∃ g ∈ interfaceLegacy d true, g.name = molPair.2 := by
  have he' : groupList d (c% "EVOL") ≠ [] := fun h => he ((perm_nil hd (by decide)).1 h)
  refine ⟨groupList d (c% "EVOL"), groupList_perm hd (by decide), ?_, ?_, ?_, ?_⟩
  all_goals unfold interfaceLegacy
  all_goals simp only [if_true, ne_eq, he', not_false_eq_true]
  · intro g hg hn
    simp only [List.mem_append, List.mem_cons, List.not_mem_nil, or_false] at hg
    rcases hg with ((rfl | rfl) | hg) | hg
    · rfl
    · simp [molPair] at hn
    all_goals split_ifs at hg
    all_goals first | (rw [List.mem_singleton] at hg; subst hg; simp [molPair] at hn) | cases hg
  · intro g hg hn
    simp only [List.mem_append, List.mem_cons, List.not_mem_nil, or_false] at hg
    rcases hg with ((rfl | rfl) | hg) | hg
    · simp [molPair] at hn
    · rfl
    all_goals split_ifs at hg
    all_goals first | (rw [List.mem_singleton] at hg; subst hg; simp [molPair] at hn) | cases hg
  · exact ⟨⟨(c% "evol_variables"), 3, (groupList d (c% "EVOL")).map gfName, none⟩, by simp, rfl⟩
  · exact ⟨⟨(c% "evol_variables_rhs"), 1, (groupList d (c% "EVOL")).map rhsName, none⟩, by simp, rfl⟩

theorem ite_vars (l : List Str) (n : Str) (t : ℕ) :
    (if l ≠ [] then [(⟨n, t, l.map gfName, none⟩ : Group)] else []).flatMap Group.vars = l.map gfName := by
  by_cases h : l = []
  · subst h; simp
  · rw [if_pos h]; simp

/-- **C106, declarations.** An evolution thorn with an evolved gridfunction declares every gridfunction of the three groups
and every right-hand side, each once. -/
theorem C106_legacy_declared (d : Registry) (hd : WfReg d) (he : namesOf d (c% "EVOL") ≠ []) :
    ((interfaceLegacy d true).flatMap Group.vars).Perm ((namesOf d (c% "EVOL")).map gfName ++ (namesOf d (c% "EVOL")).map rhsName ++
      (namesOf d (c% "AUXEVOL")).map gfName ++ (namesOf d (c% "AUX")).map gfName) := by
  have he' : groupList d (c% "EVOL") ≠ [] := fun h => he ((perm_nil hd (by decide)).1 h)
  unfold interfaceLegacy
  simp only [if_true, List.flatMap_append]
  rw [if_pos he', List.flatMap_append, ite_vars, ite_vars]
  simp only [List.flatMap_cons, List.flatMap_nil, List.append_nil]
  refine List.Perm.append (List.Perm.append (List.Perm.append ?_ ?_) ?_) ?_
  all_goals exact (groupList_perm hd (by decide)).map _

/-- The time levels for which the examples ask storage (examples/carpet_baikal_thorns.py:195-198): three for what is
interpolated in time at refinement boundaries or written out by Carpet, one for what is computed anew in each substep. -/
def storageLegacy : List (Str × ℕ) :=
  [((c% "evol_variables"), 3), ((c% "evol_variables_rhs"), 1), ((c% "auxevol_variables"), 1), ((c% "aux_variables"), 3)]

/-- **C106, time levels.** Every declared group has exactly the time levels for which storage is requested. -/
theorem C106_timelevels (d : Registry) (evol : Bool) : ∀ g ∈ interfaceLegacy d evol, (g.name, g.timelevels) ∈ storageLegacy := by
  intro g hg
  unfold interfaceLegacy at hg
  simp only at hg
  split_ifs at hg <;> simp only [List.mem_append, List.mem_cons, List.not_mem_nil, or_false, false_or] at hg
  all_goals first
    | (rcases hg with ((rfl | rfl) | rfl) | rfl <;> simp [storageLegacy])
    | (rcases hg with (rfl | rfl) | rfl <;> simp [storageLegacy])
    | (rcases hg with rfl | rfl <;> simp [storageLegacy])
    | (subst hg; simp [storageLegacy])
    | cases hg

theorem groupX_timelevels {d : Registry} {n : Str} {l : List Str} {gs : List Group} (h : groupX d n l = .ok gs) : ∀ g ∈ gs, g.timelevels = 1 := by
  unfold groupX at h
  split at h
  · cases hp : setParityTypes d l with
    | error e => rw [hp] at h; cases h
    | ok ps =>
      rw [hp] at h
      cases h
      intro g hg
      rw [List.mem_singleton] at hg
      subst hg
      rfl
  · cases h
    intro g hg
    cases hg

/-- **C106, time levels, CarpetX.** Every group of a CarpetX thorn has one time level. -/
theorem C106_carpetX_timelevels (d : Registry) (evol : Bool) {gs : List Group} (h : interfaceCarpetX d evol = .ok gs) : ∀ g ∈ gs, g.timelevels = 1 := by
  unfold interfaceCarpetX at h
  have key : ∀ (x y z : Except Err (List Group)) (w : List Group), (∀ l, x = .ok l → ∀ g ∈ l, g.timelevels = 1) →
      (∀ l, y = .ok l → ∀ g ∈ l, g.timelevels = 1) → (∀ l, z = .ok l → ∀ g ∈ l, g.timelevels = 1) → (∀ g ∈ w, g.timelevels = 1) →
      (do let a ← x; let b ← y; let c ← z; return a ++ w ++ b ++ c) = Except.ok gs → ∀ g ∈ gs, g.timelevels = 1 := by
    intro x y z w hx hy hz hw e
    cases x with
    | error _ => cases e
    | ok a =>
      cases y with
      | error _ => cases e
      | ok b =>
        cases z with
        | error _ => cases e
        | ok c =>
          cases e
          intro g hg
          simp only [List.mem_append] at hg
          rcases hg with ((hg | hg) | hg) | hg
          exacts [hx a rfl g hg, hw g hg, hy b rfl g hg, hz c rfl g hg]
  refine key (if evol then groupX d (c% "evol_variables") (groupList d (c% "EVOL")) else pure [])
    (if evol then groupX d (c% "auxevol_variables") (groupList d (c% "AUXEVOL")) else pure [])
    (groupX d (c% "aux_variables") (groupList d (c% "AUX")))
    (if evol ∧ groupList d (c% "EVOL") ≠ [] then [⟨(c% "evol_variables_rhs"), 1, (groupList d (c% "EVOL")).map rhsName, none⟩] else []) ?_ ?_ ?_ ?_ ?_
  · intro l hl
    split at hl
    · exact groupX_timelevels hl
    · cases hl; intro g hg; cases hg
  · intro l hl
    split at hl
    · exact groupX_timelevels hl
    · cases hl; intro g hg; cases hg
  · intro l hl
    exact groupX_timelevels hl
  · intro g hg
    split_ifs at hg
    · rw [List.mem_singleton] at hg; subst hg; rfl
    · cases hg
  · rw [← h]
    cases evol <;> rfl

example : (interfaceLegacy [((c% "uu"), ⟨(c% "uu"), (c% "EVOL"), 0, 3, (c% "0.0"), (c% "1.0"), true⟩)] true).length = 2 := by decide

theorem gfName_inj : Function.Injective gfName := fun _ _ h => List.append_cancel_right h
theorem rhsName_inj : Function.Injective rhsName := fun _ _ h => List.append_cancel_right h

theorem rhsName_eq (a b : Str) : gfName a = rhsName b ↔ a = b ++ (c% "_rhs") := by
  unfold gfName rhsName
  have : b ++ (c% "_rhsGF") = (b ++ (c% "_rhs")) ++ (c% "GF") := by simp
  rw [this]
  exact ⟨List.append_cancel_right, fun h => by rw [h]⟩

/-- No variable is declared twice if no gridfunction has the name of a right-hand side. -/
theorem C106_legacy_nodup_partial (d : Registry) (hd : WfReg d) (he : namesOf d (c% "EVOL") ≠ [])
    (hr : ∀ a ∈ d.map Prod.fst, ∀ b ∈ namesOf d (c% "EVOL"), a ≠ b ++ (c% "_rhs")) :
    ((interfaceLegacy d true).flatMap Group.vars).Nodup := by
  rw [(C106_legacy_declared d hd he).nodup_iff]
  have nd : ∀ g, (namesOf d g).Nodup := fun g => hd.keys.sublist (List.filter_sublist.map _)
  have sub : ∀ g a, a ∈ namesOf d g → a ∈ d.map Prod.fst := fun g a h => (List.filter_sublist.map _).subset h
  have dis : ∀ g g' a, g ≠ g' → a ∈ namesOf d g → a ∉ namesOf d g' := by
    intro g g' a hne h h'
    obtain ⟨x, h1, rfl⟩ := List.mem_map.1 h
    obtain ⟨y, h2, e⟩ := List.mem_map.1 h'
    obtain ⟨h1, h3⟩ := List.mem_filter.1 h1
    obtain ⟨h2, h4⟩ := List.mem_filter.1 h2
    have := List.inj_on_of_nodup_map hd.keys h2 h1 e
    subst this
    exact hne ((of_decide_eq_true h3).symm.trans (of_decide_eq_true h4))
  have hrhs : ∀ g a, a ∈ (namesOf d g).map gfName → a ∉ (namesOf d (c% "EVOL")).map rhsName := by
    intro g a h h'
    obtain ⟨x, h1, rfl⟩ := List.mem_map.1 h
    obtain ⟨y, h2, e⟩ := List.mem_map.1 h'
    exact hr x (sub _ _ h1) y h2 ((rhsName_eq x y).1 e.symm)
  have hgf : ∀ g g' a, g ≠ g' → a ∈ (namesOf d g).map gfName → a ∉ (namesOf d g').map gfName := by
    intro g g' a hne h h'
    obtain ⟨x, h1, rfl⟩ := List.mem_map.1 h
    obtain ⟨y, h2, e⟩ := List.mem_map.1 h'
    have := gfName_inj e
    subst this
    exact dis g g' _ hne h1 h2
  rw [List.nodup_append', List.nodup_append', List.nodup_append']
  refine ⟨⟨⟨(nd _).map gfName_inj, (nd _).map rhsName_inj, ?_⟩, (nd _).map gfName_inj, ?_⟩, (nd _).map gfName_inj, ?_⟩
  · exact fun a h h' => hrhs _ a h h'
  · intro a h h'
    rcases List.mem_append.1 h with h | h
    · exact hgf _ _ a (by decide) h h'
    · exact hrhs _ a h' h
  · intro a h h'
    rcases List.mem_append.1 h with h | h
    · rcases List.mem_append.1 h with h | h
      · exact hgf _ _ a (by decide) h h'
      · exact hrhs _ a h' h
    · exact hgf _ _ a (by decide) h h'

/-- A scalar gridfunction. -/
def scalar (n g : Str) : Str × GF := (n, ⟨n, g, 0, 3, (c% "0.0"), (c% "1.0"), true⟩)

example : ∃ d : Registry, WfReg d ∧ namesOf d (c% "EVOL") ≠ [] ∧
    (∀ a ∈ d.map Prod.fst, ∀ b ∈ namesOf d (c% "EVOL"), a ≠ b ++ (c% "_rhs")) ∧
    (interfaceLegacy d true).map Group.vars = [[(c% "uuGF"), (c% "vvGF")], [(c% "uu_rhsGF"), (c% "vv_rhsGF")], [(c% "rhoGF")], [(c% "HGF")]] :=
  ⟨[scalar (c% "vv") (c% "EVOL"), scalar (c% "H") (c% "AUX"), scalar (c% "rho") (c% "AUXEVOL"), scalar (c% "uu") (c% "EVOL")],
    ⟨by decide, by decide, by decide⟩, by decide, by decide, by decide⟩

/-- A gridfunction with the name of a right-hand side is declared twice. -/
theorem C106_rhs_violation : ¬ ((interfaceLegacy [scalar (c% "u") (c% "EVOL"), scalar (c% "u_rhs") (c% "AUX")] true).flatMap Group.vars).Nodup := by
  decide

/-- Without an evolved gridfunction the gridfunctions of group AUXEVOL are not declared, but their symmetries are registered. -/
theorem C106_auxevol_violation : interfaceLegacy [scalar (c% "rho") (c% "AUXEVOL")] true = [] ∧
    (symmetries [scalar (c% "rho") (c% "AUXEVOL")]).map (fun l => l.map Prod.fst) = .ok [(c% "rhoGF")] := by
  constructor <;> decide +kernel

/-! ### CarpetX -/

theorem parityTag_eq {p : ℕ} {s : ℕ → ℤ} (h : ∀ d < 3, (parityArray (reflect d))[p]? = some (s d)) : parityTag p = [s 0, s 1, s 2] := by
  have hp : p < 10 := by
    have := h 0 (by decide)
    by_contra hc
    rw [List.getElem?_eq_none (by simpa [parityArray, List.range_succ] using hc)] at this
    cases this
  have h0 := h 0 (by decide)
  have h1 := h 1 (by decide)
  have h2 := h 2 (by decide)
  have e : ∀ p < 10, (some (parityTag p) : Option (List ℤ)) = (parityArray (reflect 0))[p]?.bind fun a =>
      (parityArray (reflect 1))[p]?.bind fun b => (parityArray (reflect 2))[p]?.map fun c => [a, b, c] := by decide
  have := e p hp
  rw [h0, h1, h2] at this
  exact Option.some.inj this

theorem filter_one {d : Registry} (hd : WfReg d) {kv : Str × GF} (h : kv ∈ d) :
    (d.filter fun kv' => decide (kv'.2.name = kv.2.name)).map (·.2) = [kv.2] := by
  have hw := hd.names
  clear hd
  induction d with
  | nil => cases h
  | cons a d ih =>
    rw [List.map_cons, List.nodup_cons] at hw
    rcases List.mem_cons.1 h with rfl | h
    · rw [List.filter_cons_of_pos (by simp)]
      have : d.filter (fun kv' => decide (kv'.2.name = kv.2.name)) = [] := by
        rw [List.filter_eq_nil_iff]
        intro x hx hc
        exact hw.1 (List.mem_map.2 ⟨x, hx, of_decide_eq_true hc⟩)
      rw [this]
      rfl
    · rw [List.filter_cons_of_neg]
      · exact ih h hw.2
      · intro hc
        exact hw.1 (List.mem_map.2 ⟨kv, h, (of_decide_eq_true hc).symm⟩)

theorem groupX_ok {d : Registry} (hd : WfReg d) (hs : ∀ kv ∈ d, inGroups kv → ∃ base idx, Supported kv.2 base idx) {g : Str}
    (hg : g = (c% "EVOL") ∨ g = (c% "AUXEVOL") ∨ g = (c% "AUX")) (name : Str) :
    ∃ ss : List (List ℤ), groupX d name (groupList d g) = .ok (if groupList d g ≠ [] then
        [⟨name, 1, (groupList d g).map gfName, some ss.flatten⟩] else []) ∧
      List.Forall₂ (fun n s => ∃ gf base idx, (n, gf) ∈ d ∧ Supported gf base idx ∧
        s = [sign gf.dimension idx 0, sign gf.dimension idx 1, sign gf.dimension idx 2]) (groupList d g) ss := by
  have hgm : g ∈ bhahGroups := by rcases hg with rfl | rfl | rfl <;> decide
  have hin : ∀ n ∈ groupList d g, ∃ gf base idx p, (n, gf) ∈ d ∧ gf.name = n ∧ Supported gf base idx ∧ parityOf gf = .ok p ∧
      parityTag p = [sign gf.dimension idx 0, sign gf.dimension idx 1, sign gf.dimension idx 2] := by
    intro n hn
    have := (groupList_perm hd hgm).subset hn
    obtain ⟨kv, h1, rfl⟩ := List.mem_map.1 this
    obtain ⟨h1, h2⟩ := List.mem_filter.1 h1
    have hin : inGroups kv := by rw [inGroups, of_decide_eq_true h2]; exact hg
    obtain ⟨base, idx, h3⟩ := hs kv h1 hin
    obtain ⟨p, e, h4⟩ := C09_parity_partial (K := ℤ) kv.2 base idx h3.toIsComponent h3.rank2 h3.dims
    exact ⟨kv.2, base, idx, p, h1, hd.own kv h1 (inGroups_mem hin), h3, e,
      parityTag_eq (s := sign kv.2.dimension idx) fun d _ => h4 (reflect d)⟩
  have hpar : ∃ ps, setParityTypes d (groupList d g) = .ok ps ∧ List.Forall₂ (fun n p => ∃ gf base idx, (n, gf) ∈ d ∧
      Supported gf base idx ∧ parityTag p = [sign gf.dimension idx 0, sign gf.dimension idx 1, sign gf.dimension idx 2])
      (groupList d g) ps := by
    have : ∀ l : List Str, (∀ n ∈ l, n ∈ groupList d g) → ∃ ps,
        (l.flatMap fun n => (d.filter fun kv => decide (kv.2.name = n)).map (·.2)).mapM parityOf = .ok ps ∧
        List.Forall₂ (fun n p => ∃ gf base idx, (n, gf) ∈ d ∧
          Supported gf base idx ∧ parityTag p = [sign gf.dimension idx 0, sign gf.dimension idx 1, sign gf.dimension idx 2]) l ps := by
      intro l
      induction l with
      | nil => exact fun _ => ⟨[], rfl, .nil⟩
      | cons n l ih =>
        intro hl
        obtain ⟨ps, e, hf⟩ := ih fun m hm => hl m (List.mem_cons_of_mem _ hm)
        obtain ⟨gf, base, idx, p, h1, h2, h3, h4, h5⟩ := hin n (hl n List.mem_cons_self)
        refine ⟨p :: ps, ?_, .cons ⟨gf, base, idx, h1, h3, h5⟩ hf⟩
        have h6 := filter_one hd h1
        rw [h2] at h6
        rw [List.flatMap_cons, h6, List.singleton_append, List.mapM_cons, h4, e]
        rfl
    obtain ⟨ps, e, hf⟩ := this _ fun _ h => h
    refine ⟨ps, ?_, hf⟩
    unfold setParityTypes
    rw [e]
    have hl := hf.length_eq
    simp only [bind, Except.bind]
    rw [if_neg (by simp [hl])]
    rfl
  obtain ⟨ps, e, hf⟩ := hpar
  refine ⟨ps.map parityTag, ?_, ?_⟩
  · unfold groupX
    split_ifs
    · rw [e, ← List.flatMap_def]
      rfl
    · rfl
  · clear e
    generalize groupList d g = L at hf
    induction hf with
    | nil => exact .nil
    | cons h _ ih =>
      obtain ⟨gf, base, idx, h1, h2, h3⟩ := h
      exact .cons ⟨gf, base, idx, h1, h2, h3⟩ ih

/-- **C106, CarpetX.** A CarpetX evolution thorn declares every gridfunction of the three groups and every right-hand side,
each once, pairs evolved gridfunctions with their right-hand sides, and tags each gridfunction with its signs under the three
reflections. -/
theorem C106_carpetX_partial (d : Registry) (hd : WfReg d) (hs : ∀ kv ∈ d, inGroups kv → ∃ base idx, Supported kv.2 base idx) :
    ∃ gs, interfaceCarpetX d true = .ok gs ∧
      (gs.flatMap Group.vars).Perm ((namesOf d (c% "EVOL")).map gfName ++ (namesOf d (c% "EVOL")).map rhsName ++
        (namesOf d (c% "AUXEVOL")).map gfName ++ (namesOf d (c% "AUX")).map gfName) ∧
      (∀ g ∈ gs, g.name ≠ molPair.2 → ∃ (L : List Str) (ss : List (List ℤ)), g.vars = L.map gfName ∧ g.parities = some ss.flatten ∧
        List.Forall₂ (fun n s => ∃ gf base idx, (n, gf) ∈ d ∧ Supported gf base idx ∧
          s = [sign gf.dimension idx 0, sign gf.dimension idx 1, sign gf.dimension idx 2]) L ss) ∧
      ∃ L : List Str, (∀ g ∈ gs, g.name = molPair.1 → g.vars = L.map gfName) ∧ ∀ g ∈ gs, g.name = molPair.2 → g.vars = L.map rhsName := by
  obtain ⟨se, e1, f1⟩ := groupX_ok hd hs (g := (c% "EVOL")) (.inl rfl) (c% "evol_variables")
  obtain ⟨sx, e2, f2⟩ := groupX_ok hd hs (g := (c% "AUXEVOL")) (.inr (.inl rfl)) (c% "auxevol_variables")
  obtain ⟨sa, e3, f3⟩ := groupX_ok hd hs (g := (c% "AUX")) (.inr (.inr rfl)) (c% "aux_variables")
  have iv : ∀ (l : List Str) (n : Str) (q : Option (List ℤ)) (f : Str → Str),
      (if l ≠ [] then [(⟨n, 1, l.map f, q⟩ : Group)] else []).flatMap Group.vars = l.map f := by
    intro l n q f
    by_cases h : l = []
    · subst h; simp
    · rw [if_pos h]; simp
  have eq : interfaceCarpetX d true = .ok ((if groupList d (c% "EVOL") ≠ [] then
        [⟨(c% "evol_variables"), 1, (groupList d (c% "EVOL")).map gfName, some se.flatten⟩] else []) ++
      (if groupList d (c% "EVOL") ≠ [] then [⟨(c% "evol_variables_rhs"), 1, (groupList d (c% "EVOL")).map rhsName, none⟩] else []) ++
      (if groupList d (c% "AUXEVOL") ≠ [] then
        [⟨(c% "auxevol_variables"), 1, (groupList d (c% "AUXEVOL")).map gfName, some sx.flatten⟩] else []) ++
      (if groupList d (c% "AUX") ≠ [] then
        [⟨(c% "aux_variables"), 1, (groupList d (c% "AUX")).map gfName, some sa.flatten⟩] else [])) := by
    unfold interfaceCarpetX
    simp only [if_true, true_and, e1, e2, e3]
    rfl
  refine ⟨_, eq, ?_, ?_, groupList d (c% "EVOL"), ?_, ?_⟩
  · rw [List.flatMap_append, List.flatMap_append, List.flatMap_append, iv, iv, iv, iv]
    refine List.Perm.append (List.Perm.append (List.Perm.append ?_ ?_) ?_) ?_
    all_goals exact (groupList_perm hd (by decide)).map _
  all_goals
    intro g hg hn
    simp only [List.mem_append] at hg
  · rcases hg with ((hg | hg) | hg) | hg <;> split_ifs at hg
    all_goals first | (rw [List.mem_singleton] at hg; subst hg) | cases hg
    · exact ⟨_, se, rfl, rfl, f1⟩
    · exact absurd rfl hn
    · exact ⟨_, sx, rfl, rfl, f2⟩
    · exact ⟨_, sa, rfl, rfl, f3⟩
  · rcases hg with ((hg | hg) | hg) | hg <;> split_ifs at hg
    all_goals first | (rw [List.mem_singleton] at hg; subst hg) | cases hg
    · rfl
    all_goals simp [molPair] at hn
  · rcases hg with ((hg | hg) | hg) | hg <;> split_ifs at hg
    all_goals first | (rw [List.mem_singleton] at hg; subst hg) | cases hg
    · simp [molPair] at hn
    · rfl
    all_goals simp [molPair] at hn

/-- **C106, CarpetX (finding).** A CarpetX thorn that is not the evolution thorn declares the auxiliary gridfunctions once
more, although it inherits them; an ETLegacy thorn that is not the evolution thorn declares nothing. -/
theorem C106_carpetX_again_violation (d : Registry) (hd : WfReg d) (hs : ∀ kv ∈ d, inGroups kv → ∃ base idx, Supported kv.2 base idx) :
    interfaceLegacy d false = [] ∧
    ∃ gs, interfaceCarpetX d false = .ok gs ∧ (gs.flatMap Group.vars).Perm ((namesOf d (c% "AUX")).map gfName) := by
  obtain ⟨sa, e3, f3⟩ := groupX_ok hd hs (g := (c% "AUX")) (.inr (.inr rfl)) (c% "aux_variables")
  refine ⟨rfl, (if groupList d (c% "AUX") ≠ [] then [⟨(c% "aux_variables"), 1, (groupList d (c% "AUX")).map gfName, some sa.flatten⟩] else []),
    ?_, ?_⟩
  · unfold interfaceCarpetX
    simp only [e3]
    rfl
  · have := groupList_perm hd (g := (c% "AUX")) (by decide)
    by_cases h : groupList d (c% "AUX") = []
    · rw [h] at this
      simp [h, List.nil_perm.1 this]
    · simp only [ne_eq, h, not_false_eq_true, if_true]
      simpa using this.map gfName

/-- The time component of a four-vector has a wrong tag. -/
theorem C106_carpetX_fourvector_violation : ∃ gf : GF, IsComponent gf (c% "bU") [0] ∧ gf.dimension = 4 ∧ parityOf gf = .ok 1 ∧
    parityTag 1 ≠ [sign 4 [0] 0, sign 4 [0] 1, sign 4 [0] 2] :=
  ⟨⟨(c% "bU0"), (c% "EVOL"), 1, 4, (c% "0.0"), (c% "1.0"), false⟩, ⟨rfl, rfl, by decide⟩, rfl, rfl, by decide⟩

/-! ### Boundary conditions and initialization -/

theorem mem_namesOf {d : Registry} {g n : Str} : n ∈ namesOf d g ↔ ∃ gf, (n, gf) ∈ d ∧ gf.group = g := by
  unfold namesOf
  rw [List.mem_map]
  constructor
  · rintro ⟨kv, h, rfl⟩
    obtain ⟨h1, h2⟩ := List.mem_filter.1 h
    exact ⟨kv.2, h1, of_decide_eq_true h2⟩
  · rintro ⟨gf, h1, h2⟩
    exact ⟨(n, gf), List.mem_filter.2 ⟨h1, decide_eq_true h2⟩, rfl⟩

/-- **C106, zero.** The right-hand sides that are set to zero are those of the evolved gridfunctions, each once. -/
theorem C106_zeroed (d : Registry) (hd : WfReg d) : zeroed d = (namesOf d (c% "EVOL")).map rhsName ∧ (zeroed d).Nodup := by
  have e : zeroed d = (namesOf d (c% "EVOL")).map rhsName := by
    unfold zeroed namesOf
    rw [List.map_map]
    rfl
  refine ⟨e, ?_⟩
  rw [e]
  exact (hd.keys.sublist (List.filter_sublist.map _)).map rhsName_inj

/-- **C106, radiation.** `NewRad` is applied to every evolved gridfunction once, with its right-hand side, its value at
infinity and its speed. -/
theorem C106_newRad (d : Registry) (hd : WfReg d) : ((newRad d).map NewRad.var).Nodup ∧
    ∀ c, c ∈ newRad d ↔ ∃ n gf, (n, gf) ∈ d ∧ gf.group = (c% "EVOL") ∧
      c = ⟨gfName n, rhsName n, gf.fInfinity, gf.wavespeed, (c% "1.0")⟩ := by
  constructor
  · have : (newRad d).map NewRad.var = (namesOf d (c% "EVOL")).map gfName := by
      unfold newRad namesOf
      rw [List.map_map, List.map_map]
      rfl
    rw [this]
    exact (hd.keys.sublist (List.filter_sublist.map _)).map gfName_inj
  · intro c
    unfold newRad
    rw [List.mem_map]
    constructor
    · rintro ⟨kv, h, rfl⟩
      obtain ⟨h1, h2⟩ := List.mem_filter.1 h
      exact ⟨kv.1, kv.2, h1, of_decide_eq_true h2, rfl⟩
    · rintro ⟨n, gf, h1, h2, rfl⟩
      exact ⟨(n, gf), List.mem_filter.2 ⟨h1, decide_eq_true h2⟩, rfl⟩

theorem insertKey_perm {V : Type} (x : Str × V) (l : List (Str × V)) : (insertKey x l).Perm (x :: l) := by
  induction l with
  | nil => exact List.Perm.refl _
  | cons y l ih =>
    rw [insertKey]
    split
    · exact List.Perm.refl _
    · exact (ih.cons y).trans (List.Perm.swap x y l)

theorem sortedItems_perm {V : Type} (l : List (Str × V)) : (sortedItems l).Perm l := by
  induction l with
  | nil => exact List.Perm.refl _
  | cons x l ih => exact (insertKey_perm x _).trans (ih.cons x)

theorem filterMap_names {d : Registry} (hd : WfReg d) (f : Str × GF → Option (Str × ℤ × Str))
    (hf : ∀ kv c, f kv = some c → c.1 = gfName kv.1) : ((d.filterMap f).map Prod.fst).Nodup := by
  have hk := hd.keys
  clear hd
  induction d with
  | nil => exact List.nodup_nil
  | cons a d ih =>
    rw [List.map_cons, List.nodup_cons] at hk
    rw [List.filterMap_cons]
    split
    · exact ih hk.2
    · rename_i c hc
      rw [List.map_cons, List.nodup_cons]
      refine ⟨fun h => ?_, ih hk.2⟩
      obtain ⟨c', h1, e⟩ := List.mem_map.1 h
      obtain ⟨kv, h2, h3⟩ := List.mem_filterMap.1 h1
      rw [hf _ _ hc, hf _ _ h3] at e
      exact hk.1 (List.mem_map.2 ⟨kv, h2, gfName_inj e⟩)

/-- **C106, boundary.** Every evolved gridfunction is registered once with the condition `none`, every auxiliary one once with
`flat` and a width of the ghost zones; nothing else is registered.  The older interface gets the same. -/
theorem C106_boundary (d : Registry) (hd : WfReg d) (o : ℤ) : ((driverBC d o).map Prod.fst).Nodup ∧
    (∀ c, c ∈ driverBC d o ↔ (∃ n ∈ namesOf d (c% "EVOL"), c = (gfName n, 1, (c% "none"))) ∨
      ∃ n ∈ namesOf d (c% "AUX"), c = (gfName n, o.tdiv 2 + 1, (c% "flat"))) ∧
    (driverBC d o).Perm (evolBC d ++ auxBC d o) := by
  have hp := sortedItems_perm d
  refine ⟨?_, fun c => ?_, ?_⟩
  · refine ((hp.filterMap _).map _).nodup_iff.2 (filterMap_names hd _ fun kv c h => ?_)
    split_ifs at h <;> cases h <;> rfl
  · unfold driverBC
    rw [List.mem_filterMap]
    constructor
    · rintro ⟨kv, h1, h2⟩
      have h1 := hp.subset h1
      split_ifs at h2 with h3 h4
      · cases h2; exact .inl ⟨kv.1, mem_namesOf.2 ⟨kv.2, h1, h3⟩, rfl⟩
      · cases h2; exact .inr ⟨kv.1, mem_namesOf.2 ⟨kv.2, h1, h4⟩, rfl⟩
    · rintro (⟨n, h, rfl⟩ | ⟨n, h, rfl⟩)
      · obtain ⟨gf, h1, h2⟩ := mem_namesOf.1 h
        exact ⟨(n, gf), hp.symm.subset h1, by simp [h2]⟩
      · obtain ⟨gf, h1, h2⟩ := mem_namesOf.1 h
        exact ⟨(n, gf), hp.symm.subset h1, by simp [h2]⟩
  · unfold driverBC evolBC auxBC
    generalize sortedItems d = l
    induction l with
    | nil => exact List.Perm.refl _
    | cons kv l ih =>
      by_cases h1 : kv.2.group = (c% "EVOL")
      · rw [List.filterMap_cons_some (b := (gfName kv.1, 1, (c% "none"))) (by simp [h1]),
          List.filterMap_cons_some (b := (gfName kv.1, 1, (c% "none"))) (by simp [h1]), List.filterMap_cons_none (by simp [h1])]
        exact ih.cons _
      · by_cases h2 : kv.2.group = (c% "AUX")
        · rw [List.filterMap_cons_some (b := (gfName kv.1, o.tdiv 2 + 1, (c% "flat"))) (by simp [h2]),
            List.filterMap_cons_none (by simp [h2]), List.filterMap_cons_some (b := (gfName kv.1, o.tdiv 2 + 1, (c% "flat"))) (by simp [h2])]
          exact (ih.cons _).trans List.perm_middle.symm
        · rw [List.filterMap_cons_none (by simp [h1, h2]), List.filterMap_cons_none (by simp [h1]), List.filterMap_cons_none (by simp [h2])]
          exact ih

end Verif.Thorn
