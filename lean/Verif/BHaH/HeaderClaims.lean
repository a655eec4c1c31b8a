import Verif.BHaH.Header
import Verif.Thorn.Files
import Verif.Grid.IndexProps

/-!
# C118: the header has every registered definition once, in the order of dependence
-/
namespace Verif.BHaH.Header
open Verif.Py

/-! ## Specification -/

/-- What the modules registered under the name `k`, in the order of registration. -/
def textOf (regs : List (Str × Str)) (k : Str) : Str := (regs.filter fun r => r.1 = k).flatMap Prod.snd

/-- The registered core modules in the fixed order, then the other registered modules in alphabetical order, each once and with all its text, then what
the caller adds. -/
def IsHeader (regs suppl L : List (Str × Str)) : Prop :=
  ∃ N : List Str, L = (core.filter (· ∈ regs.map Prod.fst) ++ N).map (fun k => (k, textOf regs k)) ++ suppl ∧
    N.Pairwise (fun a b => strLe a b = true ∧ a ≠ b) ∧ ∀ k, k ∈ N ↔ k ∈ regs.map Prod.fst ∧ k ∉ core

/-- A history of registrations. -/
def registers (regs : List (Str × Str)) (d : Dict Str Str) : Dict Str Str := regs.foldl (fun d r => register d r.1 r.2) d

/-! ## Proofs -/

theorem register_wf {d : Dict Str Str} (h : d.Wf) (m t : Str) : (register d m t).Wf := by
  unfold register
  split <;> exact h.set _ _

theorem register_get (d : Dict Str Str) (m t k : Str) : (register d m t).get? k = if k = m then some ((d.get? m).getD [] ++ t) else d.get? k := by
  unfold register
  split
  · rename_i h
    rw [Dict.get?_set, h]
    rfl
  · rename_i s h
    rw [Dict.get?_set, h]
    rfl

theorem registers_wf : ∀ (regs : List (Str × Str)) {d : Dict Str Str}, d.Wf → (registers regs d).Wf
  | [], _, h => h
  | r :: l, _, h => registers_wf l (register_wf h r.1 r.2)

theorem registers_get : ∀ (regs : List (Str × Str)) (d : Dict Str Str) (k : Str),
    (registers regs d).get? k = if k ∈ regs.map Prod.fst then some ((d.get? k).getD [] ++ textOf regs k) else d.get? k
  | [], d, k => by simp [registers]
  | r :: l, d, k => by
    show (registers l (register d r.1 r.2)).get? k = _
    rw [registers_get l, register_get]
    by_cases h : k = r.1
    · subst h
      have e : textOf (r :: l) r.1 = r.2 ++ textOf l r.1 := by simp [textOf]
      rw [e]
      by_cases hl : r.1 ∈ l.map Prod.fst
      · simp [hl]
      · have : textOf l r.1 = [] := by
          unfold textOf
          rw [List.filter_eq_nil_iff.mpr, List.flatMap_nil]
          intro a ha
          simp only [decide_eq_true_eq]
          exact fun e => hl (e ▸ List.mem_map_of_mem ha)
        simp [hl, this]
    · have e : textOf (r :: l) k = textOf l k := by
        unfold textOf
        rw [List.filter_cons_of_neg (by simpa using fun e => h e.symm)]
      rw [e]
      simp only [h, if_false, List.map_cons, List.mem_cons, false_or]

/-- **C118** (text): under each name the header has exactly what was registered under it, in the order of registration. -/
theorem C118_text (regs : List (Str × Str)) (k : Str) :
    (registers regs []).get? k = if k ∈ regs.map Prod.fst then some (textOf regs k) else none := by
  rw [registers_get]
  simp [Dict.get?]

theorem mem_fst (regs : List (Str × Str)) (k t : Str) : (k, t) ∈ registers regs [] ↔ k ∈ regs.map Prod.fst ∧ t = textOf regs k := by
  have wf : (registers regs []).Wf := registers_wf regs Dict.Wf.nil
  constructor
  · intro h
    have := Dict.get?_of_mem wf h
    rw [C118_text] at this
    split at this
    · rename_i hk
      exact ⟨hk, (Option.some.inj this).symm⟩
    · cases this
  · rintro ⟨h, rfl⟩
    apply Dict.mem_of_get?
    rw [C118_text, if_pos h]

/-- **C118** (order): after any history of registrations the header is as specified. -/
theorem C118_sections (regs suppl : List (Str × Str)) : IsHeader regs suppl (sections (registers regs []) suppl) := by
  have wf : (registers regs []).Wf := registers_wf regs Dict.Wf.nil
  let F := (Thorn.sortedItems (registers regs [])).filter fun kv => kv.1 ∉ core
  have hF : ∀ kv, kv ∈ F ↔ (kv.1 ∈ regs.map Prod.fst ∧ kv.2 = textOf regs kv.1) ∧ kv.1 ∉ core := by
    intro kv
    show kv ∈ List.filter _ _ ↔ _
    rw [List.mem_filter, (Thorn.sortedItems_perm _).mem_iff, ← mem_fst regs kv.1 kv.2, decide_eq_true_eq]
  refine ⟨F.map Prod.fst, ?_, ?_, ?_⟩
  · unfold sections
    rw [List.map_append, List.map_map]
    congr 2
    · induction core with
      | nil => rfl
      | cons k l ih =>
        rw [List.filterMap_cons, C118_text, List.filter_cons]
        by_cases h : k ∈ regs.map Prod.fst
        · simp only [if_pos h, Option.map_some, decide_eq_true_eq, List.map_cons]
          rw [ih]
        · simp only [if_neg h, Option.map_none, decide_eq_true_eq]
          exact ih
    · symm
      have : ∀ l : List (Str × Str), (∀ kv ∈ l, kv.2 = textOf regs kv.1) → l.map ((fun k => (k, textOf regs k)) ∘ Prod.fst) = l := by
        intro l hl
        conv_rhs => rw [← List.map_id l]
        exact List.map_congr_left fun kv h => Prod.ext rfl (hl kv h).symm
      exact this F fun kv h => ((hF kv).mp h).1.2
  · have s1 : F.Pairwise (fun a b => strLe a.1 b.1 = true) := (Thorn.sortedItems_sorted _).filter _
    have s2 : (F.map Prod.fst).Nodup := by
      refine List.Nodup.sublist (List.Sublist.map _ List.filter_sublist) ?_
      exact ((Thorn.sortedItems_perm _).map Prod.fst).nodup_iff.mpr wf
    rw [List.pairwise_map]
    rw [List.Nodup, List.pairwise_map] at s2
    exact s1.and s2
  · intro k
    rw [List.mem_map]
    constructor
    · rintro ⟨kv, h, rfl⟩
      exact ⟨((hF kv).mp h).1.1, ((hF kv).mp h).2⟩
    · rintro ⟨h1, h2⟩
      exact ⟨(k, textOf regs k), (hF _).mpr ⟨⟨h1, rfl⟩, h2⟩, rfl⟩

theorem sorted_unique : ∀ {a b : List Str}, a.Pairwise (fun x y => strLe x y = true ∧ x ≠ y) → b.Pairwise (fun x y => strLe x y = true ∧ x ≠ y) →
    (∀ k, k ∈ a ↔ k ∈ b) → a = b
  | [], [], _, _, _ => rfl
  | [], y :: b, _, _, h => absurd ((h y).mpr List.mem_cons_self) (by simp)
  | x :: a, [], _, _, h => absurd ((h x).mp List.mem_cons_self) (by simp)
  | x :: a, y :: b, ha, hb, h => by
    rw [List.pairwise_cons] at ha hb
    have xy : x = y := by
      by_contra ne
      have h1 : x ∈ b := (List.mem_cons.mp ((h x).mp List.mem_cons_self)).resolve_left ne
      have h2 : y ∈ a := (List.mem_cons.mp ((h y).mpr List.mem_cons_self)).resolve_left fun e => ne e.symm
      exact ne (Grid.strLe_antisymm _ _ (ha.1 y h2).1 (hb.1 x h1).1)
    subst xy
    congr 1
    refine sorted_unique ha.2 hb.2 fun k => ?_
    constructor
    · intro hk
      exact (List.mem_cons.mp ((h k).mp (List.mem_cons_of_mem _ hk))).resolve_left fun e => (ha.1 k hk).2 e.symm
    · intro hk
      exact (List.mem_cons.mp ((h k).mpr (List.mem_cons_of_mem _ hk))).resolve_left fun e => (hb.1 k hk).2 e.symm

/-- The specification determines the header. -/
theorem IsHeader.unique {regs suppl L L' : List (Str × Str)} (h : IsHeader regs suppl L) (h' : IsHeader regs suppl L') : L = L' := by
  obtain ⟨N, rfl, s, m⟩ := h
  obtain ⟨N', rfl, s', m'⟩ := h'
  rw [sorted_unique s s' fun k => (m k).trans (m' k).symm]

theorem fst_of_filter {regs regs' : List (Str × Str)} (h : ∀ k, (regs.filter fun r => r.1 = k) = regs'.filter fun r => r.1 = k) (k : Str)
    (hk : k ∈ regs.map Prod.fst) : k ∈ regs'.map Prod.fst := by
  obtain ⟨r, hr, rfl⟩ := List.mem_map.mp hk
  have : r ∈ regs.filter fun x => x.1 = r.1 := List.mem_filter.mpr ⟨hr, by simp⟩
  rw [h] at this
  exact List.mem_map_of_mem (List.mem_filter.mp this).1

/-- **C118** (interleaving): the order in which different modules are registered does not matter. -/
theorem C118_interleaving (regs regs' suppl : List (Str × Str)) (restr : Str)
    (h : ∀ k, (regs.filter fun r => r.1 = k) = regs'.filter fun r => r.1 = k) :
    file (registers regs []) suppl restr = file (registers regs' []) suppl restr := by
  have ht : ∀ k, textOf regs k = textOf regs' k := fun k => by unfold textOf; rw [h]
  have hm : ∀ k, k ∈ regs.map Prod.fst ↔ k ∈ regs'.map Prod.fst := fun k => ⟨fst_of_filter h k, fst_of_filter (fun k => (h k).symm) k⟩
  have : sections (registers regs []) suppl = sections (registers regs' []) suppl := by
    refine IsHeader.unique (C118_sections regs suppl) ?_
    obtain ⟨N, e, s, m⟩ := C118_sections regs' suppl
    refine ⟨N, ?_, s, fun k => by rw [m, hm]⟩
    rw [e]
    congr 1
    have e1 : (fun k => (k, textOf regs' k)) = fun k => (k, textOf regs k) := funext fun k => by rw [ht]
    have e2 : core.filter (· ∈ regs'.map Prod.fst) = core.filter (· ∈ regs.map Prod.fst) :=
      List.filter_congr fun k _ => by simp only [hm]
    rw [e1, e2]
  unfold file
  rw [this]

/-- **C118** (dependence): `griddata_struct` comes after all other core modules; what comes after it is not a core module or is added by the caller. -/
theorem C118_grid_last {regs suppl L : List (Str × Str)} (h : IsHeader regs suppl L) (hg : (c% "grid") ∈ regs.map Prod.fst) :
    ∃ A B, L = A ++ ((c% "grid"), textOf regs (c% "grid")) :: B ∧
      (∀ k ∈ core, k ∈ regs.map Prod.fst → k ≠ (c% "grid") → (k, textOf regs k) ∈ A) ∧ ∀ kv ∈ B, kv.1 ∉ core ∨ kv ∈ suppl := by
  obtain ⟨N, rfl, _, m⟩ := h
  refine ⟨(core.dropLast.filter (· ∈ regs.map Prod.fst)).map (fun k => (k, textOf regs k)), N.map (fun k => (k, textOf regs k)) ++ suppl, ?_, ?_, ?_⟩
  · have : core = core.dropLast ++ [c% "grid"] := by decide
    conv_lhs => rw [this]
    rw [List.filter_append, List.filter_cons_of_pos (by simpa using hg)]
    simp
  · intro k hk hr hn
    refine List.mem_map_of_mem (List.mem_filter.mpr ⟨?_, by simpa using hr⟩)
    have : core = core.dropLast ++ [c% "grid"] := by decide
    rw [this, List.mem_append] at hk
    exact hk.resolve_right fun h => hn (List.mem_singleton.mp h)
  · intro kv hkv
    rcases List.mem_append.mp hkv with h | h
    · obtain ⟨k, hk, rfl⟩ := List.mem_map.mp h
      exact Or.inl ((m k).mp hk).2
    · exact Or.inr h

/-- What the function itself registers. -/
def own (a : Args) (g : GridData.St) : List (Str × Str) :=
  [((c% "general"), a.general), ((c% "params_struct"), a.params), ((c% "commondata_struct"), a.common)] ++
  (match a.fd with | none => [] | some t => [((c% "finite_difference"), t)]) ++ [((c% "grid"), a.gridDefs ++ griddataStruct g.griddata)]

/-- **C118** (file): if the call succeeds, the file is the header for what all modules registered before and what the function adds. -/
theorem C118_file (regs : List (Str × Str)) (gd : GridData.St) (a : Args) {s : State} {f : Str} (h : output ⟨registers regs [], gd⟩ a = (s, some f)) :
    s.gd = (registerAll gd (calls a)).1 ∧ ∃ L, IsHeader (regs ++ own a s.gd) a.suppl L ∧
      f = replaceAll (c% "*restrict") a.restr ((c% "#ifndef __BHAH_DEFINES_H__\n#define __BHAH_DEFINES_H__\n") ++
        (L.flatMap fun kv => (c% "\n//********************************************\n// Basic definitions for module ") ++ kv.1 ++ (c% ":\n") ++ kv.2) ++
        (c% "\n#endif\n")) := by
  unfold output at h
  simp only at h
  split at h
  · cases h
  · rename_i g hg
    obtain ⟨rfl, e⟩ := Prod.mk.inj h
    refine ⟨by rw [hg], _, ?_, (Option.some.inj e).symm⟩
    have : registers (regs ++ own a g) [] = register (match a.fd with
        | none => register (register (register (registers regs []) (c% "general") a.general) (c% "params_struct") a.params) (c% "commondata_struct") a.common
        | some t => register (register (register (register (registers regs []) (c% "general") a.general) (c% "params_struct") a.params)
          (c% "commondata_struct") a.common) (c% "finite_difference") t) (c% "grid") (a.gridDefs ++ griddataStruct g.griddata) := by
      unfold registers own
      cases a.fd <;> simp [List.foldl_append]
    have key := C118_sections (regs ++ own a g) a.suppl
    rw [this] at key
    exact key

/-- **C118** (members): each registered declaration is a member of `griddata_struct`, and there are no others: the struct has as many members as there
are registered declarations, and the coordinates. -/
theorem C118_members (t : GridData.Table) :
    (∀ ml ∈ t, ∀ e ∈ ml.2, ((c% "  ") ++ e.decl ++ (c% ";")) <:+: griddataStruct t) ∧
    ((∀ ml ∈ t, ';' ∉ ml.1 ∧ ∀ e ∈ ml.2, ';' ∉ e.decl ∧ ';' ∉ e.desc) →
      (griddataStruct t).count ';' = (t.map fun ml => ml.2.length).sum + 2) := by
  constructor
  · intro ml hml e he
    unfold griddataStruct
    refine List.IsInfix.trans ?_ (List.infix_append _ _ _)
    obtain ⟨a, b, rfl⟩ := List.append_of_mem hml
    rw [List.flatMap_append, List.flatMap_cons]
    refine List.IsInfix.trans ?_ (List.IsInfix.trans (List.prefix_append _ _).isInfix (List.suffix_append _ _).isInfix)
    refine List.IsInfix.trans ?_ (List.suffix_append _ _).isInfix
    obtain ⟨x, y, hxy⟩ := List.append_of_mem he
    rw [hxy, List.flatMap_append, List.flatMap_cons]
    refine List.IsInfix.trans ?_ (List.IsInfix.trans (List.prefix_append _ _).isInfix (List.suffix_append _ _).isInfix)
    rw [List.append_assoc _ _ (c% "\n")]
    exact (List.prefix_append _ _).isInfix
  · intro h
    have line : ∀ l : List GridData.Entry, (∀ e ∈ l, ';' ∉ e.decl ∧ ';' ∉ e.desc) →
        (l.flatMap fun e => (c% "  ") ++ e.decl ++ (c% ";") ++ (if e.desc = [] then [] else (c% "// <- ") ++ e.desc) ++ (c% "\n")).count ';' = l.length := by
      intro l
      induction l with
      | nil => intro _; rfl
      | cons e l ih =>
        intro hl
        have h1 := hl e List.mem_cons_self
        rw [List.flatMap_cons, List.count_append, ih fun x hx => hl x (List.mem_cons_of_mem _ hx), List.length_cons]
        have h2 : List.count ';' e.decl = 0 := List.count_eq_zero.mpr h1.1
        have h3 : List.count ';' e.desc = 0 := List.count_eq_zero.mpr h1.2
        simp only [List.count_append, h2]
        split
        · simp; omega
        · simp [h3]; omega
    have all : ∀ t : GridData.Table, (∀ ml ∈ t, ';' ∉ ml.1 ∧ ∀ e ∈ ml.2, ';' ∉ e.decl ∧ ';' ∉ e.desc) →
        (t.flatMap (fun ml => (c% "  // NRPy+ MODULE: ") ++ ml.1 ++ (c% "\n") ++
          ml.2.flatMap fun e => (c% "  ") ++ e.decl ++ (c% ";") ++ (if e.desc = [] then [] else (c% "// <- ") ++ e.desc) ++ (c% "\n"))).count ';' =
          (t.map fun ml => ml.2.length).sum := by
      intro t
      induction t with
      | nil => intro _; rfl
      | cons ml t ih =>
        intro ht
        have h1 := ht ml List.mem_cons_self
        rw [List.flatMap_cons, List.count_append, ih fun x hx => ht x (List.mem_cons_of_mem _ hx), List.map_cons, List.sum_cons, List.count_append,
          line ml.2 h1.2]
        have h2 : List.count ';' ml.1 = 0 := List.count_eq_zero.mpr h1.1
        simp [List.count_append, h2]
    unfold griddataStruct
    rw [List.count_append, List.count_append, all t h]
    have e1 : List.count ';' (c% "\ntypedef struct __griddata__ {\n  REAL *restrict xx[3];\n") = 1 := by decide
    have e2 : List.count ';' (c% "} griddata_struct;\n") = 1 := by decide
    rw [e1, e2]
    omega

example : ∃ t : GridData.Table, t.length = 1 ∧ ∀ ml ∈ t, ';' ∉ ml.1 ∧ ∀ e ∈ ml.2, ';' ∉ e.decl ∧ ';' ∉ e.desc :=
  ⟨[((c% "params"), [⟨c% "params", c% "params_struct params", c% "parameters"⟩])], rfl, by decide⟩

theorem register_keeps (s : GridData.St) (c c' : GridData.Call) (h : ∃ l, s.griddata.get? c.modul = some l ∧ ∃ e ∈ l, e.decl = c.decl) :
    ∃ l, (GridData.register s c').1.griddata.get? c.modul = some l ∧ ∃ e ∈ l, e.decl = c.decl := by
  obtain ⟨l, hl, e, he, hd⟩ := h
  unfold GridData.register
  split
  · exact ⟨l, hl, e, he, hd⟩
  · show ∃ l, (GridData.registerIn s.griddata c').1.get? c.modul = some l ∧ _
    unfold GridData.registerIn
    split
    · rename_i l' hl'
      split
      · exact ⟨l, hl, e, he, hd⟩
      · split
        · exact ⟨l, hl, e, he, hd⟩
        · rw [Dict.get?_set]
          split
          · rename_i hm
            rw [hm, hl'] at hl
            cases hl
            exact ⟨_, rfl, e, List.mem_append_left _ he, hd⟩
          · exact ⟨l, hl, e, he, hd⟩
    · rename_i hn
      split
      · exact ⟨l, hl, e, he, hd⟩
      · rw [Dict.get?_set]
        split
        · rename_i hm
          rw [hm, hn] at hl
          cases hl
        · exact ⟨l, hl, e, he, hd⟩

theorem registerAll_keeps : ∀ (cs : List GridData.Call) (s : GridData.St) (c : GridData.Call),
    (∃ l, s.griddata.get? c.modul = some l ∧ ∃ e ∈ l, e.decl = c.decl) →
    ∃ l, (registerAll s cs).1.griddata.get? c.modul = some l ∧ ∃ e ∈ l, e.decl = c.decl
  | [], _, _, h => h
  | c' :: cs, s, c, h => by
    unfold registerAll
    split
    · exact registerAll_keeps cs _ c (register_keeps s c c' h)
    · exact register_keeps s c c' h

/-- A second registration of the same declaration is refused. -/
theorem register_again (s : GridData.St) (c : GridData.Call) (hc : c.isCommon = false)
    (h : ∃ l, s.griddata.get? c.modul = some l ∧ ∃ e ∈ l, e.decl = c.decl) : (GridData.register s c).2 = false := by
  obtain ⟨l, hl, e, he, hd⟩ := h
  unfold GridData.register GridData.registerIn
  rw [hc]
  simp only [hl]
  rw [if_neg (by decide)]
  simp only
  rw [if_pos]
  exact List.any_eq_true.mpr ⟨e, he, by simpa using hd⟩

theorem register_adds (s : GridData.St) (c : GridData.Call) (hc : c.isCommon = false) (h : (GridData.register s c).2 = true) :
    ∃ l, (GridData.register s c).1.griddata.get? c.modul = some l ∧ ∃ e ∈ l, e.decl = c.decl := by
  unfold GridData.register GridData.registerIn at h ⊢
  rw [hc] at h ⊢
  simp only [Bool.false_eq_true, if_false] at h ⊢
  unfold GridData.mkEntry at h ⊢
  by_cases h1 : ';' ∈ c.decl
  · cases hg : s.griddata.get? c.modul with
    | none => simp [hg, h1] at h
    | some l =>
      simp only [hg, h1, if_true] at h
      split at h <;> simp at h
  · cases hg : s.griddata.get? c.modul with
    | none =>
      simp only [h1, if_false]
      exact ⟨_, Dict.get?_set_self _ _ _, _, List.mem_singleton_self _, rfl⟩
    | some l =>
      simp only [hg, h1, if_false] at h ⊢
      split at h
      · simp at h
      · rename_i h2
        rw [if_neg h2]
        exact ⟨_, Dict.get?_set_self _ _ _, _, List.mem_append_right _ (List.mem_singleton_self _), rfl⟩

/-- **C118** (finding): after a call that wrote the header every later call in the same session raises an exception: a second project cannot be written,
nor the header written again after further registrations. -/
theorem C118_twice_violation (s s' : State) (a b : Args) {f : Str} (h : output s a = (s', some f)) : (output s' b).2 = none := by
  unfold output at h
  simp only at h
  split at h
  · cases h
  · rename_i g hg
    obtain ⟨rfl, _⟩ := Prod.mk.inj h
    have hp : ∃ l, g.griddata.get? (c% "params") = some l ∧ ∃ e ∈ l, e.decl = (c% "params_struct params") := by
      unfold calls registerAll at hg
      split at hg
      · rename_i h1
        have h2 := register_adds s.gd _ rfl h1
        have := registerAll_keeps (calls a).tail _ _ h2
        unfold calls at this
        simp only [List.tail_cons] at this
        rw [hg] at this
        exact this
      · cases hg
    have : registerAll g (calls b) = ((GridData.register g ⟨c% "params", c% "params_struct params", c% "BHaH parameters, generated from NRPy+'s CodeParameters",
        false⟩).1, false) := by
      unfold calls registerAll
      rw [register_again g _ rfl hp]
      rfl
    unfold output
    simp only [this]

/-- A project with two modules of its own and two registrations for the boundary conditions. -/
def exRegs : List (Str × Str) :=
  [((c% "z"), (c% "int z;")), ((c% "reference_metric"), (c% "r")), ((c% "after_general"), (c% "a")), ((c% "m"), (c% "M")), ((c% "reference_metric"), (c% "s"))]

def exArgs : Args := ⟨c% "G", c% "P", c% "C", some (c% "F"), true, true, c% "D", [], c% "*restrict"⟩

example : (output ⟨registers exRegs [], ⟨[], []⟩⟩ exArgs).2.isSome = true := by decide
example : (sections (registers exRegs []) []).map Prod.fst = [c% "after_general", c% "reference_metric", c% "m", c% "z"] ∧
    (registers exRegs []).get? (c% "reference_metric") = some (c% "rs") := by decide
example : ∀ k, (exRegs.filter fun r => r.1 = k) = ([((c% "reference_metric"), (c% "r")), ((c% "reference_metric"), (c% "s")), ((c% "z"), (c% "int z;")),
    ((c% "m"), (c% "M")), ((c% "after_general"), (c% "a"))] : List (Str × Str)).filter fun r => r.1 = k := by
  intro k
  by_cases h1 : k = c% "z"
  · subst h1; decide
  by_cases h2 : k = c% "reference_metric"
  · subst h2; decide
  by_cases h3 : k = c% "after_general"
  · subst h3; decide
  by_cases h4 : k = c% "m"
  · subst h4; decide
  rw [List.filter_eq_nil_iff.mpr, List.filter_eq_nil_iff.mpr]
  all_goals
    intro a ha
    simp only [exRegs, List.mem_cons, List.not_mem_nil, or_false] at ha
    simp only [decide_eq_true_eq]
    rintro rfl
    rcases ha with rfl | rfl | rfl | rfl | rfl <;> contradiction

end Verif.BHaH.Header
