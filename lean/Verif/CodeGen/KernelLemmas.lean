import Verif.CodeGen.Kernel
import Verif.CodeGen.Claims
import Verif.FD.PipelineProps

/-!
# Lemmas for the kernel with finite differences
-/
namespace Verif.CodeGen
open Verif.Py Verif.Sympy Verif.Sympy.Expr Verif.CSE Verif.Helpers Verif.CFunction
open Verif.FD hiding exec exec_append

/-! ## Renaming of symbols -/

theorem mapSymList_eq (f : Str → Str) (l : List Expr) : mapSymList f l = l.map (mapSym f) := by
  induction l with
  | nil => rw [mapSymList]; rfl
  | cons e l ih => rw [mapSymList, ih, List.map_cons]

theorem mapSym_app (f : Str → Str) (h : Head) (l : List Expr) : mapSym f (.app h l) = .app h (l.map (mapSym f)) := by
  rw [mapSym, mapSymList_eq]

theorem eval_mapSym {K : Type} [Field K] (I : Interp K) (ρ : Str → K) (f : Str → Str) (e : Expr) :
    eval I ρ (mapSym f e) = eval I (fun n => ρ (f n)) e := by
  induction e using Expr.ind with
  | hs n => rw [mapSym]; simp
  | hq q => rw [mapSym]; simp
  | ha h l ih =>
    rw [mapSym_app, eval_app, eval_app, List.map_map]
    congr 1
    exact List.map_congr_left ih

theorem free_mapSym (f : Str → Str) (e : Expr) (n : Str) (h : n ∈ (mapSym f e).free) : ∃ m ∈ e.free, n = f m := by
  induction e using Expr.ind with
  | hs m => rw [mapSym] at h; simp at h ⊢; exact h
  | hq q => rw [mapSym] at h; simp at h
  | ha hd l ih =>
    rw [mapSym_app, free_app, List.mem_flatMap] at h
    obtain ⟨e', he', hn⟩ := h
    obtain ⟨e, he, rfl⟩ := List.mem_map.1 he'
    obtain ⟨m, hm, rfl⟩ := ih e he hn
    exact ⟨m, by rw [free_app]; exact List.mem_flatMap.2 ⟨e, he, hm⟩, rfl⟩

/-- Options of pre-processing as `c_codegen` calls it. -/
abbrev po (pre : Str) : PreOpts := ⟨pre, false, true, false⟩

theorem fineNode_of {p p' : Str} {isFun : Str → Bool} {h : Head} {l l' : List Expr} (hl : l = [] ↔ l' = [])
    (hn : FineNode (po p) isFun h l) : FineNode (po p') isFun h l' :=
  ⟨fun n h1 h2 h3 => hn.1 n h1 h2 (hl.2 h3), by simp, by simp⟩

theorem fine_pre {p p' : Str} {isFun : Str → Bool} {e : Expr} (h : Fine (po p) isFun e) : Fine (po p') isFun e := by
  induction h with
  | sym n => exact .sym n
  | num q => exact .num q
  | app h l hn _ ih => exact .app h l (fineNode_of Iff.rfl hn) ih

theorem fine_mapSym {p : Str} {isFun : Str → Bool} (f : Str → Str) {e : Expr} (h : Fine (po p) isFun e) :
    Fine (po p) isFun (mapSym f e) := by
  induction h with
  | sym n => rw [mapSym]; exact .sym _
  | num q => rw [mapSym]; exact .num _
  | app h l hn _ ih =>
    rw [mapSym_app]
    refine .app _ _ (fineNode_of (by simp) hn) ?_
    intro e' he'
    obtain ⟨e, he, rfl⟩ := List.mem_map.1 he'
    exact ih e he

theorem fine_ones {p : Str} {isFun : Str → Bool} (one : Str) {e : Expr} (h : Fine (po p) isFun e) :
    Fine (po p) isFun (ones one e) := by
  induction h with
  | sym n => rw [ones]; exact .sym _
  | num q => rw [ones]; split <;> constructor
  | app h l hn _ ih =>
    rw [ones, onesList_eq]
    refine .app _ _ (fineNode_of (by simp) hn) ?_
    intro e' he'
    obtain ⟨e, he, rfl⟩ := List.mem_map.1 he'
    exact ih e he

/-- Pre-processing keeps the shape. -/
theorem preprocess_fine {K : Type} [Field K] {p : Str} {isFun : Str → Bool} {I : Interp K} {collect : Expr → List Str → Expr}
    (hc : CollectOk (po p) isFun I collect) (fuel : Nat) {e : Expr} (hf : Fine (po p) isFun e)
    (hr : ∀ n ∈ e.free, ¬ Reserved p n) {e' : Expr} {T : Dict Str ℚ}
    (h : preprocess collect isFun (po p) fuel [e] = .ok ([e'], T)) : Fine (po p) isFun e' := by
  have f0 := repl_fine (po p) isFun e hr hf none ⟨[], []⟩ (PInv.empty _)
  obtain ⟨e1, h1, k1⟩ := doFactor_kept hc fuel _ (repl (po p) none e ⟨[], []⟩).2 f0
  simp only [preprocess, preLoop, preOne, bind, Except.bind, pure, Except.pure, if_true, Bool.false_eq_true, if_false,
    Bool.or_false, h1] at h
  have h2 := List.cons.inj (Prod.mk.inj (Except.ok.inj h)).1
  rw [← h2.1]
  unfold doOnes
  split
  · exact fine_ones _ k1.fine
  · exact k1.fine

/-! ## The value of a finite-difference expression -/

theorem eval_fdExpr (I : Interp ℝ) (ρ : Str → ℝ) (terms : List (ℚ × Str)) (facs : List Str) :
    eval I ρ (fdExpr terms facs) = (terms.map fun t => (t.1 : ℝ) * ρ t.2).sum * (facs.map ρ).prod := by
  simp only [fdExpr, eval_app, Interp.app, List.map_cons, List.map_map, List.prod_cons]
  congr 1
  · congr 1
    apply List.map_congr_left
    intro t _
    simp [Interp.app]

theorem free_fdExpr (terms : List (ℚ × Str)) (facs : List Str) (n : Str) :
    n ∈ (fdExpr terms facs).free ↔ (∃ t ∈ terms, n = t.2) ∨ n ∈ facs := by
  simp only [fdExpr, free_app, List.flatMap_cons, List.mem_append, List.mem_flatMap, List.mem_map]
  constructor
  · rintro (⟨e, ⟨t, ht, rfl⟩, h⟩ | ⟨e, ⟨t, ht, rfl⟩, h⟩)
    · left; simp at h; exact ⟨t, ht, h⟩
    · right; simp at h; exact h ▸ ht
  · rintro (⟨t, ht, rfl⟩ | h)
    · left; exact ⟨_, ⟨t, ht, rfl⟩, by simp⟩
    · right; exact ⟨_, ⟨n, h, rfl⟩, by simp⟩

theorem fine_noFn {p : Str} {isFun : Str → Bool} {h : Head} {l : List Expr} (hh : ∀ n, h ≠ .fn n)
    (hl : ∀ e ∈ l, Fine (po p) isFun e) : Fine (po p) isFun (.app h l) :=
  .app _ _ ⟨fun n hn => absurd hn (hh n), by simp, by simp⟩ hl

theorem fine_fdExpr (p : Str) (isFun : Str → Bool) (terms : List (ℚ × Str)) (facs : List Str) :
    Fine (po p) isFun (fdExpr terms facs) := by
  refine fine_noFn (by simp) ?_
  intro e he
  rcases List.mem_cons.1 he with rfl | he
  · refine fine_noFn (by simp) ?_
    intro e he
    obtain ⟨t, _, rfl⟩ := List.mem_map.1 he
    refine fine_noFn (by simp) ?_
    intro e he
    simp only [List.mem_cons, List.not_mem_nil, or_false] at he
    rcases he with rfl | rfl <;> constructor
  · obtain ⟨t, _, rfl⟩ := List.mem_map.1 he
    constructor

theorem fine_blendExpr (p : Str) (isFun : Str → Bool) (u : Option Str) (a b : Str) :
    Fine (po p) isFun (blendExpr u a b) := by
  refine fine_noFn (by simp) ?_
  intro e he
  simp only [List.mem_cons, List.not_mem_nil, or_false] at he
  rcases he with rfl | rfl
  · refine fine_noFn (by simp) ?_
    intro e he
    simp only [List.mem_cons, List.not_mem_nil, or_false] at he
    rcases he with rfl | rfl
    · cases u <;> constructor
    · refine fine_noFn (by simp) ?_
      intro e he
      simp only [List.mem_cons, List.not_mem_nil, or_false] at he
      rcases he with rfl | rfl
      · constructor
      · refine fine_noFn (by simp) ?_
        intro e he
        simp only [List.mem_cons, List.not_mem_nil, or_false] at he
        rcases he with rfl | rfl <;> constructor
  · constructor

theorem eval_blendExpr (I : Interp ℝ) (ρ : Str → ℝ) (u : Option Str) (a b : Str) :
    eval I ρ (blendExpr u a b) = (match u with | some s => ρ s | none => 0) * (ρ a - ρ b) + ρ b := by
  unfold blendExpr
  cases u <;> simp [Interp.app, sub_eq_add_neg]

theorem free_blendExpr (u : Option Str) (a b n : Str) (h : n ∈ (blendExpr u a b).free) : u = some n ∨ n = a ∨ n = b := by
  unfold blendExpr at h
  cases u with
  | none => simp at h; tauto
  | some s => simp at h; rcases h with rfl | rfl | rfl | rfl <;> simp

theorem sum_of_evalSum {env : Env} {ρ : Str → ℝ} : ∀ {terms : List (ℚ × Str)} {x : ℝ}, evalSum env terms = some x →
    (∀ t ∈ terms, ∀ v, env t.2 = some v → ρ t.2 = v) → (terms.map fun t => (t.1 : ℝ) * ρ t.2).sum = x
  | [], x, h, _ => by simpa [evalSum] using h
  | (c, s) :: l, x, h, H => by
    simp only [evalSum, bind, Option.bind] at h
    cases h1 : env s with
    | none => rw [h1] at h; cases h
    | some a =>
      rw [h1] at h
      cases h2 : evalSum env l with
      | none => rw [h2] at h; cases h
      | some b =>
        rw [h2] at h
        simp only [Option.some.injEq] at h
        rw [List.map_cons, List.sum_cons, sum_of_evalSum h2 (fun t ht => H t (List.mem_cons_of_mem _ ht)),
          H (c, s) (by simp) a h1, h]

theorem prod_of_evalProd {env : Env} {ρ : Str → ℝ} : ∀ {l : List Str} {x : ℝ}, evalProd env l = some x →
    (∀ s ∈ l, ∀ v, env s = some v → ρ s = v) → (l.map ρ).prod = x
  | [], x, h, _ => by simpa [evalProd] using h
  | s :: l, x, h, H => by
    simp only [evalProd, bind, Option.bind] at h
    cases h1 : env s with
    | none => rw [h1] at h; cases h
    | some a =>
      rw [h1] at h
      cases h2 : evalProd env l with
      | none => rw [h2] at h; cases h
      | some b =>
        rw [h2] at h
        simp only [Option.some.injEq] at h
        rw [List.map_cons, List.prod_cons, prod_of_evalProd h2 (fun t ht => H t (List.mem_cons_of_mem _ ht)),
          H s (by simp) a h1, h]

theorem evalSum_bound {env : Env} : ∀ {terms : List (ℚ × Str)} {x : ℝ}, evalSum env terms = some x →
    ∀ t ∈ terms, ∃ v, env t.2 = some v
  | [], _, _, t, ht => by cases ht
  | (c, s) :: l, x, h, t, ht => by
    simp only [evalSum, bind, Option.bind] at h
    cases h1 : env s with
    | none => rw [h1] at h; cases h
    | some a =>
      rw [h1] at h
      cases h2 : evalSum env l with
      | none => rw [h2] at h; cases h
      | some b =>
        rcases List.mem_cons.1 ht with rfl | ht
        · exact ⟨a, h1⟩
        · exact evalSum_bound h2 t ht

theorem evalProd_bound {env : Env} : ∀ {l : List Str} {x : ℝ}, evalProd env l = some x → ∀ s ∈ l, ∃ v, env s = some v
  | [], _, _, t, ht => by cases ht
  | s :: l, x, h, t, ht => by
    simp only [evalProd, bind, Option.bind] at h
    cases h1 : env s with
    | none => rw [h1] at h; cases h
    | some a =>
      rw [h1] at h
      cases h2 : evalProd env l with
      | none => rw [h2] at h; cases h
      | some b =>
        rcases List.mem_cons.1 ht with rfl | ht
        · exact ⟨a, h1⟩
        · exact evalProd_bound h2 t ht

/-! ## The environment after a program satisfies its equations -/

theorem exec_solves {mem : Mem} : ∀ {prog : List Stmt} {e env : Env}, FD.exec mem prog e = some env →
    Ext e env ∧ (prog.map Stmt.lhs).Nodup ∧ (∀ s ∈ prog, e s.lhs = none) ∧
      (∀ s ∈ prog, ∃ x, s.eval mem env = some x ∧ env s.lhs = some x) ∧
      ∀ n x, env n = some x → n ∈ prog.map Stmt.lhs ∨ e n = some x
  | [], e, env, h => by
    simp only [FD.exec, Option.some.injEq] at h
    subst h
    exact ⟨fun _ _ h => h, by simp, by simp, by simp, fun n x h => .inr h⟩
  | s :: l, e, env, h => by
    simp only [FD.exec, bind, Option.bind] at h
    cases h1 : s.eval mem e with
    | none => rw [h1] at h; cases h
    | some x =>
      rw [h1] at h
      simp only at h
      split at h
      · cases h
      · rename_i hs
        have hs' : e s.lhs = none := by simpa using hs
        obtain ⟨i1, i2, i3, i4, i5⟩ := exec_solves h
        have hext : Ext e fun n => if n = s.lhs then some x else e n := by
          intro n v hn
          by_cases hns : n = s.lhs
          · rw [hns, hs'] at hn; cases hn
          · simp only [hns, if_false]; exact hn
        have hle : Ext e env := fun n v hn => i1 n v (hext n v hn)
        have hx : env s.lhs = some x := i1 s.lhs x (by simp)
        refine ⟨hle, ?_, ?_, ?_, ?_⟩
        · rw [List.map_cons, List.nodup_cons]
          refine ⟨fun hm => ?_, i2⟩
          obtain ⟨t, ht, hts⟩ := List.mem_map.1 hm
          have := i3 t ht
          rw [hts] at this
          simp at this
        · intro t ht
          rcases List.mem_cons.1 ht with rfl | ht
          · exact hs'
          · have := i3 t ht
            by_cases hts : t.lhs = s.lhs
            · rw [hts]; exact hs'
            · simpa [hts] using this
        · intro t ht
          rcases List.mem_cons.1 ht with rfl | ht
          · exact ⟨x, eval_mono hle _ h1, hx⟩
          · exact i4 t ht
        · intro n v hn
          rcases i5 n v hn with h | h
          · exact .inl (by rw [List.map_cons]; exact List.mem_cons_of_mem _ h)
          · by_cases hns : n = s.lhs
            · exact .inl (by rw [List.map_cons, hns]; simp)
            · simp only [hns, if_false] at h
              exact .inr h

/-! ## Sorting -/

theorem insertRepl_perm (x : Repl) (l : List Repl) : (insertRepl x l).Perm (x :: l) := by
  induction l with
  | nil => exact .refl _
  | cons y l ih =>
    unfold insertRepl
    split
    · exact .refl _
    · exact (List.Perm.cons y ih).trans (List.Perm.swap x y l)

theorem sortByName_perm (l : List Repl) : (sortByName l).Perm l := by
  induction l with
  | nil => exact .refl _
  | cons x l ih => exact (insertRepl_perm x _).trans (List.Perm.cons x ih)

/-! ## The registry -/

theorem foldlM_zipIdx (g : Str → Dict Str ℚ) (dicts : List (Dict Str ℚ)) : ∀ (ops : List Str) (k : ℕ) (T : Dict Str ℚ),
    dicts.drop k = ops.map g → (ops.zipIdx k).foldlM (fun T p => match dicts[p.2]? with
      | some d => (.ok (T.update d) : Except KErr (Dict Str ℚ))
      | none => .error .indexError) T = .ok (ops.foldl (fun T op => T.update (g op)) T)
  | [], k, T, _ => rfl
  | op :: ops, k, T, h => by
    have hk : k < dicts.length := by
      by_contra hk
      rw [List.drop_eq_nil_of_le (by omega)] at h
      simp at h
    rw [List.drop_eq_getElem_cons hk, List.map_cons] at h
    obtain ⟨h1, h2⟩ := List.cons.inj h
    rw [List.zipIdx_cons, List.foldlM_cons]
    simp only [List.getElem?_eq_getElem hk, h1, bind, Except.bind]
    exact foldlM_zipIdx g dicts ops (k + 1) _ h2

theorem regTable_nil (ops : List Str) (g : Str → Dict Str ℚ) :
    regTable [] ops (ops.map g) = .ok (ops.foldl (fun T op => T.update (g op)) []) := by
  unfold regTable
  rw [show regKeys [] ops = ops by simp [regKeys]]
  exact foldlM_zipIdx g _ ops 0 [] (by simp)

/-- A table of constants: every entry is a number under its own name. -/
structure Consts (pre : Str) (T : Dict Str ℚ) : Prop where
  wf : T.Wf
  entry : ∀ s q, T.get? s = some q → (q = -1 ∨ 0 ≤ q) ∧ s = constName pre q

theorem Consts.keys {pre : Str} {T : Dict Str ℚ} (h : Consts pre T) {n : Str} (hn : n ∈ T.keys) : Reserved pre n := by
  obtain ⟨q, hq⟩ := (Dict.mem_keys_iff _ _).1 hn
  exact ⟨q, h.entry n q hq⟩

theorem Consts.nil (pre : Str) : Consts pre [] := ⟨Dict.Wf.nil, by simp [Dict.get?]⟩

theorem Consts.update {pre : Str} {T S : Dict Str ℚ} (h : Consts pre T) (h' : Consts pre S) : Consts pre (T.update S) := by
  refine ⟨h.wf.update S, fun s q hs => ?_⟩
  rw [Dict.get?_update T S h'.wf] at hs
  cases hS : Dict.get? S s with
  | none => rw [hS] at hs; exact h.entry s q (by simpa using hs)
  | some v => rw [hS] at hs; simp at hs; subst hs; exact h'.entry s v hS

theorem Consts.sub {pre : Str} {T S : Dict Str ℚ} (h : Consts pre T) (h' : Consts pre S) {n : Str} {q : ℚ}
    (hS : S.get? n = some q) (hT : n ∈ T.keys) : T.get? n = some q := by
  obtain ⟨v, hv⟩ := (Dict.mem_keys_iff _ _).1 hT
  have a := h.entry n v hv
  have b := h'.entry n q hS
  rw [hv, constName_inj a.1 b.1 (a.2.symm.trans b.2)]

theorem consts_fold {pre : Str} (g : Str → Dict Str ℚ) : ∀ (ops : List Str) (T : Dict Str ℚ), Consts pre T →
    (∀ op ∈ ops, Consts pre (g op)) → Consts pre (ops.foldl (fun T op => T.update (g op)) T) ∧
      ∀ n, n ∈ Dict.keys (ops.foldl (fun T op => T.update (g op)) T) ↔ n ∈ T.keys ∨ ∃ op ∈ ops, n ∈ (g op).keys
  | [], T, hT, _ => ⟨hT, fun n => by simp⟩
  | op :: ops, T, hT, h => by
    have hg := h op (by simp)
    obtain ⟨i1, i2⟩ := consts_fold g ops (T.update (g op)) (hT.update hg) (fun o ho => h o (by simp [ho]))
    refine ⟨i1, fun n => ?_⟩
    rw [List.foldl_cons, i2 n]
    have : n ∈ Dict.keys (T.update (g op)) ↔ n ∈ T.keys ∨ n ∈ (g op).keys := by
      rw [Dict.mem_keys_iff, Dict.mem_keys_iff, Dict.mem_keys_iff]
      simp only [Dict.get?_update T (g op) hg.wf]
      cases Dict.get? (g op) n <;> simp
    rw [this]
    simp only [List.mem_cons, exists_eq_or_imp]
    tauto

theorem lookup_map {β : Type} (f : Str → β) : ∀ (l : List Str) (x : Str), x ∈ l →
    (l.map fun a => (a, f a)).lookup x = some (f x)
  | [], x, h => by cases h
  | a :: l, x, h => by
    rw [List.map_cons, List.lookup_cons]
    by_cases hx : x = a
    · subst hx; simp
    · rw [show (x == a) = false by simpa using hx]
      exact lookup_map f l x ((List.mem_cons.1 h).resolve_left hx)

/-! ## Names -/

/-- A name the parts may introduce. -/
def Part (n : Str) : Prop := (c% "FDPart") <+: n

theorem pre_part {pre : Str} (hp : Part pre) (s : Str) : Part (pre ++ s) := hp.trans (List.prefix_append _ _)

theorem reserved_part {pre n : Str} (hp : Part pre) (h : Reserved pre n) : Part n := by
  obtain ⟨q, -, rfl⟩ := h
  unfold constName ratName negName
  split
  · exact pre_part hp _
  · split
    · simp only [List.append_assoc]; exact pre_part hp _
    · simp only [List.append_assoc]; exact pre_part hp _

theorem temp_part {pre n : Str} (hp : Part pre) (h : IsTemp pre n) : Part n := by
  obtain ⟨k, rfl⟩ := h
  rw [List.append_assoc]
  exact pre_part hp _

theorem part_p1 : Part part1 := by unfold Part part1; decide
theorem part_p2 : Part part2 := by unfold Part part2; decide
theorem part_p3 : Part part3 := by unfold Part part3; decide

theorem part_append {a b : Str} (h : Part (a ++ b)) (hb : b = [] ∨ b.head? = some '_') : Part a := by
  rcases hb with rfl | hb
  · simpa using h
  · obtain ⟨t, e⟩ := h
    rcases List.append_eq_append_iff.1 e with ⟨m, e1, e2⟩ | ⟨m, e1, e2⟩
    · exact ⟨m, e1.symm⟩
    · cases m with
      | nil => exact ⟨[], by simpa using e1⟩
      | cons x m =>
        rw [e2] at hb
        simp at hb
        subst hb
        have : '_' ∈ (c% "FDPart") := by rw [e1]; simp
        exact absurd this (by decide)

theorem sufStr_head (a : Int × Int × Int) : sufStr a = [] ∨ (sufStr a).head? = some '_' := by
  unfold sufStr
  split
  · exact .inl rfl
  · exact .inr rfl

theorem tmp_part {gf : Str} (h : ¬ Part gf) (a : Int × Int × Int) : ¬ Part (gf ++ sufStr a) :=
  fun hp => h (part_append hp (sufStr_head a))

theorem name_part {gfs ops d} (h : Good gfs ops d) (hp : ∀ gf ∈ gfs, ¬ Part gf) : ¬ Part d.name := by
  intro hn
  have h1 := part_append (a := d.front) (b := '_' :: d.tail) hn (.inr rfl)
  exact hp _ h.base (h1.trans ⟨d.comps, rfl⟩)

theorem up_part (s : Str) : ¬ Part ((c% "Upwind") ++ s) := by
  rintro ⟨t, h⟩; simp at h

theorem upIn_part (s : Str) : ¬ Part ((c% "UpwindAlgInput") ++ s) := by
  rintro ⟨t, h⟩; simp at h

theorem upC_part (s : Str) : ¬ Part ((c% "UpwindControlVectorU") ++ s) := by
  rintro ⟨t, h⟩; simp at h

theorem inv_part (s : Str) : ¬ Part ((c% "invdxx") ++ s) := by
  rintro ⟨t, h⟩; simp at h

theorem proto_part (s : Str) : ¬ Part ((c% "FDPROTO") ++ s) := by
  rintro ⟨t, h⟩; simp at h

/-- The character `T` marks the prototype. -/
theorem constName_noT (q : ℚ) : 'T' ∉ constName part1 q := by
  have hd : ∀ k, 'T' ∉ dec k := fun k h => absurd (isDigit_of_mem_dec h) (by decide)
  unfold constName ratName negName part1
  split
  · decide
  · split
    · simp only [List.mem_append, not_or]
      exact ⟨⟨⟨⟨by decide, by decide⟩, hd _⟩, by decide⟩, hd _⟩
    · simp only [List.mem_append, not_or]
      exact ⟨⟨by decide, by decide⟩, hd _⟩

theorem toGf_noT {gf n : Str} (h : 'T' ∉ n) : toGf gf n = n := by
  unfold toGf
  rw [if_neg]
  rw [containsSub_iff]
  rintro ⟨p, q, e⟩
  apply h
  rw [← e]
  simp

theorem toGf_const {gf n : Str} (h : Reserved part1 n) : toGf gf n = n := by
  obtain ⟨q, -, rfl⟩ := h
  exact toGf_noT (constName_noT q)

theorem toGf_inv {gf : Str} {c : Char} (h : c ∈ ['0', '1', '2']) : toGf gf ((c% "invdxx") ++ [c]) = (c% "invdxx") ++ [c] := by
  apply toGf_noT
  simp only [List.mem_cons, List.not_mem_nil, or_false] at h
  rcases h with rfl | rfl | rfl <;> decide

theorem toGf_tmp (gf : Str) (a : Int × Int × Int) : toGf gf ((c% "FDPROTO") ++ sufStr a) = gf ++ sufStr a := by
  unfold toGf
  rw [if_pos (by rw [containsSub_iff]; exact (List.prefix_append _ _).isInfix)]
  have := replaceAll_one (c% "FDPROTO") gf [] (sufStr a) (by decide) (by simp) (by
    rintro ⟨p, q, e⟩
    have : 'F' ∈ sufStr a := by rw [← e]; simp
    rcases mem_sufStr this with h | h
    · exact absurd h (by decide)
    · exact absurd h (by decide))
  simpa using this

/-! ## Prototypes -/

/-- The terms of the prototype of an operator. -/
noncomputable def protoTerms (m : Nat) (gf op : Str) : List (ℚ × Str) :=
  ((coefAt m op).1.zip (coefAt m op).2).map fun ct => (ct.1, gf ++ sufStr (pt3 ct.2))

def invs (d : DerivName) : List Str := d.dirs.map fun c => (c% "invdxx") ++ [c]

theorem fdStmt_gen {gfs d} (h : Good gfs fiveOps d) (m : Nat) (hm : 1 ≤ m) (var gf : Str) :
    ∃ v, fdStmt (2 * m) var gf d.operator = .ok (.fd v (protoTerms m gf d.operator) (invs d)) := by
  obtain ⟨h1, h2, h3, h4⟩ := coefOf_ok h m hm
  obtain ⟨t1, -, -⟩ := ops_table d.op d.dirs (good_cases h)
  have hterms : ((coefOf m d).1.zip (coefOf m d).2).mapM (fun ct => (do
      let n ← stencilVar gf ct.2
      .ok (ct.1, n) : Except GenErr (ℚ × Str))) = .ok (protoTerms m gf d.operator) := by
    apply mapM_ok
    intro ct hct
    rw [stencilVar_eq gf ct.2 (h4 _ (List.of_mem_zip hct).2)]
    rfl
  unfold fdStmt
  rw [h1]
  simp only [bind, Except.bind] at hterms
  simp only [liftFD, bind, Except.bind]
  rw [hterms]
  simp only [DerivName.operator] at *
  rw [t1]
  exact ⟨_, rfl⟩

/-- Three parts, each with its own prefix, and canonical forms of functions with arguments have arguments. -/
structure KLibOk (I : Interp ℝ) (L : Lib) : Prop where
  p1 : LibOk I L part1
  p2 : LibOk I L part2
  p3 : LibOk I L part3
  fine : ∀ e, Fine (po part1) L.isFun e → Fine (po part1) L.isFun (L.canon e)

/-- What the prototype of an operator gives for a gridfunction. -/
theorem proto_spec {I : Interp ℝ} {L : Lib} (hL : KLibOk I L) {gfs d} (h : Good gfs fiveOps d) (m : Nat) (hm : 1 ≤ m) :
    ∃ r, protoFD L (2 * m) d.operator = .ok r ∧ Consts part1 r.2 ∧ Fine (po part1) L.isFun r.1 ∧
      (∀ n ∈ r.1.free, n ∈ r.2.keys ∨ (∃ t ∈ protoTerms m (c% "FDPROTO") d.operator, n = t.2) ∨ n ∈ invs d) ∧
      ∀ ρ : Str → ℝ, eval I (withTable r.2 ρ) r.1 =
        ((protoTerms m (c% "FDPROTO") d.operator).map fun t => (t.1 : ℝ) * ρ t.2).sum * ((invs d).map ρ).prod := by
  obtain ⟨v, hv⟩ := fdStmt_gen h m hm ((c% "FDPROTO_") ++ d.operator) (c% "FDPROTO")
  set e := L.canon (fdExpr (protoTerms m (c% "FDPROTO") d.operator) (invs d)) with he
  have hfine : Fine (po part1) L.isFun e := hL.fine _ (fine_fdExpr _ _ _ _)
  have hfree : ∀ n ∈ e.free, (∃ t ∈ protoTerms m (c% "FDPROTO") d.operator, n = t.2) ∨ n ∈ invs d :=
    fun n hn => (free_fdExpr _ _ _).1 (hL.p1.canon.free _ _ hn)
  have hres : ∀ n ∈ e.free, ¬ Reserved part1 n := by
    intro n hn hr
    have hp := reserved_part part_p1 hr
    rcases hfree n hn with ⟨t, ht, rfl⟩ | hn
    · obtain ⟨ct, -, rfl⟩ := List.mem_map.1 ht
      exact proto_part _ hp
    · obtain ⟨c, -, rfl⟩ := List.mem_map.1 hn
      exact inv_part _ hp
  obtain ⟨es', T, h1, h2, h3, h4⟩ := preprocess_done (o := po part1) (I := I) (isFun := L.isFun) (collect := L.collect)
    (by simp) hL.p1.collect L.fuel [e] (by simpa using hfine) (by simpa using hres)
  obtain ⟨e', es0, hh, hnil, hes⟩ := List.forall₂_cons_left_iff.1 h4
  rw [List.forall₂_nil_left_iff] at hnil
  subst hnil
  subst hes
  simp only [Bool.false_eq_true, if_false] at hh
  refine ⟨(e', T), ?_, ⟨h2, h3⟩, preprocess_fine hL.p1.collect L.fuel hfine hres h1, ?_, ?_⟩
  · unfold protoFD
    rw [hv]
    simp only [← he]
    rw [h1]
  · intro n hn
    exact (hh.2 n hn).symm.imp_right (hfree n)
  · intro ρ
    rw [hh.1 ρ, he, hL.p1.canon.value, eval_fdExpr]

end Verif.CodeGen
