import Verif.CodeGen.Core

/-!
# C78: the code emitted by `c_codegen` computes the expressions
-/
namespace Verif.CodeGen
open Verif.Py Verif.Sympy Verif.Sympy.Expr Verif.CSE

variable {K : Type} [Field K]

/-! ## Specification -/

/-- Names the emitted code may declare besides the outputs: temporaries, constants of the given table, constants
introduced by pre-processing. -/
def Taken (o : Opts) (n : Str) : Prop :=
  IsTemp o.cse_varprefix n ∨ n ∈ o.symbol_to_Rational_dict.keys ∨
    (o.enable_cse_preprocess = true ∧ Reserved o.cse_varprefix n)

/-- The outputs that are not marked as scalar temporaries, with their expressions. -/
def plain (o : Opts) (es : List Expr) (outs : List Str) : List Repl :=
  (outs.zip es).filter fun p => p.1 ∉ o.SCALAR_TMP_varnames

/-- The scalar temporaries: the symbol in the same place as the output, with the expression. -/
def scalars (o : Opts) (es : List Expr) (outs : List Str) : List Repl :=
  ((o.SCALAR_TMP_sympyexprs.zip (outs.zip es)).filter fun t => t.2.1 ∈ o.SCALAR_TMP_varnames).map fun t => (t.1, t.2.2)

/-- What is required of the input. -/
structure Clean (o : Opts) (es : List Expr) (outs : List Str) : Prop where
  /-- one name per expression -/
  len : outs.length = es.length
  /-- no output is assigned twice, or is the name of a temporary, a constant or a scalar temporary -/
  nodup : outs.Nodup
  outs_free : ∀ n ∈ outs, ¬ Taken o n ∧ n ∉ names (scalars o es outs)
  /-- no output is also read -/
  no_alias : ∀ n ∈ outs, ∀ e ∈ es, n ∉ e.free
  /-- the symbols are not names of constants that pre-processing introduces -/
  not_reserved : o.enable_cse_preprocess = true → o.symbol_to_Rational_dict = [] →
    ∀ e ∈ es, ∀ n ∈ e.free, ¬ Reserved o.cse_varprefix n
  /-- the given table is a dictionary that contains no temporary -/
  table : o.symbol_to_Rational_dict.Wf
  table_temp : ∀ n ∈ o.symbol_to_Rational_dict.keys, ¬ IsTemp o.cse_varprefix n
  /-- scalar temporaries have a symbol each, and do not depend on each other in a circle -/
  syms : (∃ n ∈ outs, n ∈ o.SCALAR_TMP_varnames) → outs.length ≤ o.SCALAR_TMP_sympyexprs.length
  scalars_nodup : (names (scalars o es outs)).Nodup
  scalars_free : ∀ n ∈ names (scalars o es outs), ¬ Taken o n
  scalars_acyclic : Acyclic (scalars o es outs)

/-- What is assumed of SymPy. -/
structure LibOk (I : Interp K) (L : Lib) (pre : Str) : Prop where
  canon : CanonOk I L.canon
  cse : ∀ ins, CseOk I pre ins (L.cse pre ins).1 (L.cse pre ins).2
  collect : CollectOk ⟨pre, false, true, false⟩ L.isFun I L.collect
  order : ∀ e n, n ∈ L.order e ↔ n ∈ e.free

/-! ## Execution of the parts -/

theorem exec_append (I : Interp K) (A B : List Repl) (σ : Str → K) : exec I (A ++ B) σ = exec I B (exec I A σ) := by
  induction A generalizing σ with
  | nil => rfl
  | cons p A ih => obtain ⟨x, e⟩ := p; rw [List.cons_append, exec, exec, ih]

theorem exec_consts (I : Interp K) (T : Dict Str ℚ) (hT : T.Wf) (σ : Str → K) :
    exec I (T.map fun c => (c.1, .num c.2)) σ = withTable T σ := by
  induction T generalizing σ with
  | nil => rfl
  | cons p T ih =>
    obtain ⟨x, q⟩ := p
    have h := List.nodup_cons.1 (show (x :: Dict.keys T).Nodup from hT)
    rw [List.map_cons, exec, ih h.2]
    funext n
    unfold withTable
    by_cases hn : n = x
    · subst hn
      have h0 : Dict.get? T n = none := by
        cases hg : Dict.get? T n with
        | none => rfl
        | some v => exact absurd ((Dict.mem_keys_iff T n).2 ⟨v, hg⟩) h.1
      rw [h0]
      simp [Dict.get?]
    · have : Dict.get? ((x, q) :: T) n = Dict.get? T n := by
        simp [Dict.get?, Ne.symm hn]
      rw [this]
      cases Dict.get? T n with
      | some v => rfl
      | none => simp [hn]

theorem exec_outs {I : Interp K} (O : List Repl) (hnd : (names O).Nodup)
    (hfree : ∀ p ∈ O, ∀ n ∈ names O, n ∉ p.2.free) (σ : Str → K) :
    ∀ p ∈ O, exec I O σ p.1 = eval I σ p.2 := by
  induction O generalizing σ with
  | nil => intro p hp; cases hp
  | cons q O ih =>
    obtain ⟨x, e⟩ := q
    have h := List.nodup_cons.1 (show (x :: names O).Nodup from hnd)
    intro p hp
    rw [exec]
    rcases List.mem_cons.1 hp with rfl | hp
    · rw [exec_not_mem _ _ _ h.1, Function.update_self]
    · rw [ih h.2 (fun p hp n hn => hfree p (List.mem_cons_of_mem _ hp) n (List.mem_cons_of_mem _ hn)) _ p hp]
      apply eval_congr
      intro n hn
      refine Function.update_of_ne (fun hx => ?_) _ _
      exact hfree p (List.mem_cons_of_mem _ hp) x (by simp [names]) (hx ▸ hn)

/-! ## The marked outputs -/

theorem mark_none (o : Opts) : ∀ (k : ℕ) (es : List Expr) (outs : List Str), outs.length = es.length →
    (∀ n ∈ outs, n ∉ o.SCALAR_TMP_varnames) → mark o k es outs = .ok (es.map .ex, outs)
  | _, [], [], _, _ => by simp [mark]
  | _, [], _ :: _, h, _ => by simp at h
  | _, _ :: _, [], h, _ => by simp at h
  | k, e :: es, n :: ns, h, hn => by
    rw [mark, if_neg (hn n (by simp)), mark_none o (k + 1) es ns (by simpa using h) (fun m hm => hn m (by simp [hm]))]
    rfl

theorem eqsOf_cons (x : Str) (e : Expr) (l : List Out) : eqsOf (.eq x e :: l) = (x, e) :: eqsOf l := rfl

theorem eqsOf_cons' (e : Expr) (l : List Out) : eqsOf (.ex e :: l) = eqsOf l := rfl

/-- What `mark` returns. -/
theorem mark_some (o : Opts) : ∀ (k : ℕ) (es : List Expr) (outs : List Str), outs.length = es.length →
    k + outs.length ≤ o.SCALAR_TMP_sympyexprs.length → ∃ l r, mark o k es outs = .ok (l, r) ∧
      eqsOf l = (((o.SCALAR_TMP_sympyexprs.drop k).zip (outs.zip es)).filter
        fun t => t.2.1 ∈ o.SCALAR_TMP_varnames).map (fun t => (t.1, t.2.2)) ∧
      r.zip (exsOf l) = (outs.zip es).filter (fun p => p.1 ∉ o.SCALAR_TMP_varnames) ∧
      r.length = (exsOf l).length ∧ ∀ x ∈ l, rhsOf x ∈ es
  | _, [], [], _, _ => ⟨[], [], by simp [mark], by simp [eqsOf], by simp [exsOf], by simp [exsOf], by simp⟩
  | _, [], _ :: _, h, _ => by simp at h
  | _, _ :: _, [], h, _ => by simp at h
  | k, e :: es, n :: ns, h, hk => by
    simp only [List.length_cons] at hk
    obtain ⟨l, r, h1, h2, h3, h4, h5⟩ := mark_some o (k + 1) es ns (by simpa using h) (by omega)
    have hlt : k < o.SCALAR_TMP_sympyexprs.length := by omega
    have hd : o.SCALAR_TMP_sympyexprs.drop k = o.SCALAR_TMP_sympyexprs[k] :: o.SCALAR_TMP_sympyexprs.drop (k + 1) :=
      List.drop_eq_getElem_cons hlt
    rw [hd]
    by_cases hn : n ∈ o.SCALAR_TMP_varnames
    · refine ⟨.eq o.SCALAR_TMP_sympyexprs[k] e :: l, r, ?_, ?_, ?_, ?_, ?_⟩
      · rw [mark, if_pos hn, List.getElem?_eq_getElem hlt]; simp only [h1]
      · rw [eqsOf_cons, h2]; simp only [List.zip_cons_cons, List.filter_cons, hn, decide_true, if_true, List.map_cons]
      · simp [exsOf, hn] at h3 ⊢; exact h3
      · simpa [exsOf] using h4
      · intro x hx
        rcases List.mem_cons.1 hx with rfl | hx
        · simp [rhsOf]
        · exact List.mem_cons_of_mem _ (h5 x hx)
    · refine ⟨.ex e :: l, n :: r, ?_, ?_, ?_, ?_, ?_⟩
      · rw [mark, if_neg hn]; simp only [h1]
      · rw [eqsOf_cons', h2]; simp only [List.zip_cons_cons, List.filter_cons, hn, decide_false, Bool.false_eq_true, if_false]
      · simp [exsOf, hn] at h3 ⊢; exact h3
      · simpa [exsOf] using h4
      · intro x hx
        rcases List.mem_cons.1 hx with rfl | hx
        · simp [rhsOf]
        · exact List.mem_cons_of_mem _ (h5 x hx)

theorem eqsOf_ex (es : List Expr) : eqsOf (es.map .ex) = [] := by simp [eqsOf, List.filterMap_map]

theorem exsOf_ex (es : List Expr) : exsOf (es.map .ex) = es := by simp [exsOf, List.filterMap_map]

theorem mark_spec (o : Opts) (es : List Expr) (outs : List Str) (hl : outs.length = es.length)
    (hs : (∃ n ∈ outs, n ∈ o.SCALAR_TMP_varnames) → outs.length ≤ o.SCALAR_TMP_sympyexprs.length) :
    ∃ l r, mark o 0 es outs = .ok (l, r) ∧ eqsOf l = scalars o es outs ∧ r.zip (exsOf l) = plain o es outs ∧
      r.length = (exsOf l).length ∧ ∀ x ∈ l, rhsOf x ∈ es := by
  by_cases h : ∃ n ∈ outs, n ∈ o.SCALAR_TMP_varnames
  · obtain ⟨l, r, h1, h2, h3, h4, h5⟩ := mark_some o 0 es outs hl (by simpa using hs h)
    exact ⟨l, r, h1, by simpa [scalars] using h2, by simpa [plain] using h3, h4, h5⟩
  · push Not at h
    refine ⟨_, _, mark_none o 0 es outs hl h, ?_, ?_, ?_, ?_⟩
    · rw [eqsOf_ex, scalars]
      symm
      rw [List.map_eq_nil_iff, List.filter_eq_nil_iff]
      rintro ⟨s, n, e⟩ hm
      have : n ∈ outs := (List.of_mem_zip (List.of_mem_zip hm).2).1
      simpa using h n this
    · rw [exsOf_ex, plain]
      symm
      rw [List.filter_eq_self]
      rintro ⟨n, e⟩ hm
      simpa using h n (List.of_mem_zip hm).1
    · rw [exsOf_ex, hl]
    · intro x hx
      obtain ⟨e, he, rfl⟩ := List.mem_map.1 hx
      exact he

/-! ## Pre-processing -/

theorem reserved_not_temp {pre n : Str} (h : Reserved pre n) : ¬ IsTemp pre n := by
  obtain ⟨q, -, rfl⟩ := h
  rintro ⟨k, hk⟩
  unfold constName ratName negName at hk
  split at hk
  · rw [List.append_assoc] at hk
    exact absurd (List.append_cancel_left hk) (by simp)
  · split at hk <;>
    · simp only [List.append_assoc] at hk
      exact absurd (List.append_cancel_left hk) (by simp)

theorem withTable_keys {T : Dict Str ℚ} {ρ : Str → K} {n : Str} (h : n ∉ T.keys) : withTable T ρ n = ρ n := by
  unfold withTable
  cases hg : Dict.get? T n with
  | none => rfl
  | some v => exact absurd ((Dict.mem_keys_iff T n).2 ⟨v, hg⟩) h

theorem pre_spec {I : Interp K} {L : Lib} {o : Opts} {es : List Expr} (hL : LibOk I L o.cse_varprefix)
    (hf : o.enable_cse_preprocess = true → o.symbol_to_Rational_dict = [] →
      ∀ e ∈ es, Fine ⟨o.cse_varprefix, false, true, false⟩ L.isFun e)
    (hr : o.enable_cse_preprocess = true → o.symbol_to_Rational_dict = [] →
      ∀ e ∈ es, ∀ n ∈ e.free, ¬ Reserved o.cse_varprefix n)
    (ht : o.symbol_to_Rational_dict.Wf) :
    ∃ es' T, preStage L o es = .ok (es', T) ∧ T.Wf ∧
      (∀ n ∈ T.keys, n ∈ o.symbol_to_Rational_dict.keys ∨
        (o.enable_cse_preprocess = true ∧ Reserved o.cse_varprefix n)) ∧
      List.Forall₂ (fun e e' => (∀ ρ : Str → K, eval I (withTable T ρ) e' =
          eval I (withTable o.symbol_to_Rational_dict ρ) e) ∧ ∀ n ∈ e'.free, n ∈ e.free ∨ n ∈ T.keys) es es' := by
  unfold preStage
  by_cases h : o.enable_cse_preprocess = true ∧ o.symbol_to_Rational_dict = []
  · rw [if_pos h, h.1]
    obtain ⟨es', T, h1, h2, h3, h4⟩ := preprocess_done (o := ⟨o.cse_varprefix, false, true, false⟩) (I := I)
      (isFun := L.isFun) (collect := L.collect) (by simp) hL.collect L.fuel es (hf h.1 h.2) (hr h.1 h.2)
    refine ⟨es', T, by rw [h1], h2, fun n hn => ?_, ?_⟩
    · obtain ⟨q, hq⟩ := (Dict.mem_keys_iff _ _).1 hn
      exact .inr ⟨rfl, q, h3 n q hq⟩
    · rw [h.2]
      refine h4.imp fun e e' hh => ?_
      simp only [Bool.false_eq_true, if_false] at hh
      exact ⟨fun ρ => (hh.1 ρ).trans rfl, hh.2⟩
  · rw [if_neg h]
    refine ⟨es, _, rfl, ht, fun n hn => .inl hn, ?_⟩
    exact List.forall₂_same.2 fun e _ => ⟨fun ρ => rfl, fun n hn => .inl hn⟩

theorem filter_zip_forall2 {P : Expr → Expr → Prop} {q : Str → Bool} : ∀ {es es' : List Expr} {outs : List Str},
    List.Forall₂ P es es' → List.Forall₂ (fun a b : Repl => a.1 = b.1 ∧ P a.2 b.2)
      ((outs.zip es).filter fun p => q p.1) ((outs.zip es').filter fun p => q p.1)
  | _, _, [], _ => by simp
  | _, _, n :: outs, .nil => by simp
  | _, _, n :: outs, .cons (l₁ := l₁) (l₂ := l₂) h t => by
    simp only [List.zip_cons_cons, List.filter_cons]
    split
    · exact .cons ⟨rfl, h⟩ (filter_zip_forall2 t)
    · exact filter_zip_forall2 t

theorem scalars_forall2 {P : Expr → Expr → Prop} (o : Opts) {es es' : List Expr} {outs : List Str}
    (h : List.Forall₂ P es es') : List.Forall₂ (fun a b : Repl => a.1 = b.1 ∧ P a.2 b.2)
      (scalars o es outs) (scalars o es' outs) := by
  unfold scalars
  generalize o.SCALAR_TMP_sympyexprs = ss
  induction h generalizing outs ss with
  | nil => simp
  | cons h t ih =>
    cases outs with
    | nil => simp
    | cons n outs =>
      cases ss with
      | nil => simp
      | cons s ss =>
        simp only [List.zip_cons_cons, List.filter_cons]
        split
        · exact .cons ⟨rfl, h⟩ (ih ss)
        · exact ih ss

theorem forall2_names {P : Repl → Repl → Prop} {A B : List Repl}
    (h : List.Forall₂ (fun a b : Repl => a.1 = b.1 ∧ P a b) A B) : names A = names B := by
  induction h with
  | nil => rfl
  | cons h _ ih => simp only [names, List.map_cons, h.1]; exact congrArg _ ih

theorem forall2_mem' {α β : Type} {P : α → β → Prop} {a : List α} {b : List β} (h : List.Forall₂ P a b) {x : α}
    (hx : x ∈ a) : ∃ y ∈ b, P x y := by
  obtain ⟨y, hy, hp⟩ := forall2_mem (List.Forall₂.flip h) hx
  exact ⟨y, hy, hp⟩

/-! ## The property -/

/-- **C78.**  Common subexpression elimination on, no renaming.  For every list of expressions and output names that is
`Clean`, and every SymPy within `LibOk`, code generation succeeds.  In the emitted statements nothing is declared twice,
and what a statement uses is declared before it or is a symbol of the expressions, which the table does not contain.
Running them in any state `σ` gives every output the value of its expression, in which the symbols have their values in
`σ`, those of the given table the values of the table, and the scalar temporaries the values of their expressions (`ρ`).
Nothing else is changed but temporaries and constants. -/
theorem C78_value_partial (I : Interp K) (L : Lib) (o : Opts) (es : List Expr) (outs : List Str)
    (hcse : o.enable_cse = true) (hsub : o.postproc_substitution_dict = [])
    (hL : LibOk I L o.cse_varprefix) (hC : Clean o es outs)
    (hf : o.enable_cse_preprocess = true → o.symbol_to_Rational_dict = [] →
      ∀ e ∈ es, Fine ⟨o.cse_varprefix, false, true, false⟩ L.isFun e) :
    ∃ p, cCodegen L o es outs = .ok p ∧ (names p.code).Nodup ∧
      (∀ A x e B, p.code = A ++ (x, e) :: B → ∀ n ∈ e.free, n ∈ names A ∨
        (n ∉ names p.code ∧ n ∉ o.symbol_to_Rational_dict.keys ∧ n ∉ names (scalars o es outs) ∧ ∃ e' ∈ es, n ∈ e'.free)) ∧
      (∀ σ ρ : Str → K, (∀ n, n ∉ names (scalars o es outs) → ρ n = withTable o.symbol_to_Rational_dict σ n) →
        Sol I ρ (scalars o es outs) → ∀ q ∈ plain o es outs, exec I p.code σ q.1 = eval I ρ q.2) ∧
      ∀ (σ : Str → K) n, ¬ Taken o n → n ∉ names (scalars o es outs) → n ∉ names (plain o es outs) →
        exec I p.code σ n = σ n := by
  obtain ⟨es', T, p1, p2, p3, p4⟩ := pre_spec hL hf hC.not_reserved hC.table
  have hlen' : outs.length = es'.length := by rw [hC.len, p4.length_eq]
  obtain ⟨ins, rnames, m1, m2, m3, m4, m5⟩ := mark_spec o es' outs hlen' hC.syms
  have sc := scalars_forall2 o (outs := outs) p4
  have pl : List.Forall₂ _ (plain o es outs) (plain o es' outs) :=
    filter_zip_forall2 (q := fun n => decide (n ∉ o.SCALAR_TMP_varnames)) (outs := outs) p4
  have scn : names (scalars o es' outs) = names (scalars o es outs) := (forall2_names sc).symm
  have pln : names (plain o es' outs) = names (plain o es outs) := (forall2_names pl).symm
  set R := (L.cse o.cse_varprefix ins).1 with hR
  set red := (L.cse o.cse_varprefix ins).2 with hred
  have hok : CseOk I o.cse_varprefix ins R red := hL.cse ins
  have hTtaken : ∀ n ∈ T.keys, Taken o n := fun n hn => .inr (p3 n hn)
  have hkeys : ∀ n ∈ o.symbol_to_Rational_dict.keys, n ∈ T.keys := by
    intro n hk
    by_cases h : o.enable_cse_preprocess = true ∧ o.symbol_to_Rational_dict = []
    · rw [h.2] at hk; simp [Dict.keys] at hk
    · unfold preStage at p1
      rw [if_neg h] at p1
      rw [← (Prod.mk.inj (Except.ok.inj p1)).2]; exact hk
  have hTtemp : ∀ n ∈ T.keys, ¬ IsTemp o.cse_varprefix n := by
    intro n hn
    rcases p3 n hn with h | h
    · exact hC.table_temp n h
    · exact reserved_not_temp h.2
  -- the equations for the scalar temporaries are as before
  have hsn : (names (eqsOf ins)).Nodup := by rw [m2, scn]; exact hC.scalars_nodup
  have hTs : ∀ n ∈ names (scalars o es outs), n ∉ T.keys := fun n hn hk => hC.scalars_free n hn (hTtaken n hk)
  have hsa : Acyclic (eqsOf ins) := by
    obtain ⟨rank, hr⟩ := hC.scalars_acyclic
    refine ⟨rank, fun q hq n hn hmem => ?_⟩
    rw [m2] at hq hmem
    rw [scn] at hmem
    obtain ⟨q0, hq0, e1, -, e3⟩ := forall2_mem sc hq
    rw [← e1]
    exact hr q0 hq0 n ((e3 n hn).resolve_right (hTs n hmem)) hmem
  have hnd := hok.all_nodup hsn
  have hac := hok.acyclic hsa
  obtain ⟨r, res, q1, q2, q3, q4, q5, q6, q7⟩ := C24_postprocess I L.canon hL.canon L.str R red hnd hac
  have hlenres : rnames.length = res.length := by
    rw [m4, q6]
    have := exsOf_map_kind (I := I) (ρ := exec I R fun _ => 0) hok.kind (hok.value.imp fun i o h =>
      h _ (exec_sol (T := names R) R [] _ (by simpa using hok.nodup) (fun _ h => h) hok.ordered))
    simpa using (congrArg List.length this).symm
  -- names
  have hEn : ∀ n ∈ names (R ++ eqsOf red), IsTemp o.cse_varprefix n ∨ n ∈ names (scalars o es outs) := by
    intro n hn
    rw [hok.names_all, List.mem_append, m2, scn] at hn
    exact hn.imp_left (hok.temp n)
  have hpl_sub : ∀ n ∈ names (plain o es outs), n ∈ outs := by
    intro n hn
    obtain ⟨q, hq, rfl⟩ := List.mem_map.1 hn
    exact (List.of_mem_zip (a := q.1) (b := q.2) (List.mem_of_mem_filter hq)).1
  have hrn : names (rnames.zip res) = names (plain o es outs) := by
    rw [← pln, ← m3]
    have e1 : names (rnames.zip res) = rnames := by rw [names, List.map_fst_zip hlenres.le]
    have e2 : names (rnames.zip (exsOf ins)) = rnames := by rw [names, List.map_fst_zip m4.le]
    rw [e1, e2]
  have hplnd : (names (plain o es outs)).Nodup := by
    have h1 : (names (outs.zip es)).Nodup := by rw [names, List.map_fst_zip hC.len.le]; exact hC.nodup
    have h2 : (names (plain o es outs)).Sublist (names (outs.zip es)) := List.Sublist.map _ List.filter_sublist
    exact h2.nodup h1
  have hins_rhs : ∀ x ∈ ins, ∀ n ∈ (rhsOf x).free, (∃ e ∈ es, n ∈ e.free) ∨ n ∈ T.keys := by
    intro x hx n hn
    obtain ⟨e, he, -, h3⟩ := forall2_mem p4 (m5 x hx)
    exact (h3 n hn).imp_left fun h => ⟨e, he, h⟩
  have hout_ins : ∀ n ∈ outs, ∀ x ∈ ins, n ∉ symsOf x := by
    intro n hn x hx hs
    have h1 : n ∉ (rhsOf x).free := by
      intro h
      rcases hins_rhs x hx n h with ⟨e, he, h⟩ | h
      · exact hC.no_alias n hn e he h
      · exact (hC.outs_free n hn).1 (hTtaken n h)
    cases x with
    | ex e => exact h1 hs
    | eq y e =>
      rcases List.mem_cons.1 hs with rfl | hs
      · have : n ∈ names (eqsOf ins) := List.mem_map.2 ⟨(n, e), mem_eqsOf.2 hx, rfl⟩
        rw [m2, scn] at this
        exact (hC.outs_free n hn).2 this
      · exact h1 hs
  have hout_R : ∀ n ∈ outs, n ∉ names R := fun n hn hh => (hC.outs_free n hn).1 (.inl (hok.temp n hh))
  have hfresh : ∀ n ∈ outs, (∀ q ∈ r, n ∉ q.2.free) ∧ ∀ e ∈ res, n ∉ e.free := by
    intro n hn
    obtain ⟨f1, f2, f3⟩ := hok.fresh n (hout_R n hn) (hout_ins n hn)
    exact postprocess_free hL.canon hnd hac q1 n f1 f2 f3
  have hr_out : ∀ n ∈ names r, n ∉ outs := by
    intro n hn ho
    rcases hEn n (q3 n hn) with h | h
    · exact (hC.outs_free n ho).1 (.inl h)
    · exact (hC.outs_free n ho).2 h
  have hr_T : ∀ n ∈ names r, n ∉ T.keys := by
    intro n hn hk
    rcases hEn n (q3 n hn) with h | h
    · exact hTtemp n hk h
    · exact hTs n h hk
  have hTn : names (T.map fun c => (c.1, Expr.num c.2)) = T.keys := by simp [names, Dict.keys]
  let p : Prog := ⟨T, r, rnames.zip res⟩
  have hcode : p.code = T.map (fun c => (c.1, Expr.num c.2)) ++ r ++ rnames.zip res := rfl
  have hnames : names p.code = T.keys ++ names r ++ names (plain o es outs) := by
    rw [hcode, ← hTn, ← hrn]; simp [names]
  refine ⟨p, ?_, ?_, ?_, ?_, ?_⟩
  · unfold cCodegen
    rw [if_neg (by simp [hC.len]), if_neg (by simp [hcse])]
    simp only [p1, m1, ← hR, ← hred, q1, emitTemps, hsub]
    have : (emitOut L o) = id := by funext e; simp [emitOut, hsub]
    simp [p, this]
  · rw [hnames]
    refine List.nodup_append'.2 ⟨List.nodup_append'.2 ⟨p2, q2, fun n hn hm => hr_T n hm hn⟩, hplnd, ?_⟩
    intro n hn hm
    have ho := hpl_sub n hm
    rcases List.mem_append.1 hn with h | h
    · exact (hC.outs_free n ho).1 (hTtaken n h)
    · exact hr_out n h ho
  · intro A x e B hAB n hn
    -- the statement is a constant, a temporary or an output
    have hloc : e.free = [] ∨ ((∀ m ∈ T.keys, m ∈ names A) ∧
        ((∃ A' C', r = A' ++ (x, e) :: C' ∧ ∀ m ∈ names A', m ∈ names A) ∨
          (e ∈ res ∧ ∀ m ∈ names r, m ∈ names A))) := by
      rw [hcode, List.append_assoc] at hAB
      rcases List.append_eq_append_iff.1 hAB with ⟨A', hA, hB⟩ | ⟨C', hC', hB⟩
      · have hA1 : ∀ m ∈ names A', m ∈ names A := by
          intro m hm; rw [hA]; simp only [names, List.map_append, List.mem_append]; exact .inr hm
        refine .inr ⟨fun m hm => ?_, ?_⟩
        · rw [hA, ← hTn] at *
          simp only [names, List.map_append, List.mem_append]
          exact .inl hm
        · rcases List.append_eq_append_iff.1 hB with ⟨A2, hA2, hB2⟩ | ⟨C2, hC2, hB2⟩
          · have : (x, e) ∈ rnames.zip res := by rw [hB2]; simp
            refine .inr ⟨(List.of_mem_zip this).2, fun m hm => hA1 m ?_⟩
            rw [hA2]; simp only [names, List.map_append, List.mem_append]; exact .inl hm
          · cases C2 with
            | nil =>
              simp only [List.nil_append] at hB2
              have : (x, e) ∈ rnames.zip res := by rw [← hB2]; simp
              refine .inr ⟨(List.of_mem_zip this).2, fun m hm => hA1 m ?_⟩
              rw [List.append_nil] at hC2
              rw [← hC2]; exact hm
            | cons c C2 =>
              simp only [List.cons_append, List.cons.injEq] at hB2
              obtain ⟨rfl, -⟩ := hB2
              exact .inl ⟨A', C2, hC2, hA1⟩
      · cases C' with
        | nil =>
          simp only [List.nil_append, List.append_nil] at hC' hB
          refine .inr ⟨fun m hm => by rw [← hC', hTn]; exact hm, ?_⟩
          cases hr : r with
          | nil =>
            rw [hr] at hB
            have : (x, e) ∈ rnames.zip res := by rw [← List.nil_append (rnames.zip res), ← hB]; simp
            exact .inr ⟨(List.of_mem_zip this).2, fun m hm => by simp [names] at hm⟩
          | cons c r' =>
            rw [hr, List.cons_append] at hB
            obtain ⟨hB1, -⟩ := List.cons.inj hB
            exact .inl ⟨[], r', by rw [hB1]; rfl, fun m hm => by simp [names] at hm⟩
        | cons c C' =>
          obtain ⟨hB1, -⟩ := List.cons.inj hB
          have : (x, e) ∈ T.map (fun c => (c.1, Expr.num c.2)) := by rw [hC', ← hB1]; simp
          obtain ⟨t, -, ht⟩ := List.mem_map.1 this
          have he : e = .num t.2 := (congrArg Prod.snd ht).symm
          exact .inl (by rw [he]; simp)
    rcases hloc with h0 | ⟨hTA, hrA⟩
    · rw [h0] at hn; cases hn
    · -- a symbol defined by `cse` or a scalar temporary
      by_cases hE : n ∈ names (R ++ eqsOf red)
      · left
        rcases hrA with ⟨A', C', h1, h2⟩ | ⟨h1, h2⟩
        · exact h2 n (q4 A' x e C' h1 n hn hE)
        · exact h2 n (q5 e h1 n hn hE)
      · by_cases hT : n ∈ T.keys
        · exact .inl (hTA n hT)
        · have hEn' := hE
          rw [hok.names_all, List.mem_append, m2, scn] at hEn'
          push Not at hEn'
          have hsrc : ∃ e' ∈ es, n ∈ e'.free := by
            by_contra hno
            push Not at hno
            have hins : ∀ y ∈ ins, n ∉ symsOf y := by
              intro y hy hs
              have h1 : n ∉ (rhsOf y).free := by
                intro h
                rcases hins_rhs y hy n h with ⟨e', he', h⟩ | h
                · exact hno e' he' h
                · exact hT h
              cases y with
              | ex e => exact h1 hs
              | eq y e =>
                rcases List.mem_cons.1 hs with rfl | hs
                · have : n ∈ names (eqsOf ins) := List.mem_map.2 ⟨(n, e), mem_eqsOf.2 hy, rfl⟩
                  rw [m2, scn] at this
                  exact hEn'.2 this
                · exact h1 hs
            obtain ⟨f1, f2, f3⟩ := hok.fresh n hEn'.1 hins
            have hf := postprocess_free hL.canon hnd hac q1 n f1 f2 f3
            rcases hrA with ⟨A', C', h1, -⟩ | ⟨h1, -⟩
            · exact hf.1 (x, e) (by rw [h1]; simp) hn
            · exact hf.2 e h1 hn
          refine .inr ⟨?_, fun hk => hT (hkeys n hk), hEn'.2, hsrc⟩
          rw [hnames]
          intro hm
          rcases List.mem_append.1 hm with h | h
          · rcases List.mem_append.1 h with h | h
            · exact hT h
            · exact hE (q3 n h)
          · obtain ⟨e', he', h'⟩ := hsrc
            exact hC.no_alias n (hpl_sub n h) e' he' h'
  · intro σ ρ hσ hρ q hq
    rw [hcode, exec_append, exec_append, exec_consts I T p2]
    -- the valuation of the pre-processed problem
    have hρs : withTable o.symbol_to_Rational_dict ρ = ρ := by
      funext n
      by_cases hk : n ∈ o.symbol_to_Rational_dict.keys
      · have hns : n ∉ names (scalars o es outs) := fun h => hC.scalars_free n h (.inr (.inl hk))
        obtain ⟨v, hv⟩ := (Dict.mem_keys_iff _ _).1 hk
        rw [hσ n hns]
        simp [withTable, hv]
      · exact withTable_keys hk
    have hsol : Sol I (withTable T ρ) (eqsOf ins) := by
      intro s hs
      rw [m2] at hs
      obtain ⟨s0, hs0, e1, e2, -⟩ := forall2_mem sc hs
      have hsn : s.1 ∈ names (scalars o es outs) := by rw [← scn]; exact List.mem_map.2 ⟨s, hs, rfl⟩
      rw [e2 ρ, hρs, withTable_keys (hTs _ hsn), ← e1]
      exact hρ s0 hs0
    obtain ⟨x1, x2, x3⟩ := hok.extend (withTable T ρ) hsol
    have hagree : ∀ n, n ∉ names (R ++ eqsOf red) → exec I R (withTable T ρ) n = withTable T σ n := by
      intro n hn
      rw [hok.names_all, List.mem_append, m2, scn] at hn
      push Not at hn
      rw [x1 n hn.1]
      unfold withTable
      cases hg : Dict.get? T n with
      | some v => rfl
      | none =>
        simp only
        rw [hσ n hn.2]
        apply withTable_keys
        intro hk
        have : n ∈ T.keys := hkeys n hk
        obtain ⟨v, hv⟩ := (Dict.mem_keys_iff _ _).1 this
        rw [hg] at hv; cases hv
    have hres := q7 (withTable T σ) _ hagree x2
    rw [x3] at hres
    -- the statement of the output
    obtain ⟨q', hq', e1, e2, -⟩ := forall2_mem' pl hq
    rw [← m3] at hq'
    obtain ⟨i, hi, hqi⟩ := List.getElem_of_mem hq'
    simp only [List.length_zip] at hi
    have hi1 : i < rnames.length := by omega
    have hi2 : i < (exsOf ins).length := by omega
    have hi3 : i < res.length := by omega
    rw [List.getElem_zip] at hqi
    have hout : (rnames[i], res[i]) ∈ rnames.zip res := by
      refine List.mem_iff_getElem.2 ⟨i, by simp only [List.length_zip]; omega, ?_⟩
      rw [List.getElem_zip]
    have hO := exec_outs (I := I) (rnames.zip res) (by rw [hrn]; exact hplnd)
      (fun a ha n hn => (hfresh n (hpl_sub n (by rw [← hrn]; exact hn))).2 a.2 (List.of_mem_zip (a := a.1) (b := a.2) ha).2)
      (exec I r (withTable T σ)) _ hout
    have hn1 : q.1 = rnames[i] := by rw [e1, ← hqi]
    rw [hn1, hO]
    have hv : eval I (exec I r (withTable T σ)) res[i] = eval I (withTable T ρ) (exsOf ins)[i] := by
      have := congrArg (fun l => l[i]?) hres
      simpa [List.getElem?_eq_getElem, hi3, hi2] using this
    have hn2 : (exsOf ins)[i] = q'.2 := by rw [← hqi]
    simp only
    rw [hv, hn2, e2 ρ, hρs]
  · intro σ n h1 h2 h3
    apply exec_not_mem
    rw [hnames]
    intro hm
    rcases List.mem_append.1 hm with h | h
    · rcases List.mem_append.1 h with h | h
      · exact h1 (hTtaken n h)
      · rcases hEn n (q3 n h) with h | h
        · exact h1 (.inl h)
        · exact h2 h
    · exact h3 h

theorem scalars_nil (o : Opts) (es : List Expr) (outs : List Str) (h : o.SCALAR_TMP_varnames = []) :
    scalars o es outs = [] := by
  simp [scalars, h]

theorem plain_all (o : Opts) (es : List Expr) (outs : List Str) (h : o.SCALAR_TMP_varnames = []) :
    plain o es outs = outs.zip es := by
  simp [plain, h]

/-- The values `ρ` in `C78_value_partial` exist and are unique for every state `σ`. -/
theorem C78_scalars_exist (I : Interp K) (o : Opts) (es : List Expr) (outs : List Str) (hC : Clean o es outs)
    (σ : Str → K) : ∃ ρ : Str → K,
      ((∀ n, n ∉ names (scalars o es outs) → ρ n = withTable o.symbol_to_Rational_dict σ n) ∧
        Sol I ρ (scalars o es outs)) ∧
      ∀ ρ' : Str → K, (∀ n, n ∉ names (scalars o es outs) → ρ' n = withTable o.symbol_to_Rational_dict σ n) →
        Sol I ρ' (scalars o es outs) → ρ' = ρ :=
  C24_solution_exists I _ hC.scalars_nodup hC.scalars_acyclic _

/-- **C78**, without scalar temporaries: the value of output number `i` is that of expression number `i` in the state
before the emitted code, with the constants of the given table. -/
theorem C78_value_plain (I : Interp K) (L : Lib) (o : Opts) (es : List Expr) (outs : List Str)
    (hcse : o.enable_cse = true) (hsub : o.postproc_substitution_dict = []) (hsc : o.SCALAR_TMP_varnames = [])
    (hL : LibOk I L o.cse_varprefix) (hC : Clean o es outs)
    (hf : o.enable_cse_preprocess = true → o.symbol_to_Rational_dict = [] →
      ∀ e ∈ es, Fine ⟨o.cse_varprefix, false, true, false⟩ L.isFun e) :
    ∃ p, cCodegen L o es outs = .ok p ∧ ∀ (σ : Str → K) (i : ℕ) (h1 : i < outs.length) (h2 : i < es.length),
      exec I p.code σ outs[i] = eval I (withTable o.symbol_to_Rational_dict σ) es[i] := by
  obtain ⟨p, h, -, -, hv, -⟩ := C78_value_partial I L o es outs hcse hsub hL hC hf
  refine ⟨p, h, fun σ i h1 h2 => ?_⟩
  refine hv σ (withTable o.symbol_to_Rational_dict σ) (fun n _ => rfl) ?_ (outs[i], es[i]) ?_
  · rw [scalars_nil o es outs hsc]; intro p hp; cases hp
  · rw [plain_all o es outs hsc]
    refine List.mem_iff_getElem.2 ⟨i, by simp only [List.length_zip]; omega, ?_⟩
    rw [List.getElem_zip]

/-- **C78**: names and expressions that do not match in number are rejected. -/
theorem C78_length (L : Lib) (o : Opts) (es : List Expr) (outs : List Str) (h : outs.length ≠ es.length) :
    cCodegen L o es outs = .error .valueError := by
  rw [cCodegen, if_pos h]

/-! ## Renaming, and common subexpression elimination off -/

/-- The state in which a symbol `s` with an entry `t` has the value of `s` followed by `t`. -/
def renamed (d : Dict Str Str) (σ : Str → K) (n : Str) : K := match d.get? n with
  | some t => σ (n ++ t)
  | none => σ n

theorem eval_xrep_sym {I : Interp K} {canon : Expr → Expr} (hc : CanonOk I canon) (ρ : Str → K) (x y : Str) (e : Expr) :
    eval I ρ (xrep canon x (.sym y) e) = eval I (Function.update ρ x (ρ y)) e := by
  unfold xrep
  split
  · rw [hc.value]
    by_cases hy : y = x
    · subst hy
      rw [Function.update_eq_self, eval_subst]
      simp
    · rw [← eval_subst I (Function.update ρ x (ρ y)) x (.sym y) e (by simp [hy])]
      apply eval_congr
      intro n hn
      rw [Function.update_of_ne]
      rcases free_subst x (.sym y) e n hn with h | h
      · exact h.2
      · simp only [free_sym, List.mem_singleton] at h
        rw [h.1]; exact hy
  · rename_i h
    apply eval_congr
    intro n hn
    rw [Function.update_of_ne]
    rintro rfl
    exact h hn

theorem eval_applySubst {I : Interp K} {L : Lib} (hc : CanonOk I L.canon) (ho : ∀ e n, n ∈ L.order e ↔ n ∈ e.free)
    (d : Dict Str Str) (hd : ∀ s t, d.get? s = some t → d.get? (s ++ t) = none) (σ : Str → K) (e : Expr) :
    eval I σ (applySubst L d e) = eval I (renamed d σ) e := by
  have key : ∀ (l : List Str) (e : Expr), eval I σ (l.foldl (fun e s => match d.get? s with
      | some t => xrep L.canon s (.sym (s ++ t)) e
      | none => e) e) = eval I (fun n => if n ∈ l then renamed d σ n else σ n) e := by
    intro l
    induction l with
    | nil => intro e; simp
    | cons s l ih =>
      intro e
      rw [List.foldl_cons, ih]
      cases hs : d.get? s with
      | none =>
        simp only
        congr 1
        funext n
        by_cases hn : n = s
        · subst hn; simp [renamed, hs]
        · simp [hn]
      | some t =>
        simp only
        rw [eval_xrep_sym hc]
        congr 1
        funext n
        by_cases hn : n = s
        · subst hn
          simp [renamed, hs, hd _ _ hs]
        · rw [Function.update_of_ne hn]; simp [hn]
  refine (key (L.order e) e).trans ?_
  apply eval_congr
  intro n hn
  simp [ho, hn]

/-- **C78**, common subexpression elimination off and no table: one statement per output, each output gets the value
of its expression, in which the renamed symbols are read under their new names.  Nothing else changes. -/
theorem C78_no_cse (I : Interp K) (L : Lib) (o : Opts) (es : List Expr) (outs : List Str)
    (hcse : o.enable_cse = false) (htab : o.symbol_to_Rational_dict = [])
    (hL : CanonOk I L.canon) (ho : ∀ e n, n ∈ L.order e ↔ n ∈ e.free)
    (hd : ∀ s t, o.postproc_substitution_dict.get? s = some t → o.postproc_substitution_dict.get? (s ++ t) = none)
    (hlen : outs.length = es.length) (hnd : outs.Nodup)
    (halias : ∀ n ∈ outs, ∀ e ∈ es, n ∉ e.free ∧ ∀ s t, s ∈ e.free →
      o.postproc_substitution_dict.get? s = some t → n ≠ s ++ t) :
    ∃ p, cCodegen L o es outs = .ok p ∧ names p.code = outs ∧
      (∀ (σ : Str → K) (i : ℕ) (h1 : i < outs.length) (h2 : i < es.length),
        exec I p.code σ outs[i] = eval I (renamed o.postproc_substitution_dict σ) es[i]) ∧
      ∀ (σ : Str → K) n, n ∉ outs → exec I p.code σ n = σ n := by
  have hev : ∀ σ e, eval I σ (emitOut L o e) = eval I (renamed o.postproc_substitution_dict σ) e := by
    intro σ e
    unfold emitOut
    split
    · exact eval_applySubst hL ho _ hd σ e
    · rename_i h
      push Not at h
      rw [h]; rfl
  refine ⟨⟨[], [], outs.zip (es.map (emitOut L o))⟩, ?_, ?_, ?_, ?_⟩
  · rw [cCodegen, if_neg (by simp [hlen]), if_pos hcse]
  · simp only [Prog.code, List.map_nil, List.nil_append, names]
    rw [List.map_fst_zip (by simp [hlen])]
  · intro σ i h1 h2
    simp only [Prog.code, List.map_nil, List.nil_append]
    rw [← hev]
    -- the statements before number `i` do not change what it reads
    have key : ∀ (outs' : List Str) (es' : List Expr) (σ' : Str → K) (i : ℕ) (h1 : i < outs'.length) (h2 : i < es'.length),
        outs'.Nodup → (∀ n ∈ outs', n ∈ outs) → (∀ e ∈ es', e ∈ es) →
        exec I (outs'.zip (es'.map (emitOut L o))) σ' outs'[i] = eval I σ' (emitOut L o es'[i]) := by
      intro outs'
      induction outs' with
      | nil => intro es' σ' i h1; simp at h1
      | cons x outs' ih =>
        intro es' σ' i h1 h2 hnd' ho' he'
        cases es' with
        | nil => simp at h2
        | cons e es' =>
          simp only [List.map_cons, List.zip_cons_cons, exec]
          cases i with
          | zero =>
            simp only [List.getElem_cons_zero]
            rw [exec_not_mem, Function.update_self]
            intro hm
            obtain ⟨q, hq, hq'⟩ := List.mem_map.1 hm
            have hq2 : q.1 ∈ outs' := (List.of_mem_zip (a := q.1) (b := q.2) hq).1
            rw [hq'] at hq2
            exact (List.nodup_cons.1 hnd').1 hq2
          | succ i =>
            simp only [List.getElem_cons_succ]
            rw [ih es' _ i (by simpa using h1) (by simpa using h2) (List.nodup_cons.1 hnd').2
              (fun n hn => ho' n (List.mem_cons_of_mem _ hn)) (fun e he => he' e (List.mem_cons_of_mem _ he)), hev, hev, hev]
            have hx := halias x (ho' x (by simp)) (es'[i]'(by simpa using h2)) (he' _ (by simp))
            apply eval_congr
            intro n hn
            unfold renamed
            cases hg : o.postproc_substitution_dict.get? n with
            | none =>
              simp only
              rw [Function.update_of_ne]
              rintro rfl
              exact hx.1 hn
            | some t =>
              simp only
              rw [Function.update_of_ne]
              intro hh
              exact hx.2 n t hn hg hh.symm
    exact key outs es σ i h1 h2 hnd (fun _ h => h) (fun _ h => h)
  · intro σ n hn
    apply exec_not_mem
    simp only [Prog.code, List.map_nil, List.nil_append, names]
    rw [List.map_fst_zip (by simp [hlen])]
    exact hn

/-! ## A concrete case -/

section
def X : Expr := .sym (c% "x")
def Y : Expr := .sym (c% "y")
def Z : Expr := .sym (c% "z")
def XYZ : Expr := .app .mul [X, Y, Z]

/-- `(x*y*z)**2 + z` and `sin(x*y*z)` -/
def exEs : List Expr := [.app .add [.app .pow [XYZ, .num 2], Z], .app (.fn (c% "sin")) [XYZ]]

/-- A `cse` that finds `x*y*z` in these two, and nothing in other lists. -/
def exCse (pre : Str) (ins : List Out) : List Repl × List Out :=
  if ins = exEs.map .ex then
    let t := pre ++ (c% "tmp0")
    ([(t, XYZ)], [.ex (.app .add [.app .pow [.sym t, .num 2], Z]), .ex (.app (.fn (c% "sin")) [.sym t])])
  else ([], ins)

def exLib : Lib := ⟨exCse, id, fun _ => [], fun e _ => e, fun _ => true, free, 9⟩

theorem cseOk_refl (I : Interp K) (pre : Str) (ins : List Out) : CseOk I pre ins [] ins where
  temp := by simp [names]
  new := by simp [names]
  nodup := by simp [names]
  ordered := trivial
  kind := List.forall₂_same.2 fun o _ => by cases o <;> simp [SameKind]
  value := List.forall₂_same.2 fun o _ ρ _ => rfl
  deps := ⟨fun _ => [], by simp, by simp, List.forall₂_same.2 fun o _ n hn => ⟨by simp [names], fun _ => hn⟩⟩

theorem exLib_ok (I : Interp K) : LibOk I exLib [] where
  canon := ⟨fun _ _ => rfl, fun _ _ h => h⟩
  collect := ⟨fun _ _ _ => rfl, fun _ _ _ h => h, fun _ _ h => h⟩
  order := fun _ _ => Iff.rfl
  cse := by
    intro ins
    show CseOk I [] ins (exCse [] ins).1 (exCse [] ins).2
    unfold exCse
    split
    · rename_i h
      subst h
      simp only [exEs, List.map_cons, List.map_nil, XYZ, X, Y, Z]
      refine ⟨?_, ?_, ?_, ?_, ?_, ?_, ?_⟩
      · intro n hn
        simp only [names, List.map_cons, List.map_nil, List.mem_cons, List.not_mem_nil, or_false] at hn
        exact ⟨0, by rw [hn]; decide⟩
      · decide
      · decide
      · refine ⟨?_, trivial⟩; decide
      · exact .cons trivial (.cons trivial .nil)
      · refine .cons ?_ (.cons ?_ .nil) <;>
        · intro ρ h
          have := h _ List.mem_cons_self
          simp at this
          simp [rhsOf, this]
      · refine ⟨fun _ => [(c% "x"), (c% "y"), (c% "z")], ?_, ?_, ?_⟩
        · decide
        · decide
        · refine .cons ?_ (.cons ?_ .nil) <;> decide
    · exact cseOk_refl I _ ins
end

theorem not_isTemp_of_head (n : Str) (h : n.head? ≠ some 't') : ¬ IsTemp [] n := by
  rintro ⟨k, rfl⟩
  exact h rfl

def exOuts : List Str := [(c% "p"), (c% "q")]

theorem exClean : Clean { enable_cse_preprocess := true } exEs exOuts where
  len := rfl
  nodup := by decide
  outs_free := by
    intro n hn
    simp only [exOuts, List.mem_cons, List.not_mem_nil, or_false] at hn
    rcases hn with rfl | rfl <;>
    · refine ⟨?_, by decide⟩
      rintro (h | h | h)
      · exact not_isTemp_of_head _ (by decide) h
      · simp [Dict.keys] at h
      · exact not_reserved_of_head _ (by decide) h.2
  no_alias := by decide
  not_reserved := by
    intro _ _ e he n hn
    apply not_reserved_of_head
    revert e n
    decide
  table := by simp [Dict.Wf, Dict.keys]
  table_temp := by simp [Dict.keys]
  syms := by simp
  scalars_nodup := by decide
  scalars_free := by simp [scalars_nil, names]
  scalars_acyclic := ⟨fun _ => 0, by decide⟩

/-- The hypotheses of `C78_value_partial` hold of the example, with and without pre-processing, and the code is
`tmp0 = x*y*z; p = tmp0**2 + z; q = sin(tmp0)`. -/
example (I : Interp K) : LibOk I exLib [] ∧ Clean { enable_cse_preprocess := true } exEs exOuts ∧
    (cCodegen exLib {} exEs exOuts).toOption.map Prog.code = some
      [((c% "tmp0"), XYZ), ((c% "p"), .app .add [.app .pow [.sym (c% "tmp0"), .num 2], Z]),
       ((c% "q"), .app (.fn (c% "sin")) [.sym (c% "tmp0")])] :=
  ⟨exLib_ok I, exClean, by decide +kernel⟩

/-- `s = x*y*z` as a scalar temporary for the output `u`, and `p = s**2`. -/
def exSc : Opts := { SCALAR_TMP_varnames := [(c% "u")], SCALAR_TMP_sympyexprs := [(c% "s"), (c% "unused")] }

def exScEs : List Expr := [XYZ, .app .pow [.sym (c% "s"), .num 2]]

def exScOuts : List Str := [(c% "u"), (c% "p")]

theorem exSc_clean : Clean exSc exScEs exScOuts where
  len := rfl
  nodup := by decide
  outs_free := by
    intro n hn
    simp only [exScOuts, List.mem_cons, List.not_mem_nil, or_false] at hn
    rcases hn with rfl | rfl <;>
    · refine ⟨?_, by decide⟩
      rintro (h | h | h)
      · exact not_isTemp_of_head _ (by decide) h
      · simp [Dict.keys, exSc] at h
      · exact not_reserved_of_head _ (by decide) h.2
  no_alias := by decide
  not_reserved := by simp [exSc]
  table := by simp [Dict.Wf, Dict.keys, exSc]
  table_temp := by simp [Dict.keys, exSc]
  syms := by simp [exScOuts, exSc]
  scalars_nodup := by decide
  scalars_free := by
    have : names (scalars exSc exScEs exScOuts) = [(c% "s")] := by decide
    rw [this]
    intro n hn
    rw [List.mem_singleton.1 hn]
    rintro (h | h | h)
    · exact not_isTemp_of_head _ (by decide) h
    · simp [Dict.keys, exSc] at h
    · exact not_reserved_of_head _ (by decide) h.2
  scalars_acyclic := ⟨fun _ => 0, by decide⟩

/-- Here the specification is `p = s**2` with `s = x*y*z`, and the code is `s = x*y*z; p = s**2`. -/
example : plain exSc exScEs exScOuts = [((c% "p"), .app .pow [.sym (c% "s"), .num 2])] ∧
    scalars exSc exScEs exScOuts = [((c% "s"), XYZ)] ∧
    (cCodegen exLib exSc exScEs exScOuts).toOption.map Prog.code =
      some [((c% "s"), XYZ), ((c% "p"), .app .pow [.sym (c% "s"), .num 2])] := by decide +kernel

/-- The hypotheses of `C78_no_cse` on a renaming hold of `{"z": "_old"}`. -/
example : let d : Dict Str Str := [((c% "z"), (c% "_old"))]
    (∀ s t, d.get? s = some t → d.get? (s ++ t) = none) ∧
    (∀ n ∈ exOuts, ∀ e ∈ exEs, n ∉ e.free ∧ ∀ s t, s ∈ e.free → d.get? s = some t → n ≠ s ++ t) ∧
    (cCodegen exLib { enable_cse := false, postproc_substitution_dict := d } [XYZ] [(c% "p")]).toOption.map Prog.code =
      some [((c% "p"), .app .mul [X, Y, .sym (c% "z_old")])] := by
  have hd : ∀ s t, Dict.get? [((c% "z"), (c% "_old"))] s = some t → s = (c% "z") ∧ t = (c% "_old") := by
    intro s t h
    simp only [Dict.get?] at h
    split at h
    · rename_i hs
      simp only [Option.some.injEq] at h
      exact ⟨by simpa using hs.symm, h.symm⟩
    · cases h
  refine ⟨fun s t h => ?_, fun n hn e he => ⟨?_, fun s t _ h => ?_⟩, by decide +kernel⟩
  · obtain ⟨rfl, rfl⟩ := hd s t h; decide
  · revert n e; decide
  · obtain ⟨rfl, rfl⟩ := hd s t h
    revert n; decide

/-! ## What does not hold -/

/-- An output that is also read: `c_codegen([y, x], ["x", "y"])` emits `x = y; y = x`, which does not swap. -/
theorem C78_alias_violation (I : Interp ℚ) : LibOk I exLib [] ∧
    ∃ p, cCodegen exLib {} [Y, X] [(c% "x"), (c% "y")] = .ok p ∧
      exec I p.code (fun n => if n = (c% "x") then 1 else 2) (c% "y") = 2 ∧
      eval I (fun n => if n = (c% "x") then 1 else 2) X = 1 := by
  refine ⟨exLib_ok I, ⟨[], [], [((c% "x"), Y), ((c% "y"), X)]⟩, rfl, ?_, ?_⟩
  · simp [Prog.code, exec, X, Y]
  · simp [X]

/-- Renaming together with common subexpression elimination raises `TypeError` as soon as a temporary is left. -/
theorem C78_dict_violation (L : Lib) (o : Opts) (es es' : List Expr) (outs : List Str) (T : Dict Str ℚ)
    (ins : List Out) (ns : List Str) (r : List Repl) (res : List Expr)
    (hcse : o.enable_cse = true) (hlen : outs.length = es.length) (hpre : preStage L o es = .ok (es', T))
    (hm : mark o 0 es' outs = .ok (ins, ns))
    (hpost : postprocess L.canon L.str (L.cse o.cse_varprefix ins).1 (L.cse o.cse_varprefix ins).2 = .ok (r, res))
    (hd : o.postproc_substitution_dict ≠ []) (hr : r ≠ []) : cCodegen L o es outs = .error .typeError := by
  unfold cCodegen
  rw [if_neg (by simp [hlen]), if_neg (by simp [hcse])]
  simp only [hpre, hm, hpost, emitTemps]
  rw [if_pos ⟨hd, hr⟩]

/-- For instance here. -/
theorem C78_dict_violation_example :
    cCodegen exLib { postproc_substitution_dict := [((c% "z"), (c% "_old"))] } exEs exOuts = .error .typeError := by
  refine C78_dict_violation exLib _ exEs exEs exOuts [] (exEs.map .ex) exOuts [((c% "tmp0"), XYZ)]
    [.app .add [.app .pow [.sym (c% "tmp0"), .num 2], Z], .app (.fn (c% "sin")) [.sym (c% "tmp0")]]
    rfl rfl rfl (mark_none _ 0 _ _ rfl (by simp)) ?_ (by simp) (by simp)
  have h : (postprocess exLib.canon exLib.str (exLib.cse [] (exEs.map .ex)).1 (exLib.cse [] (exEs.map .ex)).2).toOption =
      some ([((c% "tmp0"), XYZ)],
        [.app .add [.app .pow [.sym (c% "tmp0"), .num 2], Z], .app (.fn (c% "sin")) [.sym (c% "tmp0")]]) := by
    decide +kernel
  show postprocess exLib.canon exLib.str (exLib.cse [] (exEs.map .ex)).1 (exLib.cse [] (exEs.map .ex)).2 = _
  revert h
  cases postprocess exLib.canon exLib.str (exLib.cse [] (exEs.map .ex)).1 (exLib.cse [] (exEs.map .ex)).2 with
  | error e => intro h; cases h
  | ok v => intro h; exact congrArg _ (Option.some.inj h)

/-- With common subexpression elimination off the constants of the given table are not declared: the code for
`c_codegen(half, "p", symbol_to_Rational_dict={half: 1/2})` reads `half` without giving it a value. -/
theorem C78_table_violation (I : Interp ℚ) : let o : Opts := { enable_cse := false, symbol_to_Rational_dict := [((c% "half"), 1 / 2)] }
    ∃ p, cCodegen exLib o [.sym (c% "half")] [(c% "p")] = .ok p ∧ names p.code = [(c% "p")] ∧
      exec I p.code (fun _ => 7) (c% "p") = 7 ∧
      eval I (withTable o.symbol_to_Rational_dict fun _ => 7) (.sym (c% "half")) = 1 / 2 := by
  refine ⟨⟨[], [], [((c% "p"), .sym (c% "half"))]⟩, rfl, rfl, ?_, ?_⟩
  · simp [Prog.code, exec]
  · simp [withTable, Dict.get?]

/-- The symbols of scalar temporaries are found by the place of the output among all outputs: one symbol per marked
output is not enough. -/
theorem C78_index_violation :
    cCodegen exLib { SCALAR_TMP_varnames := [(c% "b")], SCALAR_TMP_sympyexprs := [(c% "s")] } [X, Y] [(c% "a"), (c% "b")] =
      .error .indexError := rfl

/-- When a new name is itself to be renamed, the result depends on the order in which a set is listed. -/
theorem C78_order_violation : let d : Dict Str Str := [((c% "x"), (c% "y")), ((c% "xy"), (c% "z"))]
    let e : Expr := .app .mul [X, .sym (c% "xy")]
    let L' : Lib := { exLib with order := fun e => e.free.reverse }
    applySubst exLib d e = .app .mul [.sym (c% "xyz"), .sym (c% "xyz")] ∧
    applySubst L' d e = .app .mul [.sym (c% "xy"), .sym (c% "xyz")] := by
  decide +kernel

end Verif.CodeGen
