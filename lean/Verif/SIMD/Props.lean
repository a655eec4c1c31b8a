import Verif.SIMD.Total

/-!
# C26: conversion to SIMD intrinsics keeps the value of every expression
-/
namespace Verif.SIMD
open Verif.Py Verif.Sympy Verif.Sympy.Expr

/-- The valuations the generated code can run with: every symbol of the table has its value, and the
symbol for one is one. -/
def Valuations (d : Table) (pre : Str) : Set (Str → ℝ) :=
  {ρ | Consistent d ρ ∧ ρ (oneSym pre) = 1}

/-- Expressions the conversion is meant for: sums and products have at least two arguments and known
functions the right number; the summands of a sum are pairwise different functions of the symbols; no
exponent is identically zero. -/
def Suitable (I : Interp ℝ) (d : Table) (pre : Str) (e : Expr) : Prop :=
  ∀ h l, (h, l) ∈ nodes e → match h with
    | .add => 2 ≤ l.length ∧
        l.Pairwise fun a b => ∃ ρ ∈ Valuations d pre, eval I ρ a ≠ eval I ρ b
    | .mul => 2 ≤ l.length
    | .pow => ∃ a x, l = [a, x] ∧ ∃ ρ ∈ Valuations d pre, eval I ρ x ≠ 0
    | .fn n => ∀ k, arityOf n = some k → l.length = k

theorem suitable_allN {I : Interp ℝ} {d : Table} {pre : Str} {e : Expr} (h : Suitable I d pre e) :
    AllN I (Valuations d pre) okS e := by
  rintro ⟨g, l⟩ hn
  have := h g l hn
  cases g with
  | add =>
    refine ⟨by simpa [okA] using this.1, fun _ => ?_, by simp⟩
    rw [List.Nodup, List.pairwise_map]
    refine this.2.imp fun {a b} h hab => ?_
    obtain ⟨ρ, hρ, hne⟩ := h
    exact hne (congrFun hab ⟨ρ, hρ⟩)
  | mul => exact ⟨by simpa [okA] using this, by simp, by simp⟩
  | pow =>
    obtain ⟨a, x, rfl, ρ, hρ, hne⟩ := this
    refine ⟨by simp [okA], by simp, ?_⟩
    intro _ b y hy h0
    simp only [List.map_cons, List.map_nil, List.cons.injEq, and_true] at hy
    exact hne (by rw [← hy.2] at h0; exact congrFun h0 ⟨ρ, hρ⟩)
  | fn n => exact okS_fn (by intro k hk; simpa using this k hk)

section
variable {I : Interp ℝ} {C : Set (Str → ℝ)}

/-- A pass from step 3 on. -/
def KeepPass (I : Interp ℝ) (C : Set (Str → ℝ)) (f : Table → Expr → Expr × Table) : Prop :=
  ∀ fuel d e e' d', topDown f fuel d e = some (e', d') → JC C d → AllN I C okA e →
    JC C d' ∧ V I C e' = V I C e ∧ AllN I C okA e'

theorem runPasses_keep {fuel : Nat} : ∀ (fs : List (Table → Expr → Expr × Table)),
    (∀ f ∈ fs, KeepPass I C f) → ∀ d e e' d', runPasses fuel fs d e = some (e', d') → JC C d →
      AllN I C okA e → JC C d' ∧ V I C e' = V I C e := by
  intro fs
  induction fs with
  | nil =>
    intro _ d e e' d' h hd _
    simp only [runPasses, Option.some.injEq, Prod.mk.injEq] at h
    obtain ⟨rfl, rfl⟩ := h
    exact ⟨hd, rfl⟩
  | cons f fs ih =>
    intro hfs d e e' d' h hd he
    rw [runPasses] at h
    split at h
    · cases h
    · next e1 d1 h1 =>
      obtain ⟨j, v, a⟩ := hfs f (by simp) _ _ _ _ _ h1 hd he
      obtain ⟨j', v'⟩ := ih (fun g hg => hfs g (by simp [hg])) _ _ _ _ h j a
      exact ⟨j', v'.trans v⟩

theorem runPasses_cons_some {fuel : Nat} {f : Table → Expr → Expr × Table}
    {fs : List (Table → Expr → Expr × Table)} {d d' : Table} {e e' : Expr}
    (h : runPasses fuel (f :: fs) d e = some (e', d')) :
    ∃ e1 d1, topDown f fuel d e = some (e1, d1) ∧ runPasses fuel fs d1 e1 = some (e', d') := by
  rw [runPasses] at h
  split at h
  · cases h
  · next e1 d1 h1 => exact ⟨e1, d1, h1, h⟩

theorem keepPass_late (hI : Sem I) (more : Bool) : ∀ f ∈
    [pureStep step3, pureStep step4] ++ (if more then [pureStep step5a] else []) ++ [pureStep step5b] ++
    (if more then [pureStep step5c] else []) ++
    [pureStep step5d, pureStep step5e, pureStep step5f, pureStep step5g], KeepPass I C f := by
  intro f hf
  simp only [List.mem_append, List.mem_cons, List.not_mem_nil, or_false] at hf
  rcases hf with ((((rfl | rfl) | hf) | rfl) | hf) | rfl | rfl | rfl | rfl
  · exact topDown_pure (fun d e _ he => step3_val hI d e he) (fun d e _ he => step3_ok d e he)
  · exact topDown_keeps fun d e hd => step4_keeps hI hd e
  · split at hf
    · simp at hf; rw [hf]; exact topDown_keeps fun d e hd => step5a_keeps hI e
    · simp at hf
  · exact topDown_keeps fun d e hd => step5b_keeps hI hd e
  · split at hf
    · simp at hf; rw [hf]; exact topDown_keeps fun d e hd => step5c_keeps hI e
    · simp at hf
  · exact topDown_keeps fun d e hd => step5d_keeps hI hd e
  · exact topDown_keeps fun d e hd => step5e_keeps hI hd e
  · exact topDown_keeps fun d e hd => step5f_keeps hI hd e
  · exact topDown_keeps fun d e hd => step5g_keeps hI e

theorem passes_val (hI : Sem I) {canon : Expr → Expr} (hc : CanonOk I canon) {pre : Str} {more : Bool}
    {fuel : Nat} (hC : ∀ ρ ∈ C, ρ (oneSym pre) = 1) (hne : C.Nonempty) {d d' : Table} {e e' : Expr}
    (h : runPasses fuel (passes canon pre more) d e = some (e', d')) (hd : JC C d)
    (he : AllN I C okS e) : JC C d' ∧ V I C e' = V I C e := by
  have hp : passes canon pre more = pureStep step1a :: step1b canon pre :: pureStep (step2 canon) ::
      ([pureStep step3, pureStep step4] ++ (if more then [pureStep step5a] else []) ++
        [pureStep step5b] ++ (if more then [pureStep step5c] else []) ++
        [pureStep step5d, pureStep step5e, pureStep step5f, pureStep step5g]) := rfl
  rw [hp] at h
  obtain ⟨e1, d1, h1, h⟩ := runPasses_cons_some h
  obtain ⟨e2, d2, h2, h⟩ := runPasses_cons_some h
  obtain ⟨e3, d3, h3, h⟩ := runPasses_cons_some h
  obtain ⟨j1, v1, a1⟩ := topDown_pure (J := JC C) (fun d e _ he => step1a_val hI d e he)
    (fun d e _ he => step1a_ok d e he) _ _ _ _ _ h1 hd he
  obtain ⟨j2, v2, a2⟩ := topDown_spec (J := JC C) (okP := okS) (okQ := okS)
    (fun d e hd _ => step1b_J (canon := canon) hC e hd)
    (fun d e hd he => step1b_val hI hc hC hne e hd he)
    (fun d e h l hd he hf a ha => by
      have := step1b_ok (pre := pre) hc hne (d := d) e he
      rw [hf, allN_app] at this
      exact this.2 a ha)
    (fun d e h l hd he hf => by
      have := step1b_ok (pre := pre) hc hne (d := d) e he
      rw [hf, allN_app] at this
      exact this.1) _ _ _ _ _ h2 j1 a1
  obtain ⟨j3, v3, a3⟩ := topDown_spec (f := pureStep (step2 canon)) (J := JC C) (okP := okS) (okQ := okA)
    (fun d e hd _ => hd)
    (fun d e hd he => step2_val hI hc e hd he)
    (fun d e h l hd he hf a ha => (step2_args hc hne e he hf).2 a ha)
    (fun d e h l hd he hf => (step2_args hc hne e he hf).1) _ _ _ _ _ h3 j2 a2
  obtain ⟨j4, v4⟩ := runPasses_keep _ (keepPass_late hI more) _ _ _ _ h j3 a3
  exact ⟨j4, v4.trans (v3.trans (v2.trans v1))⟩

end

/-- **C26** (values). If the conversion returns an expression, it has the value of the original one for
every valuation that gives the constants of the table their values, whatever SymPy's evaluation `canon`
does within `CanonOk`.  Partial: sums with summands that are equal as functions (`C26_repeated_summand`)
and zero exponents are excluded, and real arithmetic takes the place of floating point. -/
theorem C26_value_partial (I : Interp ℝ) (hI : Sem I) (canon : Expr → Expr) (hc : CanonOk I canon)
    (pre : Str) (moreFMAs clean : Bool) (fuel : Nat) (d d' : Table) (e e' : Expr)
    (he : Suitable I d pre e)
    (h : convert canon pre moreFMAs clean fuel d e = some (e', d'))
    (ρ : Str → ℝ) (hρ : Consistent d ρ) (h1 : ρ (oneSym pre) = 1) :
    eval I ρ e' = eval I ρ e := by
  unfold convert at h
  split at h
  · cases h
  · next e1 d1 hr =>
    simp only [Option.some.injEq, Prod.mk.injEq] at h
    obtain ⟨rfl, -⟩ := h
    have hmem : ρ ∈ Valuations d pre := ⟨hρ, h1⟩
    have := passes_val (C := Valuations d pre) hI hc (fun ρ hρ => hρ.2) ⟨ρ, hmem⟩ hr
      (fun ρ hρ => hρ.1) (suitable_allN he)
    exact congrFun this.2 ⟨ρ, hmem⟩

theorem unwrap_ok (I : Interp ℝ) : CanonOk I unwrap where
  val ρ e := by
    unfold unwrap
    split <;> simp [Interp.app]
  free e s hs := by
    unfold unwrap at hs
    split at hs <;> simp_all
  mulNodes l h m hn := by
    rcases unwrap_mul_cases l with h1 | ⟨x, h1, h2⟩ | ⟨h1, h2⟩
    · rw [h1] at hn; simp at hn
    · rw [h2] at hn; exact .inl ⟨x, by rw [h1]; simp, hn⟩
    · rw [h2, nodes_app] at hn
      rcases List.mem_cons.1 hn with hn | hn
      · simp only [Prod.mk.injEq] at hn
        obtain ⟨rfl, rfl⟩ := hn
        exact .inr (.inl ⟨rfl, h1⟩)
      · obtain ⟨a, ha, hn⟩ := List.mem_flatMap.1 hn
        exact .inl ⟨a, ha, hn⟩
  addRoot l g m h2 hs := by
    rcases unwrap_add_cases l with ⟨x, h1, -⟩ | h1
    · rw [h1] at h2; simp at h2
    · rw [h1] at hs
      simp only [Expr.app.injEq] at hs
      obtain ⟨rfl, rfl⟩ := hs
      exact .inr (.inl ⟨rfl, h2⟩)
  addArgs l g m h2 hs b hb h n hn := by
    rcases unwrap_add_cases l with ⟨x, h1, -⟩ | h1
    · rw [h1] at h2; simp at h2
    · rw [h1] at hs
      simp only [Expr.app.injEq] at hs
      obtain ⟨rfl, rfl⟩ := hs
      exact .inl ⟨b, hb, hn⟩

/-- **C26** (the conversion always returns). -/
theorem C26_terminates (pre : Str) (moreFMAs clean : Bool) (d : Table) (e : Expr) :
    ∃ N, ∀ fuel, N ≤ fuel → ∃ r, convert unwrap pre moreFMAs clean fuel d e = some r := by
  obtain ⟨N, hN⟩ := runPasses_succ _ (passes_succ pre moreFMAs) d e
  refine ⟨N, fun fuel hf => ?_⟩
  obtain ⟨⟨e', d'⟩, h⟩ := hN fuel hf
  exact ⟨_, by rw [convert, h]⟩

/-- An interpretation with the meanings of `Sem`. -/
noncomputable def stdInterp : Interp ℝ where
  pow x y := x ^ y
  fn n l :=
    if n = (c% "Abs") ∨ n = (c% "AbsSIMD") then |l.headD 0|
    else if n = (c% "exp") ∨ n = (c% "ExpSIMD") then Real.exp (l.headD 0)
    else if n = (c% "log") ∨ n = (c% "LogSIMD") then Real.log (l.headD 0)
    else if n = (c% "sin") ∨ n = (c% "SinSIMD") then Real.sin (l.headD 0)
    else if n = (c% "cos") ∨ n = (c% "CosSIMD") then Real.cos (l.headD 0)
    else if n = (c% "sign") ∨ n = (c% "SignSIMD") then Real.sign (l.headD 0)
    else if n = (c% "SqrtSIMD") then √(l.headD 0)
    else if n = (c% "CbrtSIMD") then (l.headD 0) ^ (1 / 3 : ℝ)
    else if n = (c% "PowSIMD") then (l.getD 0 0) ^ (l.getD 1 0)
    else if n = (c% "AddSIMD") then (l.getD 0 0) + (l.getD 1 0)
    else if n = (c% "SubSIMD") then (l.getD 0 0) - (l.getD 1 0)
    else if n = (c% "MulSIMD") then (l.getD 0 0) * (l.getD 1 0)
    else if n = (c% "DivSIMD") then (l.getD 0 0) / (l.getD 1 0)
    else if n = (c% "FusedMulAddSIMD") then (l.getD 0 0) * (l.getD 1 0) + l.getD 2 0
    else if n = (c% "FusedMulSubSIMD") then (l.getD 0 0) * (l.getD 1 0) - l.getD 2 0
    else if n = (c% "NegFusedMulAddSIMD") then -(l.getD 0 0) * (l.getD 1 0) + l.getD 2 0
    else if n = (c% "NegFusedMulSubSIMD") then -(l.getD 0 0) * (l.getD 1 0) - l.getD 2 0
    else 0

theorem stdInterp_sem : Sem stdInterp where
  pow x y := rfl
  abs x := by simp [stdInterp]
  exp x := by simp [stdInterp]
  log x := by simp [stdInterp]
  sin x := by simp [stdInterp]
  cos x := by simp [stdInterp]
  sign x := by simp [stdInterp]
  absS x := by simp [stdInterp]
  expS x := by simp [stdInterp]
  logS x := by simp [stdInterp]
  sinS x := by simp [stdInterp]
  cosS x := by simp [stdInterp]
  signS x := by simp [stdInterp]
  sqrtS x := by simp [stdInterp]
  cbrtS x := by simp [stdInterp]
  powS x y := by simp [stdInterp]
  addS x y := by simp [stdInterp]
  subS x y := by simp [stdInterp]
  mulS x y := by simp [stdInterp]
  divS x y := by simp [stdInterp]
  fma x y z := by simp [stdInterp]
  fms x y z := by simp [stdInterp]
  nfma x y z := by simp [stdInterp]
  nfms x y z := by simp [stdInterp]

/-! ### A concrete case: `-2 a b^(-2) - c` -/

def exD : Table := [((c% "_Integer_2"), 2), ((c% "_NegativeOne_"), -1)]
def exE : Expr := .app .add [
  .app .mul [.sym (c% "_NegativeOne_"), .sym (c% "_Integer_2"), .sym (c% "a"),
    .app .pow [.sym (c% "b"), .num (-2)]],
  .app .mul [.sym (c% "_NegativeOne_"), .sym (c% "c")]]

/-- What the conversion makes of it. -/
example : convert unwrap [] true true 30 exD exE = some
    (fn2 nMul (.sym (c% "_NegativeOne_")) (fn3 nFMA (.sym (c% "_Integer_2"))
      (fn2 nDiv (.sym (c% "a")) (fn2 nMul (.sym (c% "b")) (.sym (c% "b")))) (.sym (c% "c"))),
      [((c% "_Integer_2"), 2), ((c% "_NegativeOne_"), -1), ((c% "_Integer_1"), 1)]) := by
  decide +kernel

/-- A valuation of its symbols. -/
def exρ : Str → ℝ := fun s =>
  if s = (c% "_Integer_2") then 2 else if s = (c% "_NegativeOne_") then -1
  else if s = (c% "c") then 0 else 1

theorem exρ_mem : exρ ∈ Valuations exD [] := by
  refine ⟨fun s q h => ?_, by simp [exρ, oneSym]⟩
  simp only [exD, Dict.get?] at h
  split at h
  · next hs => simp at h; subst h; rw [← hs]; simp [exρ]
  · split at h
    · next hs => simp at h; subst h; rw [← hs]; simp [exρ]
    · cases h

/-- The hypotheses of `C26_value_partial` hold for it. -/
example : Suitable stdInterp exD [] exE ∧ exρ ∈ Valuations exD [] ∧ CanonOk stdInterp unwrap ∧
    eval stdInterp exρ exE = -2 := by
  refine ⟨?_, exρ_mem, unwrap_ok _, ?_⟩
  · intro h l hn
    simp only [exE, nodes_app, nodes_sym, nodes_num, List.flatMap_cons, List.flatMap_nil, List.append_nil,
      List.nil_append, List.mem_append, List.mem_cons, List.not_mem_nil, or_false, List.cons_append,
      Prod.mk.injEq] at hn
    rcases hn with ⟨rfl, rfl⟩ | ⟨rfl, rfl⟩ | ⟨rfl, rfl⟩ | ⟨rfl, rfl⟩
    · refine ⟨by simp, ?_⟩
      simp only [List.pairwise_cons, List.mem_cons, List.not_mem_nil, or_false, forall_eq,
        List.Pairwise.nil, and_true, false_implies, implies_true]
      refine ⟨exρ, exρ_mem, ?_⟩
      simp [exρ, Interp.app, stdInterp]
    · simp
    · exact ⟨_, _, rfl, exρ, exρ_mem, by simp⟩
    · simp
  · simp [exE, exρ, Interp.app, stdInterp]

/-! ### A violation -/

/-- `a^h + a^(1/2) - b`, with the symbol `h` declared as `1/2`. -/
def dupE : Expr := .app .add [.app .pow [.sym (c% "a"), .sym (c% "h")],
  .app .pow [.sym (c% "a"), .num (1 / 2)], .app .mul [.num (-1), .sym (c% "b")]]

/-- **C26 is violated** for a sum two of whose summands become the same intrinsic call: one of them is
lost.  For `a = 4`, `b = 0` the expression is 4 and the converted one is 2. -/
theorem C26_repeated_summand : ∃ (d d' : Table) (e e' : Expr) (ρ : Str → ℝ),
    convert unwrap [] true false 30 d e = some (e', d') ∧ Consistent d ρ ∧ ρ (oneSym []) = 1 ∧
    eval stdInterp ρ e = 4 ∧ eval stdInterp ρ e' = 2 := by
  have h4 : (4 : ℝ) ^ ((2 : ℝ)⁻¹) = 2 := by
    rw [show (4 : ℝ) = 2 ^ (2 : ℝ) by norm_num, ← Real.rpow_mul (by norm_num)]; norm_num
  refine ⟨[((c% "h"), 1 / 2)], [((c% "h"), 1 / 2)], dupE,
    fn2 nSub (fn1 nSqrt (.sym (c% "a"))) (.sym (c% "b")),
    fun s => if s = (c% "h") then 1 / 2 else if s = (c% "a") then 4 else if s = (c% "b") then 0 else 1,
    by decide +kernel, ?_, ?_, ?_, ?_⟩
  · intro s q h
    simp only [Dict.get?] at h
    split at h
    · next hs => simp at h; subst h; rw [← hs]; simp
    · cases h
  · simp [oneSym]
  · simp [dupE, Interp.app, stdInterp]
    rw [h4]; norm_num
  · rw [ev_sub stdInterp_sem, ev_sqrt stdInterp_sem]
    simp
    rw [show (4 : ℝ) = 2 * 2 by norm_num]
    exact Real.sqrt_mul_self (by norm_num)

end Verif.SIMD
