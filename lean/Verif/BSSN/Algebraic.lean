import Verif.BSSN.LambdaEvol

/-!
# The evolution of the algebraic constraints `det γ̄ = det γ̂` and `γ̄^{ij} Ā_{ij} = 0`
-/
namespace Verif.BSSN
open Verif.RefMetric Verif.IndexedExp Real

theorem Sm.hasDerivAt {Ω : Dom} {f : Scal} (hf : Sm Ω f) {x : Vec} (hx : x ∈ Ω) (k : Fin 3) :
    HasDerivAt (fun t => f (Function.update x k t)) (RefMetric.pd k f x) (x k) := by
  have h1 : HasDerivAt (fun t => Function.update x k t) (Pi.single k 1 : Vec) (x k) := hasDerivAt_update x k (x k)
  have h2 : DifferentiableAt ℝ f (Function.update x k (x k)) := by rw [Function.update_eq_self]; exact hf.diff hx
  have h3 : DifferentiableAt ℝ (fun t => f (Function.update x k t)) (x k) := DifferentiableAt.comp (x k) h2 h1.differentiableAt
  exact h3.hasDerivAt

theorem adjugate_eq {M : Matrix (Fin 3) (Fin 3) ℝ} (h : M.det ≠ 0) (i j : Fin 3) : M.adjugate i j = M.det * M⁻¹ i j := by
  rw [Matrix.inv_def, Matrix.smul_apply, smul_eq_mul, Ring.inverse_eq_inv', mul_inv_cancel_left₀ h]

/-- The algebra of the trace of `Ā`. -/
theorem trace_algebra {g U A : A2} {dg dA : A3} {β : A1} {dβ C S : A2} {α σ K E m : ℝ} (hgs : ∀ i j, g i j = g j i)
    (hUs : ∀ i j, U i j = U j i) (hAs : ∀ i j, A i j = A j i) (hUg : ∀ i j, ∑ m, U i m * g m j = if i = j then 1 else 0)
    {X Y : A2} {tr : ℝ} (htr : ∑ i, ∑ j, U i j * A i j = tr)
    (hX : ∀ i j, X i j = ∑ k, (β k * dg i j k + dβ k i * g k j + dβ k j * g i k) + 2 / 3 * g i j * (α * tr - σ) + -2 * α * A i j)
    (hY : ∀ i j, Y i j = ∑ k, (β k * dA i j k + dβ k i * A k j + dβ k j * A i k) + (-(2 / 3) * A i j * σ + α * A i j * K +
      ∑ k, -2 * α * A i k * ∑ l, U k l * A l j) + E * (C i j - 1 / 3 * g i j * ∑ a, ∑ b, U a b * C a b) +
      m * (S i j - 1 / 3 * g i j * ∑ a, ∑ b, U a b * S a b)) :
    ∑ i, ∑ j, (-(∑ a, ∑ b, U i a * X a b * U b j) * A i j + U i j * Y i j) =
      ∑ k, β k * (∑ i, ∑ j, (-(∑ a, ∑ b, U i a * dg a b k * U b j) * A i j + U i j * dA i j k)) + α * tr * (K - 2 / 3 * tr) := by
  obtain ⟨Au, hAu⟩ : ∃ Au : A2, ∀ a b, Au a b = ∑ i, ∑ j, U i a * A i j * U b j := ⟨_, fun _ _ => rfl⟩
  have r : ∀ Z : A2, ∑ i, ∑ j, -(∑ a, ∑ b, U i a * Z a b * U b j) * A i j = -∑ a, ∑ b, Au a b * Z a b := fun Z => by
    simp only [hAu, Fin.sum_univ_three]; ring
  have hAus : ∀ a b, Au a b = Au b a := fun a b => by
    rw [hAu, hAu, Finset.sum_comm]
    exact Finset.sum_congr rfl fun i _ => Finset.sum_congr rfl fun j _ => by rw [hAs, hUs b, hUs a]; ring
  have h3 : ∑ i, ∑ j, U i j * g i j = 3 := by
    have e : ∑ i, ∑ j, U i j * g i j = ∑ i, ∑ m, U i m * g m i := Finset.sum_congr rfl fun i _ => Finset.sum_congr rfl fun j _ => by rw [hgs]
    rw [e]
    simp [hUg]
  have hm : ∀ a k, ∑ b, Au a b * g b k = ∑ i, U i a * A i k := fun a k => by
    have e : ∑ b, Au a b * g b k = ∑ i, ∑ j, U i a * A i j * ∑ b, U j b * g b k := by
      simp only [hAu, Fin.sum_univ_three, hUs 1 0, hUs 2 0, hUs 2 1]; ring
    rw [e]
    simp only [hUg, mul_ite, mul_one, mul_zero, Finset.sum_ite_eq', Finset.mem_univ, if_true]
  have hAg : ∑ a, ∑ b, Au a b * g a b = tr := by
    have e : ∑ a, ∑ b, Au a b * g a b = ∑ a, ∑ b, Au a b * g b a := Finset.sum_congr rfl fun i _ => Finset.sum_congr rfl fun j _ => by rw [hgs]
    rw [e]
    simp only [hm]
    rw [Finset.sum_comm]
    rw [← htr]
  have hL : ∑ a, ∑ b, Au a b * ∑ k, (β k * dg a b k + dβ k a * g k b + dβ k b * g a k) =
      ∑ k, β k * (∑ a, ∑ b, Au a b * dg a b k) + 2 * ∑ k, ∑ a, dβ k a * ∑ i, U i a * A i k := by
    simp only [← hm]
    simp only [Fin.sum_univ_three, hAus 1 0, hAus 2 0, hAus 2 1, hgs 1 0, hgs 2 0, hgs 2 1]; ring
  have hS : ∀ Z : A2, ∑ i, ∑ j, U i j * (Z i j - 1 / 3 * g i j * ∑ a, ∑ b, U a b * Z a b) = 0 := fun Z => by
    have e : ∀ w, ∑ i, ∑ j, U i j * (Z i j - 1 / 3 * g i j * w) =
        ∑ i, ∑ j, U i j * Z i j - 1 / 3 * (∑ i, ∑ j, U i j * g i j) * w := fun w => by
      simp only [Fin.sum_univ_three]; ring
    rw [e, h3]; ring
  have hA2 : ∑ i, ∑ j, U i j * ∑ k, A i k * ∑ l, U k l * A l j = ∑ a, ∑ b, Au a b * A a b := by
    simp only [hAu, Fin.sum_univ_three, hUs 1 0, hUs 2 0, hUs 2 1, hAs 1 0, hAs 2 0, hAs 2 1]; ring
  have eX : ∑ a, ∑ b, Au a b * X a b = (∑ a, ∑ b, Au a b * ∑ k, (β k * dg a b k + dβ k a * g k b + dβ k b * g a k)) +
      2 / 3 * (α * tr - σ) * (∑ a, ∑ b, Au a b * g a b) - 2 * α * ∑ a, ∑ b, Au a b * A a b := by
    simp only [hX, Finset.mul_sum, ← Finset.sum_add_distrib, ← Finset.sum_sub_distrib]
    refine Finset.sum_congr rfl fun a _ => Finset.sum_congr rfl fun b _ => ?_
    rw [Finset.mul_sum] at *
    simp only [← Finset.mul_sum]
    ring
  have eY : ∑ i, ∑ j, U i j * Y i j = (∑ i, ∑ j, U i j * ∑ k, (β k * dA i j k + dβ k i * A k j + dβ k j * A i k)) +
      (α * K - 2 / 3 * σ) * (∑ i, ∑ j, U i j * A i j) - 2 * α * (∑ i, ∑ j, U i j * ∑ k, A i k * ∑ l, U k l * A l j) +
      E * (∑ i, ∑ j, U i j * (C i j - 1 / 3 * g i j * ∑ a, ∑ b, U a b * C a b)) +
      m * (∑ i, ∑ j, U i j * (S i j - 1 / 3 * g i j * ∑ a, ∑ b, U a b * S a b)) := by
    have h : ∀ i j, ∑ k, -2 * α * A i k * ∑ l, U k l * A l j = -2 * α * ∑ k, A i k * ∑ l, U k l * A l j := fun i j => by
      rw [Finset.mul_sum]; exact Finset.sum_congr rfl fun _ _ => by ring
    simp only [hY, h]
    generalize ∑ a, ∑ b, U a b * C a b = w1
    generalize ∑ a, ∑ b, U a b * S a b = w2
    simp only [Fin.sum_univ_three]
    ring
  have hLA : ∑ i, ∑ j, U i j * ∑ k, (β k * dA i j k + dβ k i * A k j + dβ k j * A i k) =
      ∑ k, β k * (∑ i, ∑ j, U i j * dA i j k) + 2 * ∑ k, ∑ a, dβ k a * ∑ i, U i a * A i k := by
    simp only [Fin.sum_univ_three, hUs 1 0, hUs 2 0, hUs 2 1, hAs 1 0, hAs 2 0, hAs 2 1]; ring
  simp only [Finset.sum_add_distrib, r]
  rw [eX, eY, hS, hS, hA2, hLA, hL, hAg, htr]
  simp only [mul_add, Finset.sum_add_distrib, mul_neg, Finset.sum_neg_distrib]
  ring

/-- The determinant of a metric. -/
noncomputable def detOf (g : T2) : Scal := fun x => (Matrix.of fun a b => g a b x).det

theorem hasDerivAt_detOf {g : ℝ → T2} {t : ℝ} {x : Vec} {X : A2} (hg : ∀ i j, HasDerivAt (fun τ => g τ i j x) (X i j) t)
    (hdet : detOf (g t) x ≠ 0) : HasDerivAt (fun τ => detOf (g τ) x) (detOf (g t) x * ∑ i, ∑ j, inverse (g t) j i x * X i j) t := by
  refine (hasDerivAt_det hg).congr_deriv ?_
  simp only [Finset.mul_sum]
  refine Finset.sum_congr rfl fun i _ => Finset.sum_congr rfl fun j _ => ?_
  rw [adjugate_eq hdet]
  exact mul_assoc _ _ _

theorem IsMetric.detOf_smooth {Ω : Dom} {g : T2} (hg : IsMetric Ω g) : Sm Ω (detOf g) := by
  have h := hg.smooth
  have h3 : ∀ a b c d p q, Sm Ω fun x => g a b x * g c d x * g p q x := fun a b c d p q => ((h a b).mul (h c d)).mul (h p q)
  refine ((((((h3 0 0 1 1 2 2).sub (h3 0 0 1 2 2 1)).sub (h3 0 1 1 0 2 2)).add (h3 0 1 1 2 2 0)).add (h3 0 2 1 0 2 1)).sub (h3 0 2 1 1 2 0)).congr
    fun x _ => ?_
  rw [detOf, Matrix.det_fin_three]
  simp only [Matrix.of_apply]

theorem IsMetric.pd_detOf {Ω : Dom} {g : T2} (hg : IsMetric Ω g) {x : Vec} (hx : x ∈ Ω) (k : Fin 3) :
    pd k (detOf g) x = detOf g x * ∑ i, ∑ j, inverse g j i x * pd k (g i j) x := by
  have e : ∀ i j, (fun _ : Vec => g i j (Function.update x k (x k))) = fun _ => g i j x := fun i j => by rw [Function.update_eq_self]
  have h := hasDerivAt_detOf (g := fun τ i j _ => g i j (Function.update x k τ)) (t := x k) (x := x) (X := fun i j => pd k (g i j) x)
    (fun i j => (hg.smooth i j).hasDerivAt hx k) (by simp only [detOf, Function.update_eq_self]; exact hg.det x hx)
  have h2 := h.deriv
  simp only [detOf, inverse, Function.update_eq_self] at h2
  exact h2

section
variable {Ω : Dom} {s : Vec → Vec} {c : CF} {T : Option (Fin 4 → Fin 4 → Scal)} {F : ℝ → Fields} {t : ℝ} {x : Vec}
  (hs : IsRfm Ω s) (hF : (F t).Smooth Ω) (hdet : ∀ y ∈ Ω, (Matrix.of fun a b => gammabarF s (F t) a b y).det ≠ 0)
  (hx : x ∈ Ω) (hsol : SolvesAt s c T F t x)
include hs hF hdet hx hsol

/-- `det γ̄ / det γ̂` is carried along the shift. -/
theorem deriv_det : HasDerivAt (fun τ => detOf (gammabarF s (F τ)) x / detOf (ghatF s) x)
    (∑ k, betaF s (F t) k x * pd k (fun y => detOf (gammabarF s (F t)) y / detOf (ghatF s) y) x) t := by
  have hg := gammabarF_metric hs hF hdet
  have hh := hs.isMetric
  refine ((hasDerivAt_detOf (fun i j => deriv_gammabar hs hx hsol i j) (hdet x hx)).div_const _).congr_deriv ?_
  have hd : ∀ y, RefMetric.detgammahat s y = detOf (ghatF s) y := fun y => by
    rw [detOf, Matrix.det_fin_three]
    simp only [Matrix.of_apply, ghatF, RefMetric.detgammahat, symmInv3Det, RefMetric.ghatDD]
    simp
    try ring
  have e1 : ∀ k, pd k (fun y => detOf (gammabarF s (F t)) y / detOf (ghatF s) y) x =
      (detOf (gammabarF s (F t)) x * ∑ i, ∑ j, inverse (gammabarF s (F t)) j i x * pd k (gammabarF s (F t) i j) x) / detOf (ghatF s) x -
      detOf (gammabarF s (F t)) x * pd k (detOf (ghatF s)) x / detOf (ghatF s) x ^ 2 := fun k => by
    rw [dpd_div hx k hg.detOf_smooth hh.detOf_smooth hh.det, hg.pd_detOf hx]
    have := hh.det x hx
    change detOf (ghatF s) x ≠ 0 at this
    field_simp
  simp only [e1]
  have hUg := fun a b => hg.inverse_mul hx a b
  have hsy := fun a b => hg.symm a b x hx
  have hUs := fun a b => hg.inverse_symm hx a b
  have tl : ∑ i, ∑ j, inverse (gammabarF s (F t)) j i x * gammabar_rhsDD (rfmAt s x) (gfsAt (F t) x) i j =
      ∑ k, betaF s (F t) k x * (∑ i, ∑ j, inverse (gammabarF s (F t)) j i x * pd k (gammabarF s (F t) i j) x) +
      2 * ∑ k, pd k (betaF s (F t) k) x - 2 * Dbarbetacontraction (rfmAt s x) (gfsAt (F t) x) := by
    have h3 : ∑ i, ∑ j, inverse (gammabarF s (F t)) j i x * gammabarF s (F t) i j x = 3 := by
      have := gammabar_trace hs hF hdet hx
      rw [← this]
      exact Finset.sum_congr rfl fun i _ => Finset.sum_congr rfl fun j _ => by rw [hUs]
    have htr : ∑ i, ∑ j, inverse (gammabarF s (F t)) j i x * AbarF s (F t) i j x = trAbar (rfmAt s x) (gfsAt (F t) x) := by
      rw [trAbar_eq hs hF, trace]
      exact Finset.sum_congr rfl fun i _ => Finset.sum_congr rfl fun j _ => by rw [hUs]
    have hl : ∑ k, ∑ i, pd i (betaF s (F t) k) x * (∑ j, inverse (gammabarF s (F t)) i j x * gammabarF s (F t) j k x) = ∑ k, pd k (betaF s (F t) k) x := by
      simp only [hUg, mul_ite, mul_one, mul_zero, Finset.sum_ite_eq', Finset.mem_univ, if_true]
    have e : ∀ i j, gammabar_rhsDD (rfmAt s x) (gfsAt (F t) x) i j = ∑ k, (betaF s (F t) k x * pd k (gammabarF s (F t) i j) x +
        pd i (betaF s (F t) k) x * gammabarF s (F t) k j x + pd j (betaF s (F t) k) x * gammabarF s (F t) i k x) +
        2 / 3 * gammabarF s (F t) i j x * ((F t).alpha x * trAbar (rfmAt s x) (gfsAt (F t) x) - Dbarbetacontraction (rfmAt s x) (gfsAt (F t) x)) +
        -2 * (F t).alpha x * AbarF s (F t) i j x := fun i j => by
      simp only [pd_betaF hs hF hx, pd_gammabarF hs hF hx]
      rfl
    simp only [e]
    generalize Dbarbetacontraction (rfmAt s x) (gfsAt (F t) x) = σ
    generalize trAbar (rfmAt s x) (gfsAt (F t) x) = tr at htr ⊢
    rw [← hl]
    simp only [Fin.sum_univ_three, hsy 1 0, hsy 2 0, hsy 2 1, hUs 1 0, hUs 2 0, hUs 2 1] at h3 htr ⊢
    linear_combination 2 / 3 * ((F t).alpha x * tr - σ) * h3 - 2 * (F t).alpha x * htr
  rw [tl]
  have hσ : Dbarbetacontraction (rfmAt s x) (gfsAt (F t) x) =
      ∑ k, (pd k (betaF s (F t) k) x + betaF s (F t) k x * pd k (detOf (ghatF s)) x / (2 * detOf (ghatF s) x)) := by
    unfold Dbarbetacontraction
    simp only [pd_betaF hs hF hx]
    have e1 : detgammabar (rfmAt s x) = detOf (ghatF s) x := hd x
    have e2 : ∀ k, detgammabar_dD (rfmAt s x) k = pd k (detOf (ghatF s)) x := fun k => by rw [← funext hd]; rfl
    simp only [e1, e2]
    rfl
  rw [hσ]
  have := hh.det x hx
  change detOf (ghatF s) x ≠ 0 at this
  simp only [Fin.sum_univ_three]
  field_simp
  ring

/-- The trace of `Ā_{ij}`. -/
theorem deriv_trA (hc : ∀ y ∈ Ω, cfValid c ((F t).cf y)) : HasDerivAt (fun τ => trace (gammabarF s (F τ)) (AbarF s (F τ)) x)
    (∑ k, betaF s (F t) k x * pd k (trace (gammabarF s (F t)) (AbarF s (F t))) x +
      (F t).alpha x * trace (gammabarF s (F t)) (AbarF s (F t)) x * ((F t).trK x - 2 / 3 * trace (gammabarF s (F t)) (AbarF s (F t)) x)) t := by
  have hg := gammabarF_metric hs hF hdet
  have hA := AbarF_smooth hs hF
  have h : HasDerivAt (fun τ => ∑ i, ∑ j, inverse (gammabarF s (F τ)) i j x * AbarF s (F τ) i j x) _ t :=
    HasDerivAt.fun_sum fun i _ => HasDerivAt.fun_sum fun j _ =>
      (hasDerivAt_inverse (fun i j => deriv_gammabar hs hx hsol i j) (hdet x hx) i j).mul (deriv_Abar hs hx hsol i j)
  refine h.congr_deriv ?_
  have hUs := fun a b => hg.inverse_symm hx a b
  have e1 : ∀ k, pd k (trace (gammabarF s (F t)) (AbarF s (F t))) x = ∑ i, ∑ j, (-(∑ a, ∑ b, inverse (gammabarF s (F t)) i a x *
      pd k (gammabarF s (F t) a b) x * inverse (gammabarF s (F t)) b j x) * AbarF s (F t) i j x +
      inverse (gammabarF s (F t)) i j x * pd k (AbarF s (F t) i j) x) := fun k => by
    unfold trace
    rw [dpd_sum hx k fun a => Sm.sum fun b => (hg.inverse_smooth a b).mul (hA a b)]
    refine Finset.sum_congr rfl fun a _ => ?_
    rw [dpd_sum hx k fun b => (hg.inverse_smooth a b).mul (hA a b)]
    refine Finset.sum_congr rfl fun b _ => ?_
    rw [dpd_mul hx k (hg.inverse_smooth a b) (hA a b), hg.pd_inverse hx]
    congr 3
    refine Finset.sum_congr rfl fun a' _ => Finset.sum_congr rfl fun b' _ => ?_
    rw [hUs b b']
    ring
  have htr : trAbar (rfmAt s x) (gfsAt (F t) x) = trace (gammabarF s (F t)) (AbarF s (F t)) x := trAbar_eq hs hF x
  simp only [e1]
  refine trace_algebra (g := fun a b => gammabarF s (F t) a b x) (U := fun a b => inverse (gammabarF s (F t)) a b x)
    (A := fun a b => AbarF s (F t) a b x) (β := fun a => betaF s (F t) a x) (dβ := fun a b => pd b (betaF s (F t) a) x)
    (σ := Dbarbetacontraction (rfmAt s x) (gfsAt (F t) x)) (E := exp_m4phi (gfsAt (F t) x) c)
    (C := curly (rfmAt s x) (gfsAt (F t) x) c) (S := fun a b => (matterF s (F t) c T).SS a b x)
    (m := -8 * π * (F t).alpha x * Real.exp (-4 * phiF (F t) c x))
    (fun a b => hg.symm a b x hx) hUs (fun a b => congrFun (AbarF_symm hs hF a b) x) (fun a b => hg.inverse_mul hx a b) rfl
    (fun i j => ?_) (fun i j => ?_)
  · rw [gammabar_rhsDD, htr]
    simp only [pd_betaF hs hF hx, pd_gammabarF hs hF hx]
    rfl
  · rw [(sources hs hF hc hdet hx T i j).1]
    simp only [pd_betaF hs hF hx, pd_AbarF hs hF hx, Abar_rhsDD, add_zero, AbarUD, curlyTrace, gammabarUU_eq hs hF]
    rfl

end

end Verif.BSSN
