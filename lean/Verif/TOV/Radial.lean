import Verif.Initial.SphCalc

/-!
# Spherically symmetric conformally flat metrics
-/
namespace Verif.TOV
open Verif.RefMetric Verif.BSSN Verif.Initial Real

/-- `A(r) (dr² + r² dθ² + r² sin²θ dφ²)`. -/
noncomputable def rad (A : ℝ → ℝ) : T2 := fun i j x =>
  ![![A (x 0), 0, 0], ![0, A (x 0) * x 0 * x 0, 0], ![0, 0, A (x 0) * x 0 * x 0 * sin (x 1) * sin (x 1)]] i j

/-- Its connection; `w` is half the logarithmic derivative of `A`. -/
noncomputable def radChr (w : ℝ → ℝ) : T3 := fun i j k x =>
  ![![![w (x 0), 0, 0], ![0, -(x 0 + x 0 ^ 2 * w (x 0)), 0], ![0, 0, -(x 0 + x 0 ^ 2 * w (x 0)) * sin (x 1) ^ 2]],
    ![![0, 1 / x 0 + w (x 0), 0], ![1 / x 0 + w (x 0), 0, 0], ![0, 0, -(sin (x 1) * cos (x 1))]],
    ![![0, 0, 1 / x 0 + w (x 0)], ![0, 0, cos (x 1) / sin (x 1)], ![1 / x 0 + w (x 0), cos (x 1) / sin (x 1), 0]]] i j k

/-- Its Ricci tensor. -/
noncomputable def radRic (w w' : ℝ → ℝ) : T2 := fun i j x =>
  ![![-2 * w' (x 0) - 2 * w (x 0) / x 0, 0, 0],
    ![0, x 0 ^ 2 * (-w' (x 0) - 3 * w (x 0) / x 0 - w (x 0) ^ 2), 0],
    ![0, 0, x 0 ^ 2 * (-w' (x 0) - 3 * w (x 0) / x 0 - w (x 0) ^ 2) * sin (x 1) ^ 2]] i j

/-- `g` is such a metric on `Ω`. -/
structure Rad (Ω : Dom) (g : T2) (A w w' : ℝ → ℝ) : Prop where
  eq : ∀ y ∈ Ω, ∀ i j, g i j y = rad A i j y
  pos : ∀ y ∈ Ω, 0 < y 0
  axis : ∀ y ∈ Ω, sin (y 1) ≠ 0
  A_pos : ∀ y ∈ Ω, 0 < A (y 0)
  dA : ∀ y ∈ Ω, HasDerivAt A (2 * w (y 0) * A (y 0)) (y 0)
  dw : ∀ y ∈ Ω, HasDerivAt w (w' (y 0)) (y 0)

/-- Derivative of a product of a function of the radius and a function of the angle. -/
theorem pd_two {φ χ : ℝ → ℝ} {a b : ℝ} {x : Vec} (h : HasDerivAt φ a (x 0)) (h' : HasDerivAt χ b (x 1)) (k : Fin 3) :
    pd k (fun y => φ (y 0) * χ (y 1)) x = ![a * χ (x 1), φ (x 0) * b, 0] k := by
  apply pd_of
  fin_cases k
  · simpa using h.mul_const (χ (x 1))
  · simpa using h'.const_mul (φ (x 0))
  · simpa using hasDerivAt_const (x 2) (φ (x 0) * χ (x 1))

namespace Rad
variable {Ω : Dom} {g : T2} {A w w' : ℝ → ℝ} (H : Rad Ω g A w w') {x : Vec} (hx : x ∈ Ω)
include H hx

theorem inv (i j : Fin 3) : inverse g i j x =
    ![![(A (x 0))⁻¹, 0, 0], ![0, (A (x 0) * x 0 * x 0)⁻¹, 0], ![0, 0, (A (x 0) * x 0 * x 0 * sin (x 1) * sin (x 1))⁻¹]] i j := by
  have h0 := (H.pos x hx).ne'
  have h1 := H.axis x hx
  have h2 := (H.A_pos x hx).ne'
  have h : (Matrix.of fun a b => g a b x) * (Matrix.of ![![(A (x 0))⁻¹, 0, 0], ![0, (A (x 0) * x 0 * x 0)⁻¹, 0],
      ![0, 0, (A (x 0) * x 0 * x 0 * sin (x 1) * sin (x 1))⁻¹]]) = 1 := by
    ext i j
    rw [Matrix.mul_apply, Fin.sum_univ_three]
    simp only [Matrix.of_apply, H.eq x hx, rad]
    fin_cases i <;> fin_cases j <;> simp <;> field_simp
  show (Matrix.of fun a b => g a b x)⁻¹ i j = _
  rw [Matrix.inv_eq_right_inv h]
  rfl

theorem pd_g (i j k : Fin 3) : pd k (g i j) x =
    ![![![2 * w (x 0) * A (x 0), 0, 0], 0, 0],
      ![0, ![2 * w (x 0) * A (x 0) * x 0 ^ 2 + A (x 0) * (2 * x 0), 0, 0], 0],
      ![0, 0, ![(2 * w (x 0) * A (x 0) * x 0 ^ 2 + A (x 0) * (2 * x 0)) * sin (x 1) ^ 2,
        A (x 0) * x 0 ^ 2 * (2 * sin (x 1) * cos (x 1)), 0]]] i j k := by
  rw [pd_congr_on (fun y hy => H.eq y hy i j) hx]
  have hA := H.dA x hx
  have h2 : HasDerivAt (fun t => A t * t ^ 2) (2 * w (x 0) * A (x 0) * x 0 ^ 2 + A (x 0) * (2 * x 0)) (x 0) := by
    refine (hA.mul (hasDerivAt_pow 2 (x 0))).congr_deriv ?_
    norm_num
  have h3 : HasDerivAt (fun t => sin t ^ 2) (2 * sin (x 1) * cos (x 1)) (x 1) := by
    refine ((hasDerivAt_sin (x 1)).pow 2).congr_deriv ?_
    norm_num
  have e0 : pd k (fun y => A (y 0)) x = ![2 * w (x 0) * A (x 0), 0, 0] k := by
    rw [pd_one 0 hA]; fin_cases k <;> simp
  have e1 : pd k (fun y => A (y 0) * y 0 * y 0) x = ![2 * w (x 0) * A (x 0) * x 0 ^ 2 + A (x 0) * (2 * x 0), 0, 0] k := by
    rw [show (fun y : Vec => A (y 0) * y 0 * y 0) = fun y => A (y 0) * y 0 ^ 2 from funext fun y => by ring, pd_one 0 h2]
    fin_cases k <;> simp
  have e2 : pd k (fun y => A (y 0) * y 0 * y 0 * sin (y 1) * sin (y 1)) x =
      ![(2 * w (x 0) * A (x 0) * x 0 ^ 2 + A (x 0) * (2 * x 0)) * sin (x 1) ^ 2, A (x 0) * x 0 ^ 2 * (2 * sin (x 1) * cos (x 1)), 0] k := by
    rw [show (fun y : Vec => A (y 0) * y 0 * y 0 * sin (y 1) * sin (y 1)) = fun y => A (y 0) * y 0 ^ 2 * sin (y 1) ^ 2 from
      funext fun y => by ring]
    exact pd_two h2 h3 k
  have ez : pd k (fun _ => (0 : ℝ)) x = 0 := dpd_const k 0
  fin_cases i <;> fin_cases j <;>
    first
    | (refine e0.trans ?_; simp; done)
    | (refine e2.trans ?_; simp; done)
    | (refine e1.trans ?_; simp; done)
    | (refine ez.trans ?_; simp; done)

theorem chr (i j k : Fin 3) : christoffel g i j k x = radChr w i j k x := by
  have h0 := (H.pos x hx).ne'
  have h1 := H.axis x hx
  have h2 := (H.A_pos x hx).ne'
  simp only [christoffel, H.inv hx, H.pd_g hx, Fin.sum_univ_three]
  fin_cases i <;> fin_cases j <;> fin_cases k <;> simp [radChr] <;> field_simp <;> ring

theorem pd_chr (i j k m : Fin 3) : pd m (christoffel g i j k) x =
    ![![![w' (x 0), 0, 0], ![0, -(1 + 2 * x 0 * w (x 0) + x 0 ^ 2 * w' (x 0)), 0],
        ![0, 0, -(1 + 2 * x 0 * w (x 0) + x 0 ^ 2 * w' (x 0)) * sin (x 1) ^ 2]],
      ![![0, -1 / x 0 ^ 2 + w' (x 0), 0], ![-1 / x 0 ^ 2 + w' (x 0), 0, 0], ![0, 0, 0]],
      ![![0, 0, -1 / x 0 ^ 2 + w' (x 0)], ![0, 0, 0], ![-1 / x 0 ^ 2 + w' (x 0), 0, 0]]] i j k * (if m = 0 then 1 else 0) +
    ![![![0, 0, 0], ![0, 0, 0], ![0, 0, -(x 0 + x 0 ^ 2 * w (x 0)) * (2 * sin (x 1) * cos (x 1))]],
      ![![0, 0, 0], ![0, 0, 0], ![0, 0, sin (x 1) ^ 2 - cos (x 1) ^ 2]],
      ![![0, 0, 0], ![0, 0, -1 / sin (x 1) ^ 2], ![0, -1 / sin (x 1) ^ 2, 0]]] i j k * (if m = 1 then 1 else 0) := by
  have h0 := (H.pos x hx).ne'
  have h1 := H.axis x hx
  rw [pd_congr_on (fun y hy => H.chr hy i j k) hx]
  have hw := H.dw x hx
  have e0 : pd m (fun y => w (y 0)) x = w' (x 0) * (if m = 0 then 1 else 0) := by rw [pd_one 0 hw]; simp
  have d1 : HasDerivAt (fun t => -(t + t ^ 2 * w t)) (-(1 + 2 * x 0 * w (x 0) + x 0 ^ 2 * w' (x 0))) (x 0) := by
    refine ((hasDerivAt_id (x 0)).add ((hasDerivAt_pow 2 (x 0)).mul hw)).neg.congr_deriv ?_
    norm_num; ring
  have e1 : pd m (fun y => -(y 0 + y 0 ^ 2 * w (y 0))) x = -(1 + 2 * x 0 * w (x 0) + x 0 ^ 2 * w' (x 0)) * (if m = 0 then 1 else 0) := by
    rw [pd_one 0 d1]; simp
  have d2 : HasDerivAt (fun t => sin t ^ 2) (2 * sin (x 1) * cos (x 1)) (x 1) := by
    refine ((hasDerivAt_sin (x 1)).pow 2).congr_deriv ?_
    norm_num
  have e2 : pd m (fun y => -(y 0 + y 0 ^ 2 * w (y 0)) * sin (y 1) ^ 2) x =
      -(1 + 2 * x 0 * w (x 0) + x 0 ^ 2 * w' (x 0)) * sin (x 1) ^ 2 * (if m = 0 then 1 else 0) +
      -(x 0 + x 0 ^ 2 * w (x 0)) * (2 * sin (x 1) * cos (x 1)) * (if m = 1 then 1 else 0) := by
    rw [pd_two (φ := fun t => -(t + t ^ 2 * w t)) d1 d2 m]
    fin_cases m <;> simp
  have d3 : HasDerivAt (fun t => 1 / t + w t) (-1 / x 0 ^ 2 + w' (x 0)) (x 0) := by
    refine HasDerivAt.add (f := fun t => 1 / t) ?_ hw
    refine ((hasDerivAt_const (x 0) (1 : ℝ)).div (hasDerivAt_id (x 0)) h0).congr_deriv ?_
    simp
  have e3 : pd m (fun y => 1 / y 0 + w (y 0)) x = (-1 / x 0 ^ 2 + w' (x 0)) * (if m = 0 then 1 else 0) := by
    rw [pd_one 0 d3]; simp
  have d4 : HasDerivAt (fun t => -(sin t * cos t)) (sin (x 1) ^ 2 - cos (x 1) ^ 2) (x 1) := by
    refine ((hasDerivAt_sin (x 1)).mul (hasDerivAt_cos (x 1))).neg.congr_deriv ?_
    ring
  have e4 : pd m (fun y => -(sin (y 1) * cos (y 1))) x = (sin (x 1) ^ 2 - cos (x 1) ^ 2) * (if m = 1 then 1 else 0) := by
    rw [pd_one 1 d4]; simp
  have d5 : HasDerivAt (fun t => cos t / sin t) (-1 / sin (x 1) ^ 2) (x 1) := by
    refine ((hasDerivAt_cos (x 1)).div (hasDerivAt_sin (x 1)) h1).congr_deriv ?_
    have := sin_sq_add_cos_sq (x 1)
    field_simp
    linarith
  have e5 : pd m (fun y => cos (y 1) / sin (y 1)) x = -1 / sin (x 1) ^ 2 * (if m = 1 then 1 else 0) := by
    rw [pd_one 1 d5]; simp
  have ez : pd m (fun _ => (0 : ℝ)) x = 0 := dpd_const m 0
  fin_cases i <;> fin_cases j <;> fin_cases k <;>
    first
    | (refine e0.trans ?_; simp; done)
    | (refine e2.trans ?_; simp; done)
    | (refine e1.trans ?_; simp; done)
    | (refine e3.trans ?_; simp; done)
    | (refine e4.trans ?_; simp; done)
    | (refine e5.trans ?_; simp; done)
    | (refine ez.trans ?_; simp; done)

theorem ric (i j : Fin 3) : ricci g i j x = radRic w w' i j x := by
  have h0 := (H.pos x hx).ne'
  have h1 := H.axis x hx
  have h3 := sin_sq_add_cos_sq (x 1)
  have hc : cos (x 1) ^ 2 = 1 - sin (x 1) ^ 2 := by linarith
  simp only [ricci, ricciOf, riemannOf, H.pd_chr hx, H.chr hx, Fin.sum_univ_three]
  fin_cases i <;> fin_cases j <;> simp [radChr, radRic] <;> field_simp <;> ring_nf <;> (try rw [hc]) <;> ring

theorem scal : scalarCurvature g x = (-4 * w' (x 0) - 8 * w (x 0) / x 0 - 2 * w (x 0) ^ 2) / A (x 0) := by
  have h0 := (H.pos x hx).ne'
  have h1 := H.axis x hx
  have h2 := (H.A_pos x hx).ne'
  simp only [scalarCurvature, H.inv hx, H.ric hx, Fin.sum_univ_three]
  simp [radRic]
  field_simp
  ring

/-- The second covariant derivative of a function of the radius. -/
theorem hess {f f' : ℝ → ℝ} {F : Scal} (hF : ∀ y ∈ Ω, F y = f (y 0)) (hf : ∀ y ∈ Ω, HasDerivAt f (f' (y 0)) (y 0)) {f'' : ℝ}
    (hf' : HasDerivAt f' f'' (x 0)) (i j : Fin 3) :
    hessian g F i j x = ![![f'' - w (x 0) * f' (x 0), 0, 0], ![0, (x 0 + x 0 ^ 2 * w (x 0)) * f' (x 0), 0],
      ![0, 0, (x 0 + x 0 ^ 2 * w (x 0)) * sin (x 1) ^ 2 * f' (x 0)]] i j := by
  have p1 : ∀ y ∈ Ω, ∀ k, pd k F y = if k = 0 then f' (y 0) else 0 := fun y hy k => by
    rw [pd_congr_on hF hy, pd_one 0 (hf y hy)]
  have p2 : ∀ k m, pd m (pd k F) x = if k = 0 ∧ m = 0 then f'' else 0 := fun k m => by
    rw [pd_congr_on (fun y hy => p1 y hy k) hx]
    by_cases hk : k = 0
    · simp only [hk, if_true, true_and]; rw [pd_one 0 hf']
    · simp only [hk, if_false, false_and]; exact dpd_const m 0
  simp only [hessian, p1 x hx, p2, H.chr hx, Fin.sum_univ_three]
  fin_cases i <;> fin_cases j <;> simp [radChr] <;> ring

end Rad

end Verif.TOV
