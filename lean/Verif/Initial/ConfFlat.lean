import Verif.BSSN.Physical
import Verif.BSSN.Constraints
import Verif.Wave.Radial

/-!
# The constraints of conformally flat data
-/
namespace Verif.Initial
open Verif.RefMetric Verif.BSSN Verif.Wave Real
open scoped ContDiff

/-- The flat metric in Cartesian coordinates. -/
def flat : T2 := fun i j _ => if i = j then 1 else 0

/-- `ψ⁴ δ_{ij}`. -/
def confFlat (ψ : Scal) : T2 := fun i j x => if i = j then ψ x ^ 4 else 0

/-- `ψ⁻² A_{ij}`. -/
noncomputable def confK (ψ : Scal) (A : T2) : T2 := fun i j x => A i j x / ψ x ^ 2

theorem flat_matrix (x : Vec) : (Matrix.of fun a b => flat a b x) = 1 := by
  ext i j
  simp [flat, Matrix.one_apply]

theorem flat_metric (Ω : Dom) : IsMetric Ω flat where
  smooth i j := Sm.const _
  symm i j x _ := by simp only [flat, eq_comm]
  det x _ := by rw [flat_matrix]; simp

theorem flat_inverse (i j : Fin 3) (x : Vec) : inverse flat i j x = if i = j then 1 else 0 := by
  unfold inverse
  rw [flat_matrix, inv_one, Matrix.one_apply]

theorem flat_christoffel (i j k : Fin 3) (x : Vec) : christoffel flat i j k x = 0 := by
  have : ∀ a b c, pd c (flat a b) x = 0 := fun a b c => dpd_const c _
  simp [christoffel, this]

theorem flat_scalar (x : Vec) : scalarCurvature flat x = 0 := by
  have h : ∀ i j k, christoffel flat i j k = fun _ => 0 := fun i j k => funext (flat_christoffel i j k)
  simp [scalarCurvature, ricci, ricciOf, riemannOf, h, dpd_const]

section
variable {Ω : Dom} {ψ : Scal} (hψ : Sm Ω ψ) (hp : ∀ x ∈ Ω, 0 < ψ x)
include hψ hp

theorem conf_exp {x : Vec} (hx : x ∈ Ω) : exp (4 * log (ψ x)) = ψ x ^ 4 := by
  rw [show (4 : ℝ) * log (ψ x) = ((4 : ℕ) : ℝ) * log (ψ x) by norm_num, ← Real.log_pow, Real.exp_log (pow_pos (hp x hx) 4)]

theorem conf_exp_neg {x : Vec} (hx : x ∈ Ω) : exp (-4 * log (ψ x)) = (ψ x ^ 4)⁻¹ := by
  rw [← conf_exp hψ hp hx, ← Real.exp_neg]
  ring_nf

theorem confFlat_eq (y : Vec) (hy : y ∈ Ω) (i j : Fin 3) : confFlat ψ i j y = exp (4 * log (ψ y)) * flat i j y := by
  rw [conf_exp hψ hp hy]
  simp [confFlat, flat]

theorem log_smooth : Sm Ω fun y => log (ψ y) := hψ.log fun x hx => (hp x hx).ne'

theorem confFlat_inverse {x : Vec} (hx : x ∈ Ω) (i j : Fin 3) : inverse (confFlat ψ) i j x = if i = j then (ψ x ^ 4)⁻¹ else 0 := by
  rw [conf_inverse (φ := fun y => log (ψ y)) (flat_metric Ω) (confFlat_eq hψ hp) hx, flat_inverse, conf_exp_neg hψ hp hx]
  simp

/-- `R = -8 ψ⁻⁵ Δψ`. -/
theorem confFlat_scalar {x : Vec} (hx : x ∈ Ω) : scalarCurvature (confFlat ψ) x = -8 * laplacian ψ x / ψ x ^ 5 := by
  rw [conf_scalar (flat_metric Ω) (log_smooth hψ hp) (confFlat_eq hψ hp) hx, flat_scalar, conf_exp_neg hψ hp hx]
  have h1 : ∀ y ∈ Ω, ∀ k, pd k (fun y => log (ψ y)) y = pd k ψ y / ψ y := fun y hy k => dpd_log hy k hψ fun x hx => (hp x hx).ne'
  have h2 : ∀ k, pd k (pd k fun y => log (ψ y)) x = (pd k (pd k ψ) x * ψ x - pd k ψ x * pd k ψ x) / ψ x ^ 2 := fun k => by
    rw [pd_congr_on (fun y hy => h1 y hy k) hx k, dpd_div hx k (hψ.pd k) hψ fun x hx => (hp x hx).ne']
  have h0 := (hp x hx).ne'
  simp only [flat_inverse, hessian, flat_christoffel, ite_mul, one_mul, zero_mul, Finset.sum_ite_eq, Finset.mem_univ, if_true, h2,
    h1 x hx, laplacian, Finset.sum_const_zero, sub_zero, Fin.sum_univ_three]
  field_simp
  ring

theorem confK_trace (A : T2) {x : Vec} (hx : x ∈ Ω) : trace (confFlat ψ) (confK ψ A) x = (∑ i, A i i x) / ψ x ^ 6 := by
  have h0 := (hp x hx).ne'
  simp only [trace, confFlat_inverse hψ hp hx, confK, ite_mul, zero_mul, Finset.sum_ite_eq, Finset.mem_univ, if_true, Fin.sum_univ_three]
  field_simp

theorem confK_raise (A : T2) {x : Vec} (hx : x ∈ Ω) (i j : Fin 3) : raise2 (confFlat ψ) (confK ψ A) i j x = A i j x / ψ x ^ 10 := by
  have h0 := (hp x hx).ne'
  have e : ∀ k l, inverse (confFlat ψ) i k x * inverse (confFlat ψ) j l x * confK ψ A k l x =
      if i = k then if j = l then (ψ x ^ 4)⁻¹ * (ψ x ^ 4)⁻¹ * confK ψ A k l x else 0 else 0 := by
    intro k l
    rw [confFlat_inverse hψ hp hx, confFlat_inverse hψ hp hx]
    split_ifs <;> ring
  have e2 : raise2 (confFlat ψ) (confK ψ A) i j x = (ψ x ^ 4)⁻¹ * (ψ x ^ 4)⁻¹ * confK ψ A i j x := by
    simp only [raise2, e]
    rw [Finset.sum_eq_single i (fun k _ hk => by simp [hk.symm]) (by simp)]
    simp
  rw [e2, confK]
  field_simp

/-- The Hamiltonian constraint of `γ = ψ⁴δ` and `K = ψ⁻²A`. -/
theorem confFlat_hamiltonian (A : T2) {x : Vec} (hx : x ∈ Ω) : hamiltonian (confFlat ψ) (confK ψ A) .vacuum x =
    -8 * laplacian ψ x / ψ x ^ 5 + ((∑ i, A i i x) ^ 2 - ∑ i, ∑ j, A i j x ^ 2) / ψ x ^ 12 := by
  have h0 := (hp x hx).ne'
  simp only [hamiltonian, confFlat_scalar hψ hp hx, confK_trace hψ hp A hx, confK_raise hψ hp A hx, Matter.vacuum, mul_zero, sub_zero]
  have e : ∀ i j, confK ψ A i j x * (A i j x / ψ x ^ 10) = A i j x ^ 2 / ψ x ^ 12 := fun i j => by
    simp only [confK]
    field_simp
  simp only [e, ← Finset.sum_div]
  field_simp
  ring

/-- The momentum constraint, for a symmetric tracefree `A`. -/
theorem confFlat_momentum {A : T2} (hA : ∀ i j, Sm Ω (A i j)) (hAs : ∀ y ∈ Ω, ∀ i j, A i j y = A j i y)
    (htr : ∀ y ∈ Ω, ∑ i, A i i y = 0) {x : Vec} (hx : x ∈ Ω) (i : Fin 3) :
    momentum (confFlat ψ) (confK ψ A) .vacuum i x = (∑ j, pd j (A i j) x) / ψ x ^ 10 := by
  have hn : ∀ x ∈ Ω, ψ x ≠ 0 := fun x hx => (hp x hx).ne'
  have h0 := hn x hx
  have hT : ∀ a b, Sm Ω fun y => A a b y / ψ y ^ 6 := fun a b => (hA a b).div (hψ.pow 6) fun y hy => pow_ne_zero _ (hn y hy)
  have hS : ∀ y ∈ Ω, ∀ a b, raise2 (confFlat ψ) (confK ψ A) a b y - inverse (confFlat ψ) a b y * trace (confFlat ψ) (confK ψ A) y =
      exp (-4 * log (ψ y)) * (A a b y / ψ y ^ 6) := by
    intro y hy a b
    rw [confK_trace hψ hp A hy, htr y hy, confK_raise hψ hp A hy, conf_exp_neg hψ hp hy]
    have := hn y hy
    field_simp
    ring
  have hd := conf_divergence (T := fun a b y => A a b y / ψ y ^ 6)
    (S := fun a b y => raise2 (confFlat ψ) (confK ψ A) a b y - inverse (confFlat ψ) a b y * trace (confFlat ψ) (confK ψ A) y)
    (flat_metric Ω) (log_smooth hψ hp) (confFlat_eq hψ hp) hT (fun y hy a b => by rw [hAs y hy a b]) hS hx i
  simp only [momentum, Matter.vacuum, mul_zero, Finset.sum_const_zero, sub_zero]
  rw [hd, conf_exp_neg hψ hp hx]
  have h1 : ∀ k, pd k (fun y => log (ψ y)) x = pd k ψ x / ψ x := fun k => dpd_log hx k hψ hn
  have hpow : ∀ j, pd j (fun y => ψ y ^ 6) x = 6 * ψ x ^ 5 * pd j ψ x := by
    intro j
    exact (pd_comp (φ := fun t => t ^ 6) (by fun_prop) (hψ.diff hx) j).trans (by
      rw [(hasDerivAt_pow 6 (ψ x)).deriv]
      norm_num)
  have h2 : ∀ j, pd j (fun y => A i j y / ψ y ^ 6) x = pd j (A i j) x / ψ x ^ 6 - 6 * A i j x * pd j ψ x / ψ x ^ 7 := by
    intro j
    rw [dpd_div hx j (hA i j) (hψ.pow 6) fun y hy => pow_ne_zero _ (hn y hy), hpow]
    field_simp
  have ht : ∑ j, ∑ m, flat j m x * (A j m x / ψ x ^ 6) = 0 := by
    simp only [flat, ite_mul, one_mul, zero_mul, Finset.sum_ite_eq, Finset.mem_univ, if_true, ← Finset.sum_div, htr x hx, zero_div]
  rw [ht]
  simp only [divergence, flat_christoffel, h1, h2, Fin.sum_univ_three]
  field_simp
  ring

end

end Verif.Initial
