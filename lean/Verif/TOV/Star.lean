import Verif.TOV.Static

/-!
# Profiles that solve the equations of stellar structure give static solutions of Einstein's equations
-/
namespace Verif.TOV
open Verif.RefMetric Verif.BSSN Verif.Initial Verif.Hydro Real

/-- Specification: metric, extrinsic curvature, lapse, shift and stress-energy tensor are a static solution of Einstein's equations at `x`.  The
constraints hold, neither the metric nor the extrinsic curvature changes in time, and the stress-energy tensor, taken as constant in time, is
conserved. -/
structure StaticSolution (γ K : T2) (α : Scal) (β : T1) (T : Fin 4 → Fin 4 → Scal) (x : Vec) : Prop where
  hamiltonian : hamiltonian γ K (matterOf γ α β T) x = 0
  momentum : ∀ i, momentum γ K (matterOf γ α β T) i x = 0
  metric : ∀ i j, admGammaRhs γ K α β i j x = 0
  curvature : ∀ i j, admKRhs γ K α β (matterOf γ α β T) i j x = 0
  matter : ∀ ν t, div2 (metric4 (fun _ => γ) (fun _ => α) (fun _ => β)) (fun μ ν _ => T μ ν) ν t x = 0

/-- The equations of stellar structure, with the isotropic radius as the independent variable: areal radius `s`, mass `m`, pressure `p`, energy
density `ρ` and lapse `f`. -/
structure Profile (V : Set ℝ) (s m p ρ f : ℝ → ℝ) : Prop where
  pos : ∀ r ∈ V, 0 < r
  s_pos : ∀ r ∈ V, 0 < s r
  compact : ∀ r ∈ V, 2 * m r < s r
  f_ne : ∀ r ∈ V, f r ≠ 0
  ds : ∀ r ∈ V, HasDerivAt s (s r * √(1 - 2 * m r / s r) / r) r
  dm : ∀ r ∈ V, HasDerivAt m (4 * π * s r ^ 2 * ρ r * (s r * √(1 - 2 * m r / s r) / r)) r
  dp : ∀ r ∈ V, HasDerivAt p (-((ρ r + p r) * (m r / s r + 4 * π * s r ^ 2 * p r)) / (r * √(1 - 2 * m r / s r))) r
  df : ∀ r ∈ V, HasDerivAt f (f r * (m r / s r + 4 * π * s r ^ 2 * p r) / (r * √(1 - 2 * m r / s r))) r

namespace Profile
variable {V : Set ℝ} {s m p ρ f : ℝ → ℝ} (h : Profile V s m p ρ f)
include h

theorem arg_pos {r : ℝ} (hr : r ∈ V) : 0 < 1 - 2 * m r / s r := by
  rw [sub_pos, div_lt_one (h.s_pos r hr)]
  exact h.compact r hr

theorem q_pos {r : ℝ} (hr : r ∈ V) : 0 < √(1 - 2 * m r / s r) := sqrt_pos.2 (h.arg_pos hr)

theorem q_sq {r : ℝ} (hr : r ∈ V) : √(1 - 2 * m r / s r) ^ 2 = 1 - 2 * m r / s r := sq_sqrt (h.arg_pos hr).le

theorem dq {r : ℝ} (hr : r ∈ V) : HasDerivAt (fun t => √(1 - 2 * m t / s t)) ((m r / s r - 4 * π * s r ^ 2 * ρ r) / r) r := by
  have h0 := (h.pos r hr).ne'
  have h1 := (h.s_pos r hr).ne'
  have h2 := (h.q_pos hr).ne'
  have d := ((((h.dm r hr).const_mul 2).div (h.ds r hr) h1).const_sub 1).sqrt (h.arg_pos hr).ne'
  refine d.congr_deriv ?_
  simp only [Pi.div_apply]
  generalize √(1 - 2 * m r / s r) = q at h2 ⊢
  field_simp
  ring

/-- Half the logarithmic derivative of the conformal factor `(s/r)²`. -/
theorem dA {r : ℝ} (hr : r ∈ V) : HasDerivAt (fun t => s t / t * (s t / t)) (2 * ((√(1 - 2 * m r / s r) - 1) / r) * (s r / r * (s r / r))) r := by
  have h0 := (h.pos r hr).ne'
  have h1 := (h.s_pos r hr).ne'
  have d := (h.ds r hr).div (hasDerivAt_id r) h0
  refine (d.mul d).congr_deriv ?_
  simp only [Pi.div_apply, id]
  field_simp
  ring

theorem dw {r : ℝ} (hr : r ∈ V) : HasDerivAt (fun t => (√(1 - 2 * m t / s t) - 1) / t)
    ((m r / s r - 4 * π * s r ^ 2 * ρ r) / r ^ 2 - (√(1 - 2 * m r / s r) - 1) / r ^ 2) r := by
  have h0 := (h.pos r hr).ne'
  refine (((h.dq hr).sub_const 1).div (hasDerivAt_id r) h0).congr_deriv ?_
  simp only [id]
  field_simp

/-- The second derivative of the lapse. -/
theorem ddf {r : ℝ} (hr : r ∈ V) : HasDerivAt (fun t => f t * (m t / s t + 4 * π * s t ^ 2 * p t) / (t * √(1 - 2 * m t / s t)))
    (f r * ((m r / s r + 4 * π * s r ^ 2 * p r) ^ 2 / (r ^ 2 * √(1 - 2 * m r / s r) ^ 2) +
      (4 * π * s r ^ 2 * ρ r - m r / s r + 8 * π * s r ^ 2 * p r) / r ^ 2 -
      4 * π * s r ^ 2 * (ρ r + p r) * (m r / s r + 4 * π * s r ^ 2 * p r) / (r ^ 2 * √(1 - 2 * m r / s r) ^ 2) -
      (m r / s r + 4 * π * s r ^ 2 * p r) / (r ^ 2 * √(1 - 2 * m r / s r)) -
      (m r / s r + 4 * π * s r ^ 2 * p r) * (m r / s r - 4 * π * s r ^ 2 * ρ r) / (r ^ 2 * √(1 - 2 * m r / s r) ^ 2))) r := by
  have h0 := (h.pos r hr).ne'
  have h1 := (h.s_pos r hr).ne'
  have h2 := (h.q_pos hr).ne'
  have du := ((h.dm r hr).div (h.ds r hr) h1).add ((((h.ds r hr).pow 2).const_mul (4 * π)).mul (h.dp r hr))
  refine (((h.df r hr).mul du).div ((hasDerivAt_id r).mul (h.dq hr)) (mul_ne_zero h0 h2)).congr_deriv ?_
  simp only [Pi.mul_apply, Pi.div_apply, Pi.add_apply, Pi.pow_apply, id]
  set q := √(1 - 2 * m r / s r)
  norm_num
  field_simp
  ring

end Profile

section
variable {V : Set ℝ} {s m p ρ f : ℝ → ℝ} (h : Profile V s m p ρ f) {Ω : Dom} {γ K : T2} {α : Scal} {β : T1} {T : Fin 4 → Fin 4 → Scal}
  (hΩ : ∀ y ∈ Ω, y 0 ∈ V ∧ sin (y 1) ≠ 0) (hγ : ∀ y ∈ Ω, ∀ i j, γ i j y = rad (fun t => s t / t * (s t / t)) i j y) (hK : ∀ i j y, K i j y = 0)
  (hα : ∀ y ∈ Ω, α y = f (y 0)) (hβ : ∀ i y, β i y = 0)
  (hT : ∀ y ∈ Ω, ∀ μ ν, T μ ν y = ![![ρ (y 0) / f (y 0) ^ 2, 0, 0, 0], ![0, p (y 0) / (s (y 0) / y 0 * (s (y 0) / y 0)), 0, 0],
      ![0, 0, p (y 0) / (s (y 0) / y 0 * (s (y 0) / y 0) * y 0 * y 0), 0],
      ![0, 0, 0, p (y 0) / (s (y 0) / y 0 * (s (y 0) / y 0) * y 0 * y 0 * sin (y 1) * sin (y 1))]] μ ν)
include h hΩ hγ

theorem rad_of : Rad Ω γ (fun t => s t / t * (s t / t)) (fun t => (√(1 - 2 * m t / s t) - 1) / t)
    (fun r => (m r / s r - 4 * π * s r ^ 2 * ρ r) / r ^ 2 - (√(1 - 2 * m r / s r) - 1) / r ^ 2) where
  eq := hγ
  pos y hy := h.pos _ (hΩ y hy).1
  axis y hy := (hΩ y hy).2
  A_pos y hy := mul_self_pos.2 (div_ne_zero (h.s_pos _ (hΩ y hy).1).ne' (h.pos _ (hΩ y hy).1).ne')
  dA y hy := h.dA (hΩ y hy).1
  dw y hy := h.dw (hΩ y hy).1

include hK hα hβ hT

/-- The profile gives a static solution. -/
theorem static_solution {x : Vec} (hx : x ∈ Ω) : StaticSolution γ K α β T x := by
  have H := rad_of h hΩ hγ
  have hr := (hΩ x hx).1
  have h0 := (h.pos _ hr).ne'
  have h1 := (h.s_pos _ hr).ne'
  have h2 := (h.q_pos hr).ne'
  have hq := h.q_sq hr
  have hs := (hΩ x hx).2
  have hf := h.f_ne _ hr
  have eK : K = fun _ _ _ => 0 := by funext i j y; exact hK i j y
  have eβ : β = fun _ _ => 0 := by funext i y; exact hβ i y
  subst eK eβ
  have ht0 : ∀ y, trace γ (fun _ _ _ => 0) y = 0 := fun y => by simp [trace]
  have hr0 : ∀ i j y, raise2 γ (fun _ _ _ => 0) i j y = 0 := fun i j y => by simp [raise2]
  have hl0 : ∀ (S : T2) i j, lieDD (fun _ _ => 0) S i j x = 0 := fun S i j => by
    simp only [lieDD, zero_mul, zero_add]
    have : ∀ k : Fin 3, pd k (fun _ => (0 : ℝ)) x = 0 := fun k => dpd_const k 0
    simp [this]
  have hrho : (matterOf γ α (fun _ _ => 0) T).rho x = ρ (x 0) := by
    simp only [matterOf, hα x hx, hT x hx]
    simp
    field_simp
  have hS : ∀ i, (matterOf γ α (fun _ _ => 0) T).S i x = 0 := fun i => by
    simp only [matterOf, hT x hx, Fin.sum_univ_three]
    simp
  have hSS : ∀ i j, (matterOf γ α (fun _ _ => 0) T).SS i j x = p (x 0) * γ i j x := fun i j => by
    simp only [matterOf, hT x hx, hγ x hx, Fin.sum_univ_three]
    fin_cases i <;> fin_cases j <;> simp [rad] <;> field_simp
  have htr : trace γ (matterOf γ α (fun _ _ => 0) T).SS x = 3 * p (x 0) := by
    simp only [trace, hSS, H.inv hx, hγ x hx, Fin.sum_univ_three]
    simp [rad]
    field_simp
    ring
  refine ⟨?_, fun i => ?_, fun i j => ?_, fun i j => ?_, fun ν t => ?_⟩
  · simp only [hamiltonian, ht0, hr0, hrho, H.scal hx]
    simp
    set q := √(1 - 2 * m (x 0) / s (x 0))
    have hm : m (x 0) = (1 - q ^ 2) * s (x 0) / 2 := by rw [hq]; field_simp; ring
    rw [hm]
    field_simp
    ring
  · simp only [momentum, divergence, hS, ht0, hr0, mul_zero, sub_zero, Finset.sum_const_zero, add_zero]
    have : ∀ k : Fin 3, pd k (fun _ => (0 : ℝ)) x = 0 := fun k => dpd_const k 0
    simp [this]
  · rw [admGammaRhs, hl0]
    simp
  · have hh := H.hess (x := x) hx (f := f) (f' := fun r => f r * (m r / s r + 4 * π * s r ^ 2 * p r) / (r * √(1 - 2 * m r / s r))) hα
      (fun y hy => h.df _ (hΩ y hy).1) (h.ddf hr) i j
    rw [admKRhs, hl0, hh, H.ric hx, ht0, hSS, htr, hrho, hα x hx, hγ x hx]
    simp only [mul_zero, zero_mul, Finset.sum_const_zero, sub_zero, add_zero, rad, radRic]
    generalize √(1 - 2 * m (x 0) / s (x 0)) = q at hq h2 ⊢
    have hm : m (x 0) = (1 - q ^ 2) * s (x 0) / 2 := by rw [hq]; field_simp; ring
    rw [hm]
    fin_cases i <;> fin_cases j <;> simp <;> field_simp <;> ring
  · rw [div2_eq H (f' := fun r => f r * (m r / s r + 4 * π * s r ^ 2 * p r) / (r * √(1 - 2 * m r / s r))) hα (fun y hy => h.f_ne _ (hΩ y hy).1) (fun y hy => h.df _ (hΩ y hy).1) hx t (h.dp _ hr)
      (E := fun y => ρ (y 0) / f (y 0) ^ 2) hT ν]
    fin_cases ν <;> simp
    left
    field_simp
    ring

end

end Verif.TOV
