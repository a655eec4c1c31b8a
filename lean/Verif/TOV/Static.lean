import Verif.TOV.Radial
import Verif.Hydro.Spacetime

/-!
# Static spherically symmetric spacetimes in isotropic coordinates
-/
namespace Verif.TOV
open Verif.RefMetric Verif.BSSN Verif.Initial Verif.Hydro Real

theorem d4_static (h : Scal) (t : ℝ) (x : Vec) (μ : Fin 4) : d4 (fun _ => h) t x μ = ![0, pd 0 h x, pd 1 h x, pd 2 h x] μ := by
  fin_cases μ
  · exact deriv_const t (h x)
  · rfl
  · rfl
  · rfl

/-- The spacetime metric with lapse `f` and no shift. -/
noncomputable def met (f A : ℝ → ℝ) (μ ν : Fin 4) : Scal := fun y =>
  ![![-f (y 0) ^ 2, 0, 0, 0], ![0, A (y 0), 0, 0], ![0, 0, A (y 0) * y 0 * y 0, 0], ![0, 0, 0, A (y 0) * y 0 * y 0 * sin (y 1) * sin (y 1)]] μ ν

/-- Its connection. -/
noncomputable def chr4T (f f' A w : ℝ → ℝ) (x : Vec) (l μ ν : Fin 4) : ℝ :=
  ![![![0, f' (x 0) / f (x 0), 0, 0], ![f' (x 0) / f (x 0), 0, 0, 0], ![0, 0, 0, 0], ![0, 0, 0, 0]],
    ![![f (x 0) * f' (x 0) / A (x 0), 0, 0, 0], ![0, w (x 0), 0, 0], ![0, 0, -(x 0 + x 0 ^ 2 * w (x 0)), 0],
      ![0, 0, 0, -(x 0 + x 0 ^ 2 * w (x 0)) * sin (x 1) ^ 2]],
    ![![0, 0, 0, 0], ![0, 0, 1 / x 0 + w (x 0), 0], ![0, 1 / x 0 + w (x 0), 0, 0], ![0, 0, 0, -(sin (x 1) * cos (x 1))]],
    ![![0, 0, 0, 0], ![0, 0, 0, 1 / x 0 + w (x 0)], ![0, 0, 0, cos (x 1) / sin (x 1)],
      ![0, 1 / x 0 + w (x 0), cos (x 1) / sin (x 1), 0]]] l μ ν

variable {Ω : Dom} {g : T2} {A w w' : ℝ → ℝ} (H : Rad Ω g A w w') {F : Scal} {f f' : ℝ → ℝ} (hF : ∀ y ∈ Ω, F y = f (y 0))
  (hf0 : ∀ y ∈ Ω, f (y 0) ≠ 0) (hf : ∀ y ∈ Ω, HasDerivAt f (f' (y 0)) (y 0)) {x : Vec} (hx : x ∈ Ω) (t : ℝ)
include H hF

theorem met_eq {y : Vec} (hy : y ∈ Ω) (μ ν : Fin 4) : metric4 (fun _ => g) (fun _ => F) (fun _ _ _ => 0) μ ν t y = met f A μ ν y := by
  have e : ∀ i j, g i j y = rad A i j y := H.eq y hy
  have h0 : ∀ i j, metric4 (fun _ => g) (fun _ => F) (fun _ _ _ => 0) (Fin.succ i) (Fin.succ j) t y = g i j y := fun i j => by
    simp [metric4, coordMetric]
  have h1 : ∀ i, metric4 (fun _ => g) (fun _ => F) (fun _ _ _ => 0) (Fin.succ i) 0 t y = 0 := fun i => by
    simp [metric4, coordMetric]
  have h2 : ∀ i, metric4 (fun _ => g) (fun _ => F) (fun _ _ _ => 0) 0 (Fin.succ i) t y = 0 := fun i => by
    simp [metric4, coordMetric]
  have h3 : metric4 (fun _ => g) (fun _ => F) (fun _ _ _ => 0) 0 0 t y = -f (y 0) ^ 2 := by
    simp [metric4, coordMetric, prod, hF y hy]
  refine Fin.cases ?_ (fun i => ?_) μ <;> refine Fin.cases ?_ (fun j => ?_) ν
  · rw [h3]; rfl
  · rw [h2]; fin_cases j <;> rfl
  · rw [h1]; fin_cases i <;> rfl
  · rw [h0, e]; fin_cases i <;> fin_cases j <;> rfl

include hf0 hx

theorem inv4_eq (μ ν : Fin 4) : inv4 (metric4 (fun _ => g) (fun _ => F) (fun _ _ _ => 0)) μ ν t x =
    ![![-(f (x 0) ^ 2)⁻¹, 0, 0, 0], ![0, (A (x 0))⁻¹, 0, 0], ![0, 0, (A (x 0) * x 0 * x 0)⁻¹, 0],
      ![0, 0, 0, (A (x 0) * x 0 * x 0 * sin (x 1) * sin (x 1))⁻¹]] μ ν := by
  have h0 := (H.pos x hx).ne'
  have h1 := H.axis x hx
  have h2 := (H.A_pos x hx).ne'
  have h3 := hf0 x hx
  have h : (Matrix.of fun a b => metric4 (fun _ => g) (fun _ => F) (fun _ _ _ => 0) a b t x) * (Matrix.of ![![-(f (x 0) ^ 2)⁻¹, 0, 0, 0],
      ![0, (A (x 0))⁻¹, 0, 0], ![0, 0, (A (x 0) * x 0 * x 0)⁻¹, 0], ![0, 0, 0, (A (x 0) * x 0 * x 0 * sin (x 1) * sin (x 1))⁻¹]]) = 1 := by
    ext i j
    rw [Matrix.mul_apply, Fin.sum_univ_four]
    simp only [Matrix.of_apply, met_eq H hF t hx, met]
    fin_cases i <;> fin_cases j <;> simp <;> field_simp
  show (Matrix.of fun a b => metric4 (fun _ => g) (fun _ => F) (fun _ _ _ => 0) a b t x)⁻¹ μ ν = _
  rw [Matrix.inv_eq_right_inv h]
  rfl

include hf

theorem d4_met (μ ν σ : Fin 4) : d4 (metric4 (fun _ => g) (fun _ => F) (fun _ _ _ => 0) μ ν) t x σ =
    ![![![0, -2 * f (x 0) * f' (x 0), 0, 0], 0, 0, 0], ![0, ![0, 2 * w (x 0) * A (x 0), 0, 0], 0, 0],
      ![0, 0, ![0, 2 * w (x 0) * A (x 0) * x 0 ^ 2 + A (x 0) * (2 * x 0), 0, 0], 0],
      ![0, 0, 0, ![0, (2 * w (x 0) * A (x 0) * x 0 ^ 2 + A (x 0) * (2 * x 0)) * sin (x 1) ^ 2,
        A (x 0) * x 0 ^ 2 * (2 * sin (x 1) * cos (x 1)), 0]]] μ ν σ := by
  rw [d4_congr (g := fun _ => met f A μ ν) hx (Filter.Eventually.of_forall fun τ => met_eq H hF τ hx μ ν) (fun y hy => met_eq H hF t hy μ ν),
    d4_static]
  have hA := H.dA x hx
  have h1 : HasDerivAt (fun t => -f t ^ 2) (-2 * f (x 0) * f' (x 0)) (x 0) := by
    refine ((hf x hx).pow 2).neg.congr_deriv ?_
    norm_num
  have h2 : HasDerivAt (fun t => A t * t ^ 2) (2 * w (x 0) * A (x 0) * x 0 ^ 2 + A (x 0) * (2 * x 0)) (x 0) := by
    refine (hA.mul (hasDerivAt_pow 2 (x 0))).congr_deriv ?_
    norm_num
  have h3 : HasDerivAt (fun t => sin t ^ 2) (2 * sin (x 1) * cos (x 1)) (x 1) := by
    refine ((hasDerivAt_sin (x 1)).pow 2).congr_deriv ?_
    norm_num
  have e3 : ∀ k, pd k (fun y => -f (y 0) ^ 2) x = ![-2 * f (x 0) * f' (x 0), 0, 0] k := fun k => by
    rw [pd_one 0 h1]; fin_cases k <;> simp
  have e0 : ∀ k, pd k (fun y => A (y 0)) x = ![2 * w (x 0) * A (x 0), 0, 0] k := fun k => by
    rw [pd_one 0 hA]; fin_cases k <;> simp
  have e1 : ∀ k, pd k (fun y => A (y 0) * y 0 * y 0) x = ![2 * w (x 0) * A (x 0) * x 0 ^ 2 + A (x 0) * (2 * x 0), 0, 0] k := fun k => by
    rw [show (fun y : Vec => A (y 0) * y 0 * y 0) = fun y => A (y 0) * y 0 ^ 2 from funext fun y => by ring, pd_one 0 h2]
    fin_cases k <;> simp
  have e2 : ∀ k, pd k (fun y => A (y 0) * y 0 * y 0 * sin (y 1) * sin (y 1)) x =
      ![(2 * w (x 0) * A (x 0) * x 0 ^ 2 + A (x 0) * (2 * x 0)) * sin (x 1) ^ 2, A (x 0) * x 0 ^ 2 * (2 * sin (x 1) * cos (x 1)), 0] k := fun k => by
    rw [show (fun y : Vec => A (y 0) * y 0 * y 0 * sin (y 1) * sin (y 1)) = fun y => A (y 0) * y 0 ^ 2 * sin (y 1) ^ 2 from
      funext fun y => by ring]
    exact pd_two h2 h3 k
  have ez : ∀ k, pd k (fun _ => (0 : ℝ)) x = 0 := fun k => dpd_const k 0
  have key : ∀ (φ : Scal) (v : Fin 3 → ℝ), (∀ k, pd k φ x = v k) → ∀ σ, (![0, pd 0 φ x, pd 1 φ x, pd 2 φ x] : Fin 4 → ℝ) σ = ![0, v 0, v 1, v 2] σ :=
    fun φ v h σ => by rw [h, h, h]
  fin_cases μ <;> fin_cases ν <;>
    first
    | (refine (key _ _ e3 σ).trans ?_; fin_cases σ <;> simp; done)
    | (refine (key _ _ e0 σ).trans ?_; fin_cases σ <;> simp; done)
    | (refine (key _ _ e1 σ).trans ?_; fin_cases σ <;> simp; done)
    | (refine (key _ _ e2 σ).trans ?_; fin_cases σ <;> simp; done)
    | (refine (key _ _ ez σ).trans ?_; fin_cases σ <;> simp; done)

theorem chr4_eq (l μ ν : Fin 4) : chr4 (metric4 (fun _ => g) (fun _ => F) (fun _ _ _ => 0)) l μ ν t x = chr4T f f' A w x l μ ν := by
  have h0 := (H.pos x hx).ne'
  have h1 := H.axis x hx
  have h2 := (H.A_pos x hx).ne'
  have h3 := hf0 x hx
  simp only [chr4, inv4_eq H hF hf0 hx t, d4_met H hF hf0 hf hx t, Fin.sum_univ_four]
  fin_cases l <;> fin_cases μ <;> fin_cases ν <;> simp [chr4T] <;> field_simp <;> ring

/-- The divergence of the stress-energy tensor of a fluid at rest with the pressure a function of the radius. -/
theorem div2_eq {T : Fin 4 → Fin 4 → Scal} {E : Scal} {p : ℝ → ℝ} {p' : ℝ} (hp : HasDerivAt p p' (x 0))
    (hT : ∀ y ∈ Ω, ∀ μ ν, T μ ν y = ![![E y, 0, 0, 0], ![0, p (y 0) / A (y 0), 0, 0], ![0, 0, p (y 0) / (A (y 0) * y 0 * y 0), 0],
      ![0, 0, 0, p (y 0) / (A (y 0) * y 0 * y 0 * sin (y 1) * sin (y 1))]] μ ν) (ν : Fin 4) :
    div2 (metric4 (fun _ => g) (fun _ => F) (fun _ _ _ => 0)) (fun μ ν _ => T μ ν) ν t x =
      ![0, (p' + (f (x 0) ^ 2 * E x + p (x 0)) * (f' (x 0) / f (x 0))) / A (x 0), 0, 0] ν := by
  have h0 := (H.pos x hx).ne'
  have h1 := H.axis x hx
  have h2 := (H.A_pos x hx).ne'
  have h3 := hf0 x hx
  have hA := H.dA x hx
  -- the derivatives that enter
  have ez : ∀ k, pd k (fun _ => (0 : ℝ)) x = 0 := fun k => dpd_const k 0
  have d1 : pd 0 (T 1 1) x = (p' - 2 * w (x 0) * p (x 0)) / A (x 0) := by
    rw [pd_congr_on (g := fun y => p (y 0) / A (y 0)) (fun y hy => by rw [hT y hy]; rfl) hx, pd_one (φ := fun t => p t / A t) 0 (hp.div hA h2), if_pos rfl]
    field_simp
  have d2 : pd 1 (T 2 2) x = 0 := by
    rw [pd_congr_on (g := fun y => (fun t => p t / (A t * t * t)) (y 0)) (fun y hy => by rw [hT y hy]; rfl) hx]
    apply pd_of
    simpa using hasDerivAt_const (x 1) (p (x 0) / (A (x 0) * x 0 * x 0))
  have d3 : pd 2 (T 3 3) x = 0 := by
    rw [pd_congr_on (g := fun y => p (y 0) / (A (y 0) * y 0 * y 0 * sin (y 1) * sin (y 1))) (fun y hy => by rw [hT y hy]; rfl) hx]
    apply pd_of
    simpa using hasDerivAt_const (x 2) (p (x 0) / (A (x 0) * x 0 * x 0 * sin (x 1) * sin (x 1)))
  have dz : ∀ k μ ν, μ ≠ ν → pd k (T μ ν) x = 0 := fun k μ ν h => by
    rw [pd_congr_on (g := fun _ => 0) (fun y hy => by
      rw [hT y hy]
      fin_cases μ <;> fin_cases ν <;> first | exact absurd rfl h | rfl) hx, ez]
  simp only [div2, chr4_eq H hF hf0 hf hx t, d4_static, hT x hx, Fin.sum_univ_four]
  fin_cases ν <;> simp [chr4T, d1, d2, d3, dz] <;> field_simp <;> ring

end Verif.TOV
