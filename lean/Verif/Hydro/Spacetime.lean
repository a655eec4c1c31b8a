import Verif.BSSN.Tetrad
import Verif.BSSN.Algebraic

/-!
# Specification: derivatives and conservation laws in spacetime

Coordinates `(t, x^1, x^2, x^3)`; index 0 is time.
-/
namespace Verif.Hydro
open Verif.RefMetric Verif.BSSN

/-- A function of time and position. -/
abbrev Scal4 := ℝ → Scal

/-- The derivative with respect to coordinate `μ` at `(t, x)`. -/
noncomputable def d4 (f : Scal4) (t : ℝ) (x : Vec) : Fin 4 → ℝ :=
  Fin.cons (deriv (fun τ => f τ x) t) fun i => pd i (f t) x

/-- The spacetime metric `-α² dt² + γ_{ij} (dx^i + β^i dt) (dx^j + β^j dt)`. -/
def metric4 (γ : ℝ → T2) (α : Scal4) (β : ℝ → T1) (μ ν : Fin 4) : Scal4 := fun τ y =>
  coordMetric (fun i j => γ τ i j y) (α τ y) (fun i => β τ i y) μ ν

/-- The inverse of a spacetime metric. -/
noncomputable def inv4 (g : Fin 4 → Fin 4 → Scal4) (μ ν : Fin 4) : Scal4 := fun τ y => (Matrix.of fun a b => g a b τ y)⁻¹ μ ν

/-- `Γ^λ_{μν} = ½ g^{λσ} (∂_ν g_{σμ} + ∂_μ g_{σν} - ∂_σ g_{μν})`. -/
noncomputable def chr4 (g : Fin 4 → Fin 4 → Scal4) (l μ ν : Fin 4) (t : ℝ) (x : Vec) : ℝ :=
  ∑ σ, 1 / 2 * inv4 g l σ t x * (d4 (g σ μ) t x ν + d4 (g σ ν) t x μ - d4 (g μ ν) t x σ)

/-- `∇_μ J^μ`. -/
noncomputable def div1 (g : Fin 4 → Fin 4 → Scal4) (J : Fin 4 → Scal4) (t : ℝ) (x : Vec) : ℝ :=
  ∑ μ, (d4 (J μ) t x μ + ∑ l, chr4 g μ μ l t x * J l t x)

/-- `∇_μ T^{μν}`. -/
noncomputable def div2 (g : Fin 4 → Fin 4 → Scal4) (T : Fin 4 → Fin 4 → Scal4) (ν : Fin 4) (t : ℝ) (x : Vec) : ℝ :=
  ∑ μ, (d4 (T μ ν) t x μ + ∑ l, (chr4 g μ μ l t x * T l ν t x + chr4 g ν μ l t x * T μ l t x))

/-! ## Rules of calculus -/

/-- Differentiable in time at `(t, x)` and smooth in space at the time `t`. -/
structure Df (Ω : Dom) (t : ℝ) (x : Vec) (f : Scal4) : Prop where
  time : DifferentiableAt ℝ (fun τ => f τ x) t
  space : Sm Ω (f t)

section
variable {Ω : Dom} {t : ℝ} {x : Vec} (hx : x ∈ Ω) {f g : Scal4}

namespace Df
theorem const (a : ℝ) : Df Ω t x fun _ _ => a := ⟨differentiableAt_const a, Sm.const a⟩
theorem add (hf : Df Ω t x f) (hg : Df Ω t x g) : Df Ω t x fun τ y => f τ y + g τ y := ⟨hf.time.add hg.time, hf.space.add hg.space⟩
theorem sub (hf : Df Ω t x f) (hg : Df Ω t x g) : Df Ω t x fun τ y => f τ y - g τ y := ⟨hf.time.sub hg.time, hf.space.sub hg.space⟩
theorem mul (hf : Df Ω t x f) (hg : Df Ω t x g) : Df Ω t x fun τ y => f τ y * g τ y := ⟨hf.time.mul hg.time, hf.space.mul hg.space⟩
theorem neg (hf : Df Ω t x f) : Df Ω t x fun τ y => -f τ y := ⟨hf.time.neg, hf.space.neg⟩
theorem sum {f : Fin 3 → Scal4} (hf : ∀ i, Df Ω t x (f i)) : Df Ω t x fun τ y => ∑ i, f i τ y :=
  ⟨DifferentiableAt.fun_sum fun i _ => (hf i).time, Sm.sum fun i => (hf i).space⟩
theorem sum4 {f : Fin 4 → Scal4} (hf : ∀ i, Df Ω t x (f i)) : Df Ω t x fun τ y => ∑ i, f i τ y := by
  simp only [Fin.sum_univ_succ (n := 3)]
  exact (hf 0).add (sum fun i => hf i.succ)
theorem div (hx : x ∈ Ω) (hf : Df Ω t x f) (hg : Df Ω t x g) (h0 : ∀ y ∈ Ω, g t y ≠ 0) : Df Ω t x fun τ y => f τ y / g τ y :=
  ⟨hf.time.div hg.time (h0 x hx), hf.space.div hg.space h0⟩
/-- A function of position only. -/
theorem static {f : Scal} (hf : Sm Ω f) : Df Ω t x fun _ y => f y := ⟨differentiableAt_const _, hf⟩
end Df

include hx
theorem d4_add (hf : Df Ω t x f) (hg : Df Ω t x g) (μ : Fin 4) :
    d4 (fun τ y => f τ y + g τ y) t x μ = d4 f t x μ + d4 g t x μ := by
  refine Fin.cases ?_ (fun i => ?_) μ
  · exact deriv_fun_add hf.time hg.time
  · exact dpd_add hx i hf.space hg.space

theorem d4_sub (hf : Df Ω t x f) (hg : Df Ω t x g) (μ : Fin 4) :
    d4 (fun τ y => f τ y - g τ y) t x μ = d4 f t x μ - d4 g t x μ := by
  refine Fin.cases ?_ (fun i => ?_) μ
  · exact deriv_fun_sub hf.time hg.time
  · exact dpd_sub hx i hf.space hg.space

theorem d4_neg (hf : Df Ω t x f) (μ : Fin 4) : d4 (fun τ y => -f τ y) t x μ = -d4 f t x μ := by
  refine Fin.cases ?_ (fun i => ?_) μ
  · exact deriv.fun_neg
  · exact dpd_neg hx i hf.space

theorem d4_mul (hf : Df Ω t x f) (hg : Df Ω t x g) (μ : Fin 4) :
    d4 (fun τ y => f τ y * g τ y) t x μ = d4 f t x μ * g t x + f t x * d4 g t x μ := by
  refine Fin.cases ?_ (fun i => ?_) μ
  · exact deriv_fun_mul hf.time hg.time
  · exact dpd_mul hx i hf.space hg.space

theorem d4_sum {f : Fin 3 → Scal4} (hf : ∀ i, Df Ω t x (f i)) (μ : Fin 4) :
    d4 (fun τ y => ∑ i, f i τ y) t x μ = ∑ i, d4 (f i) t x μ := by
  refine Fin.cases ?_ (fun i => ?_) μ
  · exact deriv_fun_sum fun i _ => (hf i).time
  · exact dpd_sum hx i fun j => (hf j).space

theorem d4_sum4 {f : Fin 4 → Scal4} (hf : ∀ i, Df Ω t x (f i)) (μ : Fin 4) :
    d4 (fun τ y => ∑ i, f i τ y) t x μ = ∑ i, d4 (f i) t x μ := by
  simp only [Fin.sum_univ_succ (n := 3)]
  rw [d4_add hx (hf 0) (Df.sum fun i => hf i.succ), d4_sum hx fun i => hf i.succ]

/-- Only the values near `(t, x)` matter. -/
theorem d4_congr (h1 : ∀ᶠ τ in nhds t, f τ x = g τ x) (h2 : ∀ y ∈ Ω, f t y = g t y) (μ : Fin 4) : d4 f t x μ = d4 g t x μ := by
  refine Fin.cases ?_ (fun i => ?_) μ
  · exact Filter.EventuallyEq.deriv_eq h1
  · exact pd_congr_on h2 hx i
omit hx

theorem Df.congr (hf : Df Ω t x f) (h1 : ∀ᶠ τ in nhds t, g τ x = f τ x) (h2 : ∀ y ∈ Ω, g t y = f t y) : Df Ω t x g :=
  ⟨hf.time.congr_of_eventuallyEq h1, hf.space.congr h2⟩
end

/-! ## Algebra of the 3+1 split at a point -/

section
variable {γ u : Fin 3 → Fin 3 → ℝ} {α : ℝ} {β : Fin 3 → ℝ}

/-- The inverse metric of the 3+1 split. -/
noncomputable def split4 (u : Fin 3 → Fin 3 → ℝ) (α : ℝ) (β : Fin 3 → ℝ) : Fin 4 → Fin 4 → ℝ :=
  Fin.cons (Fin.cons (-1 / α ^ 2) fun j => β j / α ^ 2) fun i => Fin.cons (β i / α ^ 2) fun j => u i j - β i * β j / α ^ 2

theorem coord_mul_split (hα : α ≠ 0) (hs : ∀ i j, γ i j = γ j i) (hu : ∀ i j, ∑ k, γ i k * u k j = if i = j then 1 else 0)
    (μ ν : Fin 4) : ∑ σ, coordMetric γ α β μ σ * split4 u α β σ ν = if μ = ν then 1 else 0 := by
  have s1 := hs 1 0
  have s2 := hs 2 0
  have s3 := hs 2 1
  have hu' := hu
  simp only [Fin.sum_univ_three] at hu'
  have hβ : ∀ j, ∑ i, (∑ k, γ k i * β k) * u i j = β j := fun j => by
    have h : ∑ i, (∑ k, γ k i * β k) * u i j = ∑ k, β k * ∑ i, γ k i * u i j := by
      simp only [Fin.sum_univ_three]; ring
    rw [h]; simp [hu]
  simp only [Fin.sum_univ_three] at hβ
  refine Fin.cases ?_ (fun i => ?_) μ <;> refine Fin.cases ?_ (fun j => ?_) ν
  · simp only [coordMetric, split4, prod, Fin.sum_univ_succ (n := 3), Fin.cons_zero, Fin.cons_succ]
    simp only [Fin.sum_univ_three, s1, s2, s3, if_true]
    field_simp
    ring
  · simp only [coordMetric, split4, prod, Fin.sum_univ_succ (n := 3), Fin.cons_zero, Fin.cons_succ, if_neg (Fin.succ_ne_zero j).symm]
    have := hβ j
    simp only [Fin.sum_univ_three, s1, s2, s3] at this ⊢
    linear_combination (norm := (field_simp; ring)) this
  · simp only [coordMetric, split4, prod, Fin.sum_univ_succ (n := 3), Fin.cons_zero, Fin.cons_succ, if_neg (Fin.succ_ne_zero i)]
    simp only [Fin.sum_univ_three]
    field_simp
    ring
  · simp only [coordMetric, split4, prod, Fin.sum_univ_succ (n := 3), Fin.cons_zero, Fin.cons_succ, Fin.succ_inj]
    rw [← hu' i j]
    simp only [Fin.sum_univ_three]
    ring
end
end Verif.Hydro
