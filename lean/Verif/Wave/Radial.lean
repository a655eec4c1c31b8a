import Verif.BSSN.Calculus
import Mathlib.Analysis.SpecialFunctions.Sqrt

/-!
# Derivatives of functions of the distance from a point
-/
namespace Verif.Wave
open Verif.RefMetric Verif.BSSN Real
open scoped ContDiff

/-- The distance from `c`. -/
noncomputable def dist3 (c : Vec) : Scal := fun y => √((y 0 - c 0) ^ 2 + (y 1 - c 1) ^ 2 + (y 2 - c 2) ^ 2)

/-- Everywhere but `c`. -/
def away (c : Vec) : Dom := ⟨{y | y ≠ c}, isOpen_ne⟩

theorem mem_away {c x : Vec} : x ∈ away c ↔ x ≠ c := Iff.rfl

theorem sq_pos_of_ne {c x : Vec} (h : x ≠ c) : 0 < (x 0 - c 0) ^ 2 + (x 1 - c 1) ^ 2 + (x 2 - c 2) ^ 2 := by
  by_contra hn
  have h0 : (x 0 - c 0) ^ 2 = 0 := by nlinarith [sq_nonneg (x 0 - c 0), sq_nonneg (x 1 - c 1), sq_nonneg (x 2 - c 2)]
  have h1 : (x 1 - c 1) ^ 2 = 0 := by nlinarith [sq_nonneg (x 0 - c 0), sq_nonneg (x 1 - c 1), sq_nonneg (x 2 - c 2)]
  have h2 : (x 2 - c 2) ^ 2 = 0 := by nlinarith [sq_nonneg (x 0 - c 0), sq_nonneg (x 1 - c 1), sq_nonneg (x 2 - c 2)]
  apply h
  funext i
  fin_cases i
  · exact sub_eq_zero.1 (pow_eq_zero_iff (two_ne_zero) |>.1 h0)
  · exact sub_eq_zero.1 (pow_eq_zero_iff (two_ne_zero) |>.1 h1)
  · exact sub_eq_zero.1 (pow_eq_zero_iff (two_ne_zero) |>.1 h2)

theorem dist3_pos {c x : Vec} (h : x ≠ c) : 0 < dist3 c x := Real.sqrt_pos.2 (sq_pos_of_ne h)

theorem dist3_sq (c x : Vec) : dist3 c x ^ 2 = (x 0 - c 0) ^ 2 + (x 1 - c 1) ^ 2 + (x 2 - c 2) ^ 2 :=
  Real.sq_sqrt (by positivity)

theorem dist3_eq {c x : Vec} : dist3 c x = 0 ↔ x = c := by
  constructor
  · intro h
    by_contra hn
    exact (dist3_pos hn).ne' h
  · rintro rfl
    simp [dist3]

theorem sm_coord {Ω : Dom} (c : Vec) (i : Fin 3) : Sm Ω fun y => y i - c i :=
  ((smooth_coord (N := ∞) i).sub contDiff_const).contDiffOn

theorem sm_dist3 (c : Vec) : Sm (away c) (dist3 c) := by
  apply sm_of_at
  intro x hx
  refine ContDiffAt.sqrt ?_ (sq_pos_of_ne hx).ne'
  have h : ∀ i : Fin 3, ContDiffAt ℝ ∞ (fun y : Vec => (y i - c i) ^ 2) x := fun i =>
    (((smooth_coord (N := ∞) i).sub contDiff_const).pow 2).contDiffAt
  exact ((h 0).add (h 1)).add (h 2)

theorem pd_coord (c : Vec) (x : Vec) (k i : Fin 3) : pd k (fun y => y i - c i) x = if i = k then 1 else 0 := by
  unfold pd
  by_cases h : i = k
  · subst h
    simp
  · simp [Function.update_of_ne h, h]

theorem pd_comp {φ : ℝ → ℝ} {f : Scal} {x : Vec} (hφ : DifferentiableAt ℝ φ (f x)) (hf : DifferentiableAt ℝ f x) (k : Fin 3) :
    pd k (fun y => φ (f y)) x = deriv φ (f x) * pd k f x := by
  have h1 : pd k (φ ∘ f) x = fderiv ℝ (φ ∘ f) x (Pi.single k 1) := pd_eq (hφ.comp x hf) k
  show pd k (φ ∘ f) x = _
  rw [h1, pd_eq hf, (hφ.hasDerivAt.comp_hasFDerivAt x hf.hasFDerivAt).fderiv]
  simp

theorem pd_dist3 {c x : Vec} (h : x ≠ c) (k : Fin 3) : pd k (dist3 c) x = (x k - c k) / dist3 c x := by
  have hp := sq_pos_of_ne h
  have hd : pd k (fun y => (y 0 - c 0) ^ 2 + (y 1 - c 1) ^ 2 + (y 2 - c 2) ^ 2) x = 2 * (x k - c k) := by
    have e : ∀ i, pd k (fun y => (y i - c i) ^ 2) x = if i = k then 2 * (x k - c k) else 0 := by
      intro i
      have : (fun y : Vec => (y i - c i) ^ 2) = fun y => (y i - c i) * (y i - c i) := by funext y; ring
      rw [this, dpd_mul (Ω := ⊤) trivial k (sm_coord c i) (sm_coord c i), pd_coord]
      split
      · rename_i h; subst h; ring
      · ring
    have s : ∀ i, Sm ⊤ fun y : Vec => (y i - c i) ^ 2 := fun i => (sm_coord c i).pow 2
    rw [dpd_add (Ω := ⊤) trivial k ((s 0).add (s 1)) (s 2), dpd_add (Ω := ⊤) trivial k (s 0) (s 1), e, e, e]
    fin_cases k <;> simp
  have hdiff : DifferentiableAt ℝ (fun y : Vec => (y 0 - c 0) ^ 2 + (y 1 - c 1) ^ 2 + (y 2 - c 2) ^ 2) x := by
    have s : ∀ i, Sm ⊤ fun y : Vec => (y i - c i) ^ 2 := fun i => (sm_coord c i).pow 2
    exact (((s 0).add (s 1)).add (s 2)).diff (Ω := ⊤) trivial
  have := pd_comp (φ := Real.sqrt) (Real.hasDerivAt_sqrt hp.ne').differentiableAt hdiff k
  show pd k (fun y => √((y 0 - c 0) ^ 2 + (y 1 - c 1) ^ 2 + (y 2 - c 2) ^ 2)) x = _
  rw [this, (Real.hasDerivAt_sqrt hp.ne').deriv, hd]
  unfold dist3
  have hs : √((x 0 - c 0) ^ 2 + (x 1 - c 1) ^ 2 + (x 2 - c 2) ^ 2) ≠ 0 := (Real.sqrt_pos.2 hp).ne'
  field_simp

/-- One over the distance. -/
noncomputable def invDist (c : Vec) : Scal := fun y => (dist3 c y)⁻¹

theorem sm_invDist (c : Vec) : Sm (away c) (invDist c) :=
  ((Sm.const 1).div (sm_dist3 c) fun _ hx => (dist3_pos hx).ne').congr fun x _ => by simp [invDist]

theorem pd_invDist {c x : Vec} (h : x ≠ c) (k : Fin 3) : pd k (invDist c) x = -(x k - c k) * invDist c x ^ 3 := by
  have hp := (dist3_pos h).ne'
  have := pd_comp (φ := fun t => t⁻¹) (differentiableAt_inv hp) ((sm_dist3 c).diff h) k
  show pd k (fun y => (dist3 c y)⁻¹) x = _
  rw [this, (hasDerivAt_inv hp).deriv, pd_dist3 h]
  unfold invDist
  field_simp

theorem invDist_sq {c x : Vec} (h : x ≠ c) :
    invDist c x ^ 2 * ((x 0 - c 0) ^ 2 + (x 1 - c 1) ^ 2 + (x 2 - c 2) ^ 2) = 1 := by
  rw [← dist3_sq]
  unfold invDist
  have hp := (dist3_pos h).ne'
  field_simp

/-- The Laplace operator in Cartesian coordinates. -/
noncomputable def laplacian (f : Scal) (x : Vec) : ℝ := ∑ a, pd a (pd a f) x

/-- The Laplacian of `F(r)/r` is `F''(r)/r`. -/
theorem laplacian_radial {F : ℝ → ℝ} (hF : ContDiff ℝ ∞ F) {c x : Vec} (h : x ≠ c) :
    laplacian (fun y => F (dist3 c y) * invDist c y) x = deriv (deriv F) (dist3 c x) * invDist c x := by
  have hF1 : ContDiff ℝ ∞ (deriv F) := (contDiff_infty_iff_deriv.1 hF).2
  have s0 : ∀ {G : ℝ → ℝ}, ContDiff ℝ ∞ G → Sm (away c) fun y => G (dist3 c y) := fun hG =>
    hG.comp_contDiffOn (sm_dist3 c)
  have hq := sm_invDist c
  have d0 : ∀ {G : ℝ → ℝ}, ContDiff ℝ ∞ G → ∀ y, y ≠ c → ∀ k, pd k (fun y => G (dist3 c y)) y =
      deriv G (dist3 c y) * ((y k - c k) * invDist c y) := by
    intro G hG y hy k
    rw [pd_comp ((hG.differentiable (by simp)) _) ((sm_dist3 c).diff hy), pd_dist3 hy]
    rfl
  have h1 : ∀ y ∈ away c, ∀ k, pd k (fun y => F (dist3 c y) * invDist c y) y =
      (deriv F (dist3 c y) * invDist c y ^ 2 - F (dist3 c y) * invDist c y ^ 3) * (y k - c k) := by
    intro y hy k
    rw [dpd_mul hy k (s0 hF) hq, d0 hF y hy, pd_invDist hy]
    ring
  have hq2 : ∀ y ∈ away c, ∀ k, pd k (fun y => invDist c y ^ 2) y = -2 * (y k - c k) * invDist c y ^ 4 := by
    intro y hy k
    have : (fun y => invDist c y ^ 2) = fun y => invDist c y * invDist c y := by funext y; ring
    rw [this, dpd_mul hy k hq hq, pd_invDist hy]
    ring
  have hq3 : ∀ y ∈ away c, ∀ k, pd k (fun y => invDist c y ^ 3) y = -3 * (y k - c k) * invDist c y ^ 5 := by
    intro y hy k
    have : (fun y => invDist c y ^ 3) = fun y => invDist c y ^ 2 * invDist c y := by funext y; ring
    rw [this, dpd_mul hy k (hq.pow 2) hq, hq2 y hy, pd_invDist hy]
    ring
  have h2 : ∀ k, pd k (pd k fun y => F (dist3 c y) * invDist c y) x =
      (deriv (deriv F) (dist3 c x) * ((x k - c k) * invDist c x) * invDist c x ^ 2 +
        deriv F (dist3 c x) * (-2 * (x k - c k) * invDist c x ^ 4) -
        (deriv F (dist3 c x) * ((x k - c k) * invDist c x) * invDist c x ^ 3 +
          F (dist3 c x) * (-3 * (x k - c k) * invDist c x ^ 5))) * (x k - c k) +
      (deriv F (dist3 c x) * invDist c x ^ 2 - F (dist3 c x) * invDist c x ^ 3) := by
    intro k
    rw [pd_congr_on (fun y hy => h1 y hy k) (show x ∈ away c from h) k]
    have a1 := (s0 hF1).mul (hq.pow 2)
    have a2 := (s0 hF).mul (hq.pow 3)
    rw [dpd_mul (show x ∈ away c from h) k (a1.sub a2) (sm_coord c k), dpd_sub (show x ∈ away c from h) k a1 a2,
      dpd_mul (show x ∈ away c from h) k (s0 hF1) (hq.pow 2), dpd_mul (show x ∈ away c from h) k (s0 hF) (hq.pow 3),
      d0 hF x h, d0 hF1 x h, hq2 x h, hq3 x h, pd_coord, if_pos rfl]
    ring
  unfold laplacian
  rw [Fin.sum_univ_three, h2, h2, h2]
  have e := invDist_sq h
  set q := invDist c x
  set A := x 0 - c 0
  set B := x 1 - c 1
  set C := x 2 - c 2
  set F0 := F (dist3 c x)
  set F1 := deriv F (dist3 c x)
  set F2 := deriv (deriv F) (dist3 c x)
  linear_combination (F2 * q - 3 * F1 * q ^ 2 + 3 * F0 * q ^ 3) * e

end Verif.Wave
