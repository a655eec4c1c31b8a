import Verif.SWSH.Closed
import Verif.SWSH.Spec

/-! # Ladder relations of the harmonics -/
namespace Verif.SWSH
open Complex

/-! ### The coefficients -/

theorem g_deriv (s l m : ℤ) (hs : |s| ≤ l) (θ : ℝ) :
    HasDerivAt (g s l m) (1 / 2 * ((l + s) * g (s - 1) l m θ - (l - s) * g (s + 1) l m θ)) θ := by
  rw [abs_le] at hs
  refine (f_deriv _ _ _ θ).congr_deriv ?_
  simp only [g]
  rw [show (l - (s - 1)).toNat = (l - s).toNat + 1 by omega, show (l + (s - 1)).toNat = (l + s).toNat - 1 by omega,
    show (l - (s + 1)).toNat = (l - s).toNat - 1 by omega, show (l + (s + 1)).toNat = (l + s).toNat + 1 by omega]
  have e1 : (((l - s).toNat : ℕ) : ℝ) = l - s := by
    have : (((l - s).toNat : ℕ) : ℤ) = l - s := Int.toNat_of_nonneg (by omega)
    exact_mod_cast this
  have e2 : (((l + s).toNat : ℕ) : ℝ) = l + s := by
    have : (((l + s).toNat : ℕ) : ℤ) = l + s := Int.toNat_of_nonneg (by omega)
    exact_mod_cast this
  rw [e1, e2]

theorem g_rel (s l m : ℤ) (hs : |s| ≤ l) (hm : |m| ≤ l) (θ : ℝ) :
    (m + s * Real.cos θ) * g s l m θ = 1 / 2 * Real.sin θ * ((l - s) * g (s + 1) l m θ + (l + s) * g (s - 1) l m θ) := by
  rw [abs_le] at hs hm
  have h := f_rel (l - s).toNat (l + s).toNat (l + m).toNat θ
  simp only [g]
  rw [show (l - (s - 1)).toNat = (l - s).toNat + 1 by omega, show (l + (s - 1)).toNat = (l + s).toNat - 1 by omega,
    show (l - (s + 1)).toNat = (l - s).toNat - 1 by omega, show (l + (s + 1)).toNat = (l + s).toNat + 1 by omega]
  have e1 : (((l - s).toNat : ℕ) : ℝ) = l - s := by
    have : (((l - s).toNat : ℕ) : ℤ) = l - s := Int.toNat_of_nonneg (by omega)
    exact_mod_cast this
  have e2 : (((l + s).toNat : ℕ) : ℝ) = l + s := by
    have : (((l + s).toNat : ℕ) : ℤ) = l + s := Int.toNat_of_nonneg (by omega)
    exact_mod_cast this
  have e3 : (((l + m).toNat : ℕ) : ℝ) = l + m := by
    have : (((l + m).toNat : ℕ) : ℤ) = l + m := Int.toNat_of_nonneg (by omega)
    exact_mod_cast this
  rw [e1, e2, e3] at h
  linear_combination (1 / 2) * h

theorem g_up (s l m : ℤ) (hs : |s| ≤ l) (hm : |m| ≤ l) (θ : ℝ) :
    (l + m + 1) * g s l (m + 1) θ = Real.cos (θ / 2) ^ 2 * ((l - s) * g (s + 1) l m θ) - Real.sin (θ / 2) ^ 2 * ((l + s) * g (s - 1) l m θ) +
      2 * s * (Real.cos (θ / 2) * Real.sin (θ / 2)) * g s l m θ := by
  rw [abs_le] at hs hm
  have h := f_rel' (l - s).toNat (l + s).toNat (l + m).toNat θ
  simp only [g]
  rw [show (l - (s - 1)).toNat = (l - s).toNat + 1 by omega, show (l + (s - 1)).toNat = (l + s).toNat - 1 by omega,
    show (l - (s + 1)).toNat = (l - s).toNat - 1 by omega, show (l + (s + 1)).toNat = (l + s).toNat + 1 by omega,
    show (l + (m + 1)).toNat = (l + m).toNat + 1 by omega]
  have e1 : (((l - s).toNat : ℕ) : ℝ) = l - s := by
    have : (((l - s).toNat : ℕ) : ℤ) = l - s := Int.toNat_of_nonneg (by omega)
    exact_mod_cast this
  have e2 : (((l + s).toNat : ℕ) : ℝ) = l + s := by
    have : (((l + s).toNat : ℕ) : ℤ) = l + s := Int.toNat_of_nonneg (by omega)
    exact_mod_cast this
  have e3 : (((l + m).toNat : ℕ) : ℝ) = l + m := by
    have : (((l + m).toNat : ℕ) : ℤ) = l + m := Int.toNat_of_nonneg (by omega)
    exact_mod_cast this
  rw [e1, e2, e3] at h
  linear_combination h

/-- The coefficients vanish beyond the degree. -/
theorem g_beyond (s l : ℤ) (hs : |s| ≤ l) (θ : ℝ) : g s l (l + 1) θ = 0 := by
  rw [abs_le] at hs
  rw [g, f_eq_sum]
  refine Finset.sum_eq_zero fun r hr => ?_
  have := Finset.mem_range.1 hr
  rw [T, if_neg (by omega)]

theorem g_down (s l m : ℤ) (hs : |s| ≤ l) (hm : |m| ≤ l) (θ : ℝ) :
    (if m = -l then 0 else (l - m + 1) * g s l (m - 1) θ) =
      Real.cos (θ / 2) ^ 2 * ((l + s) * g (s - 1) l m θ) - Real.sin (θ / 2) ^ 2 * ((l - s) * g (s + 1) l m θ) +
      2 * s * (Real.cos (θ / 2) * Real.sin (θ / 2)) * g s l m θ := by
  rw [abs_le] at hs hm
  simp only [g]
  rw [show (l - (s - 1)).toNat = (l - s).toNat + 1 by omega, show (l + (s - 1)).toNat = (l + s).toNat - 1 by omega,
    show (l - (s + 1)).toNat = (l - s).toNat - 1 by omega, show (l + (s + 1)).toNat = (l + s).toNat + 1 by omega]
  have e1 : (((l - s).toNat : ℕ) : ℝ) = l - s := by
    have : (((l - s).toNat : ℕ) : ℤ) = l - s := Int.toNat_of_nonneg (by omega)
    exact_mod_cast this
  have e2 : (((l + s).toNat : ℕ) : ℝ) = l + s := by
    have : (((l + s).toNat : ℕ) : ℤ) = l + s := Int.toNat_of_nonneg (by omega)
    exact_mod_cast this
  by_cases h0 : m = -l
  · have h := f_down_zero (l - s).toNat (l + s).toNat θ
    rw [if_pos h0, show (l + m).toNat = 0 by omega]
    rw [e1, e2] at h
    linear_combination h
  · have h := f_down (l - s).toNat (l + s).toNat (l + (m - 1)).toNat θ
    have e3 : (((l + (m - 1)).toNat : ℕ) : ℝ) = l + (m - 1) := by
      have : (((l + (m - 1)).toNat : ℕ) : ℤ) = l + (m - 1) := Int.toNat_of_nonneg (by omega)
      exact_mod_cast this
    rw [if_neg h0, show (l + m).toNat = (l + (m - 1)).toNat + 1 by omega]
    rw [e1, e2, e3] at h
    linear_combination h

/-! ### The normalization -/

theorem invFactorial_succ (n : ℤ) (h : 0 ≤ n) : invFactorial n = (n + 1) * invFactorial (n + 1) := by
  obtain ⟨n, rfl⟩ := Int.eq_ofNat_of_zero_le h
  rw [invFactorial, invFactorial, if_neg (by omega), if_neg (by omega), factorial, factorial]
  rw [show ((n : ℤ) + 1).toNat = n + 1 by omega, Int.toNat_natCast, Nat.factorial_succ]
  have h1 : ((n.factorial : ℕ) : ℝ) ≠ 0 := Nat.cast_ne_zero.2 n.factorial_ne_zero
  have h2 : ((n : ℝ) + 1) ≠ 0 := by positivity
  push_cast
  field_simp

theorem factorial_succ (n : ℤ) (h : 0 ≤ n) : (factorial (n + 1) : ℝ) = (n + 1) * factorial n := by
  obtain ⟨n, rfl⟩ := Int.eq_ofNat_of_zero_le h
  rw [factorial, factorial, show ((n : ℤ) + 1).toNat = n + 1 by omega, Int.toNat_natCast, Nat.factorial_succ]
  push_cast
  rfl

/-- Two square roots whose squares have the given ratio. -/
theorem sqrt_ratio {x y u v : ℝ} (hu : 0 ≤ u) (hv : 0 ≤ v) (h : x * u = v * y) (hx : 0 ≤ x) (hy : 0 ≤ y) :
    Real.sqrt x * u = Real.sqrt (u * v) * Real.sqrt y := by
  rw [← Real.sqrt_mul (by positivity), mul_assoc u v y, ← h, show u * (x * u) = x * u ^ 2 by ring, Real.sqrt_mul hx, Real.sqrt_sq hu]

theorem N_radicand_nonneg (s l m : ℤ) (hl : 0 ≤ l) :
    0 ≤ (factorial (l + m) * factorial (l - m) * (2 * l + 1) * (1 / (4 * Real.pi)) * invFactorial (l + s) * invFactorial (l - s) : ℝ) := by
  have h : ∀ n, 0 ≤ invFactorial n := fun n => by unfold invFactorial; split <;> positivity
  have := h (l + s); have := h (l - s)
  have : (0 : ℝ) ≤ l := by exact_mod_cast hl
  have := Real.pi_pos
  positivity

theorem N_raise (s l m : ℤ) (hs : |s| ≤ l) : N s l m * (l - s) = Real.sqrt ((l - s) * (l + s + 1)) * N (s + 1) l m := by
  have hl : 0 ≤ l := (abs_nonneg s).trans hs
  rw [abs_le] at hs
  have h0 : (0 : ℝ) ≤ l - s := by exact_mod_cast (by omega : 0 ≤ l - s)
  have h1 : (0 : ℝ) ≤ l + s + 1 := by exact_mod_cast (by omega : 0 ≤ l + s + 1)
  rcases eq_or_lt_of_le hs.2 with e | e
  · rw [e]; simp
  · refine sqrt_ratio h0 h1 ?_ (N_radicand_nonneg _ _ _ hl) (N_radicand_nonneg _ _ _ hl)
    rw [invFactorial_succ (l + s) (by omega), show l - s = (l - s - 1) + 1 by ring, show l - (s + 1) = l - s - 1 by ring,
      show l + (s + 1) = l + s + 1 by ring, invFactorial_succ (l - s - 1) (by omega)]
    push_cast
    ring

theorem N_lower (s l m : ℤ) (hs : |s| ≤ l) : N s l m * (l + s) = Real.sqrt ((l + s) * (l - s + 1)) * N (s - 1) l m := by
  have hl : 0 ≤ l := (abs_nonneg s).trans hs
  rw [abs_le] at hs
  have h0 : (0 : ℝ) ≤ l + s := by exact_mod_cast (by omega : 0 ≤ l + s)
  have h1 : (0 : ℝ) ≤ l - s + 1 := by exact_mod_cast (by omega : 0 ≤ l - s + 1)
  rcases eq_or_lt_of_le hs.1 with e | e
  · rw [← e]; simp
  · refine sqrt_ratio h0 h1 ?_ (N_radicand_nonneg _ _ _ hl) (N_radicand_nonneg _ _ _ hl)
    rw [invFactorial_succ (l - s) (by omega), show l + s = (l + s - 1) + 1 by ring, show l + (s - 1) = l + s - 1 by ring,
      show l - (s - 1) = l - s + 1 by ring, invFactorial_succ (l + s - 1) (by omega)]
    push_cast
    ring

theorem N_up (s l m : ℤ) (hm : |m| ≤ l) (h : m < l) : N s l m * (l + m + 1) = Real.sqrt ((l - m) * (l + m + 1)) * N s l (m + 1) := by
  have hl : 0 ≤ l := (abs_nonneg m).trans hm
  rw [abs_le] at hm
  have h0 : (0 : ℝ) ≤ l - m := by exact_mod_cast (by omega : 0 ≤ l - m)
  have h1 : (0 : ℝ) ≤ l + m + 1 := by exact_mod_cast (by omega : 0 ≤ l + m + 1)
  rw [mul_comm ((l : ℝ) - m)]
  refine sqrt_ratio h1 h0 ?_ (N_radicand_nonneg _ _ _ hl) (N_radicand_nonneg _ _ _ hl)
  rw [show l + (m + 1) = l + m + 1 by ring, factorial_succ (l + m) (by omega), show l - m = (l - (m + 1)) + 1 by ring,
    factorial_succ (l - (m + 1)) (by omega)]
  push_cast
  ring

theorem N_down (s l m : ℤ) (hm : |m| ≤ l) (h : -l < m) : N s l m * (l - m + 1) = Real.sqrt ((l + m) * (l - m + 1)) * N s l (m - 1) := by
  have hl : 0 ≤ l := (abs_nonneg m).trans hm
  rw [abs_le] at hm
  have h0 : (0 : ℝ) ≤ l + m := by exact_mod_cast (by omega : 0 ≤ l + m)
  have h1 : (0 : ℝ) ≤ l - m + 1 := by exact_mod_cast (by omega : 0 ≤ l - m + 1)
  rw [mul_comm ((l : ℝ) + m)]
  refine sqrt_ratio h1 h0 ?_ (N_radicand_nonneg _ _ _ hl) (N_radicand_nonneg _ _ _ hl)
  rw [show l - (m - 1) = l - m + 1 by ring, factorial_succ (l - m) (by omega), show l + m = (l + (m - 1)) + 1 by ring,
    factorial_succ (l + (m - 1)) (by omega)]
  push_cast
  ring

/-! ### The harmonics away from the axis -/

theorem half_ne (θ : ℝ) (h : θ ∈ Set.Ioo 0 Real.pi) : Real.sin (θ / 2) ≠ 0 ∧ Real.cos (θ / 2) ≠ 0 ∧ Real.sin θ ≠ 0 := by
  refine ⟨(Real.sin_pos_of_pos_of_lt_pi (by linarith [h.1]) (by linarith [h.1, h.2])).ne', ?_, (Real.sin_pos_of_pos_of_lt_pi h.1 h.2).ne'⟩
  exact (Real.cos_pos_of_mem_Ioo ⟨by linarith [h.1, Real.pi_pos], by linarith [h.2]⟩).ne'

theorem dTheta_congr {η ζ : Spec.Fun} (h : ∀ θ ∈ Set.Ioo 0 Real.pi, ∀ φ, η θ φ = ζ θ φ) {θ : ℝ} (hθ : θ ∈ Set.Ioo 0 Real.pi) (φ : ℝ) :
    Spec.dTheta η θ φ = Spec.dTheta ζ θ φ :=
  Filter.EventuallyEq.deriv_eq (Filter.eventually_of_mem (isOpen_Ioo.mem_nhds hθ) fun u hu => h u hu φ)

theorem dPhi_congr {η ζ : Spec.Fun} (h : ∀ θ ∈ Set.Ioo 0 Real.pi, ∀ φ, η θ φ = ζ θ φ) {θ : ℝ} (hθ : θ ∈ Set.Ioo 0 Real.pi) (φ : ℝ) :
    Spec.dPhi η θ φ = Spec.dPhi ζ θ φ := by
  unfold Spec.dPhi; congr 1; funext u; exact h θ hθ u

/-- A function of the polar angle times the dependence on the azimuth. -/
noncomputable def mode (m : ℤ) (u : ℝ → ℝ) : Spec.Fun := fun θ φ => exp (I * m * φ) * (u θ : ℝ)

theorem Y_mode (s l m : ℤ) (hs : |s| ≤ l) (hm : |m| ≤ l) (θ : ℝ) (hθ : θ ∈ Set.Ioo 0 Real.pi) (φ : ℝ) :
    Y s l m θ φ = mode m (y s l m) θ φ := Y_eq s l m hs hm θ φ (half_ne θ hθ).1 (half_ne θ hθ).2.1

theorem mode_theta (m : ℤ) {u : ℝ → ℝ} {u' θ : ℝ} (h : HasDerivAt u u' θ) (φ : ℝ) :
    Spec.dTheta (mode m u) θ φ = exp (I * m * φ) * (u' : ℝ) := (h.ofReal_comp.const_mul _).deriv

theorem mode_phi (m : ℤ) (u : ℝ → ℝ) (θ φ : ℝ) : Spec.dPhi (mode m u) θ φ = I * m * mode m u θ φ := by
  have h : HasDerivAt (fun v : ℝ => exp (I * m * v)) (exp (I * m * φ) * (I * m * 1)) φ :=
    ((Complex.ofRealCLM.hasDerivAt (x := φ)).const_mul (I * m)).cexp
  have := (h.mul_const ((u θ : ℝ) : ℂ)).deriv
  rw [Spec.dPhi]
  simp only [mode]
  rw [this]
  ring

theorem y_deriv (s l m : ℤ) (hs : |s| ≤ l) (θ : ℝ) :
    HasDerivAt (y s l m) ((-1) ^ m * N s l m * (1 / 2 * ((l + s) * g (s - 1) l m θ - (l - s) * g (s + 1) l m θ))) θ :=
  (g_deriv s l m hs θ).const_mul _

end Verif.SWSH
