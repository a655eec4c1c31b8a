import Mathlib.Analysis.SpecialFunctions.Integrals.Basic
import Verif.SWSH.Coeff

/-! # Integrals of products of the coefficients -/
namespace Verif.SWSH
open Polynomial Real

theorem f_continuous (a b k : ℕ) : Continuous (f a b k) :=
  continuous_iff_continuousAt.2 fun θ => (f_deriv a b k θ).continuousAt

/-- Integration by parts. -/
theorem int_parts {F F' : ℝ → ℝ} (h : ∀ θ, HasDerivAt F (F' θ) θ) (c : Continuous F') : ∫ θ in (0 : ℝ)..π, F' θ = F π - F 0 :=
  intervalIntegral.integral_eq_sub_of_hasDerivAt (fun θ _ => h θ) (c.intervalIntegrable _ _)

/-- The integral over the polar angle of a product of two coefficients. -/
noncomputable def J (a b a' b' k k' : ℕ) : ℝ := ∫ θ in (0 : ℝ)..π, sin θ * (f a b k θ * f a' b' k' θ)

/-- Raising the spin weight on both sides: `b - a = b' - a'` is twice the spin weight, and `2 k - (a + b)` twice the order. -/
theorem J_step (a b a' b' k k' : ℕ) (h : b + (a' + 1) = b' + a) (hk : (2 * k : ℝ) - (a + b) = 2 * k' - (a' + 1 + b')) :
    a * J (a - 1) (b + 1) a' (b' + 1) k k' = (b' + 1) * J a b (a' + 1) b' k k' := by
  have hd : ∀ θ, HasDerivAt (fun u => sin u * (f a b k u * f a' (b' + 1) k' u))
      (sin θ * ((b' + 1) * (f a b k θ * f (a' + 1) b' k' θ)) - sin θ * (a * (f (a - 1) (b + 1) k θ * f a' (b' + 1) k' θ))) θ := fun θ => by
    have h1 := f_deriv a b k θ
    have h2 := f_deriv a' (b' + 1) k' θ
    refine ((hasDerivAt_sin θ).mul (h1.mul h2)).congr_deriv ?_
    have r1 := f_rel a b k θ
    have r2 := f_rel a' (b' + 1) k' θ
    simp only [Nat.add_sub_cancel] at *
    push_cast at r1 r2 ⊢
    have hR : (b : ℝ) + (a' + 1) = b' + a := by exact_mod_cast h
    have eb : (b' : ℝ) = b + a' + 1 - a := by linarith
    have ek : (k' : ℝ) = k - (a + b) / 2 + (a' + 1 + b') / 2 := by linarith
    rw [ek, eb] at r2
    rw [eb]
    simp only [Pi.mul_apply]
    linear_combination -(1 / 2) * f a' (b' + 1) k' θ * r1 + (1 / 2) * f a b k θ * r2
  have hc := int_parts hd (by
    have := f_continuous a b k; have := f_continuous (a' + 1) b' k'; have := f_continuous (a - 1) (b + 1) k
    have := f_continuous a' (b' + 1) k'
    fun_prop)
  simp only [sin_pi, sin_zero, zero_mul, sub_zero] at hc
  rw [intervalIntegral.integral_sub] at hc
  · have e1 : ∫ θ in (0 : ℝ)..π, sin θ * ((b' + 1) * (f a b k θ * f (a' + 1) b' k' θ)) = (b' + 1) * J a b (a' + 1) b' k k' := by
      rw [J, ← intervalIntegral.integral_const_mul]; congr 1; ext θ; ring
    have e2 : ∫ θ in (0 : ℝ)..π, sin θ * (a * (f (a - 1) (b + 1) k θ * f a' (b' + 1) k' θ)) = a * J (a - 1) (b + 1) a' (b' + 1) k k' := by
      rw [J, ← intervalIntegral.integral_const_mul]; congr 1; ext θ; ring
    rw [e1, e2] at hc
    linarith
  · refine Continuous.intervalIntegrable ?_ _ _
    have := f_continuous a b k; have := f_continuous (a' + 1) b' k'
    fun_prop
  · refine Continuous.intervalIntegrable ?_ _ _
    have := f_continuous (a - 1) (b + 1) k
    have := f_continuous a' (b' + 1) k'
    fun_prop

theorem J_comm (a b a' b' k k' : ℕ) : J a b a' b' k k' = J a' b' a b k' k := by
  unfold J; congr 1; ext θ; ring

/-- Different degrees. -/
theorem J_zero_lt (a b a' b' k k' : ℕ) (h : b + a' = b' + a) (hk : (2 * k : ℝ) - (a + b) = 2 * k' - (a' + b')) (hl : a < a') :
    J a b a' b' k k' = 0 := by
  obtain ⟨a', rfl⟩ : ∃ n, a' = n + 1 := ⟨a' - 1, by omega⟩
  have h1 := J_step a b a' b' k k' h (by push_cast at hk; linarith)
  have hR : (b : ℝ) + (a' + 1) = b' + a := by exact_mod_cast h
  cases a with
  | zero =>
    simp only [Nat.cast_zero, zero_mul] at h1
    have : ((b' : ℝ) + 1) ≠ 0 := by positivity
    exact (mul_eq_zero.1 h1.symm).resolve_left this
  | succ a =>
    have h2 := J_step (a' + 1) b' a b k' k (by omega) (by push_cast at hk ⊢; linarith)
    rw [J_comm _ _ _ _ k' k, J_comm _ _ _ _ k' k] at h2
    simp only [Nat.add_sub_cancel] at h1 h2
    push_cast at h1 h2 hR
    have h3 : (((b' : ℝ) + 1) * (a' + 1) - (b + 1) * (a + 1)) * J (a + 1) b (a' + 1) b' k k' = 0 := by
      linear_combination (a + 1 : ℝ) * h2 - (a' + 1 : ℝ) * h1
    have hl' : (a : ℝ) + 1 ≤ a' := by exact_mod_cast (by omega : a + 1 ≤ a')
    have : (0 : ℝ) < ((b' : ℝ) + 1) * (a' + 1) - (b + 1) * (a + 1) := by
      have : (b' : ℝ) = b + (a' - a) := by linarith
      have hb : (0 : ℝ) ≤ b := Nat.cast_nonneg b
      have ha : (0 : ℝ) ≤ a := Nat.cast_nonneg a
      nlinarith
    exact (mul_eq_zero.1 h3).resolve_left this.ne'

theorem J_zero (a b a' b' k k' : ℕ) (h : b + a' = b' + a) (hk : (2 * k : ℝ) - (a + b) = 2 * k' - (a' + b')) (hl : a ≠ a') :
    J a b a' b' k k' = 0 := by
  rcases lt_or_gt_of_ne hl with hl | hl
  · exact J_zero_lt a b a' b' k k' h hk hl
  · rw [J_comm]; exact J_zero_lt a' b' a b k' k (by omega) (by linarith) hl

/-- Coefficients of a power of a linear polynomial. -/
theorem lin_pow_coeff (c d : ℝ) (n k : ℕ) : ((C c * X + C d) ^ n).coeff k = if k ≤ n then (n.choose k : ℝ) * c ^ k * d ^ (n - k) else 0 := by
  rw [add_pow, finset_sum_coeff]
  have e : ∀ i, (((C c * X) ^ i * C d ^ (n - i) * (n.choose i : ℝ[X]))).coeff k = if k = i then (n.choose i : ℝ) * c ^ i * d ^ (n - i) else 0 := fun i => by
    have : ((C c * X) ^ i * C d ^ (n - i) * (n.choose i : ℝ[X])) = C ((n.choose i : ℝ) * c ^ i * d ^ (n - i)) * X ^ i := by
      simp only [mul_pow, map_mul, map_pow, map_natCast]; ring
    rw [this, coeff_C_mul, coeff_X_pow]
    split <;> simp
  simp only [e, Finset.sum_ite_eq, Finset.mem_range, Nat.lt_succ_iff]

theorem f_zero (n k : ℕ) (h : k ≤ n) (θ : ℝ) : f 0 n k θ = n.choose k * sin (θ / 2) ^ k * cos (θ / 2) ^ (n - k) := by
  rw [f, G, pow_zero, one_mul, pB, lin_pow_coeff, if_pos h]

/-- The integral of a power of the sine times a power of the cosine of half the angle. -/
noncomputable def B (p q : ℕ) : ℝ := ∫ θ in (0 : ℝ)..π, 2 * sin (θ / 2) ^ (2 * p + 1) * cos (θ / 2) ^ (2 * q + 1)

theorem B_last (p : ℕ) : (p + 1) * B p 0 = 2 := by
  have hd : ∀ θ, HasDerivAt (fun u => 2 * sin (u / 2) ^ (2 * p + 2)) ((p + 1) * (2 * sin (θ / 2) ^ (2 * p + 1) * cos (θ / 2) ^ (2 * 0 + 1))) θ := fun θ => by
    refine (((half_sin θ).pow (2 * p + 2)).const_mul 2).congr_deriv ?_
    simp only [show 2 * p + 2 - 1 = 2 * p + 1 by omega]
    push_cast
    ring
  have := int_parts hd (by fun_prop)
  rw [intervalIntegral.integral_const_mul] at this
  simpa [B] using this

theorem B_step (p q : ℕ) : (p + 1) * B p (q + 1) = (q + 1) * B (p + 1) q := by
  have hd : ∀ θ, HasDerivAt (fun u => sin (u / 2) ^ (2 * p + 2) * cos (u / 2) ^ (2 * q + 2))
      ((p + 1) / 2 * (2 * sin (θ / 2) ^ (2 * p + 1) * cos (θ / 2) ^ (2 * (q + 1) + 1)) -
        (q + 1) / 2 * (2 * sin (θ / 2) ^ (2 * (p + 1) + 1) * cos (θ / 2) ^ (2 * q + 1))) θ := fun θ => by
    refine (((half_sin θ).pow (2 * p + 2)).mul ((half_cos θ).pow (2 * q + 2))).congr_deriv ?_
    simp only [show 2 * p + 2 - 1 = 2 * p + 1 by omega, show 2 * q + 2 - 1 = 2 * q + 1 by omega]
    push_cast
    simp only [Pi.pow_apply]
    ring
  have := int_parts hd (by fun_prop)
  rw [intervalIntegral.integral_sub (Continuous.intervalIntegrable (by fun_prop) _ _) (Continuous.intervalIntegrable (by fun_prop) _ _),
    intervalIntegral.integral_const_mul, intervalIntegral.integral_const_mul] at this
  simp only [B]
  simp at this ⊢
  linarith

theorem B_value (p q : ℕ) : ((p + q).choose p : ℝ) * (p + q + 1) * B p q = 2 := by
  induction q generalizing p with
  | zero => simpa using B_last p
  | succ q ih =>
    have h := ih (p + 1)
    have hs := B_step p q
    have hc : ((p + 1 + q).choose (p + 1) : ℝ) * (p + 1) = (p + (q + 1)).choose p * (q + 1) := by
      have := Nat.choose_succ_right_eq (p + 1 + q) p
      rw [show p + 1 + q - p = q + 1 by omega] at this
      rw [show p + (q + 1) = p + 1 + q by omega]
      exact_mod_cast this
    have hp : ((p : ℝ) + 1) ≠ 0 := by positivity
    have hq : ((q : ℝ) + 1) ≠ 0 := by positivity
    push_cast at h ⊢
    have e : B p (q + 1) = (q + 1) * B (p + 1) q / (p + 1) := by rw [eq_div_iff hp]; linarith
    rw [e]
    have e2 : (((p + (q + 1)).choose p : ℕ) : ℝ) = ((p + 1 + q).choose (p + 1) : ℝ) * (p + 1) / (q + 1) := by rw [eq_div_iff hq]; linarith
    rw [e2]
    field_simp
    linarith

/-- The square of a coefficient with the first exponent zero. -/
theorem J_base (n k : ℕ) (h : k ≤ n) : (n + 1) * J 0 n 0 n k k = 2 * n.choose k := by
  obtain ⟨q, rfl⟩ := Nat.exists_eq_add_of_le h
  have e : J 0 (k + q) 0 (k + q) k k = ((k + q).choose k : ℝ) ^ 2 * B k q := by
    rw [J, B, ← intervalIntegral.integral_const_mul]
    congr 1; ext θ
    rw [f_zero _ _ h, sin_half θ, Nat.add_sub_cancel_left]
    ring
  have := B_value k q
  rw [e]
  push_cast
  linear_combination ((k + q).choose k : ℝ) * this

/-- The square of a coefficient. -/
theorem J_value (a b k : ℕ) (h : k ≤ a + b) :
    ((a + b + 1).factorial : ℝ) * J a b a b k k = 2 * (a + b).choose k * a.factorial * b.factorial := by
  induction a generalizing b with
  | zero =>
    have := J_base b k (by omega)
    simp only [zero_add, Nat.factorial_succ] at this ⊢
    push_cast
    simp only [Nat.factorial_zero, Nat.cast_one]
    linear_combination (b.factorial : ℝ) * this
  | succ a ih =>
    have h1 := ih (b + 1) (by omega)
    have h2 := J_step (a + 1) b a b k k (by omega) (by push_cast; ring)
    rw [show a + (b + 1) = a + 1 + b by omega] at h1
    simp only [Nat.add_sub_cancel] at h2
    have hb : ((b : ℝ) + 1) ≠ 0 := by positivity
    refine mul_left_cancel₀ hb ?_
    rw [Nat.factorial_succ b] at h1
    rw [Nat.factorial_succ a]
    push_cast at h1 h2 ⊢
    linear_combination -((a + 1 + b + 1).factorial : ℝ) * h2 + (a + 1 : ℝ) * h1

end Verif.SWSH
