import Mathlib.Algebra.Polynomial.Derivative
import Mathlib.Analysis.SpecialFunctions.Trigonometric.Deriv
import Mathlib.Analysis.Calculus.Deriv.Pow

/-!
# A generating polynomial

The sum of the Goldberg formula is a coefficient of `(c X - t)^a (t X + c)^b` with `c = cos (θ/2)`, `t = sin (θ/2)`.
-/
namespace Verif.SWSH
open Polynomial Real

/-- `c X - t`. -/
noncomputable def pA (θ : ℝ) : ℝ[X] := C (cos (θ / 2)) * X + C (-sin (θ / 2))
/-- `t X + c`. -/
noncomputable def pB (θ : ℝ) : ℝ[X] := C (sin (θ / 2)) * X + C (cos (θ / 2))
/-- `(c X - t)^a (t X + c)^b`. -/
noncomputable def G (a b : ℕ) (θ : ℝ) : ℝ[X] := pA θ ^ a * pB θ ^ b
/-- Its coefficients. -/
noncomputable def f (a b k : ℕ) (θ : ℝ) : ℝ := (G a b θ).coeff k

/-! ### Coefficient-wise derivatives -/

/-- The coefficients of `P` are differentiable in the parameter, with derivatives the coefficients of `P'`. -/
def Der (P : ℝ → ℝ[X]) (P' : ℝ[X]) (θ : ℝ) : Prop := ∀ k, HasDerivAt (fun u => (P u).coeff k) (P'.coeff k) θ

theorem Der.mul {P Q : ℝ → ℝ[X]} {P' Q' : ℝ[X]} {θ : ℝ} (hP : Der P P' θ) (hQ : Der Q Q' θ) :
    Der (fun u => P u * Q u) (P' * Q θ + P θ * Q') θ := fun k => by
  simp only [coeff_mul, coeff_add, ← Finset.sum_add_distrib]
  have h : ∀ p ∈ Finset.antidiagonal k, HasDerivAt (fun u => (P u).coeff p.1 * (Q u).coeff p.2)
      (P'.coeff p.1 * (Q θ).coeff p.2 + (P θ).coeff p.1 * Q'.coeff p.2) θ := fun p _ => (hP p.1).mul (hQ p.2)
  exact HasDerivAt.fun_sum h

theorem Der.pow {P : ℝ → ℝ[X]} {P' : ℝ[X]} {θ : ℝ} (hP : Der P P' θ) (n : ℕ) :
    Der (fun u => P u ^ n) (C (n : ℝ) * P θ ^ (n - 1) * P') θ := by
  induction n with
  | zero =>
    intro k
    simpa using hasDerivAt_const θ ((1 : ℝ[X]).coeff k)
  | succ n ih =>
    have h := ih.mul hP
    have e : C ((n : ℕ) : ℝ) * P θ ^ (n - 1) * P' * P θ + P θ ^ n * P' = C ((n + 1 : ℕ) : ℝ) * P θ ^ (n + 1 - 1) * P' := by
      cases n with
      | zero => simp
      | succ n =>
        simp only [Nat.add_sub_cancel, Nat.cast_add, Nat.cast_one, map_add, map_one]
        ring
    rw [e] at h
    simpa only [pow_succ] using h

theorem der_lin {c d : ℝ → ℝ} {c' d' θ : ℝ} (hc : HasDerivAt c c' θ) (hd : HasDerivAt d d' θ) :
    Der (fun u => C (c u) * X + C (d u)) (C c' * X + C d') θ := fun k => by
  rcases k with _ | _ | k
  · simpa using hd
  · simpa [coeff_C] using hc
  · simpa [coeff_C, coeff_X] using hasDerivAt_const θ (0 : ℝ)

theorem half_sin (θ : ℝ) : HasDerivAt (fun u => sin (u / 2)) (1 / 2 * cos (θ / 2)) θ := by
  have := (hasDerivAt_id θ).div_const 2 |>.sin
  simpa [mul_comm] using this

theorem half_cos (θ : ℝ) : HasDerivAt (fun u => cos (u / 2)) (-(1 / 2) * sin (θ / 2)) θ := by
  have := (hasDerivAt_id θ).div_const 2 |>.cos
  simpa [mul_comm] using this

theorem der_A (θ : ℝ) : Der pA (C (-(1 / 2)) * pB θ) θ := by
  have h := der_lin (half_cos θ) (half_sin θ).neg
  have e : C (-(1 / 2) * sin (θ / 2)) * X + C (-(1 / 2 * cos (θ / 2))) = C (-(1 / 2)) * pB θ := by
    simp only [pB, map_mul, map_neg]; ring
  rw [e] at h
  exact h

theorem der_B (θ : ℝ) : Der pB (C (1 / 2) * pA θ) θ := by
  have h := der_lin (half_sin θ) (half_cos θ)
  have e : C (1 / 2 * cos (θ / 2)) * X + C (-(1 / 2) * sin (θ / 2)) = C (1 / 2) * pA θ := by
    simp only [pA, map_mul, map_neg]; ring
  rw [e] at h
  exact h

theorem der_G (a b : ℕ) (θ : ℝ) :
    Der (G a b) (C (1 / 2) * (C (b : ℝ) * G (a + 1) (b - 1) θ - C (a : ℝ) * G (a - 1) (b + 1) θ)) θ := by
  have h := ((der_A θ).pow a).mul ((der_B θ).pow b)
  have e : C (a : ℝ) * pA θ ^ (a - 1) * (C (-(1 / 2)) * pB θ) * pB θ ^ b + pA θ ^ a * (C (b : ℝ) * pB θ ^ (b - 1) * (C (1 / 2) * pA θ)) =
      C (1 / 2) * (C (b : ℝ) * G (a + 1) (b - 1) θ - C (a : ℝ) * G (a - 1) (b + 1) θ) := by
    simp only [G, map_neg]; ring
  rw [e] at h
  exact h

/-- The derivative in `θ`. -/
theorem f_deriv (a b k : ℕ) (θ : ℝ) :
    HasDerivAt (f a b k) (1 / 2 * (b * f (a + 1) (b - 1) k θ - a * f (a - 1) (b + 1) k θ)) θ := by
  have h := der_G a b θ k
  simp only [coeff_C_mul, coeff_sub] at h
  exact h

/-! ### The derivative in the variable of the polynomial -/

theorem X_eq (θ : ℝ) : (X : ℝ[X]) = C (cos (θ / 2)) * pA θ + C (sin (θ / 2)) * pB θ := by
  have h : C (cos (θ / 2)) ^ 2 + C (sin (θ / 2)) ^ 2 = (1 : ℝ[X]) := by
    rw [← map_pow, ← map_pow, ← map_add, cos_sq_add_sin_sq, map_one]
  simp only [pA, pB, map_neg]
  linear_combination -X * h

theorem one_eq (θ : ℝ) : (1 : ℝ[X]) = C (cos (θ / 2)) * pB θ - C (sin (θ / 2)) * pA θ := by
  have h : C (cos (θ / 2)) ^ 2 + C (sin (θ / 2)) ^ 2 = (1 : ℝ[X]) := by
    rw [← map_pow, ← map_pow, ← map_add, cos_sq_add_sin_sq, map_one]
  simp only [pA, pB, map_neg]
  linear_combination -h

theorem derivative_G (a b : ℕ) (θ : ℝ) : derivative (G a b θ) =
    C (a : ℝ) * C (cos (θ / 2)) * (pA θ ^ (a - 1) * pB θ ^ b) + C (b : ℝ) * C (sin (θ / 2)) * (pA θ ^ a * pB θ ^ (b - 1)) := by
  have hA : derivative (pA θ) = C (cos (θ / 2)) := by simp [pA]
  have hB : derivative (pB θ) = C (sin (θ / 2)) := by simp [pB]
  rw [G, derivative_mul, derivative_pow, derivative_pow, hA, hB]
  ring

/-- Multiplying a term with a lowered exponent, where the factor in front makes up for an exponent that is already zero. -/
theorem low (n : ℕ) (P : ℝ[X]) : C (n : ℝ) * P ^ (n - 1) * P = C (n : ℝ) * P ^ n := by
  cases n with
  | zero => simp
  | succ n => rw [Nat.add_sub_cancel, mul_assoc, ← pow_succ]

theorem X_derivative_G (a b : ℕ) (θ : ℝ) : X * derivative (G a b θ) =
    C (a * cos (θ / 2) ^ 2 + b * sin (θ / 2) ^ 2) * G a b θ +
    C (cos (θ / 2) * sin (θ / 2)) * (C (a : ℝ) * G (a - 1) (b + 1) θ + C (b : ℝ) * G (a + 1) (b - 1) θ) := by
  rw [derivative_G]
  have ha := low a (pA θ)
  have hb := low b (pB θ)
  conv_lhs => rw [X_eq θ]
  simp only [G, map_add, map_mul, map_pow, pow_succ]
  linear_combination C (cos (θ / 2)) * C (cos (θ / 2)) * pB θ ^ b * ha + C (sin (θ / 2)) * C (sin (θ / 2)) * pA θ ^ a * hb

theorem derivative_G' (a b : ℕ) (θ : ℝ) : derivative (G a b θ) =
    C (cos (θ / 2) ^ 2) * (C (a : ℝ) * G (a - 1) (b + 1) θ) - C (sin (θ / 2) ^ 2) * (C (b : ℝ) * G (a + 1) (b - 1) θ) +
    C ((b - a) * (cos (θ / 2) * sin (θ / 2))) * G a b θ := by
  have ha := low a (pA θ)
  have hb := low b (pB θ)
  rw [← mul_one (derivative (G a b θ)), one_eq θ, derivative_G]
  simp only [G, map_add, map_sub, map_mul, map_pow, pow_succ]
  linear_combination -C (cos (θ / 2)) * C (sin (θ / 2)) * pB θ ^ b * ha + C (cos (θ / 2)) * C (sin (θ / 2)) * pA θ ^ a * hb

theorem cos_half (θ : ℝ) : cos θ = cos (θ / 2) ^ 2 - sin (θ / 2) ^ 2 := by
  have := cos_two_mul' (θ / 2)
  rwa [mul_div_cancel₀ _ (two_ne_zero' ℝ)] at this

theorem sin_half (θ : ℝ) : sin θ = 2 * sin (θ / 2) * cos (θ / 2) := by
  have := sin_two_mul (θ / 2)
  rwa [mul_div_cancel₀ _ (two_ne_zero' ℝ)] at this

/-- The relation between neighbouring exponents. -/
theorem f_rel (a b k : ℕ) (θ : ℝ) : ((2 * k - (a + b)) + (b - a) * cos θ) * f a b k θ =
    sin θ * (a * f (a - 1) (b + 1) k θ + b * f (a + 1) (b - 1) k θ) := by
  have h := congrArg (fun P => P.coeff k) (X_derivative_G a b θ)
  have hl : (X * derivative (G a b θ)).coeff k = k * f a b k θ := by
    cases k with
    | zero => simp
    | succ k => rw [coeff_X_mul, coeff_derivative, f]; push_cast; ring
  simp only [hl, coeff_add, coeff_C_mul] at h
  have hs := sin_sq_add_cos_sq (θ / 2)
  rw [cos_half θ, sin_half θ]
  change _ = (_ * f a b k θ + _ * (_ * f (a - 1) (b + 1) k θ + _ * f (a + 1) (b - 1) k θ)) at h
  linear_combination 2 * h + (a + b) * f a b k θ * hs

/-- The derivative in the variable. -/
theorem f_rel' (a b k : ℕ) (θ : ℝ) : (k + 1) * f a b (k + 1) θ =
    cos (θ / 2) ^ 2 * (a * f (a - 1) (b + 1) k θ) - sin (θ / 2) ^ 2 * (b * f (a + 1) (b - 1) k θ) + (b - a) * (cos (θ / 2) * sin (θ / 2)) * f a b k θ := by
  have h := congrArg (fun P => P.coeff k) (derivative_G' a b θ)
  simp only [coeff_derivative, coeff_add, coeff_sub, coeff_C_mul] at h
  rw [mul_comm]
  exact h

theorem reversed_G (a b : ℕ) (θ : ℝ) : X * (C ((a + b : ℕ) : ℝ) * G a b θ - X * derivative (G a b θ)) =
    C (cos (θ / 2) ^ 2) * (C (b : ℝ) * G (a + 1) (b - 1) θ) - C (sin (θ / 2) ^ 2) * (C (a : ℝ) * G (a - 1) (b + 1) θ) +
    C ((b - a) * (cos (θ / 2) * sin (θ / 2))) * G a b θ := by
  have ha := low a (pA θ)
  have hb := low b (pB θ)
  have hX := X_eq θ
  have hs : C (cos (θ / 2)) ^ 2 + C (sin (θ / 2)) ^ 2 = (1 : ℝ[X]) := by
    rw [← map_pow, ← map_pow, ← map_add, cos_sq_add_sin_sq, map_one]
  have e : C ((a + b : ℕ) : ℝ) * G a b θ - X * derivative (G a b θ) =
      C (b : ℝ) * C (cos (θ / 2)) * (pA θ ^ a * pB θ ^ (b - 1)) - C (a : ℝ) * C (sin (θ / 2)) * (pA θ ^ (a - 1) * pB θ ^ b) := by
    rw [derivative_G]
    have h1 : pA θ - C (cos (θ / 2)) * X = -C (sin (θ / 2)) := by simp only [pA, map_neg]; ring
    have h2 : pB θ - C (sin (θ / 2)) * X = C (cos (θ / 2)) := by simp only [pB]; ring
    rw [Nat.cast_add, map_add, G]
    linear_combination -pB θ ^ b * ha - pA θ ^ a * hb + C (a : ℝ) * pA θ ^ (a - 1) * pB θ ^ b * h1 + C (b : ℝ) * pA θ ^ a * pB θ ^ (b - 1) * h2
  rw [e]
  conv_lhs => rw [X_eq θ]
  simp only [G, map_add, map_sub, map_mul, map_pow, pow_succ]
  linear_combination -C (cos (θ / 2)) * C (sin (θ / 2)) * pB θ ^ b * ha + C (cos (θ / 2)) * C (sin (θ / 2)) * pA θ ^ a * hb

/-- The reversed derivative in the variable. -/
theorem f_down (a b k : ℕ) (θ : ℝ) : (a + b - k) * f a b k θ =
    cos (θ / 2) ^ 2 * (b * f (a + 1) (b - 1) (k + 1) θ) - sin (θ / 2) ^ 2 * (a * f (a - 1) (b + 1) (k + 1) θ) +
    (b - a) * (cos (θ / 2) * sin (θ / 2)) * f a b (k + 1) θ := by
  have h := congrArg (fun P => P.coeff (k + 1)) (reversed_G a b θ)
  have hl : (X * derivative (G a b θ)).coeff k = k * f a b k θ := by
    cases k with
    | zero => simp
    | succ k => rw [coeff_X_mul, coeff_derivative, f]; push_cast; ring
  simp only [coeff_X_mul, hl, coeff_add, coeff_sub, coeff_C_mul] at h
  change _ * f a b k θ - _ = _ at h
  push_cast at h
  rw [← sub_mul] at h
  exact h

theorem f_down_zero (a b : ℕ) (θ : ℝ) : 0 =
    cos (θ / 2) ^ 2 * (b * f (a + 1) (b - 1) 0 θ) - sin (θ / 2) ^ 2 * (a * f (a - 1) (b + 1) 0 θ) +
    (b - a) * (cos (θ / 2) * sin (θ / 2)) * f a b 0 θ := by
  have h := congrArg (fun P => P.coeff 0) (reversed_G a b θ)
  simp only [mul_coeff_zero, coeff_X_zero, zero_mul, coeff_add, coeff_sub, coeff_C_zero] at h
  exact h

/-! ### Reversal -/

theorem reflect_pow (P : ℝ[X]) (h : P.natDegree ≤ 1) (n : ℕ) : reflect n (P ^ n) = reflect 1 P ^ n := by
  induction n with
  | zero => simp
  | succ n ih =>
    rw [pow_succ, reflect_mul (P ^ n) P (F := n) (G := 1) ?_ h, ih, pow_succ]
    exact (natDegree_pow_le_of_le n h).trans (by omega)

theorem f_reverse (a b k : ℕ) (h : k ≤ a + b) (θ : ℝ) : (-1) ^ k * f b a k θ = (-1) ^ b * f a b (a + b - k) θ := by
  have dA : (pA θ).natDegree ≤ 1 := natDegree_linear_le
  have dB : (pB θ).natDegree ≤ 1 := natDegree_linear_le
  have hr : reflect (a + b) (G a b θ) = reflect 1 (pA θ) ^ a * reflect 1 (pB θ) ^ b := by
    rw [G, reflect_mul _ _ (F := a) (G := b), reflect_pow _ dA, reflect_pow _ dB]
    · exact (natDegree_pow_le_of_le a dA).trans (by omega)
    · exact (natDegree_pow_le_of_le b dB).trans (by omega)
  have rl : ∀ c d : ℝ, reflect 1 (C c * X + C d) = C d * X + C c := fun c d => by
    ext i
    rw [coeff_reflect]
    rcases i with _ | _ | i
    · simp [revAt_le]
    · simp [revAt_le]
    · rw [revAt_eq_self_of_lt (by omega)]; simp [coeff_X, coeff_C]
  have hc : (G b a θ).comp (-X) = C ((-1) ^ b) * reflect (a + b) (G a b θ) := by
    rw [hr, pA, pB, rl, rl, G, pA, pB]
    simp only [mul_comp, pow_comp, add_comp, C_comp, X_comp, map_neg, map_pow, map_one, neg_comp]
    rw [show C (cos (θ / 2)) * -X + -C (sin (θ / 2)) = -1 * (C (cos (θ / 2)) * X + C (sin (θ / 2))) by ring, mul_pow]
    ring
  have h2 := congrArg (fun P => P.coeff k) hc
  have e : (-X : ℝ[X]) = C (-1) * X := by simp
  rw [e] at h2
  simp only [comp_C_mul_X_coeff, coeff_C_mul, coeff_reflect, revAt_le h] at h2
  rw [mul_comm]
  exact h2

/-- The value on the axis. -/
theorem f_at_zero (a b k : ℕ) : f a b k 0 = if k = a then 1 else 0 := by
  simp [f, G, pA, pB, coeff_X_pow]

end Verif.SWSH
