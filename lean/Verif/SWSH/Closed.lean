import Verif.SWSH.Model
import Verif.SWSH.Integral

/-! # The code's sum is a coefficient of the generating polynomial -/
namespace Verif.SWSH
open Polynomial

/-- One term of the coefficient. -/
noncomputable def T (a b k : ℕ) (θ : ℝ) (r : ℕ) : ℝ :=
  if r ≤ a ∧ r ≤ k ∧ k - r ≤ b then
    (a.choose r : ℝ) * Real.cos (θ / 2) ^ r * (-Real.sin (θ / 2)) ^ (a - r) *
      ((b.choose (k - r) : ℝ) * Real.sin (θ / 2) ^ (k - r) * Real.cos (θ / 2) ^ (b - (k - r))) else 0

theorem f_eq_sum (a b k : ℕ) (θ : ℝ) : f a b k θ = ∑ r ∈ Finset.range (a + 1), T a b k θ r := by
  have h1 : f a b k θ = ∑ r ∈ Finset.range (k + 1), T a b k θ r := by
    rw [f, G, coeff_mul, Finset.Nat.sum_antidiagonal_eq_sum_range_succ_mk]
    refine Finset.sum_congr rfl fun r hr => ?_
    have hr : r ≤ k := Nat.lt_succ_iff.1 (Finset.mem_range.1 hr)
    simp only [pA, pB, lin_pow_coeff, T]
    by_cases ha : r ≤ a <;> by_cases hb : k - r ≤ b <;> simp [ha, hb, hr]
  have h2 : ∑ r ∈ Finset.range (k + 1), T a b k θ r = ∑ r ∈ Finset.range (a + k + 1), T a b k θ r := by
    refine Finset.sum_subset (fun r hr => ?_) (fun r _ hr => ?_)
    · simp only [Finset.mem_range] at *; omega
    · simp only [Finset.mem_range] at hr
      rw [T, if_neg (by omega)]
  have h3 : ∑ r ∈ Finset.range (a + 1), T a b k θ r = ∑ r ∈ Finset.range (a + k + 1), T a b k θ r := by
    refine Finset.sum_subset (fun r hr => ?_) (fun r _ hr => ?_)
    · simp only [Finset.mem_range] at *; omega
    · simp only [Finset.mem_range] at hr
      rw [T, if_neg (by omega)]
  rw [h1, h2, h3]

theorem binomial_nat (n k : ℕ) : binomial n k = n.choose k := by
  rw [binomial, if_neg (by omega), Int.toNat_natCast, Ring.choose_natCast]

theorem binomial_neg (n k : ℤ) (h : k < 0) : binomial n k = 0 := by rw [binomial, if_pos h]

/-- The exponents of the code in terms of those of the polynomial. -/
theorem term_eq (a b k r : ℕ) (θ : ℝ) (hs : Real.sin (θ / 2) ≠ 0) (hc : Real.cos (θ / 2) ≠ 0) (hr : r ≤ a) :
    Real.sin (θ / 2) ^ (a + b : ℤ) * ((binomial a r : ℤ) * (binomial b (r + b - k) : ℤ) * (-1 : ℝ) ^ (a - r : ℤ) /
      Real.tan (θ / 2) ^ (2 * r + b - k : ℤ)) = T a b k θ r := by
  rw [T, binomial_nat]
  by_cases h1 : r ≤ k
  · by_cases h2 : k - r ≤ b
    · rw [if_pos ⟨hr, h1, h2⟩]
      obtain ⟨q, rfl⟩ := Nat.exists_eq_add_of_le h1
      rw [Nat.add_sub_cancel_left] at h2
      obtain ⟨p, rfl⟩ := Nat.exists_eq_add_of_le h2
      obtain ⟨w, rfl⟩ := Nat.exists_eq_add_of_le hr
      have e1 : ((r : ℤ) + ((q + p : ℕ) : ℤ) - ((r + q : ℕ) : ℤ)) = (p : ℕ) := by push_cast; ring
      have e2 : (2 * r + ((q + p : ℕ) : ℤ) - ((r + q : ℕ) : ℤ)) = (r + p : ℕ) := by push_cast; ring
      have e3 : (((r + w : ℕ) : ℤ) - r) = (w : ℕ) := by push_cast; ring
      have e4 : (((r + w : ℕ) : ℤ) + ((q + p : ℕ) : ℤ)) = ((r + p) + (w + q) : ℕ) := by push_cast; ring
      rw [e1, e2, e3, e4, binomial_nat]
      simp only [zpow_natCast, Nat.add_sub_cancel_left]
      rw [Real.tan_eq_sin_div_cos, ← Nat.choose_symm_add (a := q) (b := p), div_pow, neg_pow (Real.sin (θ / 2)), Int.cast_natCast, Int.cast_natCast]
      have h1' := hs
      generalize Real.sin (θ / 2) = S at *
      generalize Real.cos (θ / 2) = W at *
      generalize (-1 : ℝ) ^ w = e
      generalize (((r + w).choose r : ℕ) : ℝ) = x
      generalize (((q + p).choose q : ℕ) : ℝ) = z
      rw [div_div_eq_mul_div, mul_div_assoc', div_eq_iff (pow_ne_zero _ h1')]
      ring
    · rw [if_neg (by omega), binomial_neg _ _ (by omega)]
      simp
  · rw [if_neg (by omega)]
    obtain ⟨p, hp⟩ : ∃ p : ℕ, (r : ℤ) + b - k = p := ⟨r + b - k, by omega⟩
    rw [hp, binomial_nat, Nat.choose_eq_zero_of_lt (n := b) (k := p) (by omega)]
    simp

/-- The normalization of the code. -/
noncomputable def N (s l m : ℤ) : ℝ :=
  Real.sqrt (factorial (l + m) * factorial (l - m) * (2 * l + 1) * (1 / (4 * Real.pi)) * invFactorial (l + s) * invFactorial (l - s))

/-- The coefficient for spin weight `s`, degree `l` and order `m`. -/
noncomputable def g (s l m : ℤ) (θ : ℝ) : ℝ := f (l - s).toNat (l + s).toNat (l + m).toNat θ

/-- The harmonic as a function of the polar angle. -/
noncomputable def y (s l m : ℤ) (θ : ℝ) : ℝ := (-1) ^ m * N s l m * g s l m θ

theorem Y_eq (s l m : ℤ) (hs : |s| ≤ l) (hm : |m| ≤ l) (θ φ : ℝ) (h1 : Real.sin (θ / 2) ≠ 0) (h2 : Real.cos (θ / 2) ≠ 0) :
    Y s l m θ φ = Complex.exp (Complex.I * m * φ) * (y s l m θ : ℝ) := by
  rw [abs_le] at hs hm
  obtain ⟨a, ha⟩ : ∃ a : ℕ, l - s = a := ⟨(l - s).toNat, by omega⟩
  obtain ⟨b, hb⟩ : ∃ b : ℕ, l + s = b := ⟨(l + s).toNat, by omega⟩
  obtain ⟨k, hk⟩ : ∃ k : ℕ, l + m = k := ⟨(l + m).toNat, by omega⟩
  have hS : (Real.sin (θ / 2) : ℂ) ^ (2 * l) * Sum false s l m θ φ = Complex.exp (Complex.I * m * φ) * ((g s l m θ : ℝ) : ℂ) := by
    rw [g, ha, hb, hk, Int.toNat_natCast, Int.toNat_natCast, Int.toNat_natCast, f_eq_sum, Sum, ha, hb,
      show ((a : ℤ) + 1).toNat = a + 1 by omega, Complex.ofReal_sum, Finset.mul_sum, Finset.mul_sum]
    refine Finset.sum_congr rfl fun r hr => ?_
    rw [if_neg Bool.false_ne_true, ← term_eq a b k r θ h1 h2 (Nat.lt_succ_iff.1 (Finset.mem_range.1 hr))]
    rw [show (r : ℤ) + s - m = r + b - k by omega, show l - (r : ℤ) - s = a - r by omega,
      show 2 * (r : ℤ) + s - m = 2 * r + b - k by omega, show 2 * l = a + b by omega]
    push_cast
    ring
  rw [Y, Yof, mul_assoc ((-1 : ℂ) ^ m), hS, y]
  push_cast
  rw [N]
  ring

/-- The form with the cotangent is the same expression. -/
theorem Yof_cot (cot : Bool) (s l m : ℤ) (θ φ : ℝ) : Yof cot s l m θ φ = Y s l m θ φ := by
  have h : Sum cot s l m θ φ = Sum false s l m θ φ := by
    rw [Sum, Sum]
    refine Finset.sum_congr rfl fun r _ => ?_
    cases cot with
    | false => rfl
    | true => rw [if_pos rfl, if_neg Bool.false_ne_true, Real.cot_eq_cos_div_sin, Real.tan_eq_sin_div_cos,
        ← inv_div, Complex.ofReal_inv, inv_zpow, ← div_eq_mul_inv]
  rw [Y, Yof, Yof, h]

theorem Y_zero (s l m : ℤ) (hs : l < |s|) (θ φ : ℝ) : Y s l m θ φ = 0 := by
  have h : invFactorial (l + s) * invFactorial (l - s) = 0 := by
    rcases lt_abs.1 hs with h | h
    · rw [invFactorial, invFactorial, if_pos (by omega : l - s < 0), mul_zero]
    · rw [invFactorial, invFactorial, if_pos (by omega : l + s < 0), zero_mul]
  rw [Y, Yof, mul_assoc _ (invFactorial _), h, mul_zero, Real.sqrt_zero]
  simp

end Verif.SWSH
