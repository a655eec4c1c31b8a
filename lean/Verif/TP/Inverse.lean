import Verif.TP.Coord
import Mathlib.Analysis.SpecialFunctions.Trigonometric.Angle

/-!
# The inverse of the coordinates of TwoPunctures
-/
namespace Verif.TP
open Real Verif.RefMetric

/-- The position in terms of `X` and `R`. -/
theorem position_XR (b X R phi : ℝ) (hR : 0 ≤ R) (hR' : R ≤ π) :
    position b (2 * tanh (0.5 * X) - 1) (tan (0.5 * R - π / 4)) phi =
      ![b * cosh X * cos R, b * sinh X * sin R * cos phi, b * sinh X * sin R * sin phi] := by
  have ha : (2 * tanh (0.5 * X) - 1 + 1) / 2 = tanh (0.5 * X) := by ring
  have hm : tanh (0.5 * X) ∈ Set.Ioo (-1) (1 : ℝ) := ⟨neg_one_lt_tanh _, tanh_lt_one _⟩
  have hX : 2 * artanh (tanh (0.5 * X)) = X := by
    rw [artanh_tanh]
    ring
  have hc := cosh_two_artanh hm
  have hs := sinh_two_artanh hm
  rw [hX] at hc hs
  have hB : π / 2 + 2 * arctan (tan (0.5 * R - π / 4)) = R := by
    rw [arctan_tan (by linarith [pi_pos]) (by linarith [pi_pos])]
    ring
  have hcR := cos_R (tan (0.5 * R - π / 4))
  have hsR := sin_R (tan (0.5 * R - π / 4))
  rw [hB] at hcR hsR
  simp only [position, ha]
  rw [hc, hs, hcR, hsR]
  funext i
  fin_cases i
  · simp only [Fin.zero_eta, Matrix.cons_val_zero]
    rw [← neg_sub 1 (tanh (0.5 * X) ^ 2), div_neg, add_comm]
    ring
  · simp
  · simp

/-- The quantities `X` and `R` of `toABphi` and their hyperbolic and trigonometric functions. -/
theorem toABphi_XR (b x y z : ℝ) (hb : 0 < b) : ∃ X R, 0 ≤ X ∧ 0 ≤ R ∧ R ≤ π ∧
    (toABphi b x y z).1 = 2 * tanh (0.5 * X) - 1 ∧ (toABphi b x y z).2.1 = tan (0.5 * R - π / 4) ∧
    b * cosh X * cos R = x ∧ b * sinh X * sin R = ‖(⟨y, z⟩ : ℂ)‖ := by
  set xs := x / b with hxs
  set rs2 := y / b * (y / b) + z / b * (z / b) with hrs
  set aux1 := 0.5 * (xs * xs + rs2 - 1) with h1
  set aux2 := √(aux1 * aux1 + rs2) with h2
  have hr0 : 0 ≤ rs2 := add_nonneg (mul_self_nonneg _) (mul_self_nonneg _)
  have h2s : aux2 ^ 2 = aux1 * aux1 + rs2 := sq_sqrt (add_nonneg (mul_self_nonneg _) hr0)
  have h20 : 0 ≤ aux2 := sqrt_nonneg _
  have hab : |aux1| ≤ aux2 := by
    rw [← sqrt_sq_eq_abs]
    exact sqrt_le_sqrt (by nlinarith)
  obtain ⟨hab1, hab2⟩ := abs_le.1 hab
  set S := √(aux1 + aux2) with hS
  set Q := √(-aux1 + aux2) with hQ
  have hS0 : 0 ≤ S := sqrt_nonneg _
  have hQ0 : 0 ≤ Q := sqrt_nonneg _
  have hS2 : S ^ 2 = aux1 + aux2 := sq_sqrt (by linarith)
  have hQ2 : Q ^ 2 = -aux1 + aux2 := sq_sqrt (by linarith)
  have hx2 : (1 + S ^ 2) * (1 - Q ^ 2) = xs ^ 2 := by
    rw [hS2, hQ2]
    have : (1 + (aux1 + aux2)) * (1 - (-aux1 + aux2)) = 1 + 2 * aux1 + aux1 * aux1 - aux2 ^ 2 := by ring
    rw [this, h2s, h1]
    ring
  have hQ1 : Q ≤ 1 := by
    by_contra h
    have h3 : 0 < 1 + S ^ 2 := by positivity
    have h4 : 1 - Q ^ 2 < 0 := by nlinarith
    nlinarith [sq_nonneg xs, mul_neg_of_pos_of_neg h3 h4]
  have hSQ : (S * Q) ^ 2 = rs2 := by
    rw [mul_pow, hS2, hQ2]
    linear_combination h2s
  have hR0 : 0 ≤ arcsin Q := arcsin_nonneg.2 hQ0
  have hR1 : arcsin Q ≤ π / 2 := arcsin_le_pi_div_two Q
  have hnorm : b * S * Q = ‖(⟨y, z⟩ : ℂ)‖ := by
    rw [Complex.norm_def, Complex.normSq_mk]
    symm
    rw [sqrt_eq_iff_mul_self_eq (add_nonneg (mul_self_nonneg _) (mul_self_nonneg _)) (by positivity)]
    have : b * S * Q * (b * S * Q) = b ^ 2 * (S * Q) ^ 2 := by ring
    rw [this, hSQ, hrs]
    field_simp
  have hcos : cosh (arsinh S) * cos (arcsin Q) = |xs| := by
    rw [cosh_arsinh, cos_arcsin, ← sqrt_mul (by positivity), hx2, sqrt_sq_eq_abs]
  refine ⟨arsinh S, if x < 0 then π - arcsin Q else arcsin Q, arsinh_nonneg_iff.2 hS0, ?_, ?_, ?_, ?_, ?_, ?_⟩
  · split_ifs <;> linarith
  · split_ifs <;> linarith [pi_pos]
  · rfl
  · show tan (0.5 * (if x < 0 then π - arcsin (min 1 Q) else arcsin (min 1 Q)) - π / 4) = _
    rw [min_eq_right hQ1]
  · split_ifs with hx
    · have : xs < 0 := div_neg_of_neg_of_pos hx hb
      rw [cos_pi_sub, mul_assoc, mul_neg, hcos, abs_of_neg this, neg_neg, hxs]
      field_simp
    · have : 0 ≤ xs := div_nonneg (not_lt.1 hx) hb.le
      rw [mul_assoc, hcos, abs_of_nonneg this, hxs]
      field_simp
  · have e : sin (if x < 0 then π - arcsin Q else arcsin Q) = Q := by
      split_ifs
      · rw [sin_pi_sub, sin_arcsin (by linarith) hQ1]
      · rw [sin_arcsin (by linarith) hQ1]
    rw [e, sinh_arsinh, hnorm]

theorem toABphi_phi (b x y z : ℝ) : 0 ≤ (toABphi b x y z).2.2 ∧ (toABphi b x y z).2.2 < 2 * π ∧
    ‖(⟨y, z⟩ : ℂ)‖ * cos (toABphi b x y z).2.2 = y ∧ ‖(⟨y, z⟩ : ℂ)‖ * sin (toABphi b x y z).2.2 = z := by
  have h1 := Complex.neg_pi_lt_arg ⟨y, z⟩
  have h2 := Complex.arg_le_pi ⟨y, z⟩
  have e1 : ‖(⟨y, z⟩ : ℂ)‖ * cos (Complex.arg ⟨y, z⟩) = y := Complex.norm_mul_cos_arg ⟨y, z⟩
  have e2 : ‖(⟨y, z⟩ : ℂ)‖ * sin (Complex.arg ⟨y, z⟩) = z := Complex.norm_mul_sin_arg ⟨y, z⟩
  show 0 ≤ (if Complex.arg ⟨y, z⟩ < 0 then Complex.arg ⟨y, z⟩ + 2 * π else Complex.arg ⟨y, z⟩) ∧
    (if Complex.arg ⟨y, z⟩ < 0 then Complex.arg ⟨y, z⟩ + 2 * π else Complex.arg ⟨y, z⟩) < 2 * π ∧
    ‖(⟨y, z⟩ : ℂ)‖ * cos (if Complex.arg ⟨y, z⟩ < 0 then Complex.arg ⟨y, z⟩ + 2 * π else Complex.arg ⟨y, z⟩) = y ∧
    ‖(⟨y, z⟩ : ℂ)‖ * sin (if Complex.arg ⟨y, z⟩ < 0 then Complex.arg ⟨y, z⟩ + 2 * π else Complex.arg ⟨y, z⟩) = z
  split_ifs with h
  · exact ⟨by linarith, by linarith, by rw [cos_add_two_pi, e1], by rw [sin_add_two_pi, e2]⟩
  · exact ⟨by linarith, by linarith [pi_pos], e1, e2⟩

theorem tanh_nonneg' {x : ℝ} (h : 0 ≤ x) : 0 ≤ tanh x := by
  rw [tanh_eq_sinh_div_cosh]
  exact div_nonneg (sinh_nonneg_iff.2 h) (cosh_pos x).le

theorem toABphi_position (b x y z : ℝ) (hb : 0 < b) :
    let q := toABphi b x y z
    (-1 ≤ q.1 ∧ q.1 < 1) ∧ (-1 ≤ q.2.1 ∧ q.2.1 ≤ 1) ∧ (0 ≤ q.2.2 ∧ q.2.2 < 2 * π) ∧ position b q.1 q.2.1 q.2.2 = ![x, y, z] := by
  intro q
  obtain ⟨X, R, hX, hR, hR', e1, e2, ex, er⟩ := toABphi_XR b x y z hb
  obtain ⟨p0, p1, ey, ez⟩ := toABphi_phi b x y z
  have hπ := pi_pos
  refine ⟨?_, ?_, ⟨p0, p1⟩, ?_⟩
  · simp only [q, e1]
    have h1 := tanh_nonneg' (x := 0.5 * X) (by linarith)
    have h2 := tanh_lt_one (0.5 * X)
    constructor <;> linarith
  · simp only [q, e2]
    have h1 : -(π / 4) ≤ 0.5 * R - π / 4 := by linarith
    have h2 : 0.5 * R - π / 4 ≤ π / 4 := by linarith
    constructor
    · have := strictMonoOn_tan.monotoneOn (a := -(π / 4)) (b := 0.5 * R - π / 4) ⟨by linarith, by linarith⟩ ⟨by linarith, by linarith⟩ h1
      rwa [tan_neg, tan_pi_div_four] at this
    · have := strictMonoOn_tan.monotoneOn (b := π / 4) (a := 0.5 * R - π / 4) ⟨by linarith, by linarith⟩ ⟨by linarith, by linarith⟩ h2
      rwa [tan_pi_div_four] at this
  · simp only [q, e1, e2]
    rw [position_XR b X R _ hR hR', ex, er, ey, ez]

/-- Different coordinates off the axis have different positions. -/
theorem position_inj {b A B phi A' B' phi' : ℝ} (hb : 0 < b) (hA : -1 < A ∧ A < 1) (hB : -1 < B ∧ B < 1) (hp : 0 ≤ phi ∧ phi < 2 * π)
    (hA' : -1 ≤ A' ∧ A' < 1) (hB' : -1 ≤ B' ∧ B' ≤ 1) (hp' : 0 ≤ phi' ∧ phi' < 2 * π)
    (h : position b A' B' phi' = position b A B phi) : A' = A ∧ B' = B ∧ phi' = phi := by
  -- in terms of `X` and `R`
  have red : ∀ A B : ℝ, (-1 ≤ A ∧ A < 1) → (-1 ≤ B ∧ B ≤ 1) → ∃ X R, 0 ≤ X ∧ 0 ≤ R ∧ R ≤ π ∧ 2 * tanh (0.5 * X) - 1 = A ∧ tan (0.5 * R - π / 4) = B ∧
      (-1 < A → 0 < X) ∧ (-1 < B ∧ B < 1 → 0 < R ∧ R < π) := by
    intro A B hA hB
    have hl : -(π / 4) ≤ arctan B := by
      have := arctan_strictMono.monotone hB.1
      rwa [arctan_neg, arctan_one] at this
    have hu : arctan B ≤ π / 4 := by
      have := arctan_strictMono.monotone hB.2
      rwa [arctan_one] at this
    have ha : (A + 1) / 2 ∈ Set.Ioo (-1) (1 : ℝ) := ⟨by linarith, by linarith⟩
    refine ⟨2 * artanh ((A + 1) / 2), π / 2 + 2 * arctan B, ?_, by linarith, by linarith, ?_, ?_, ?_, ?_⟩
    · have := artanh_nonneg (x := (A + 1) / 2) (by linarith)
      linarith
    · rw [show 0.5 * (2 * artanh ((A + 1) / 2)) = artanh ((A + 1) / 2) by ring, tanh_artanh ha]
      ring
    · rw [show 0.5 * (π / 2 + 2 * arctan B) - π / 4 = arctan B by ring, tan_arctan]
    · intro h
      have := artanh_pos (x := (A + 1) / 2) ⟨by linarith, by linarith⟩
      linarith
    · intro h
      have h1 := arctan_strictMono h.1
      have h2 := arctan_strictMono h.2
      rw [arctan_neg, arctan_one] at h1
      rw [arctan_one] at h2
      constructor <;> linarith
  obtain ⟨X, R, hX, hR, hRp, rfl, rfl, hX0, hR0⟩ := red A B ⟨hA.1.le, hA.2⟩ ⟨hB.1.le, hB.2.le⟩
  obtain ⟨X', R', hX', hR', hRp', rfl, rfl, -, -⟩ := red A' B' hA' hB'
  rw [position_XR b X R phi hR hRp, position_XR b X' R' phi' hR' hRp'] at h
  have h0 := congrFun h 0
  have h1 := congrFun h 1
  have h2 := congrFun h 2
  simp only [Matrix.cons_val] at h0 h1 h2
  replace hX0 := hX0 hA.1
  replace hR0 := hR0 hB
  have hs : 0 < sinh X := sinh_pos_iff.2 hX0
  have hsR : 0 < sin R := sin_pos_of_pos_of_lt_pi hR0.1 hR0.2
  have hs' : 0 ≤ sinh X' := sinh_nonneg_iff.2 hX'
  have hsR' : 0 ≤ sin R' := sin_nonneg_of_nonneg_of_le_pi hR' hRp'
  have hc := sin_sq_add_cos_sq phi
  have hc' := sin_sq_add_cos_sq phi'
  have hr : sinh X' * sin R' = sinh X * sin R := by
    have e : (b * sinh X' * sin R') ^ 2 = (b * sinh X * sin R) ^ 2 := by
      calc (b * sinh X' * sin R') ^ 2 = (b * sinh X' * sin R' * cos phi') ^ 2 + (b * sinh X' * sin R' * sin phi') ^ 2 := by
            linear_combination -(b * sinh X' * sin R') ^ 2 * hc'
        _ = (b * sinh X * sin R) ^ 2 := by
            rw [h1, h2]
            linear_combination (b * sinh X * sin R) ^ 2 * hc
    have e2 := (pow_left_inj₀ (by positivity) (by positivity) two_ne_zero).1 e
    exact mul_left_cancel₀ hb.ne' (by linarith)
  have hx : cosh X' * cos R' = cosh X * cos R := mul_left_cancel₀ hb.ne' (by linarith)
  have k1 := sin_sq_add_cos_sq R
  have k2 := sin_sq_add_cos_sq R'
  have k3 := cosh_sq X
  have k4 := cosh_sq X'
  have hx2 : (1 + sinh X' ^ 2) * (1 - sin R' ^ 2) = (1 + sinh X ^ 2) * (1 - sin R ^ 2) := by
    have := congrArg (· ^ 2) hx
    simp only [mul_pow] at this
    rw [k3, k4] at this
    rw [show 1 - sin R' ^ 2 = cos R' ^ 2 by linarith, show 1 - sin R ^ 2 = cos R ^ 2 by linarith]
    linarith
  have hr2 : sinh X' ^ 2 * sin R' ^ 2 = sinh X ^ 2 * sin R ^ 2 := by
    rw [← mul_pow, hr, mul_pow]
  have hδ : (sinh X ^ 2 - sinh X' ^ 2) * (sinh X' ^ 2 + sin R ^ 2) = 0 := by
    have e : sinh X ^ 2 - sinh X' ^ 2 = sin R ^ 2 - sin R' ^ 2 := by linarith
    have e' : sin R' ^ 2 = sin R ^ 2 - (sinh X ^ 2 - sinh X' ^ 2) := by linarith
    rw [e'] at hr2
    linear_combination -hr2
  have hne : sinh X' ^ 2 + sin R ^ 2 ≠ 0 := by positivity
  have hss : sinh X' = sinh X := by
    have := (mul_eq_zero.1 hδ).resolve_right hne
    exact (pow_left_inj₀ hs' hs.le two_ne_zero).1 (by linarith)
  have hXX : X' = X := sinh_injective hss
  subst hXX
  have hRR : R' = R := by
    have := mul_left_cancel₀ (cosh_pos X').ne' hx
    exact injOn_cos ⟨hR', hRp'⟩ ⟨hR, hRp⟩ this
  subst hRR
  have hf : b * sinh X' * sin R' ≠ 0 := by positivity
  have a1 : cos phi' = cos phi := mul_left_cancel₀ hf h1
  have a2 : sin phi' = sin phi := mul_left_cancel₀ hf h2
  obtain ⟨n, hn⟩ := Angle.angle_eq_iff_two_pi_dvd_sub.1 (Angle.cos_sin_inj a1 a2)
  have n0 : n = 0 := by
    have hπ := pi_pos
    have l1 : (n : ℝ) < 1 := by
      by_contra hh
      nlinarith [hp.1, hp.2, hp'.1, hp'.2]
    have l2 : (-1 : ℝ) < n := by
      by_contra hh
      nlinarith [hp.1, hp.2, hp'.1, hp'.2]
    have : n < 1 := by exact_mod_cast l1
    have : -1 < n := by exact_mod_cast l2
    omega
  refine ⟨rfl, rfl, ?_⟩
  rw [n0] at hn
  simp at hn
  linarith

end Verif.TP
