import Verif.SWSH.Ladder

/-!
# Spin-weighted spherical harmonics: the properties

C89.  The expression that `Y` builds is the spin-weighted spherical harmonic.
-/
namespace Verif.SWSH
open Complex Spec

/-! ### Raising and lowering the spin weight -/

/-- The expression for spin weight `s` is mapped by `ð` to the one for spin weight `s + 1`, with the standard factor. -/
theorem C89_raise (s l m : ℤ) (hs : |s| ≤ l) (hm : |m| ≤ l) (θ : ℝ) (hθ : θ ∈ Set.Ioo 0 Real.pi) (φ : ℝ) :
    eth s (Y s l m) θ φ = (Real.sqrt ((l - s) * (l + s + 1)) : ℂ) * Y (s + 1) l m θ φ := by
  have hY := Y_mode s l m hs hm
  rw [eth, dTheta_congr hY hθ, dPhi_congr hY hθ, hY θ hθ, mode_theta m (y_deriv s l m hs θ), mode_phi]
  have hsin : (Real.sin θ : ℂ) ≠ 0 := Complex.ofReal_ne_zero.2 (half_ne θ hθ).2.2
  have hr := congrArg (fun x : ℝ => (x : ℂ)) (g_rel s l m hs hm θ)
  have hN := congrArg (fun x : ℝ => (x : ℂ)) (N_raise s l m hs)
  have hR : (Real.sqrt ((l - s) * (l + s + 1)) : ℂ) * Y (s + 1) l m θ φ =
      exp (I * m * φ) * ((-1) ^ m * ((N s l m : ℝ) * (l - s)) * (g (s + 1) l m θ : ℝ)) := by
    rcases eq_or_lt_of_le (abs_le.1 hs).2 with e | e
    · rw [e]; simp
    · rw [Y_mode (s + 1) l m (by rw [abs_le] at *; omega) hm θ hθ, mode, y]
      push_cast at hN ⊢
      rw [hN]
      ring
  rw [hR]
  simp only [mode, y]
  have hi := inv_mul_cancel₀ hsin
  push_cast at hr hi ⊢
  rw [div_eq_mul_inv, div_eq_mul_inv]
  linear_combination (exp (I * m * φ) * (-1) ^ m * N s l m * (sin θ)⁻¹) * hr + (exp (I * m * φ) * (-1) ^ m * N s l m) / 2 *
    ((l - s) * g (s + 1) l m θ + (l + s) * g (s - 1) l m θ) * hi - (exp (I * m * φ) * (-1) ^ m * N s l m) * m * (sin θ)⁻¹ * g s l m θ * I_sq

/-- The expression for spin weight `s` is mapped by the conjugate operator to the one for spin weight `s - 1`, with the standard factor. -/
theorem C89_lower (s l m : ℤ) (hs : |s| ≤ l) (hm : |m| ≤ l) (θ : ℝ) (hθ : θ ∈ Set.Ioo 0 Real.pi) (φ : ℝ) :
    ethBar s (Y s l m) θ φ = -(Real.sqrt ((l + s) * (l - s + 1)) : ℂ) * Y (s - 1) l m θ φ := by
  have hY := Y_mode s l m hs hm
  rw [ethBar, dTheta_congr hY hθ, dPhi_congr hY hθ, hY θ hθ, mode_theta m (y_deriv s l m hs θ), mode_phi]
  have hsin : (Real.sin θ : ℂ) ≠ 0 := Complex.ofReal_ne_zero.2 (half_ne θ hθ).2.2
  have hr := congrArg (fun x : ℝ => (x : ℂ)) (g_rel s l m hs hm θ)
  have hN := congrArg (fun x : ℝ => (x : ℂ)) (N_lower s l m hs)
  have hR : (Real.sqrt ((l + s) * (l - s + 1)) : ℂ) * Y (s - 1) l m θ φ =
      exp (I * m * φ) * ((-1) ^ m * ((N s l m : ℝ) * (l + s)) * (g (s - 1) l m θ : ℝ)) := by
    rcases eq_or_lt_of_le (abs_le.1 hs).1 with e | e
    · rw [← e]; simp
    · rw [Y_mode (s - 1) l m (by rw [abs_le] at *; omega) hm θ hθ, mode, y]
      push_cast at hN ⊢
      rw [hN]
      ring
  rw [neg_mul, hR]
  simp only [mode, y]
  have hi := inv_mul_cancel₀ hsin
  push_cast at hr hi ⊢
  rw [div_eq_mul_inv, div_eq_mul_inv]
  linear_combination -(exp (I * m * φ) * (-1) ^ m * N s l m * (sin θ)⁻¹) * hr - (exp (I * m * φ) * (-1) ^ m * N s l m) / 2 *
    ((l - s) * g (s + 1) l m θ + (l + s) * g (s - 1) l m θ) * hi + (exp (I * m * φ) * (-1) ^ m * N s l m) * m * (sin θ)⁻¹ * g s l m θ * I_sq

/-- Hence the expression is an eigenfunction of the product of the two operators. -/
theorem C89_eigen (s l m : ℤ) (hs : |s| ≤ l) (hm : |m| ≤ l) (θ : ℝ) (hθ : θ ∈ Set.Ioo 0 Real.pi) (φ : ℝ) :
    ethBar (s + 1) (eth s (Y s l m)) θ φ = -((l - s) * (l + s + 1)) * Y s l m θ φ := by
  have hr := C89_raise s l m hs hm
  have hl : ∀ (c : ℂ) (η : Fun), ethBar (s + 1) (fun u v => c * η u v) θ φ = c * ethBar (s + 1) η θ φ := fun c η => by
    simp only [ethBar, dTheta, dPhi, deriv_const_mul_field]; ring
  have hcongr : ethBar (s + 1) (eth s (Y s l m)) θ φ =
      ethBar (s + 1) (fun u v => (Real.sqrt ((l - s) * (l + s + 1)) : ℂ) * Y (s + 1) l m u v) θ φ := by
    rw [ethBar, dTheta_congr hr hθ, dPhi_congr hr hθ, hr θ hθ, ethBar]
  rw [hcongr, hl]
  rcases eq_or_lt_of_le (abs_le.1 hs).2 with e | e
  · rw [e]; simp
  · have h0 : (0 : ℝ) ≤ (l - s) * (l + s + 1) := by
      rw [abs_le] at hs
      exact mul_nonneg (by exact_mod_cast (by omega : 0 ≤ l - s)) (by exact_mod_cast (by omega : 0 ≤ l + s + 1))
    rw [C89_lower (s + 1) l m (by rw [abs_le] at *; omega) hm θ hθ, add_sub_cancel_right]
    have e2 : ((l : ℝ) + (s + 1 : ℤ)) * (l - (s + 1 : ℤ) + 1) = (l - s) * (l + s + 1) := by push_cast; ring
    rw [e2]
    have h2 := congrArg (fun x : ℝ => (x : ℂ)) (Real.mul_self_sqrt h0)
    push_cast at h2
    linear_combination -Y s l m θ φ * h2

example : ∃ θ : ℝ, θ ∈ Set.Ioo 0 Real.pi ∧ |(-2 : ℤ)| ≤ 5 ∧ |(-3 : ℤ)| ≤ 5 := ⟨1, ⟨one_pos, by linarith [Real.two_le_pi]⟩, by decide, by decide⟩

/-! ### Rotations -/

/-- The order is the component of the angular momentum about the axis. -/
theorem C89_order (s l m : ℤ) (hs : |s| ≤ l) (hm : |m| ≤ l) (θ : ℝ) (hθ : θ ∈ Set.Ioo 0 Real.pi) (φ : ℝ) :
    Lz (Y s l m) θ φ = m * Y s l m θ φ := by
  have hY := Y_mode s l m hs hm
  rw [Lz, dPhi_congr hY hθ, mode_phi, hY θ hθ]
  linear_combination -m * mode m (y s l m) θ φ * I_sq

/-- Rotations mix the orders with the standard factors and phases: raising. -/
theorem C89_rotate_up (s l m : ℤ) (hs : |s| ≤ l) (hm : |m| ≤ l) (θ : ℝ) (hθ : θ ∈ Set.Ioo 0 Real.pi) (φ : ℝ) :
    Lplus s (Y s l m) θ φ = if m = l then 0 else (Real.sqrt ((l - m) * (l + m + 1)) : ℂ) * Y s l (m + 1) θ φ := by
  have hY := Y_mode s l m hs hm
  rw [Lplus, dTheta_congr hY hθ, dPhi_congr hY hθ, hY θ hθ, mode_theta m (y_deriv s l m hs θ), mode_phi]
  have hsin : (Real.sin θ : ℂ) ≠ 0 := Complex.ofReal_ne_zero.2 (half_ne θ hθ).2.2
  have hr := congrArg (fun x : ℝ => (x : ℂ)) (g_rel s l m hs hm θ)
  have hu := congrArg (fun x : ℝ => (x : ℂ)) (g_up s l m hs hm θ)
  have hR : (if m = l then 0 else (Real.sqrt ((l - m) * (l + m + 1)) : ℂ) * Y s l (m + 1) θ φ) =
      -(exp (I * φ) * exp (I * m * φ) * ((-1) ^ m * ((N s l m : ℝ) * (l + m + 1)) * (g s l (m + 1) θ : ℝ))) := by
    split
    · rename_i e; rw [e, g_beyond s l hs]; simp
    · rename_i e
      have hlt : m < l := lt_of_le_of_ne (abs_le.1 hm).2 e
      have hN := congrArg (fun x : ℝ => (x : ℂ)) (N_up s l m hm hlt)
      rw [Y_mode s l (m + 1) hs (by rw [abs_le] at *; omega) θ hθ, mode, y]
      push_cast at hN ⊢
      rw [hN, zpow_add₀ (by norm_num), zpow_one, show I * ((m : ℂ) + 1) * φ = I * φ + I * m * φ by ring, Complex.exp_add]
      ring
  rw [hR]
  simp only [mode, y]
  have hi := inv_mul_cancel₀ hsin
  have hc := congrArg (fun x : ℝ => (x : ℂ)) (cos_half θ)
  have hs2 := congrArg (fun x : ℝ => (x : ℂ)) (sin_half θ)
  have h1 := congrArg (fun x : ℝ => (x : ℂ)) (Real.sin_sq_add_cos_sq (θ / 2))
  push_cast at hr hi hu hc hs2 h1 ⊢
  rw [div_eq_mul_inv (cos (θ : ℂ)), div_eq_mul_inv (s : ℂ)]
  generalize (sin (θ : ℂ))⁻¹ = z at *
  generalize exp (I * φ) = e1 at *
  generalize exp (I * m * φ) = e2 at *
  generalize ((-1 : ℂ)) ^ m = e3 at *
  generalize ((N s l m : ℝ) : ℂ) = n at *
  generalize ((g s l m θ : ℝ) : ℂ) = x at *
  generalize ((g (s + 1) l m θ : ℝ) : ℂ) = xp at *
  generalize ((g (s - 1) l m θ : ℝ) : ℂ) = xm at *
  generalize ((g s l (m + 1) θ : ℝ) : ℂ) = xu at *
  generalize cos (θ / 2 : ℂ) = cc at *
  generalize sin (θ / 2 : ℂ) = ss at *
  generalize cos (θ : ℂ) = C at *
  generalize sin (θ : ℂ) = S at *
  have hP : C ^ 2 + S ^ 2 = 1 := by rw [hc, hs2]; linear_combination (ss ^ 2 + cc ^ 2 + 1) * h1
  have hC2 : 2 * cc ^ 2 = 1 + C := by rw [hc]; linear_combination h1
  have hS2 : 2 * ss ^ 2 = 1 - C := by rw [hc]; linear_combination h1
  have key : 1 / 2 * ((l + s) * xm - (l - s) * xp) - C * z * m * x - s * z * x + (l + m + 1) * xu = 0 := by
    rw [hu]
    linear_combination (-C * z) * hr + (-C / 2 * ((l - s) * xp + (l + s) * xm)) * hi + s * z * x * hP - s * S * x * hi + 1 / 2 * ((l - s) * xp) * hC2 - 1 / 2 * ((l + s) * xm) * hS2 - s * x * hs2
  linear_combination e1 * e2 * e3 * n * key + e1 * e2 * e3 * n * C * z * m * x * I_sq

/-- Rotations mix the orders with the standard factors and phases: lowering. -/
theorem C89_rotate_down (s l m : ℤ) (hs : |s| ≤ l) (hm : |m| ≤ l) (θ : ℝ) (hθ : θ ∈ Set.Ioo 0 Real.pi) (φ : ℝ) :
    Lminus s (Y s l m) θ φ = if m = -l then 0 else (Real.sqrt ((l + m) * (l - m + 1)) : ℂ) * Y s l (m - 1) θ φ := by
  have hY := Y_mode s l m hs hm
  rw [Lminus, dTheta_congr hY hθ, dPhi_congr hY hθ, hY θ hθ, mode_theta m (y_deriv s l m hs θ), mode_phi]
  have hsin : (Real.sin θ : ℂ) ≠ 0 := Complex.ofReal_ne_zero.2 (half_ne θ hθ).2.2
  have hr := congrArg (fun x : ℝ => (x : ℂ)) (g_rel s l m hs hm θ)
  have hu := congrArg (fun x : ℝ => (x : ℂ)) (g_down s l m hs hm θ)
  have hR : (if m = -l then 0 else (Real.sqrt ((l + m) * (l - m + 1)) : ℂ) * Y s l (m - 1) θ φ) =
      -(exp (-(I * φ)) * exp (I * m * φ) * ((-1) ^ m * (N s l m : ℝ) * ((if m = -l then 0 else (l - m + 1) * g s l (m - 1) θ : ℝ) : ℂ))) := by
    split
    · simp
    · rename_i e
      have hlt : -l < m := lt_of_le_of_ne (abs_le.1 hm).1 (Ne.symm e)
      have hN := congrArg (fun x : ℝ => (x : ℂ)) (N_down s l m hm hlt)
      rw [Y_mode s l (m - 1) hs (by rw [abs_le] at *; omega) θ hθ, mode, y]
      push_cast at hN ⊢
      have hz : ((-1 : ℂ)) ^ (m - 1) = -(-1) ^ m := by rw [zpow_sub₀ (by norm_num), zpow_one]; ring
      rw [hz, show I * ((m : ℂ) - 1) * φ = -(I * φ) + I * m * φ by ring, Complex.exp_add]
      linear_combination (exp (-(I * φ)) * exp (I * m * φ) * (-1) ^ m * g s l (m - 1) θ) * hN
  rw [hR]
  simp only [mode, y]
  have hi := inv_mul_cancel₀ hsin
  have hc := congrArg (fun x : ℝ => (x : ℂ)) (cos_half θ)
  have hs2 := congrArg (fun x : ℝ => (x : ℂ)) (sin_half θ)
  have h1 := congrArg (fun x : ℝ => (x : ℂ)) (Real.sin_sq_add_cos_sq (θ / 2))
  generalize (if m = -l then 0 else ((l : ℝ) - m + 1) * g s l (m - 1) θ) = xu at *
  push_cast at hr hi hu hc hs2 h1 ⊢
  rw [div_eq_mul_inv (cos (θ : ℂ)), div_eq_mul_inv (s : ℂ)]
  generalize (sin (θ : ℂ))⁻¹ = z at *
  generalize exp (-(I * φ)) = e1 at *
  generalize exp (I * m * φ) = e2 at *
  generalize ((-1 : ℂ)) ^ m = e3 at *
  generalize ((N s l m : ℝ) : ℂ) = n at *
  generalize ((g s l m θ : ℝ) : ℂ) = x at *
  generalize ((g (s + 1) l m θ : ℝ) : ℂ) = xp at *
  generalize ((g (s - 1) l m θ : ℝ) : ℂ) = xm at *
  generalize cos (θ / 2 : ℂ) = cc at *
  generalize sin (θ / 2 : ℂ) = ss at *
  generalize cos (θ : ℂ) = C at *
  generalize sin (θ : ℂ) = S at *
  have hP : C ^ 2 + S ^ 2 = 1 := by rw [hc, hs2]; linear_combination (ss ^ 2 + cc ^ 2 + 1) * h1
  have hC2 : 2 * cc ^ 2 = 1 + C := by rw [hc]; linear_combination h1
  have hS2 : 2 * ss ^ 2 = 1 - C := by rw [hc]; linear_combination h1
  have key : -(1 / 2 * ((l + s) * xm - (l - s) * xp)) - C * z * m * x - s * z * x + xu = 0 := by
    rw [hu]
    linear_combination (-C * z) * hr + (-C / 2 * ((l - s) * xp + (l + s) * xm)) * hi + s * z * x * hP - s * S * x * hi + 1 / 2 * ((l + s) * xm) * hC2 - 1 / 2 * ((l - s) * xp) * hS2 - s * x * hs2
  linear_combination e1 * e2 * e3 * n * key + e1 * e2 * e3 * n * C * z * m * x * I_sq

/-! ### The axis, conjugation -/

/-- The limit on the axis. -/
theorem C89_pole (s l m : ℤ) (hs : |s| ≤ l) (hm : |m| ≤ l) (φ : ℝ) :
    Filter.Tendsto (fun θ => Y s l m θ φ) (nhdsWithin 0 (Set.Ioo 0 Real.pi))
      (nhds (if m = -s then (-1) ^ m * Real.sqrt ((2 * l + 1) / (4 * Real.pi)) * exp (I * m * φ) else 0)) := by
  have hc : ContinuousAt (y s l m) 0 := (y_deriv s l m hs 0).continuousAt
  have h1 : Filter.Tendsto (fun θ => mode m (y s l m) θ φ) (nhdsWithin 0 (Set.Ioo 0 Real.pi)) (nhds (mode m (y s l m) 0 φ)) := by
    refine Filter.Tendsto.mono_left ?_ nhdsWithin_le_nhds
    exact (Complex.continuous_ofReal.continuousAt.tendsto.comp hc.tendsto).const_mul _
  have h2 : Filter.Tendsto (fun θ => Y s l m θ φ) (nhdsWithin 0 (Set.Ioo 0 Real.pi)) (nhds (mode m (y s l m) 0 φ)) :=
    h1.congr' (Filter.eventually_of_mem self_mem_nhdsWithin fun θ hθ => (Y_mode s l m hs hm θ hθ φ).symm)
  convert h2 using 2
  rw [mode, y, g, f_at_zero]
  rw [abs_le] at hs hm
  by_cases e : m = -s
  · have hl : (0 : ℤ) ≤ l := by omega
    have hN : N s l m = Real.sqrt ((2 * l + 1) / (4 * Real.pi)) := by
      rw [N, invFactorial, invFactorial, if_neg (by omega), if_neg (by omega), e, ← sub_eq_add_neg, sub_neg_eq_add]
      congr 1
      have a1 : (factorial (l - s) : ℝ) ≠ 0 := Nat.cast_ne_zero.2 (Nat.factorial_ne_zero _)
      have a2 : (factorial (l + s) : ℝ) ≠ 0 := Nat.cast_ne_zero.2 (Nat.factorial_ne_zero _)
      field_simp
    rw [if_pos e, if_pos (by omega), hN]
    push_cast
    ring
  · rw [if_neg e, if_neg (by omega)]
    simp

/-- The conjugate. -/
theorem C89_conj (s l m : ℤ) (hs : |s| ≤ l) (hm : |m| ≤ l) (θ : ℝ) (hθ : θ ∈ Set.Ioo 0 Real.pi) (φ : ℝ) :
    (starRingEnd ℂ) (Y s l m θ φ) = (-1) ^ (s + m) * Y (-s) l (-m) θ φ := by
  rw [Y_mode s l m hs hm θ hθ, Y_mode (-s) l (-m) (by rwa [abs_neg]) (by rwa [abs_neg]) θ hθ, mode, mode]
  have hN : N (-s) l (-m) = N s l m := by
    rw [N, N]; congr 1
    rw [← sub_eq_add_neg, ← sub_eq_add_neg, sub_neg_eq_add, sub_neg_eq_add]; ring
  have hg : g (-s) l (-m) θ = (-1) ^ (s + m) * g s l m θ := by
    rw [abs_le] at hs hm
    have h := f_reverse (l - s).toNat (l + s).toNat (l - m).toNat (by omega) θ
    rw [g, g, ← sub_eq_add_neg, ← sub_eq_add_neg, sub_neg_eq_add]
    rw [show (l - s).toNat + (l + s).toNat - (l - m).toNat = (l + m).toNat by omega] at h
    have e : ((-1 : ℝ)) ^ (s + m) = (-1) ^ (l + s).toNat * (-1) ^ (l - m).toNat := by
      rw [← pow_add, ← zpow_natCast, show (((l + s).toNat + (l - m).toNat : ℕ) : ℤ) = (s + m) + 2 * (l - m) by omega, zpow_add₀ (by norm_num) (s + m), zpow_mul]
      norm_num
    rw [e]
    have h2 : ((-1 : ℝ)) ^ (l - m).toNat * (-1) ^ (l - m).toNat = 1 := by rw [← mul_pow]; norm_num
    linear_combination ((-1 : ℝ)) ^ (l - m).toNat * h - f (l + s).toNat (l - s).toNat (l - m).toNat θ * h2
  rw [map_mul, ← Complex.exp_conj, Complex.conj_ofReal, y, y, hN, hg]
  have e1 : (starRingEnd ℂ) (I * m * φ) = I * ((-m : ℤ) : ℂ) * φ := by
    rw [map_mul, map_mul, conj_I, conj_ofReal, map_intCast]; push_cast; ring
  have e2 : ((-1 : ℂ)) ^ (-m) = (-1) ^ m := by
    rw [zpow_neg, ← inv_zpow]; norm_num
  have e3 : ((-1 : ℂ)) ^ (s + m) * (-1) ^ (s + m) = 1 := by rw [← mul_zpow]; norm_num
  rw [e1]
  push_cast
  rw [e2]
  linear_combination -(exp (I * -(m : ℂ) * φ) * (-1) ^ m * N s l m * g s l m θ) * e3

end Verif.SWSH
