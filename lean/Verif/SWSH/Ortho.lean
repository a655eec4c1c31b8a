import Mathlib.Data.List.TakeWhile
import Verif.SWSH.Props

/-!
# Spin-weighted spherical harmonics: orthonormality, the Laplacian, and the C function

C89, continued.
-/
namespace Verif.SWSH
open Complex Spec

/-! ### Orthonormality -/

theorem N_sq (s l m : ℤ) (hs : |s| ≤ l) : N s l m ^ 2 =
    (factorial (l + m) * factorial (l - m) * (2 * l + 1) : ℝ) / (4 * Real.pi * factorial (l + s) * factorial (l - s)) := by
  have hl : 0 ≤ l := (abs_nonneg s).trans hs
  rw [N, Real.sq_sqrt (N_radicand_nonneg _ _ _ hl)]
  rw [abs_le] at hs
  rw [invFactorial, invFactorial, if_neg (by omega), if_neg (by omega)]
  have := Real.pi_ne_zero
  have a1 : (factorial (l - s) : ℝ) ≠ 0 := Nat.cast_ne_zero.2 (Nat.factorial_ne_zero _)
  have a2 : (factorial (l + s) : ℝ) ≠ 0 := Nat.cast_ne_zero.2 (Nat.factorial_ne_zero _)
  field_simp

/-- The integral over the polar angle. -/
theorem theta_integral (s l l' m : ℤ) (hs : |s| ≤ l) (hs' : |s| ≤ l') (hm : |m| ≤ l) (hm' : |m| ≤ l') :
    ∫ θ in (0 : ℝ)..Real.pi, Real.sin θ * (y s l m θ * y s l' m θ) = if l = l' then 1 / (2 * Real.pi) else 0 := by
  have hsq : ((-1 : ℝ)) ^ m * (-1) ^ m = 1 := by rw [← mul_zpow]; norm_num
  have e : ∫ θ in (0 : ℝ)..Real.pi, Real.sin θ * (y s l m θ * y s l' m θ) =
      N s l m * N s l' m * J (l - s).toNat (l + s).toNat (l' - s).toNat (l' + s).toNat (l + m).toNat (l' + m).toNat := by
    rw [J, ← intervalIntegral.integral_const_mul]
    congr 1; ext θ
    simp only [y, g]
    linear_combination (Real.sin θ * N s l m * N s l' m * f (l - s).toNat (l + s).toNat (l + m).toNat θ *
      f (l' - s).toNat (l' + s).toNat (l' + m).toNat θ) * hsq
  rw [e]
  have cast : ∀ n : ℤ, 0 ≤ n → ((n.toNat : ℕ) : ℝ) = n := fun n hn => by
    have : ((n.toNat : ℕ) : ℤ) = n := Int.toNat_of_nonneg hn
    exact_mod_cast this
  split
  · rename_i h
    subst h
    rw [← pow_two, N_sq s l m hs]
    rw [abs_le] at hs hm
    have hv := J_value (l - s).toNat (l + s).toNat (l + m).toNat (by omega)
    have hch := Nat.add_choose_mul_factorial_mul_factorial (l + m).toNat (l - m).toNat
    rw [← Nat.choose_symm_add] at hch
    rw [show (l - s).toNat + (l + s).toNat = (l + m).toNat + (l - m).toNat by omega] at hv
    rw [Nat.factorial_succ] at hv
    have hch' : (((l + m).toNat + (l - m).toNat).choose (l + m).toNat : ℝ) * (l + m).toNat.factorial * (l - m).toNat.factorial =
        ((l + m).toNat + (l - m).toNat).factorial := by exact_mod_cast hch
    have hn : (((l + m).toNat + (l - m).toNat + 1 : ℕ) : ℝ) = 2 * l + 1 := by
      push_cast; rw [cast _ (by omega), cast _ (by omega)]; push_cast; ring
    rw [Nat.cast_mul, hn] at hv
    unfold factorial
    have a1 : (((l - s).toNat.factorial : ℕ) : ℝ) ≠ 0 := Nat.cast_ne_zero.2 (Nat.factorial_ne_zero _)
    have a2 : (((l + s).toNat.factorial : ℕ) : ℝ) ≠ 0 := Nat.cast_ne_zero.2 (Nat.factorial_ne_zero _)
    have a3 : ((((l + m).toNat + (l - m).toNat).factorial : ℕ) : ℝ) ≠ 0 := Nat.cast_ne_zero.2 (Nat.factorial_ne_zero _)
    have hpi := Real.pi_ne_zero
    generalize (((l - s).toNat.factorial : ℕ) : ℝ) = A at *
    generalize (((l + s).toNat.factorial : ℕ) : ℝ) = B at *
    generalize ((((l + m).toNat + (l - m).toNat).factorial : ℕ) : ℝ) = F at *
    generalize (((l + m).toNat.factorial : ℕ) : ℝ) = K at *
    generalize (((l - m).toNat.factorial : ℕ) : ℝ) = D at *
    generalize ((((l + m).toNat + (l - m).toNat).choose (l + m).toNat : ℕ) : ℝ) = W at *
    generalize J _ _ _ _ _ _ = j at *
    rw [div_mul_eq_mul_div, div_eq_div_iff (by positivity) (by positivity), one_mul]
    refine mul_left_cancel₀ a3 ?_
    linear_combination 2 * Real.pi * K * D * hv + 4 * Real.pi * A * B * hch'
  · rename_i h
    rw [abs_le] at hs hs' hm hm'
    rw [J_zero, mul_zero]
    · omega
    · rw [cast _ (by omega), cast _ (by omega), cast _ (by omega), cast _ (by omega), cast _ (by omega), cast _ (by omega)]
      push_cast; ring
    · omega

/-- The integral over the azimuth. -/
theorem phi_integral (n : ℤ) : ∫ φ in (0 : ℝ)..(2 * Real.pi), exp (I * n * φ) = if n = 0 then (2 * Real.pi : ℂ) else 0 := by
  split
  · rename_i h; rw [h]; simp
  · rename_i h
    have hc : I * (n : ℂ) ≠ 0 := mul_ne_zero I_ne_zero (Int.cast_ne_zero.2 h)
    rw [integral_exp_mul_complex hc]
    have : I * (n : ℂ) * ((2 * Real.pi : ℝ) : ℂ) = n * (2 * Real.pi * I) := by push_cast; ring
    rw [this, exp_int_mul_two_pi_mul_I]
    simp

/-- The expressions for one spin weight are orthonormal on the sphere. -/
theorem C89_orthonormal (s l l' m m' : ℤ) (hs : |s| ≤ l) (hs' : |s| ≤ l') (hm : |m| ≤ l) (hm' : |m'| ≤ l') :
    Spec.inner (Y s l m) (Y s l' m') = if l = l' ∧ m = m' then 1 else 0 := by
  have hin : ∀ φ : ℝ, ∫ θ in (0 : ℝ)..Real.pi, (Real.sin θ : ℂ) * ((starRingEnd ℂ) (Y s l m θ φ) * Y s l' m' θ φ) =
      exp (I * ((m' - m : ℤ) : ℂ) * φ) * ((∫ θ in (0 : ℝ)..Real.pi, Real.sin θ * (y s l m θ * y s l' m' θ) : ℝ) : ℂ) := fun φ => by
    rw [← intervalIntegral.integral_ofReal, ← intervalIntegral.integral_const_mul]
    refine intervalIntegral.integral_congr fun θ hθ => ?_
    rw [Set.uIcc_of_le Real.pi_pos.le] at hθ
    rcases eq_or_lt_of_le hθ.1 with h | h
    · simp [← h]
    rcases eq_or_lt_of_le hθ.2 with h' | h'
    · simp [h']
    rw [Y_mode s l m hs hm θ ⟨h, h'⟩, Y_mode s l' m' hs' hm' θ ⟨h, h'⟩, mode, mode, map_mul, ← Complex.exp_conj, Complex.conj_ofReal]
    have e1 : (starRingEnd ℂ) (I * m * φ) = -(I * m * φ) := by
      rw [map_mul, map_mul, conj_I, conj_ofReal, map_intCast]; ring
    rw [e1, show I * ((m' - m : ℤ) : ℂ) * φ = -(I * m * φ) + I * m' * φ by push_cast; ring, Complex.exp_add]
    push_cast
    ring
  rw [Spec.inner]
  simp only [hin]
  rw [intervalIntegral.integral_mul_const, phi_integral]
  by_cases h : m = m'
  · subst h
    rw [theta_integral s l l' m hs hs' hm hm', sub_self, if_pos rfl]
    by_cases hl : l = l'
    · rw [if_pos hl, if_pos ⟨hl, rfl⟩]
      have := Real.pi_ne_zero
      have : (Real.pi : ℂ) ≠ 0 := Complex.ofReal_ne_zero.2 this
      push_cast
      field_simp
    · rw [if_neg hl, if_neg fun c => hl c.1]; simp
  · rw [if_neg (by omega), if_neg fun c => h c.2, zero_mul]

example : Spec.inner (Y (-2) 2 1) (Y (-2) 2 1) = 1 ∧ Spec.inner (Y (-2) 2 1) (Y (-2) 3 1) = 0 := by
  rw [C89_orthonormal _ _ _ _ _ (by decide) (by decide) (by decide) (by decide),
    C89_orthonormal _ _ _ _ _ (by decide) (by decide) (by decide) (by decide)]
  norm_num

/-! ### Spin weight zero -/

/-- For spin weight zero the expressions are the eigenfunctions of the Laplacian. -/
theorem C89_laplacian (l m : ℤ) (hm : |m| ≤ l) (θ : ℝ) (hθ : θ ∈ Set.Ioo 0 Real.pi) (φ : ℝ) :
    laplacian (Y 0 l m) θ φ = -(l * (l + 1)) * Y 0 l m θ φ := by
  have hl : 0 ≤ l := (abs_nonneg m).trans hm
  have hs : |(0 : ℤ)| ≤ l := by simpa using hl
  have h0 := C89_eigen 0 l m hs hm θ hθ φ
  have hY := Y_mode 0 l m hs hm
  -- the derivative of the harmonic, and its derivative
  have hd : ∀ u, HasDerivAt (y 0 l m) ((-1) ^ m * N 0 l m * (1 / 2 * (l * g (-1) l m u - l * g 1 l m u))) u := fun u => by
    have := y_deriv 0 l m hs u
    simpa using this
  obtain ⟨w, hw⟩ : ∃ w, HasDerivAt (fun u => (-1 : ℝ) ^ m * N 0 l m * (1 / 2 * (l * g (-1) l m u - l * g 1 l m u))) w θ := by
    have hg : ∀ s, DifferentiableAt ℝ (g s l m) θ := fun s => (f_deriv _ _ _ θ).differentiableAt
    exact ⟨_, ((((hg _).const_mul _).sub ((hg _).const_mul _)).const_mul _ |>.const_mul _).hasDerivAt⟩
  set v : ℝ → ℝ := fun u => (-1 : ℝ) ^ m * N 0 l m * (1 / 2 * (l * g (-1) l m u - l * g 1 l m u)) with hv
  have t1 : ∀ u ∈ Set.Ioo 0 Real.pi, ∀ p, dTheta (Y 0 l m) u p = mode m v u p := fun u hu p => by
    rw [dTheta_congr hY hu, mode_theta m (hd u)]; rfl
  have p1 : ∀ u ∈ Set.Ioo 0 Real.pi, ∀ p, dPhi (Y 0 l m) u p = I * m * mode m (y 0 l m) u p := fun u hu p => by
    rw [dPhi_congr hY hu, mode_phi]
  have p2 : dPhi (dPhi (Y 0 l m)) θ φ = -m ^ 2 * mode m (y 0 l m) θ φ := by
    rw [dPhi_congr p1 hθ]
    have : dPhi (fun u p => I * m * mode m (y 0 l m) u p) θ φ = I * m * dPhi (mode m (y 0 l m)) θ φ := by
      simp only [dPhi, deriv_const_mul_field]
    rw [this, mode_phi]
    linear_combination m ^ 2 * mode m (y 0 l m) θ φ * I_sq
  have t2 : dTheta (fun u p => Real.sin u * dTheta (Y 0 l m) u p) θ φ = exp (I * m * φ) * ((Real.cos θ * v θ + Real.sin θ * w : ℝ) : ℂ) := by
    have e : ∀ u ∈ Set.Ioo 0 Real.pi, ∀ p, (Real.sin u : ℂ) * dTheta (Y 0 l m) u p = mode m (fun u => Real.sin u * v u) u p := fun u hu p => by
      rw [t1 u hu]; simp only [mode]; push_cast; ring
    have hm2 : HasDerivAt (fun u => Real.sin u * v u) (Real.cos θ * v θ + Real.sin θ * w) θ := (Real.hasDerivAt_sin θ).mul hw
    rw [dTheta_congr e hθ, mode_theta m hm2]
  -- the same for the product of the two operators
  have r1 : ∀ u ∈ Set.Ioo 0 Real.pi, ∀ p, eth 0 (Y 0 l m) u p = mode m (fun u => -(v u - m / Real.sin u * y 0 l m u)) u p := fun u hu p => by
    rw [eth, t1 u hu, p1 u hu]
    simp only [mode]
    push_cast
    linear_combination -(m * (exp (I * m * p) * y 0 l m u) / sin u) * I_sq
  have hne := (half_ne θ hθ).2.2
  have hd2 : HasDerivAt (fun u => -(v u - m / Real.sin u * y 0 l m u))
      (-(w - (-(m * Real.cos θ) / Real.sin θ ^ 2 * y 0 l m θ + m / Real.sin θ * v θ))) θ := by
    have hq : HasDerivAt (fun u => (m : ℝ) / Real.sin u) (-(m * Real.cos θ) / Real.sin θ ^ 2) θ := by
      have := (hasDerivAt_const θ (m : ℝ)).div (Real.hasDerivAt_sin θ) hne
      refine this.congr_deriv ?_
      ring
    exact (hw.sub (hq.mul (hd θ))).neg
  rw [ethBar, dTheta_congr r1 hθ, dPhi_congr r1 hθ, r1 θ hθ, mode_theta m hd2, mode_phi] at h0
  rw [laplacian, t2, p2]
  rw [hY θ hθ] at h0 ⊢
  simp only [mode] at h0 ⊢
  have hsin : (Real.sin θ : ℂ) ≠ 0 := Complex.ofReal_ne_zero.2 hne
  push_cast at h0 hsin ⊢
  simp only [sub_zero, add_zero, one_mul] at h0
  rw [← h0]
  field_simp
  ring_nf
  rw [I_sq]
  ring

/-! ### Degrees below the spin weight, and the C function -/

/-- The expression vanishes for degrees below the spin weight. -/
theorem C89_below (s l m : ℤ) (hs : l < |s|) (θ φ : ℝ) : Y s l m θ φ = 0 := Y_zero s l m hs θ φ

example : (1 : ℤ) < |(-2 : ℤ)| := by decide

/-- The form for Mathematica is the same function. -/
theorem C89_mathematica (s l m : ℤ) (θ φ : ℝ) : Yof true s l m θ φ = Yof false s l m θ φ := Yof_cot true s l m θ φ

theorem runCases_first (m : ℤ) (θ φ : ℝ) (L R : List ℕ) (c : ℕ) (hL : ∀ x ∈ L, (x : ℤ) < |m|) (hc : |m| ≤ c) :
    runCases m θ φ (L ++ c :: R) = .ok ((Y (-2) c m θ φ).re, (Y (-2) c m θ φ).im) := by
  induction L with
  | nil =>
    rw [abs_le] at hc
    rw [List.nil_append, runCases, if_pos (by omega)]
  | cons x L ih =>
    have := lt_abs.1 (hL x List.mem_cons_self)
    rw [List.cons_append, runCases, if_neg (by omega), ih fun y hy => hL y (List.mem_cons_of_mem _ hy)]

theorem runCases_none (m : ℤ) (θ φ : ℝ) (L : List ℕ) (hL : ∀ x ∈ L, (x : ℤ) < |m|) : runCases m θ φ L = .error "exit(1)" := by
  induction L with
  | nil => rfl
  | cons x L ih =>
    have := lt_abs.1 (hL x List.mem_cons_self)
    rw [runCases, if_neg (by omega), ih fun y hy => hL y (List.mem_cons_of_mem _ hy)]

theorem drop_to (n l : ℕ) (h : l ≤ n) : (List.range n).dropWhile (fun c : ℕ => decide ((c : ℤ) ≠ l)) = List.range' l (n - l) := by
  obtain ⟨k, rfl⟩ := Nat.exists_eq_add_of_le h
  rw [List.range_eq_range', ← List.range'_append_1, Nat.zero_add, List.dropWhile_append, Nat.add_sub_cancel_left]
  have : (List.range' 0 l).dropWhile (fun c : ℕ => decide ((c : ℤ) ≠ l)) = [] := by
    refine List.dropWhile_eq_nil_iff.2 ?_
    intro x hx
    have := List.mem_range'_1.1 hx
    exact decide_eq_true (by omega)
  rw [this]
  cases k with
  | zero => simp
  | succ k => simp [List.range'_succ]

/-- What the generated C function does: for a degree it was generated for, and an order that is not larger than the largest degree it was
generated for, it returns the harmonic with the given order and the given degree, *or with the absolute value of the order as the degree if
the given degree is smaller*.  Otherwise it ends the program. -/
theorem swm2_eq (maxl l m : ℤ) (θ φ : ℝ) : swm2 maxl l m θ φ =
    if 0 ≤ l ∧ l ≤ maxl ∧ |m| ≤ maxl then .ok ((Y (-2) (max l |m|) m θ φ).re, (Y (-2) (max l |m|) m θ φ).im) else .error "exit(1)" := by
  rw [swm2]
  by_cases hl : 0 ≤ l ∧ l ≤ maxl
  · obtain ⟨l, rfl⟩ := Int.eq_ofNat_of_zero_le hl.1
    obtain ⟨M, hM⟩ : ∃ M : ℕ, |m| = M := ⟨m.natAbs, Int.abs_eq_natAbs m⟩
    rw [drop_to _ _ (by omega)]
    by_cases hm : |m| ≤ maxl
    · rw [if_pos ⟨hl.1, hl.2, hm⟩]
      obtain ⟨t, ht⟩ : ∃ t : ℕ, max (l : ℤ) |m| = t := ⟨max l M, by rw [hM]; omega⟩
      rw [ht]
      have e : List.range' l ((maxl + 1).toNat - l) = List.range' l (t - l) ++ t :: List.range' (t + 1) ((maxl + 1).toNat - (t + 1)) := by
        have e1 : t :: List.range' (t + 1) ((maxl + 1).toNat - (t + 1)) = List.range' (l + (t - l)) ((maxl + 1).toNat - t) := by
          rw [show (maxl + 1).toNat - t = ((maxl + 1).toNat - (t + 1)) + 1 by omega, List.range'_succ, show l + (t - l) = t by omega]
        rw [e1, List.range'_append_1]
        congr 1; omega
      rw [e, runCases_first]
      · intro x hx
        have := List.mem_range'_1.1 hx
        omega
      · omega
    · rw [if_neg (by omega), runCases_none]
      intro x hx
      have := List.mem_range'_1.1 hx
      omega
  · rw [if_neg (by omega)]
    have : (List.range (maxl + 1).toNat).dropWhile (fun c : ℕ => decide ((c : ℤ) ≠ l)) = [] := by
      refine List.dropWhile_eq_nil_iff.2 ?_
      intro x hx
      have := List.mem_range.1 hx
      exact decide_eq_true (by omega)
    rw [this]
    rfl

/-- C90, partial: the generated C function returns the real and the imaginary part of the harmonic of spin weight -2 for the degrees up to the
maximum it was generated for and orders between plus and minus the degree.  It ends the program if the degree is out of range or the order
exceeds that maximum.  Missing: that it ends the program for every order that exceeds the degree. -/
theorem C90_c_function_partial (maxl l m : ℤ) (θ φ : ℝ) :
    (0 ≤ l ∧ l ≤ maxl ∧ |m| ≤ l → ∃ re im, swm2 maxl l m θ φ = .ok (re, im) ∧ (re : ℂ) + im * I = Y (-2) l m θ φ) ∧
    (¬(0 ≤ l ∧ l ≤ maxl ∧ |m| ≤ maxl) → swm2 maxl l m θ φ = .error "exit(1)") := by
  rw [swm2_eq]
  constructor
  · rintro ⟨h1, h2, h3⟩
    rw [if_pos ⟨h1, h2, h3.trans h2⟩, max_eq_left h3]
    exact ⟨_, _, rfl, Complex.re_add_im _⟩
  · intro h
    rw [if_neg h]

example : (0 : ℤ) ≤ 2 ∧ (2 : ℤ) ≤ 8 ∧ |(-2 : ℤ)| ≤ 2 := by decide

/-- C90, violated: for every order that exceeds the degree but not the maximum the function does not end the program; it falls through to
the cases of the degrees above, and returns the harmonic whose degree is the absolute value of the order. -/
theorem C90_c_function_violation (maxl l m : ℤ) (h0 : 0 ≤ l) (h1 : l < |m|) (h2 : |m| ≤ maxl) (θ φ : ℝ) :
    ∃ re im, swm2 maxl l m θ φ = .ok (re, im) ∧ (re : ℂ) + im * I = Y (-2) |m| m θ φ := by
  rw [swm2_eq, if_pos ⟨h0, by omega, h2⟩, max_eq_right h1.le]
  exact ⟨_, _, rfl, Complex.re_add_im _⟩

example : (0 : ℤ) ≤ 2 ∧ (2 : ℤ) < |3| ∧ |(3 : ℤ)| ≤ 8 := by decide

end Verif.SWSH
