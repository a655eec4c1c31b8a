import Verif.BSSN.Fields
import Mathlib.Algebra.BigOperators.Field

/-!
# C70: conversion between ADM and BSSN variables
-/
namespace Verif.BSSN
open Verif.RefMetric Verif.IndexedExp Real

/-- What is used of the reference metric at the point: positive determinant, nonzero rescaling factors. -/
structure Rfm.Regular (R : Rfm) : Prop where
  det : 0 < R.detgammahat
  ReDD : ∀ i j, R.ReDD i j ≠ 0
  ReU : ∀ i, R.ReU i ≠ 0
  ReDD_symm : ∀ i j, R.ReDD i j = R.ReDD j i
  ghat_symm : ∀ i j, R.ghatDD i j = R.ghatDD j i

/-- The reference metric is regular where no scale factor vanishes. -/
theorem rfmAt_regular {s : Vec → Vec} {x : Vec} (h : ∀ i, s x i ≠ 0) : (rfmAt s x).Regular where
  det := (C63_inverse s x h).2.2.1
  ReDD i j := mul_ne_zero (h i) (h j)
  ReU i := one_div_ne_zero (h i)
  ReDD_symm i j := mul_comm _ _
  ghat_symm i j := congrFun (ghatDD_symm s i j) x

/-- ADM data: symmetric tensors, positive determinant. -/
structure Adm.Valid (A : Adm) : Prop where
  gamma_symm : ∀ i j, A.gammaDD i j = A.gammaDD j i
  K_symm : ∀ i j, A.KDD i j = A.KDD j i
  det : 0 < (Matrix.of A.gammaDD).det

/-- The gridfunctions hold the result of `ADM_to_BSSN`. -/
structure Converted (R : Rfm) (A : Adm) (c : CF) (G : Gfs) : Prop where
  hDD : G.hDD = FromADM.hDD R A
  aDD : G.aDD = FromADM.aDD R A
  trK : G.trK = FromADM.trK A
  cf : G.cf = FromADM.cf R A c
  vetU : G.vetU = FromADM.vetU R A
  betU : G.betU = FromADM.betU R A

theorem det_eq {a : V2} (ha : ∀ i j, a i j = a j i) : symmInv3Det a = (Matrix.of a).det := by
  simp only [symmInv3Det, Matrix.det_fin_three, Matrix.of_apply, ha 1 0, ha 2 0, ha 2 1]; ring

theorem det_scale (l : ℝ) (a : V2) : symmInv3Det (fun i j => l * a i j) = l ^ 3 * symmInv3Det a := by
  simp only [symmInv3Det]; ring

theorem num_scale (l : ℝ) (a : V2) (i j : Fin 3) : symmInv3Num (fun i j => l * a i j) i j = l ^ 2 * symmInv3Num a i j := by
  fin_cases i <;> fin_cases j <;> simp [symmInv3Num] <;> ring

theorem inv3_scale {l : ℝ} (hl : l ≠ 0) (a : V2) (i j : Fin 3) : inv3 (fun i j => l * a i j) i j = l⁻¹ * inv3 a i j := by
  simp only [inv3, det_scale, num_scale]
  rcases eq_or_ne (symmInv3Det a) 0 with h | h
  · simp [h]
  · field_simp

theorem inv3_trace {a : V2} (ha : symmInv3Det a ≠ 0) (hs : ∀ i j, a i j = a j i) : ∑ i, ∑ j, inv3 a i j * a i j = 3 := by
  have h : ∑ i, ∑ j, symmInv3Num a i j * a i j = 3 * symmInv3Det a := by
    simp [symmInv3Num, symmInv3Det, Fin.sum_univ_three, hs 1 0, hs 2 0, hs 2 1]; ring
  simp only [inv3, div_mul_eq_mul_div, ← Finset.sum_div, h]
  field_simp

theorem third_pow {q : ℝ} (hq : 0 ≤ q) : (q ^ (1 / 3 : ℝ)) ^ 3 = q := by
  rw [← Real.rpow_natCast, ← Real.rpow_mul hq]; norm_num

theorem exp4phi_of_cf {q : ℝ} (hq : 0 < q) (c : CF) {G : Gfs} (h : G.cf = match c with
    | .phi => 1 / 12 * Real.log q
    | .chi => q ^ (-(1 / 3) : ℝ)
    | .W => q ^ (-(1 / 6) : ℝ)) : exp4phi G c = q ^ (1 / 3 : ℝ) := by
  cases c
  · simp only at h
    simp only [exp4phi, h, Real.rpow_def_of_pos hq]
    ring_nf
  · simp only at h
    simp only [exp4phi, h]
    rw [← Real.rpow_natCast, ← Real.rpow_mul hq.le, one_div, ← Real.rpow_neg hq.le]
    norm_num
  · simp only at h
    simp only [exp4phi, h]
    rw [one_div, ← Real.rpow_neg hq.le]
    norm_num

/-- The conformal factor and its inverse, from ADM data. -/
theorem conformal {R : Rfm} (hR : R.Regular) {A : Adm} (hA : A.Valid) :
    ∃ l : ℝ, 0 < l ∧ (R.detgammahat / FromADM.gammaDET A) ^ (1 / 3 : ℝ) = l ∧ 0 < FromADM.gammaDET A ∧
      FromADM.gammabarDET R A = R.detgammahat ∧ (FromADM.gammaDET A / R.detgammahat) ^ (1 / 3 : ℝ) = l⁻¹ ∧
      l ^ 3 * FromADM.gammaDET A = R.detgammahat := by
  have hd : 0 < FromADM.gammaDET A := by
    have := hA.det
    rwa [← det_eq hA.gamma_symm] at this
  have hq : 0 < R.detgammahat / FromADM.gammaDET A := div_pos hR.det hd
  have h3 : ((R.detgammahat / FromADM.gammaDET A) ^ (1 / 3 : ℝ)) ^ 3 * FromADM.gammaDET A = R.detgammahat := by
    rw [third_pow hq.le]; field_simp
  refine ⟨_, Real.rpow_pos_of_pos hq _, rfl, hd, ?_, ?_, h3⟩
  · show symmInv3Det (fun i j => _ * A.gammaDD i j) = _
    rw [det_scale]; exact h3
  · rw [← Real.inv_rpow hq.le, inv_div]

/-- **C70**: `ADM_to_BSSN` followed by the inverse conversions returns the ADM variables, for every choice of the
conformal variable; the conformal metric has the determinant of the reference metric and `Ā` is trace-free. -/
theorem C70_round_trip {R : Rfm} (hR : R.Regular) {A : Adm} (hA : A.Valid) (c : CF) {G : Gfs} (hG : Converted R A c G) :
    gammaDD R G c = A.gammaDD ∧ KDD R G c = A.KDD ∧ betaU R G = A.betaU ∧ BU R G = A.BU ∧
    (Matrix.of (gammabarDD R G)).det = R.detgammahat ∧ trAbar R G = 0 ∧
    G.trK = ∑ i, ∑ j, (Matrix.of A.gammaDD)⁻¹ i j * A.KDD i j := by
  obtain ⟨l, hl, el, hd, hb, eli, h3⟩ := conformal hR hA
  have hgb : gammabarDD R G = fun i j => l * A.gammaDD i j := by
    funext i j
    simp only [gammabarDD, hG.hDD, FromADM.hDD, FromADM.gammabarDD, el]
    have := hR.ReDD i j
    field_simp
    ring
  have hAb : AbarDD R G = fun i j => l * (A.KDD i j - 1 / 3 * A.gammaDD i j * FromADM.trK A) := by
    funext i j
    simp only [AbarDD, hG.aDD, FromADM.aDD, FromADM.AbarDD, el]
    exact div_mul_cancel₀ _ (hR.ReDD i j)
  have he : exp4phi G c = l⁻¹ := by
    rw [exp4phi_of_cf (div_pos hd hR.det) c, eli]
    rw [hG.cf]
    cases c <;> simp only [FromADM.cf, hb]
  have hgam : gammaDD R G c = A.gammaDD := by
    funext i j
    rw [gammaDD, he, hgb, inv_mul_cancel_left₀ hl.ne']
  have hsymb : ∀ i j, gammabarDD R G i j = gammabarDD R G j i := fun i j => by rw [hgb]; simp only [hA.gamma_symm i j]
  refine ⟨hgam, ?_, ?_, ?_, ?_, ?_, ?_⟩
  · funext i j
    rw [KDD, he, hAb, hgam, hG.trK]
    field_simp
    ring
  · funext i
    simp only [betaU, hG.vetU, FromADM.vetU]
    exact div_mul_cancel₀ _ (hR.ReU i)
  · funext i
    simp only [BU, hG.betU, FromADM.betU]
    exact div_mul_cancel₀ _ (hR.ReU i)
  · rw [← det_eq hsymb, hgb, det_scale]; exact h3
  · have e1 : ∀ i j, gammabarUU R G i j = l⁻¹ * FromADM.gammaUU A i j := fun i j => by
      rw [gammabarUU, hgb, inv3_scale hl.ne']; rfl
    have e2 : trAbar R G = ∑ k, ∑ j, (FromADM.gammaUU A k j * A.KDD k j - 1 / 3 * FromADM.trK A * (inv3 A.gammaDD k j * A.gammaDD k j)) := by
      unfold trAbar
      refine Finset.sum_congr rfl fun k _ => Finset.sum_congr rfl fun j _ => ?_
      rw [e1, hAb]
      simp only [hA.K_symm j k, hA.gamma_symm j k]
      simp only [FromADM.gammaUU]
      field_simp
    rw [e2]
    simp only [Finset.sum_sub_distrib, ← Finset.mul_sum]
    rw [inv3_trace hd.ne' hA.gamma_symm]
    simp only [FromADM.trK]
    ring
  · rw [hG.trK]
    unfold FromADM.trK FromADM.gammaUU
    simp only [inv3_eq hA.gamma_symm]

/-- The conformal variable is in the range of its type. -/
def cfValid (c : CF) (cf : ℝ) : Prop := match c with
  | .phi => True
  | .W => 0 < cf
  | .chi => 0 < cf

/-- **C70**, the other direction: BSSN variables with `det γ̄ = det γ̂`, `tr Ā = 0` (and `W`, `χ` positive) are
recovered from the ADM variables computed from them. -/
theorem C70_round_trip_bssn {R : Rfm} (hR : R.Regular) {G : Gfs} (hG : G.Symm) (c : CF) (hcf : cfValid c G.cf)
    (hdet : (Matrix.of (gammabarDD R G)).det = R.detgammahat) (htr : trAbar R G = 0) :
    (⟨gammaDD R G c, KDD R G c, betaU R G, BU R G⟩ : Adm).Valid ∧
    Converted R ⟨gammaDD R G c, KDD R G c, betaU R G, BU R G⟩ c G := by
  have he : 0 < exp4phi G c := by
    cases c
    · exact Real.exp_pos _
    · exact one_div_pos.2 (pow_pos hcf 2)
    · exact one_div_pos.2 hcf
  have hsb : ∀ i j, gammabarDD R G i j = gammabarDD R G j i := fun i j => by
    simp only [gammabarDD, hG.hDD i j, hR.ReDD_symm i j, hR.ghat_symm i j]
  have hsA : ∀ i j, AbarDD R G i j = AbarDD R G j i := fun i j => by simp only [AbarDD, hG.aDD i j, hR.ReDD_symm i j]
  have hsg : ∀ i j, gammaDD R G c i j = gammaDD R G c j i := fun i j => by simp only [gammaDD, hsb i j]
  have hdb : symmInv3Det (gammabarDD R G) = R.detgammahat := by rw [det_eq hsb, hdet]
  have hdg : symmInv3Det (gammaDD R G c) = exp4phi G c ^ 3 * R.detgammahat := by
    rw [show gammaDD R G c = fun i j => exp4phi G c * gammabarDD R G i j from rfl, det_scale, hdb]
  have hA : (⟨gammaDD R G c, KDD R G c, betaU R G, BU R G⟩ : Adm).Valid := by
    refine ⟨hsg, fun i j => ?_, ?_⟩
    · simp only [KDD, hsA i j, hsg i j]
    · rw [← det_eq hsg, hdg]
      exact mul_pos (pow_pos he 3) hR.det
  refine ⟨hA, ?_⟩
  set A : Adm := ⟨gammaDD R G c, KDD R G c, betaU R G, BU R G⟩ with hAd
  obtain ⟨l, hl, el, hd, hb, eli, h3⟩ := conformal hR hA
  have hl3 : l * exp4phi G c = 1 := by
    have e : FromADM.gammaDET A = exp4phi G c ^ 3 * R.detgammahat := hdg
    rw [e] at h3
    have h4 : (l * exp4phi G c) ^ 3 = 1 := by
      have := hR.det.ne'
      have h5 : (l * exp4phi G c) ^ 3 * R.detgammahat = 1 * R.detgammahat := by linear_combination h3
      exact mul_right_cancel₀ this h5
    exact (pow_eq_one_iff_of_nonneg (mul_pos hl he).le (by norm_num)).1 h4
  have hgb : ∀ i j, FromADM.gammabarDD R A i j = gammabarDD R G i j := fun i j => by
    show _ * (exp4phi G c * gammabarDD R G i j) = _
    rw [el, ← mul_assoc, hl3, one_mul]
  have hK : FromADM.trK A = G.trK := by
    have e1 : ∀ i j, FromADM.gammaUU A i j = (exp4phi G c)⁻¹ * gammabarUU R G i j := fun i j => inv3_scale he.ne' _ i j
    have e2 : FromADM.trK A = trAbar R G + 1 / 3 * G.trK * ∑ i, ∑ j, inv3 (gammabarDD R G) i j * gammabarDD R G i j := by
      simp only [trAbar, Finset.mul_sum, ← Finset.sum_add_distrib]
      refine Finset.sum_congr rfl fun i _ => Finset.sum_congr rfl fun j _ => ?_
      rw [e1]
      show _ * (exp4phi G c * AbarDD R G i j + 1 / 3 * (exp4phi G c * gammabarDD R G i j) * G.trK) = _
      rw [hsA i j]
      simp only [gammabarUU]
      have := he.ne'
      field_simp
    rw [e2, htr, inv3_trace (by rw [hdb]; exact hR.det.ne') hsb]
    ring
  refine ⟨?_, ?_, hK.symm, ?_, ?_, ?_⟩
  · funext i j
    rw [FromADM.hDD, hgb, gammabarDD]
    have := hR.ReDD i j
    field_simp
    ring
  · funext i j
    have : FromADM.AbarDD R A i j = AbarDD R G i j := by
      rw [FromADM.AbarDD, el, hK]
      show l * (exp4phi G c * AbarDD R G i j + 1 / 3 * gammaDD R G c i j * G.trK - 1 / 3 * gammaDD R G c i j * G.trK) = _
      linear_combination AbarDD R G i j * hl3
    rw [FromADM.aDD, this, AbarDD]
    exact (mul_div_cancel_right₀ _ (hR.ReDD i j)).symm
  · have hq : FromADM.gammaDET A / FromADM.gammabarDET R A = exp4phi G c ^ 3 := by
      rw [hb]
      show symmInv3Det (gammaDD R G c) / _ = _
      rw [hdg]
      exact mul_div_cancel_right₀ _ hR.det.ne'
    unfold FromADM.cf
    rw [hq]
    cases c
    · simp only [exp4phi, ← Real.exp_nat_mul, Real.log_exp]
      push_cast
      ring
    · simp only [exp4phi]
      have h0 : 0 < G.cf := hcf
      rw [← Real.rpow_natCast, ← Real.rpow_mul (by positivity), one_div, Real.inv_rpow (by positivity), ← Real.rpow_neg (by positivity),
        ← Real.rpow_natCast, ← Real.rpow_mul h0.le]
      norm_num
    · simp only [exp4phi]
      have h0 : 0 < G.cf := hcf
      rw [← Real.rpow_natCast, ← Real.rpow_mul (by positivity), one_div, Real.inv_rpow (by positivity), ← Real.rpow_neg (by positivity)]
      norm_num
  · funext i
    exact (mul_div_cancel_right₀ _ (hR.ReU i)).symm
  · funext i
    exact (mul_div_cancel_right₀ _ (hR.ReU i)).symm

/-- **C70**: the parameter has exactly three supported values; any other raises in all three modules. -/
theorem C70_choices (detOne : Bool) (cf : String) :
    ((∃ c, FromADM.checkCf cf = .ok c) ↔ cf = "phi" ∨ cf = "W" ∨ cf = "chi") ∧
    (∀ c, checkParams detOne cf = .ok c ↔ detOne = true ∧ FromADM.checkCf cf = .ok c) := by
  unfold checkParams FromADM.checkCf
  constructor
  · split_ifs with h1 h2 h3
    · exact ⟨fun _ => .inl h1, fun _ => ⟨_, rfl⟩⟩
    · exact ⟨fun _ => .inr (.inr h2), fun _ => ⟨_, rfl⟩⟩
    · exact ⟨fun _ => .inr (.inl h3), fun _ => ⟨_, rfl⟩⟩
    · exact ⟨fun ⟨c, h⟩ => by simp at h, fun h => by rcases h with h | h | h <;> contradiction⟩
  · intro c
    cases detOne
    · simp
    · by_cases h1 : cf = "phi"
      · simp [h1]
      · by_cases h2 : cf = "W"
        · subst h2; simp
        · by_cases h3 : cf = "chi"
          · subst h3; simp
          · simp [h1, h2, h3]

/-- The hypotheses are met: spherical coordinates at `r = 2`, `θ = π/2`, and a metric that is not conformally flat. -/
example : ∃ s : Vec → Vec, ∃ x : Vec, (∀ i, s x i ≠ 0) ∧
    (⟨![![2, 1, 0], ![1, 3, 0], ![0, 0, 4]], ![![1, 0, 5], ![0, 2, 0], ![5, 0, 3]], ![1, 2, 3], ![0, 1, 0]⟩ : Adm).Valid := by
  refine ⟨fun x => ![1, x 0, x 0 * sin (x 1)], ![2, π / 2, 0], ?_, ?_, ?_, ?_⟩
  · intro i; fin_cases i <;> simp
  · intro i j; fin_cases i <;> fin_cases j <;> rfl
  · intro i j; fin_cases i <;> fin_cases j <;> rfl
  · simp [Matrix.det_fin_three]; norm_num

end Verif.BSSN
