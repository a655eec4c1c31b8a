import Verif.Initial.Trumpet
import Verif.Initial.KerrSchild
import Verif.Initial.UIUC
import Verif.BSSN.RoundTrip
import Verif.BSSN.Algebraic

/-!
# C84: initial data in spherical coordinates
-/
namespace Verif.Initial
open Verif.RefMetric Verif.BSSN Real Filter Topology

/-! ## Specification -/

/-- The vacuum constraints of general relativity hold at a point. -/
def VacuumConstraints (γ K : T2) (x : Vec) : Prop := hamiltonian γ K .vacuum x = 0 ∧ ∀ i, momentum γ K .vacuum i x = 0

/-- In vacuum, neither the metric nor the extrinsic curvature changes in time. -/
def Stationary (γ K : T2) (α : Scal) (β : T1) (x : Vec) : Prop :=
  (∀ i j, admGammaRhs γ K α β i j x = 0) ∧ ∀ i j, admKRhs γ K α β .vacuum i j x = 0

/-- The lapse of the Kerr metric in Boyer-Lindquist slices, with `Q` the Boyer-Lindquist radius: `√(ΔΣ/A)`. -/
noncomputable def kerrLapse (M a Q th : ℝ) : ℝ :=
  √((Q ^ 2 - 2 * M * Q + a ^ 2) * (Q ^ 2 + a ^ 2 * cos th ^ 2) /
    ((Q ^ 2 + a ^ 2) ^ 2 - (Q ^ 2 - 2 * M * Q + a ^ 2) * a ^ 2 * sin th ^ 2))

/-- Its shift, `β^φ = -2 M a Q/A`. -/
noncomputable def kerrShift (M a Q th : ℝ) : Vec :=
  ![0, 0, -2 * M * a * Q / ((Q ^ 2 + a ^ 2) ^ 2 - (Q ^ 2 - 2 * M * Q + a ^ 2) * a ^ 2 * sin th ^ 2)]

/-! ## The choice of data -/

theorem ok_iff {p : SphParams} {cf IDtype : String} {ov g : Bool} {d : IDSpherical} (h : sphericalData p IDtype = .ok (d, g)) :
    (∃ e, initialDataSpherical p cf IDtype ov = .ok e) ↔ (g = false ∨ ov = true → cf = "phi" ∨ cf = "chi" ∨ cf = "W") := by
  have hcf : (∃ c, FromADM.checkCf cf = .ok c) ↔ cf = "phi" ∨ cf = "chi" ∨ cf = "W" := by
    unfold FromADM.checkCf
    split_ifs with h1 h2 h3 <;> simp [*]
  rw [← hcf]
  unfold initialDataSpherical
  rw [h]
  by_cases hg : (!g || ov) = true
  · have hg' : g = false ∨ ov = true := by simpa using hg
    simp only [Bind.bind, Except.bind, hg, if_true, hg', forall_const]
    cases FromADM.checkCf cf with
    | error e => simp
    | ok c => exact ⟨fun _ => ⟨c, rfl⟩, fun _ => ⟨_, rfl⟩⟩
  · have hg' : ¬ (g = false ∨ ov = true) := by simpa using hg
    simp only [Bind.bind, Except.bind, hg, hg', false_imp_iff, iff_true]
    exact ⟨d, rfl⟩

/-- **C84**: the call succeeds exactly for the three names, and, when it has to set a gauge, the three conformal factors. -/
theorem C84_choices (p : SphParams) (cf IDtype : String) (ov : Bool) :
    (∃ d, initialDataSpherical p cf IDtype ov = .ok d) ↔
      (IDtype = "UIUCBlackHole" ∨ IDtype = "StaticTrumpet" ∨ IDtype = "OffsetKerrSchild") ∧
      (IDtype = "UIUCBlackHole" ∨ ov = true → cf = "phi" ∨ cf = "chi" ∨ cf = "W") := by
  by_cases h1 : IDtype = "UIUCBlackHole"
  · subst h1
    rw [ok_iff (p := p) (by rw [sphericalData, if_pos rfl])]
    simp
  by_cases h2 : IDtype = "StaticTrumpet"
  · subst h2
    rw [ok_iff (p := p) (by rw [sphericalData, if_neg (by decide), if_pos rfl])]
    simp
  by_cases h3 : IDtype = "OffsetKerrSchild"
  · subst h3
    rw [ok_iff (p := p) (by rw [sphericalData, if_neg (by decide), if_neg (by decide), if_pos rfl])]
    simp
  · have : sphericalData p IDtype = .error "ValueError" := by rw [sphericalData, if_neg h1, if_neg h2, if_neg h3]
    unfold initialDataSpherical
    rw [this]
    simp [Bind.bind, Except.bind, h1, h2, h3]

/-- What a successful call returns. -/
theorem data_of_ok {p : SphParams} {cf IDtype : String} {ov : Bool} {d : IDSpherical} (h : initialDataSpherical p cf IDtype ov = .ok d) :
    ∃ d₀ gauge, sphericalData p IDtype = .ok (d₀, gauge) ∧ d.gammaDD = d₀.gammaDD ∧ d.KDD = d₀.KDD ∧
      ((gauge = true ∧ ov = false → d = d₀) ∧
        (gauge = false ∨ ov = true → ∃ c, d.alpha = standardLapse c d.gammaDD d.KDD ∧ d.betaU = (fun _ _ => 0) ∧ d.BU = fun _ _ => 0)) := by
  unfold initialDataSpherical at h
  cases h0 : sphericalData p IDtype with
  | error e => rw [h0] at h; cases h
  | ok q =>
    obtain ⟨d₀, gauge⟩ := q
    rw [h0] at h
    refine ⟨d₀, gauge, rfl, ?_⟩
    by_cases hg : (!gauge || ov) = true
    · simp only [Bind.bind, Except.bind, hg, if_true] at h
      cases hc : FromADM.checkCf cf with
      | error e => rw [hc] at h; cases h
      | ok c =>
        rw [hc] at h
        cases h
        refine ⟨rfl, rfl, fun hh => ?_, fun _ => ⟨c, rfl, rfl, rfl⟩⟩
        simp [hh.1, hh.2] at hg
    · simp only [Bind.bind, Except.bind, hg] at h
      cases h
      refine ⟨rfl, rfl, fun _ => rfl, fun hh => ?_⟩
      exfalso
      apply hg
      rcases hh with hh | hh <;> simp [hh]

section
variable {p : SphParams} {cf : String} {ov : Bool} {d : IDSpherical} {x : Vec}

theorem trumpet_data (h : initialDataSpherical p cf "StaticTrumpet" ov = .ok d) :
    d.gammaDD = TrumpetModel.gammaDD p.M ∧ d.KDD = TrumpetModel.KDD p.M := by
  obtain ⟨d₀, g, h0, h1, h2, _⟩ := data_of_ok h
  simp [sphericalData] at h0
  rw [h1, h2, ← h0.1]
  exact ⟨rfl, rfl⟩

theorem ks_data (h : initialDataSpherical p cf "OffsetKerrSchild" ov = .ok d) :
    d.gammaDD = KSModel.gammaDD p.M p.a p.r0 ∧ d.KDD = KSModel.KDD p.M p.a p.r0 := by
  obtain ⟨d₀, g, h0, h1, h2, _⟩ := data_of_ok h
  simp [sphericalData] at h0
  rw [h1, h2, ← h0.1]
  exact ⟨rfl, rfl⟩

theorem uiuc_data (h : initialDataSpherical p cf "UIUCBlackHole" ov = .ok d) :
    d.gammaDD = UIUCModel.gammaDD p.M p.chi ∧ d.KDD = UIUCModel.KDD p.M p.chi := by
  obtain ⟨d₀, g, h0, h1, h2, _⟩ := data_of_ok h
  simp [sphericalData] at h0
  rw [h1, h2, ← h0.1]
  exact ⟨rfl, rfl⟩

/-! ## The static trumpet -/

/-- **C84**: the trumpet satisfies the vacuum constraints. -/
theorem C84_trumpet (h : initialDataSpherical p cf "StaticTrumpet" ov = .ok d) (hM : 0 ≤ p.M) (hr : 0 < x 0) (hs : sin (x 1) ≠ 0) :
    VacuumConstraints d.gammaDD d.KDD x := by
  obtain ⟨h1, h2⟩ := trumpet_data h
  rw [h1, h2]
  have hx : x ∈ Trumpet.dom := ⟨hr, hs⟩
  exact ⟨(Trumpet.slice hM).hamiltonian hx, (Trumpet.slice hM).momentum hx⟩

/-- **C84**: with its own lapse and shift it is stationary. -/
theorem C84_trumpet_static (h : initialDataSpherical p cf "StaticTrumpet" false = .ok d) (hM : 0 ≤ p.M) (hr : 0 < x 0) (hs : sin (x 1) ≠ 0) :
    Stationary d.gammaDD d.KDD d.alpha d.betaU x := by
  have hd : d = ⟨TrumpetModel.gammaDD p.M, TrumpetModel.KDD p.M, TrumpetModel.alpha p.M, TrumpetModel.betaU p.M, fun _ _ => 0⟩ := by
    obtain ⟨d₀, g, h0, _, _, h3, _⟩ := data_of_ok h
    simp [sphericalData] at h0
    rw [h3 ⟨h0.2, rfl⟩, ← h0.1]
  rw [hd]
  have hx : x ∈ Trumpet.dom := ⟨hr, hs⟩
  exact ⟨(Trumpet.slice hM).gamma hx, (Trumpet.slice hM).k hx⟩

/-! ## Kerr-Schild -/

/-- **C84**: Kerr-Schild data satisfy the vacuum constraints, for every mass, spin and offset. -/
theorem C84_kerr_schild (h : initialDataSpherical p cf "OffsetKerrSchild" ov = .ok d) (hM : 0 ≤ p.M) (hr : 0 < x 0 + p.r0)
    (hs : sin (x 1) ≠ 0) : VacuumConstraints d.gammaDD d.KDD x := by
  obtain ⟨h1, h2⟩ := ks_data h
  rw [h1, h2]
  have hx : x ∈ KS.dom p.r0 := ⟨hr, hs⟩
  exact ⟨(KS.slice p.a p.r0 hM).hamiltonian hx, (KS.slice p.a p.r0 hM).momentum hx⟩

/-- **C84**: with their own lapse and shift they are stationary. -/
theorem C84_kerr_schild_stationary (h : initialDataSpherical p cf "OffsetKerrSchild" false = .ok d) (hM : 0 ≤ p.M) (hr : 0 < x 0 + p.r0)
    (hs : sin (x 1) ≠ 0) : Stationary d.gammaDD d.KDD d.alpha d.betaU x := by
  have hd : d = ⟨KSModel.gammaDD p.M p.a p.r0, KSModel.KDD p.M p.a p.r0, KSModel.alpha p.M p.a p.r0, KSModel.betaU p.M p.a p.r0,
      fun _ _ => 0⟩ := by
    obtain ⟨d₀, g, h0, _, _, h3, _⟩ := data_of_ok h
    simp [sphericalData] at h0
    rw [h3 ⟨h0.2, rfl⟩, ← h0.1]
  rw [hd]
  have hx : x ∈ KS.dom p.r0 := ⟨hr, hs⟩
  exact ⟨(KS.slice p.a p.r0 hM).gamma hx, (KS.slice p.a p.r0 hM).k hx⟩

/-! ## The black hole of Liu, Etienne and Shapiro -/

/-- **C84**: the black hole satisfies the vacuum constraints at every radius, for every spin below the extremal one. -/
theorem C84_uiuc (h : initialDataSpherical p cf "UIUCBlackHole" ov = .ok d) (hM : 0 < p.M) (hchi : |p.chi| < 1) (hr : 0 < x 0)
    (hs : sin (x 1) ≠ 0) : VacuumConstraints d.gammaDD d.KDD x := by
  obtain ⟨h1, h2⟩ := uiuc_data h
  rw [h1, h2]
  let R : UIUC.Region := ⟨Set.Ioi 0, isOpen_Ioi, fun _ h => h⟩
  have hx : x ∈ R.dom := ⟨hr, hs⟩
  have S := UIUC.slice ⟨hM, hchi⟩ R (α := UIUC.lapse p.M p.chi) fun _ _ => rfl
  exact ⟨S.hamiltonian hx, S.momentum hx⟩

/-- **C84**: outside the horizon it is a slice of the Kerr spacetime of mass `M` and spin `a = M χ`: with the Kerr lapse and shift at
the radius `Q = r (1 + r_+/4r)²` it is stationary. -/
theorem C84_uiuc_kerr (h : initialDataSpherical p cf "UIUCBlackHole" ov = .ok d) (hM : 0 < p.M) (hchi : |p.chi| < 1)
    (hr : p.M + √(p.M ^ 2 - (p.M * p.chi) ^ 2) < 4 * x 0) (hs : sin (x 1) ≠ 0) :
    Stationary d.gammaDD d.KDD
      (fun y => kerrLapse p.M (p.M * p.chi) (y 0 * (1 + (p.M + √(p.M ^ 2 - (p.M * p.chi) ^ 2)) / (4 * y 0)) ^ 2) (y 1))
      (fun i y => kerrShift p.M (p.M * p.chi) (y 0 * (1 + (p.M + √(p.M ^ 2 - (p.M * p.chi) ^ 2)) / (4 * y 0)) ^ 2) (y 1) i) x := by
  obtain ⟨h1, h2⟩ := uiuc_data h
  rw [h1, h2]
  have P : UIUC.Par p.M p.chi := ⟨hM, hchi⟩
  have hb := UIUC.bb_pos P
  let R : UIUC.Region := ⟨Set.Ioi (UIUC.bb p.M p.chi), isOpen_Ioi, fun _ h => hb.trans h⟩
  have hx : x ∈ R.dom := ⟨by
    show UIUC.bb p.M p.chi < x 0
    have : UIUC.bb p.M p.chi = (p.M + √(p.M ^ 2 - (p.M * p.chi) ^ 2)) / 4 := rfl
    rw [this]
    linarith, hs⟩
  have hα : ∀ y ∈ R.dom, kerrLapse p.M (p.M * p.chi) (y 0 * (1 + (p.M + √(p.M ^ 2 - (p.M * p.chi) ^ 2)) / (4 * y 0)) ^ 2) (y 1) =
      UIUC.lapse p.M p.chi y := fun y hy => by
    have hy0 := R.pos _ hy.1
    have he : 0 ≤ UIUC.ee p.M p.chi (y 0) := mul_nonneg (sub_nonneg.2 (le_of_lt hy.1)) (sqrt_nonneg _)
    have hS := UIUC.SIG_pos P hy0 (y 1)
    have hA := UIUC.AA_pos P hy0 (y 1)
    show √(UIUCModel.DEL p.M p.chi (y 0) * UIUCModel.SIG p.M p.chi (y 0) (y 1) / UIUCModel.AA p.M p.chi (y 0) (y 1)) = _
    have e : UIUCModel.DEL p.M p.chi (y 0) * UIUCModel.SIG p.M p.chi (y 0) (y 1) / UIUCModel.AA p.M p.chi (y 0) (y 1) =
        (UIUC.ee p.M p.chi (y 0) * UIUCModel.SIG p.M p.chi (y 0) (y 1)) ^ 2 /
          (UIUCModel.AA p.M p.chi (y 0) (y 1) * UIUCModel.SIG p.M p.chi (y 0) (y 1)) := by
      rw [mul_pow, UIUC.e_sq P hy0]
      field_simp
    rw [e, sqrt_div (sq_nonneg _), sqrt_sq (mul_nonneg he hS.le), UIUC.lapse, div_eq_mul_inv]
  have hβ : (fun i y => kerrShift p.M (p.M * p.chi) (y 0 * (1 + (p.M + √(p.M ^ 2 - (p.M * p.chi) ^ 2)) / (4 * y 0)) ^ 2) (y 1) i) =
      UIUC.shift p.M p.chi := by
    funext i y
    fin_cases i <;> rfl
  rw [hβ]
  have S := UIUC.slice P R hα
  exact ⟨S.gamma hx, S.k hx⟩

/-! ## The standard gauge -/

theorem standardLapse_eq (c : CF) {γ K : T2} (hsym : ∀ i j, γ i j x = γ j i x) (hdet : 0 < detOf γ x) (hr : 0 < x 0) (hs : sin (x 1) ≠ 0) :
    0 < standardLapse c γ K x ∧ standardLapse c γ K x ^ 6 * detOf γ x = (x 0 ^ 2 * sin (x 1)) ^ 2 := by
  set R := rfmAt (RefMetric.spherical 1).scale x with hRdef
  have hsc : (RefMetric.spherical 1).scale x = ![1, x 0, x 0 * sin (x 1)] := by
    show ![deriv (fun t => t) (x 0), x 0, x 0 * sin (x 1)] = _
    simp
  have hR : R.Regular := rfmAt_regular fun i => by
    rw [hsc]
    fin_cases i
    · simp
    · exact hr.ne'
    · exact mul_ne_zero hr.ne' hs
  have hdh : R.detgammahat = (x 0 ^ 2 * sin (x 1)) ^ 2 := by
    show RefMetric.detgammahat (RefMetric.spherical 1).scale x = _
    simp [RefMetric.detgammahat, IndexedExp.symmInv3Det, RefMetric.ghatDD, hsc]
    ring
  let A' : Adm := ⟨fun i j => γ i j x, fun _ _ => 0, fun _ => 0, fun _ => 0⟩
  have hA : A'.Valid := ⟨hsym, fun _ _ => rfl, hdet⟩
  obtain ⟨l, hl, el, hd, hb, eli, h3⟩ := conformal hR hA
  have hD : FromADM.gammaDET A' = detOf γ x := det_eq hA.gamma_symm
  have hq : 0 < FromADM.gammaDET A' / R.detgammahat := div_pos hd hR.det
  have hval : standardLapse c γ K x = (FromADM.gammaDET A' / R.detgammahat) ^ (-(1 / 6) : ℝ) := by
    have e : ∀ c', FromADM.cf R ⟨fun i j => γ i j x, fun i j => K i j x, fun _ => 0, fun _ => 0⟩ c' = FromADM.cf R A' c' := fun _ => rfl
    cases c
    · show exp (-2 * FromADM.cf R _ .phi) = _
      rw [e, FromADM.cf, hb, rpow_def_of_pos hq]
      ring_nf
    · show FromADM.cf R _ .W = _
      rw [e, FromADM.cf, hb]
    · show √(FromADM.cf R _ .chi) = _
      rw [e, FromADM.cf, hb, sqrt_eq_rpow, ← rpow_mul hq.le]
      norm_num
  rw [hval, ← hdh, ← hD]
  refine ⟨rpow_pos_of_pos hq _, ?_⟩
  rw [← rpow_natCast, ← rpow_mul hq.le]
  norm_num
  rw [rpow_neg_one]
  have := hd.ne'
  field_simp

theorem detOf_sparse {γ : T2} (h01 : γ 0 1 x = 0) (h10 : γ 1 0 x = 0) (h12 : γ 1 2 x = 0) (h21 : γ 2 1 x = 0) :
    detOf γ x = γ 1 1 x * (γ 0 0 x * γ 2 2 x - γ 0 2 x * γ 2 0 x) := by
  rw [detOf, Matrix.det_fin_three]
  simp only [Matrix.of_apply, h01, h10, h12, h21]
  ring

theorem trumpet_det {M : ℝ} (hM : 0 ≤ M) (hr : 0 < x 0) (hs : sin (x 1) ≠ 0) : 0 < detOf (TrumpetModel.gammaDD M) x := by
  rw [detOf_sparse rfl rfl rfl rfl]
  have hp : 0 < TrumpetModel.psi0 M (x 0) := sqrt_pos.2 (by positivity)
  have := sq_pos_of_ne_zero hs
  show 0 < TrumpetModel.psi0 M (x 0) ^ 4 * x 0 ^ 2 * (TrumpetModel.psi0 M (x 0) ^ 4 * (TrumpetModel.psi0 M (x 0) ^ 4 * x 0 ^ 2 * sin (x 1) ^ 2) - 0 * 0)
  rw [zero_mul, sub_zero]
  positivity

theorem ks_det {M a r0 : ℝ} (hM : 0 ≤ M) (hr : 0 < x 0 + r0) (hs : sin (x 1) ≠ 0) : 0 < detOf (KSModel.gammaDD M a r0) x := by
  rw [detOf_sparse rfl rfl rfl rfl]
  have hρ : 0 < KSModel.rho2 a r0 x := KS.rho_pos (x := x) ⟨hr, hs⟩
  have hg : 0 < KSModel.grr M a r0 x := by unfold KSModel.grr; positivity
  have h2 := sq_pos_of_ne_zero hs
  have e : KSModel.gammaDD M a r0 0 0 x * KSModel.gammaDD M a r0 2 2 x - KSModel.gammaDD M a r0 0 2 x * KSModel.gammaDD M a r0 2 0 x =
      KSModel.grr M a r0 x * sin (x 1) ^ 2 * KSModel.rho2 a r0 x := by
    show KSModel.grr M a r0 x * (((x 0 + r0) * (x 0 + r0) + a * a + 2 * M * (x 0 + r0) * a * a * sin (x 1) ^ 2 / KSModel.rho2 a r0 x) *
      sin (x 1) ^ 2) - (-a * KSModel.grr M a r0 x * sin (x 1) ^ 2) * (-a * KSModel.grr M a r0 x * sin (x 1) ^ 2) = _
    have h3 : KSModel.rho2 a r0 x = (x 0 + r0) * (x 0 + r0) + a * a - a * a * sin (x 1) ^ 2 := by
      rw [KSModel.rho2, cos_sq']
      ring
    have h4 : 2 * M * (x 0 + r0) / KSModel.rho2 a r0 x = KSModel.grr M a r0 x - 1 := by unfold KSModel.grr; ring
    have h5 : 2 * M * (x 0 + r0) * a * a * sin (x 1) ^ 2 / KSModel.rho2 a r0 x =
        2 * M * (x 0 + r0) / KSModel.rho2 a r0 x * (a * a * sin (x 1) ^ 2) := by ring
    rw [h5, h4, h3]
    ring
  rw [e]
  show 0 < KSModel.rho2 a r0 x * _
  positivity

theorem uiuc_det {M chi : ℝ} (h : UIUC.Par M chi) (hr : 0 < x 0) (hs : sin (x 1) ≠ 0) : 0 < detOf (UIUCModel.gammaDD M chi) x := by
  rw [detOf_sparse rfl rfl rfl rfl]
  have hS := UIUC.SIG_pos h hr (x 1)
  have hA := UIUC.AA_pos h hr (x 1)
  have hX := UIUC.X_pos h hr
  have hb := UIUC.bb_pos h
  have h2 := sq_pos_of_ne_zero hs
  have hb' : 0 < x 0 + UIUCModel.rp M chi / 4 := add_pos hr hb
  show 0 < UIUCModel.SIG M chi (x 0) (x 1) * (UIUCModel.SIG M chi (x 0) (x 1) * (x 0 + UIUCModel.rp M chi / 4) ^ 2 /
    (x 0 ^ 3 * (UIUCModel.rBL M chi (x 0) - UIUCModel.rm M chi)) *
      (UIUCModel.AA M chi (x 0) (x 1) / UIUCModel.SIG M chi (x 0) (x 1) * sin (x 1) ^ 2) - 0 * 0)
  rw [zero_mul, sub_zero]
  positivity

theorem gauge_of {IDtype : String} (h : initialDataSpherical p cf IDtype ov = .ok d) (hg : IDtype = "UIUCBlackHole" ∨ ov = true) :
    ∃ c, d.alpha = standardLapse c d.gammaDD d.KDD ∧ d.betaU = (fun _ _ => 0) ∧ d.BU = fun _ _ => 0 := by
  obtain ⟨d₀, g, h0, _, _, _, h4⟩ := data_of_ok h
  refine h4 (hg.imp (fun e => ?_) id)
  subst e
  simp [sphericalData] at h0
  exact h0.2

/-- What the standard gauge is: zero shift, and the lapse `ψ⁻²`, where `γ_ij = ψ⁴ γ̄_ij` and `γ̄` has the determinant `r⁴ sin² θ` of the flat
metric, so that `det γ = ψ¹² r⁴ sin² θ`. -/
def StandardGauge (d : IDSpherical) (x : Vec) : Prop :=
  (∀ i, d.betaU i x = 0) ∧ (∀ i, d.BU i x = 0) ∧
    ∃ ψ, 0 < ψ ∧ (Matrix.of fun i j => d.gammaDD i j x).det = ψ ^ 12 * (x 0 ^ 4 * sin (x 1) ^ 2) ∧ d.alpha x = 1 / ψ ^ 2

theorem standardGauge_of {IDtype : String} (h : initialDataSpherical p cf IDtype ov = .ok d) (hg : IDtype = "UIUCBlackHole" ∨ ov = true)
    (hsym : ∀ i j, d.gammaDD i j x = d.gammaDD j i x) (hdet : 0 < detOf d.gammaDD x) (hr : 0 < x 0) (hs : sin (x 1) ≠ 0) :
    StandardGauge d x := by
  obtain ⟨c, h1, h2, h3⟩ := gauge_of h hg
  obtain ⟨hp, he⟩ := standardLapse_eq (K := d.KDD) c hsym hdet hr hs
  rw [← h1] at hp he
  have hq := sqrt_pos.2 hp
  refine ⟨fun i => by rw [h2], fun i => by rw [h3], (√(d.alpha x))⁻¹, inv_pos.2 hq, ?_, ?_⟩
  · show detOf d.gammaDD x = _
    have e : (√(d.alpha x))⁻¹ ^ 12 = (d.alpha x ^ 6)⁻¹ := by
      rw [inv_pow, show (12 : ℕ) = 2 * 6 from rfl, pow_mul, sq_sqrt hp.le]
    rw [e, eq_inv_mul_iff_mul_eq₀ (pow_pos hp 6).ne', he]
    ring
  · rw [inv_pow, sq_sqrt hp.le, one_div, inv_inv]

/-- **C84**: the standard gauge, whichever conformal factor is evolved. -/
theorem C84_gauge_uiuc (h : initialDataSpherical p cf "UIUCBlackHole" ov = .ok d) (hM : 0 < p.M) (hchi : |p.chi| < 1) (hr : 0 < x 0)
    (hs : sin (x 1) ≠ 0) : StandardGauge d x := by
  have e := (uiuc_data h).1
  refine standardGauge_of h (.inl rfl) (fun i j => ?_) ?_ hr hs
  · rw [e]
    fin_cases i <;> fin_cases j <;> rfl
  · rw [e]
    exact uiuc_det ⟨hM, hchi⟩ hr hs

/-- **C84**: the override does the same for the trumpet. -/
theorem C84_gauge_trumpet (h : initialDataSpherical p cf "StaticTrumpet" true = .ok d) (hM : 0 ≤ p.M) (hr : 0 < x 0)
    (hs : sin (x 1) ≠ 0) : StandardGauge d x := by
  have e := (trumpet_data h).1
  refine standardGauge_of h (.inr rfl) (fun i j => ?_) ?_ hr hs
  · rw [e]
    fin_cases i <;> fin_cases j <;> rfl
  · rw [e]
    exact trumpet_det hM hr hs

/-- **C84**: and for Kerr-Schild data. -/
theorem C84_gauge_kerr_schild (h : initialDataSpherical p cf "OffsetKerrSchild" true = .ok d) (hM : 0 ≤ p.M) (hr : 0 < x 0)
    (hr0 : 0 < x 0 + p.r0) (hs : sin (x 1) ≠ 0) : StandardGauge d x := by
  have e := (ks_data h).1
  refine standardGauge_of h (.inr rfl) (fun i j => ?_) ?_ hr hs
  · rw [e]
    fin_cases i <;> fin_cases j <;> rfl
  · rw [e]
    exact ks_det hM hr0 hs

/-! ## Mass and spin -/

/-- A function of `1/r` that is continuous at `0`. -/
theorem tendsto_of_inv {f g : ℝ → ℝ} {L : ℝ} (hg : ContinuousAt g 0) (h0 : g 0 = L) (h : ∀ r, 0 < r → f r = g r⁻¹) :
    Tendsto f atTop (𝓝 L) := by
  have h1 : Tendsto (fun r : ℝ => g r⁻¹) atTop (𝓝 L) := h0 ▸ hg.tendsto.comp tendsto_inv_atTop_zero
  exact h1.congr' (eventuallyEq_of_mem (Ioi_mem_atTop 0) fun r hr => (h r hr).symm)

/-- **C84**: `γ_rr = 1 + 2M/r + o(1/r)` for the trumpet. -/
theorem C84_mass_trumpet (h : initialDataSpherical p cf "StaticTrumpet" ov = .ok d) (hM : 0 ≤ p.M) (th ph : ℝ) :
    Tendsto (fun r => r * (d.gammaDD 0 0 ![r, th, ph] - 1)) atTop (𝓝 (2 * p.M)) := by
  rw [(trumpet_data h).1]
  refine tendsto_of_inv (g := fun u => 2 * p.M + p.M ^ 2 * u) (by fun_prop) (by simp) fun r hr => ?_
  show r * (TrumpetModel.psi0 p.M r ^ 4 - 1) = _
  have e : TrumpetModel.psi0 p.M r ^ 4 = (1 + p.M / r) ^ 2 := by
    rw [TrumpetModel.psi0, show (4 : ℕ) = 2 * 2 from rfl, pow_mul, sq_sqrt (by positivity)]
  rw [e]
  field_simp
  ring

/-- **C84**: and for Kerr-Schild data. -/
theorem C84_mass_kerr_schild (h : initialDataSpherical p cf "OffsetKerrSchild" ov = .ok d) (th ph : ℝ) :
    Tendsto (fun r => r * (d.gammaDD 0 0 ![r, th, ph] - 1)) atTop (𝓝 (2 * p.M)) := by
  rw [(ks_data h).1]
  refine tendsto_of_inv
    (g := fun u => 2 * p.M * (1 + p.r0 * u) / ((1 + p.r0 * u) * (1 + p.r0 * u) + p.a * p.a * cos th ^ 2 * u ^ 2)) ?_ (by simp) fun r hr => ?_
  · refine ContinuousAt.div (by fun_prop) (by fun_prop) (by simp)
  · show r * (1 + 2 * p.M * (r + p.r0) / ((r + p.r0) * (r + p.r0) + p.a * p.a * cos th ^ 2) - 1) = _
    have e1 : 1 + p.r0 * r⁻¹ = (r + p.r0) * r⁻¹ := by field_simp
    have e2 : (r + p.r0) * r⁻¹ * ((r + p.r0) * r⁻¹) + p.a * p.a * cos th ^ 2 * r⁻¹ ^ 2 =
        ((r + p.r0) * (r + p.r0) + p.a * p.a * cos th ^ 2) * r⁻¹ ^ 2 := by ring
    simp only [e1, e2]
    rw [add_sub_cancel_left]
    field_simp

section
variable {M chi : ℝ}
/-- `(1 + b u)²`, with `u = 1/r`. -/
noncomputable def us (M chi u : ℝ) : ℝ := (1 + UIUC.bb M chi * u) ^ 2
theorem us_zero : us M chi 0 = 1 := by simp [us]
theorem us_cont : Continuous (us M chi) := by unfold us; fun_prop
theorem rBL_us (h : UIUC.Par M chi) {r : ℝ} (hr : 0 < r) : UIUCModel.rBL M chi r = us M chi r⁻¹ * r := by
  rw [UIUC.Q_eq h hr, us]
  field_simp
end

/-- **C84**: and for the black hole. -/
theorem C84_mass_uiuc (h : initialDataSpherical p cf "UIUCBlackHole" ov = .ok d) (hM : 0 < p.M) (hchi : |p.chi| < 1) (th ph : ℝ) :
    Tendsto (fun r => r * (d.gammaDD 0 0 ![r, th, ph] - 1)) atTop (𝓝 (2 * p.M)) := by
  rw [(uiuc_data h).1]
  have P : UIUC.Par p.M p.chi := ⟨hM, hchi⟩
  set b := UIUC.bb p.M p.chi with hb
  set a := UIUCModel.a p.M p.chi with ha
  refine tendsto_of_inv (g := fun u => ((2 * b + b ^ 2 * u) * us p.M p.chi u * (us p.M p.chi u + 1) + a ^ 2 * cos th ^ 2 * u * us p.M p.chi u +
    UIUCModel.rm p.M p.chi) / (us p.M p.chi u - UIUCModel.rm p.M p.chi * u)) ?_ ?_ fun r hr => ?_
  · have := us_cont (M := p.M) (chi := p.chi)
    refine ContinuousAt.div (by fun_prop) (by fun_prop) (by simp [us_zero])
  · simp only [us_zero, UIUC.rm_eq P, ← hb]
    ring
  · show r * (UIUCModel.SIG p.M p.chi r th * (r + UIUCModel.rp p.M p.chi / 4) ^ 2 /
      (r ^ 3 * (UIUCModel.rBL p.M p.chi r - UIUCModel.rm p.M p.chi)) - 1) = _
    have hX := UIUC.X_pos P hr
    have e1 : (r + UIUCModel.rp p.M p.chi / 4) ^ 2 = us p.M p.chi r⁻¹ * r ^ 2 := by
      show (r + b) ^ 2 = (1 + b * r⁻¹) ^ 2 * r ^ 2
      field_simp
    have e2 : us p.M p.chi r⁻¹ - UIUCModel.rm p.M p.chi * r⁻¹ = (UIUCModel.rBL p.M p.chi r - UIUCModel.rm p.M p.chi) * r⁻¹ := by
      rw [rBL_us P hr]
      field_simp
    have e3 : (2 * b + b ^ 2 * r⁻¹) = (us p.M p.chi r⁻¹ - 1) * r := by
      simp only [us, ← hb]
      field_simp
      ring
    simp only [e2, e3]
    rw [e1, UIUCModel.SIG, ← ha]
    have hX' : us p.M p.chi r⁻¹ * r - UIUCModel.rm p.M p.chi ≠ 0 := by rw [← rBL_us P hr]; exact hX.ne'
    rw [rBL_us P hr]
    generalize us p.M p.chi r⁻¹ = W at hX' ⊢
    have hX'' : W * r - UIUCModel.rm p.M p.chi ≠ 0 := hX'
    generalize UIUCModel.rm p.M p.chi = m at hX'' ⊢
    obtain ⟨v, hv⟩ : ∃ v, W * r - m = v := ⟨_, rfl⟩
    rw [hv] at hX'' ⊢
    obtain rfl : m = W * r - v := by linarith
    field_simp
    ring

/-- **C84**: the angular momentum of the black hole is `M² χ`: `K_rφ = 3 J sin² θ/r² + o(1/r²)`. -/
theorem C84_spin_uiuc (h : initialDataSpherical p cf "UIUCBlackHole" ov = .ok d) (hM : 0 < p.M) (hchi : |p.chi| < 1) (th ph : ℝ) :
    Tendsto (fun r => r ^ 2 * d.KDD 0 2 ![r, th, ph]) atTop (𝓝 (3 * (p.M ^ 2 * p.chi) * sin th ^ 2)) := by
  rw [(uiuc_data h).2]
  have P : UIUC.Par p.M p.chi := ⟨hM, hchi⟩
  set a := UIUCModel.a p.M p.chi with ha
  let S : ℝ → ℝ := fun u => us p.M p.chi u ^ 2 + a ^ 2 * cos th ^ 2 * u ^ 2
  let A : ℝ → ℝ := fun u => (us p.M p.chi u ^ 2 + a ^ 2 * u ^ 2) ^ 2 -
    (us p.M p.chi u ^ 2 - 2 * p.M * us p.M p.chi u * u + a ^ 2 * u ^ 2) * a ^ 2 * sin th ^ 2 * u ^ 2
  have hus := us_cont (M := p.M) (chi := p.chi)
  refine tendsto_of_inv (g := fun u => p.M * a * sin th ^ 2 / (S u * √(A u * S u)) *
    (3 * us p.M p.chi u ^ 4 + 2 * a ^ 2 * us p.M p.chi u ^ 2 * u ^ 2 - a ^ 4 * u ^ 4 -
      a ^ 2 * (us p.M p.chi u ^ 2 - a ^ 2 * u ^ 2) * sin th ^ 2 * u ^ 2) * (1 + UIUC.bb p.M p.chi * u) /
      √(us p.M p.chi u - UIUCModel.rm p.M p.chi * u)) ?_ ?_ fun r hr => ?_
  · refine ContinuousAt.div (((ContinuousAt.div (by fun_prop) (by fun_prop) ?_).mul (by fun_prop)).mul (by fun_prop)) (by fun_prop) ?_
    · simp [S, A, us_zero]
    · simp [us_zero]
  · simp [S, A, us_zero, ha, UIUCModel.a]
    ring
  · have hQ := rBL_us P hr
    have hX := UIUC.X_pos P hr
    have eS : UIUCModel.SIG p.M p.chi r th = S r⁻¹ * r ^ 2 := by
      simp only [UIUCModel.SIG, hQ, ← ha, S]
      field_simp
    have eA : UIUCModel.AA p.M p.chi r th = A r⁻¹ * r ^ 4 := by
      simp only [UIUCModel.AA, UIUCModel.DEL, hQ, ← ha, A]
      field_simp
      try ring
    have hS := UIUC.SIG_pos P hr th
    have hA := UIUC.AA_pos P hr th
    have hS' : 0 < S r⁻¹ := by rw [eS] at hS; exact pos_of_mul_pos_left hS (by positivity)
    have hA' : 0 < A r⁻¹ := by rw [eA] at hA; exact pos_of_mul_pos_left hA (by positivity)
    have e1 : √(UIUCModel.AA p.M p.chi r th * UIUCModel.SIG p.M p.chi r th) = √(A r⁻¹ * S r⁻¹) * r ^ 3 := by
      rw [eS, eA, show A r⁻¹ * r ^ 4 * (S r⁻¹ * r ^ 2) = A r⁻¹ * S r⁻¹ * (r ^ 3) ^ 2 by ring, sqrt_mul (by positivity),
        sqrt_sq (by positivity)]
    have e2 : √(r * (UIUCModel.rBL p.M p.chi r - UIUCModel.rm p.M p.chi)) = √(us p.M p.chi r⁻¹ - UIUCModel.rm p.M p.chi * r⁻¹) * r := by
      have h0 : 0 ≤ us p.M p.chi r⁻¹ - UIUCModel.rm p.M p.chi * r⁻¹ := by
        have : us p.M p.chi r⁻¹ - UIUCModel.rm p.M p.chi * r⁻¹ = (UIUCModel.rBL p.M p.chi r - UIUCModel.rm p.M p.chi) * r⁻¹ := by
          rw [hQ]
          field_simp
        rw [this]
        positivity
      rw [hQ, show r * (us p.M p.chi r⁻¹ * r - UIUCModel.rm p.M p.chi) = (us p.M p.chi r⁻¹ - UIUCModel.rm p.M p.chi * r⁻¹) * r ^ 2 by
        field_simp, sqrt_mul h0, sqrt_sq hr.le]
    have h1 : 0 < √(A r⁻¹ * S r⁻¹) := sqrt_pos.2 (by positivity)
    have h2 : 0 < √(us p.M p.chi r⁻¹ - UIUCModel.rm p.M p.chi * r⁻¹) := by
      have : 0 < √(r * (UIUCModel.rBL p.M p.chi r - UIUCModel.rm p.M p.chi)) := sqrt_pos.2 (by positivity)
      rw [e2] at this
      exact pos_of_mul_pos_left this hr.le
    have e3 : 1 + UIUCModel.rp p.M p.chi / (4 * r) = 1 + UIUC.bb p.M p.chi * r⁻¹ := by
      rw [UIUC.rp_eq P]
      field_simp
    show r ^ 2 * (p.M * a * sin th ^ 2 / (UIUCModel.SIG p.M p.chi r th * √(UIUCModel.AA p.M p.chi r th * UIUCModel.SIG p.M p.chi r th)) *
      (3 * UIUCModel.rBL p.M p.chi r ^ 4 + 2 * a ^ 2 * UIUCModel.rBL p.M p.chi r ^ 2 - a ^ 4 -
        a ^ 2 * (UIUCModel.rBL p.M p.chi r ^ 2 - a ^ 2) * sin th ^ 2) * (1 + UIUCModel.rp p.M p.chi / (4 * r)) * 1 /
        √(r * (UIUCModel.rBL p.M p.chi r - UIUCModel.rm p.M p.chi))) = _
    rw [e1, e2, e3, eS, hQ]
    generalize √(A r⁻¹ * S r⁻¹) = X at h1 ⊢
    generalize √(us p.M p.chi r⁻¹ - UIUCModel.rm p.M p.chi * r⁻¹) = Y at h2 ⊢
    generalize S r⁻¹ = Z at hS' ⊢
    generalize us p.M p.chi r⁻¹ = W
    field_simp

end

/-! ## Cases that meet the hypotheses -/

/-- All three calls succeed, with a mass, spin and offset that the theorems allow. -/
example : (∃ d, initialDataSpherical ⟨1, 1 / 2, 1 / 2, 1⟩ "W" "UIUCBlackHole" false = .ok d) ∧
    (∃ d, initialDataSpherical ⟨1, 1 / 2, 1 / 2, 1⟩ "chi" "StaticTrumpet" true = .ok d) ∧
    (∃ d, initialDataSpherical ⟨1, 1 / 2, 1 / 2, 1⟩ "" "OffsetKerrSchild" false = .ok d) :=
  ⟨(C84_choices _ _ _ _).2 (by simp), (C84_choices _ _ _ _).2 (by simp), (C84_choices _ _ _ _).2 (by simp)⟩

/-- Every point with `r > 0` off the axis, here `r = 1` on the equator. -/
example : (0 : ℝ) < (![1, π / 2, 0] : Vec) 0 ∧ sin ((![1, π / 2, 0] : Vec) 1) ≠ 0 := by simp

/-- A point outside the horizon, for a spinning hole. -/
example : (1 : ℝ) + √(1 ^ 2 - (1 * (1 / 2)) ^ 2) < 4 * (![1, π / 2, 0] : Vec) 0 ∧ |(1 / 2 : ℝ)| < 1 := by
  have : √(1 ^ 2 - (1 * (1 / 2)) ^ 2 : ℝ) ≤ 1 := sqrt_le_one.2 (by norm_num)
  constructor
  · simp only [Matrix.cons_val_zero]
    linarith
  · rw [abs_of_pos] <;> norm_num

end Verif.Initial
