import Verif.Horizon.FromADM
import Verif.Initial.SphClaims

/-!
# Horizons of the black-hole data
-/
namespace Verif.Horizon
open Verif.RefMetric Verif.IndexedExp Verif.BSSN Verif.Initial Real
open scoped ContDiff

variable {Ω : Dom} {γ K : T2} {x : Vec}

theorem expansion_congr {γ' K' : T2} {f : Scal} (hγ : ∀ i j, ∀ y ∈ Ω, γ i j y = γ' i j y) (hK : ∀ i j, K i j x = K' i j x) (hx : x ∈ Ω) :
    expansion γ K f x = expansion γ' K' f x := by
  have ei : ∀ i j, ∀ y ∈ Ω, inverse γ i j y = inverse γ' i j y := fun i j y hy => by
    unfold inverse
    simp only [hγ _ _ y hy]
  have ec : ∀ i j k, christoffel γ i j k x = christoffel γ' i j k x := fun i j k => by
    unfold christoffel
    refine Finset.sum_congr rfl fun m _ => ?_
    rw [ei i m x hx, pd_congr_on (hγ m k) hx, pd_congr_on (hγ m j) hx, pd_congr_on (hγ j k) hx]
  have es : ∀ i, ∀ y ∈ Ω, unitNormal γ f i y = unitNormal γ' f i y := fun i y hy => by
    unfold unitNormal gradLength
    simp only [ei _ _ y hy]
  unfold expansion divU trace
  simp only [ec, es _ x hx, hK, ei _ _ x hx, pd_congr_on (es _) hx]

/-- Spheres of constant radius in a diagonal metric. -/
theorem expansion_diagonal (hg : IsMetric Ω γ) (hd : ∀ i j, i ≠ j → ∀ y ∈ Ω, γ i j y = 0) (hpos : ∀ y ∈ Ω, 0 < γ 0 0 y) (R : ℝ) (hx : x ∈ Ω) :
    expansion γ K (level fun _ _ => R) x =
      (1 / √(γ 0 0 x)) * (1 / 2 * (pd 0 (γ 1 1) x / γ 1 1 x + pd 0 (γ 2 2) x / γ 2 2 x)) - (K 1 1 x / γ 1 1 x + K 2 2 x / γ 2 2 x) := by
  have hh : Sm Ω (hField fun _ _ => R) := Sm.const R
  have hm := fun i j (y : Vec) (hy : y ∈ Ω) => hg.mul_inverse hy i j
  have hv : ∀ i, ∀ y ∈ Ω, γ i i y * inverse γ i i y = 1 := fun i y hy => by
    have := hm i i y hy
    rw [if_pos rfl, Finset.sum_eq_single i (fun j _ hj => by rw [hd i j (Ne.symm hj) y hy, zero_mul]) (by simp)] at this
    exact this
  have hn : ∀ i, ∀ y ∈ Ω, γ i i y ≠ 0 := fun i y hy h => by have := hv i y hy; rw [h, zero_mul] at this; exact zero_ne_one this
  have hi : ∀ i, ∀ y ∈ Ω, inverse γ i i y = (γ i i y)⁻¹ := fun i y hy => eq_inv_of_mul_eq_one_right (hv i y hy)
  have ho : ∀ i j, i ≠ j → ∀ y ∈ Ω, inverse γ i j y = 0 := fun i j hij y hy => by
    have := hm i j y hy
    rw [if_neg hij, Finset.sum_eq_single i (fun k _ hk => by rw [hd i k (Ne.symm hk) y hy, zero_mul]) (by simp)] at this
    exact (mul_eq_zero.1 this).resolve_left (hn i y hy)
  have hl : ∀ k, ∀ y ∈ Ω, pd k (level fun _ _ => R) y = if k = 0 then 1 else 0 := fun k y hy => by
    rw [pd_level hh hy]
    simp [hField, pd]
  have h0 : Regular Ω γ (level fun _ _ => R) := fun y hy => by
    unfold grad2
    simp only [hl _ y hy, Fin.sum_univ_three, hi 0 y hy]
    simp [hpos y hy]
  rw [expansion_hessian hg (level_smooth hh) h0 K hx]
  have hL : gradLength γ (level fun _ _ => R) x = 1 / √(γ 0 0 x) := by
    unfold gradLength
    simp only [hl _ x hx, Fin.sum_univ_three, hi 0 x hx]
    simp
  have hs : ∀ i, unitNormal γ (level fun _ _ => R) i x = if i = 0 then 1 / √(γ 0 0 x) else 0 := fun i => by
    have hq := Real.sqrt_pos.2 (hpos x hx)
    have hq2 := Real.sq_sqrt (hpos x hx).le
    unfold unitNormal
    rw [hL]
    simp only [hl _ x hx, Fin.sum_univ_three]
    by_cases e : i = 0
    · subst e
      rw [hi 0 x hx]
      simp only [if_true, Fin.isValue, one_ne_zero, if_false, mul_zero, mul_one, add_zero, Fin.reduceEq]
      generalize √(γ 0 0 x) = s at hq hq2
      rw [← hq2]
      field_simp
    · simp [e, ho i 0 e x hx]
  have hH : ∀ i j, hessian γ (level fun _ _ => R) i j x = -christoffel γ 0 i j x := fun i j => by
    unfold hessian
    rw [pd_congr_on (hl j) hx, dpd_const]
    simp [hl _ x hx]
  have hz : ∀ i j k, i ≠ j → pd k (γ i j) x = 0 := fun i j k hij => by
    rw [pd_congr_on (g := fun _ => 0) (fun y hy => hd i j hij y hy) hx, dpd_const]
  have hC : ∀ i, i ≠ 0 → christoffel γ 0 i i x = -(1 / 2 * (γ 0 0 x)⁻¹ * pd 0 (γ i i) x) := fun i e => by
    unfold christoffel
    rw [Finset.sum_eq_single 0 (fun m _ hm => by rw [ho 0 m (Ne.symm hm) x hx]; ring) (by simp), hi 0 x hx, hz 0 i i (Ne.symm e)]
    ring
  have hq := Real.sqrt_pos.2 (hpos x hx)
  have hq2 := Real.sq_sqrt (hpos x hx).le
  simp only [hs, hH, hL, Fin.sum_univ_three, ho 0 1 (by decide) x hx, ho 0 2 (by decide) x hx, ho 1 0 (by decide) x hx, ho 1 2 (by decide) x hx,
    ho 2 0 (by decide) x hx, ho 2 1 (by decide) x hx, hi _ x hx, hC 1 (by decide), hC 2 (by decide)]
  have n1 := hn 1 x hx
  have n2 := hn 2 x hx
  simp only [if_true, Fin.isValue, one_ne_zero, if_false, mul_zero, zero_mul, sub_zero, add_zero, zero_add, Fin.reduceEq]
  generalize √(γ 0 0 x) = s at hq hq2 ⊢
  rw [← hq2]
  field_simp
  ring

theorem riemannian_diagonal (hd : ∀ i j, i ≠ j → γ i j x = 0) (hp : ∀ i, 0 < γ i i x) : Riemannian γ x := by
  intro v hv
  have e : prod (fun i j => γ i j x) v v = γ 0 0 x * v 0 ^ 2 + γ 1 1 x * v 1 ^ 2 + γ 2 2 x * v 2 ^ 2 := by
    unfold prod
    simp only [Fin.sum_univ_three]
    rw [hd 0 1 (by decide), hd 0 2 (by decide), hd 1 0 (by decide), hd 1 2 (by decide), hd 2 0 (by decide), hd 2 1 (by decide)]
    ring
  rw [e]
  by_contra hn
  have q := fun i => mul_nonneg (hp i).le (sq_nonneg (v i))
  have z : ∀ i, v i = 0 := fun i => by
    have : γ i i x * v i ^ 2 = 0 := by
      have h0 := q 0
      have h1 := q 1
      have h2 := q 2
      fin_cases i <;> simp only [Fin.zero_eta, Fin.mk_one, Fin.reduceFinMk] <;> linarith
    exact pow_eq_zero_iff (two_ne_zero) |>.1 ((mul_eq_zero.1 this).resolve_left (hp i).ne')
  exact hv (funext z)

/-! ### From the data to `Theta` -/

/-- Positive radius, off the axis. -/
def outside : Dom := offAxis (Set.Ioi 0) isOpen_Ioi

theorem spherical_scale (rmax : ℝ) (y : Vec) : (spherical rmax).scale y = ![1, y 0, y 0 * sin (y 1)] := by
  show ![deriv (fun t => t) (y 0), y 0, y 0 * sin (y 1)] = _
  simp

theorem spherical_regular (rmax : ℝ) {y : Vec} (hy : y ∈ outside) (i : Fin 3) : (spherical rmax).scale y i ≠ 0 := by
  have h0 : 0 < y 0 := hy.1
  have h1 : sin (y 1) ≠ 0 := hy.2
  rw [spherical_scale]
  fin_cases i
  · simp
  · simpa using h0.ne'
  · simpa using ⟨h0.ne', h1⟩

/-- `Theta` of a sphere of constant radius for diagonal data, converted to evolved variables by `ADM_to_BSSN`. -/
theorem theta_diagonal {P : CoordParams} (hP : P.b ≠ 0) (hγ : ∀ i j, Sm outside (γ i j)) (hK : ∀ i j, Sm outside (K i j))
    (hγs : ∀ i j, γ i j = γ j i) (hKs : ∀ i j, K i j = K j i) (hd : ∀ i j, i ≠ j → ∀ y ∈ outside, γ i j y = 0)
    (hp : ∀ i, ∀ y ∈ outside, 0 < γ i i y) {R : ℝ} (hR : 0 < R) (hs : sin (x 1) ≠ 0) :
    theta P (c% "Spherical") (symsAt (bssnOf (spherical P.rmax).scale γ K) (fun _ _ => R) x) x = .ok
      ((1 / √(γ 0 0 (Function.update x 0 R))) * (1 / 2 * (pd 0 (γ 1 1) (Function.update x 0 R) / γ 1 1 (Function.update x 0 R) +
        pd 0 (γ 2 2) (Function.update x 0 R) / γ 2 2 (Function.update x 0 R))) -
        (K 1 1 (Function.update x 0 R) / γ 1 1 (Function.update x 0 R) + K 2 2 (Function.update x 0 R) / γ 2 2 (Function.update x 0 R))) := by
  have hsc : IsRfm outside (spherical P.rmax).scale := isRfm_of_choose hP (spherical_known P) fun y hy i => spherical_regular _ hy i
  have hdet : ∀ y ∈ outside, 0 < (Matrix.of fun i j => γ i j y).det := fun y hy => by
    rw [Matrix.det_fin_three]
    simp only [Matrix.of_apply]
    rw [hd 0 1 (by decide) y hy, hd 0 2 (by decide) y hy, hd 1 0 (by decide) y hy, hd 1 2 (by decide) y hy, hd 2 0 (by decide) y hy,
      hd 2 1 (by decide) y hy]
    have := mul_pos (mul_pos (hp 0 y hy) (hp 1 y hy)) (hp 2 y hy)
    linarith
  obtain ⟨S, hT⟩ := bssnOf_setting hsc hγ hK hγs hKs hdet rfl hP (spherical_known P)
  have trip := fun y (hy : y ∈ outside) => bssnOf_trip (K := K) hsc hγs hKs hdet hy
  have hx : onSurface (fun _ _ => R) x ∈ outside := ⟨by simpa [onSurface] using hR, by simpa [onSurface] using hs⟩
  rw [C88_expansion S hT (Sm.const R) (fun y hy => riemannian_diagonal (fun i j hij => by rw [(trip y hy).1]; exact hd i j hij y hy)
    fun i => by rw [(trip y hy).1]; exact hp i y hy) hx,
    expansion_congr (γ' := γ) (K' := K) (fun i j y hy => (trip y hy).1 i j) (fun i j => (trip _ hx).2.1 i j) hx]
  exact congrArg Except.ok (expansion_diagonal ⟨hγ, fun i j y _ => congrFun (hγs i j) y, fun y hy => (hdet y hy).ne'⟩ hd (hp 0) R hx)

/-! ### The static trumpet -/

section
variable {p : SphParams} {cf : String} {ov : Bool} {d : IDSpherical}

/-- **C88**: on the static trumpet, converted by `ADM_to_BSSN`, the sphere of radius `R` has `Theta = 2 (R - M)/(R + M)²`: the horizon is
the sphere of radius `M`, the spheres inside it are trapped and those outside it are not. -/
theorem C88_trumpet (h : initialDataSpherical p cf "StaticTrumpet" ov = .ok d) (hM : 0 ≤ p.M) {P : CoordParams} (hP : P.b ≠ 0)
    {R : ℝ} (hR : 0 < R) (hs : sin (x 1) ≠ 0) :
    theta P (c% "Spherical") (symsAt (bssnOf (spherical P.rmax).scale d.gammaDD d.KDD) (fun _ _ => R) x) x =
      .ok (2 * (R - p.M) / (R + p.M) ^ 2) := by
  obtain ⟨h1, h2⟩ := trumpet_data h
  rw [h1, h2]
  set M := p.M
  have Q := Trumpet.slice hM
  have e4 : ∀ r, 0 < r → TrumpetModel.psi0 M r ^ 4 = (1 + M / r) ^ 2 := fun r hr => by
    rw [TrumpetModel.psi0, show (4 : ℕ) = 2 * 2 from rfl, pow_mul, sq_sqrt (by positivity)]
  rw [theta_diagonal hP (fun i j => (Q.hG i j).sm) (fun i j => (Q.hK i j).sm) (fun i j => by fin_cases i <;> fin_cases j <;> rfl)
    (fun i j => by fin_cases i <;> fin_cases j <;> rfl) (fun i j hij y _ => by fin_cases i <;> fin_cases j <;> first | rfl | exact absurd rfl hij)
    (fun i y hy => ?_) hR hs]
  · congr 1
    set q := Function.update x 0 R
    have q0 : q 0 = R := by simp [q]
    have q1 : q 1 = x 1 := by simp [q]
    have hq : q ∈ outside := ⟨by rw [q0]; exact hR, by rw [q1]; exact hs⟩
    have d1 : pd 0 (TrumpetModel.gammaDD M 1 1) q = 2 * (R + M) := by
      rw [pd_congr_on (g := fun y => (y 0 + M) ^ 2) (fun y hy => ?_) hq]
      · rw [pd_one (φ := fun t => (t + M) ^ 2) 0 (((hasDerivAt_id (q 0)).add_const M).pow 2), q0]
        simp
      · have hy0 : 0 < y 0 := hy.1
        show TrumpetModel.psi0 M (y 0) ^ 4 * y 0 ^ 2 = _
        rw [e4 _ hy0]
        field_simp
    have d2 : pd 0 (TrumpetModel.gammaDD M 2 2) q = 2 * (R + M) * sin (x 1) ^ 2 := by
      rw [pd_congr_on (g := fun y => (y 0 + M) ^ 2 * sin (y 1) ^ 2) (fun y hy => ?_) hq]
      · apply pd_of
        have := (((hasDerivAt_id (q 0)).add_const M).pow 2).mul_const (sin (x 1) ^ 2)
        rw [q0] at this ⊢
        simpa [q1] using this
      · have hy0 : 0 < y 0 := hy.1
        show TrumpetModel.psi0 M (y 0) ^ 4 * y 0 ^ 2 * sin (y 1) ^ 2 = _
        rw [e4 _ hy0]
        field_simp
    rw [d1, d2]
    have g0 : TrumpetModel.gammaDD M 0 0 q = (1 + M / R) ^ 2 := by
      show TrumpetModel.psi0 M (q 0) ^ 4 = _
      rw [q0, e4 _ hR]
    have g1 : TrumpetModel.gammaDD M 1 1 q = (1 + M / R) ^ 2 * R ^ 2 := by
      show TrumpetModel.psi0 M (q 0) ^ 4 * q 0 ^ 2 = _
      rw [q0, e4 _ hR]
    have g2 : TrumpetModel.gammaDD M 2 2 q = (1 + M / R) ^ 2 * R ^ 2 * sin (x 1) ^ 2 := by
      show TrumpetModel.psi0 M (q 0) ^ 4 * q 0 ^ 2 * sin (q 1) ^ 2 = _
      rw [q0, q1, e4 _ hR]
    have k1 : TrumpetModel.KDD M 1 1 q = M := rfl
    have k2 : TrumpetModel.KDD M 2 2 q = M * sin (x 1) ^ 2 := by
      show M * sin (q 1) ^ 2 = _
      rw [q1]
    have hRM : 0 < R + M := by linarith
    rw [g0, g1, g2, k1, k2, sqrt_sq (by positivity)]
    have e1 : 1 + M / R = (R + M) / R := by field_simp
    rw [e1]
    field_simp
    ring
  · have hy0 : 0 < y 0 := hy.1
    have hs2 := sq_pos_of_ne_zero (show sin (y 1) ≠ 0 from hy.2)
    have := e4 _ hy0
    have h4 : 0 < TrumpetModel.psi0 M (y 0) ^ 4 := by rw [this]; positivity
    fin_cases i
    · exact h4
    · exact mul_pos h4 (pow_pos hy0 2)
    · exact mul_pos (mul_pos h4 (pow_pos hy0 2)) hs2

/-! ### The spinning black hole -/

/-- **C88**: on the black hole of Liu, Etienne and Shapiro, converted by `ADM_to_BSSN`, `Theta` of the sphere of radius `R` is a positive
number times `1 - (r_+/4R)²`: for every spin below the extremal one the horizon is the sphere of radius `r_+/4`, and `Theta` is negative
inside it and positive outside. -/
theorem C88_uiuc (h : initialDataSpherical p cf "UIUCBlackHole" ov = .ok d) (hM : 0 < p.M) (hchi : |p.chi| < 1) {P : CoordParams} (hP : P.b ≠ 0)
    {R : ℝ} (hR : 0 < R) (hs : sin (x 1) ≠ 0) :
    ∃ q > 0, theta P (c% "Spherical") (symsAt (bssnOf (spherical P.rmax).scale d.gammaDD d.KDD) (fun _ _ => R) x) x =
      .ok (q * (1 - ((p.M + √(p.M ^ 2 - (p.M * p.chi) ^ 2)) / (4 * R)) ^ 2)) := by
  obtain ⟨h1, h2⟩ := uiuc_data h
  rw [h1, h2]
  set M := p.M
  set chi := p.chi
  have H : UIUC.Par M chi := ⟨hM, hchi⟩
  let Rg : UIUC.Region := ⟨Set.Ioi 0, isOpen_Ioi, fun _ h => h⟩
  have Q := UIUC.slice H Rg (α := UIUC.lapse M chi) fun _ _ => rfl
  have hpos : ∀ i, ∀ y ∈ outside, 0 < UIUCModel.gammaDD M chi i i y := fun i y hy => by
    have hy0 : 0 < y 0 := hy.1
    have hs2 := sq_pos_of_ne_zero (show sin (y 1) ≠ 0 from hy.2)
    have hS := UIUC.SIG_pos H hy0 (y 1)
    have hA := UIUC.AA_pos H hy0 (y 1)
    have hX := UIUC.X_pos H hy0
    have hb : 0 < y 0 + UIUCModel.rp M chi / 4 := add_pos hy0 (UIUC.bb_pos H)
    fin_cases i
    · show 0 < UIUCModel.SIG M chi (y 0) (y 1) * (y 0 + UIUCModel.rp M chi / 4) ^ 2 / (y 0 ^ 3 * (UIUCModel.rBL M chi (y 0) - UIUCModel.rm M chi))
      positivity
    · exact hS
    · show 0 < UIUCModel.AA M chi (y 0) (y 1) / UIUCModel.SIG M chi (y 0) (y 1) * sin (y 1) ^ 2
      positivity
  set q := Function.update x 0 R with hqd
  have q0 : q 0 = R := by simp [q]
  have q1 : q 1 = x 1 := by simp [q]
  have hq : q ∈ outside := ⟨by rw [q0]; exact hR, by rw [q1]; exact hs⟩
  have hq' : q ∈ Rg.dom := hq
  have hS := UIUC.SIG_pos H hR (x 1)
  have hA := UIUC.AA_pos H hR (x 1)
  have hQp := UIUC.Q_pos H hR
  have hG := fun i j => (Q.hG i j).sm
  have g1 := hpos 1 q hq
  have g2 := hpos 2 q hq
  -- the product of the two angular components
  have ep : ∀ y ∈ Rg.dom, UIUCModel.gammaDD M chi 1 1 y * UIUCModel.gammaDD M chi 2 2 y = UIUCModel.AA M chi (y 0) (y 1) * sin (y 1) ^ 2 :=
    fun y hy => by
      have := (UIUC.SIG_pos H (show 0 < y 0 from hy.1) (y 1)).ne'
      show UIUCModel.SIG M chi (y 0) (y 1) * (UIUCModel.AA M chi (y 0) (y 1) / UIUCModel.SIG M chi (y 0) (y 1) * sin (y 1) ^ 2) = _
      field_simp
  have dp := dpd_mul hq' 0 (hG 1 1) (hG 2 2)
  rw [pd_congr_on ep hq', dpd_mul hq' 0 (UIUC.sm_A H) (sm_sin.pow 2), Gens.pd_pow hq' 0 sm_sin 2, dpd_sin, UIUC.pd_A H hq', if_pos rfl,
    UIUC.ee_nn H (by rw [q0]; exact hR), q0, q1] at dp
  have epq := ep q hq'
  rw [q0, q1] at epq
  have hlog : pd 0 (UIUCModel.gammaDD M chi 1 1) q / UIUCModel.gammaDD M chi 1 1 q + pd 0 (UIUCModel.gammaDD M chi 2 2) q / UIUCModel.gammaDD M chi 2 2 q =
      (4 * UIUCModel.rBL M chi R * (UIUCModel.rBL M chi R ^ 2 + UIUCModel.a M chi ^ 2) -
        (2 * UIUCModel.rBL M chi R - 2 * M) * UIUCModel.a M chi ^ 2 * sin (x 1) ^ 2) / UIUCModel.AA M chi R (x 1) *
        (1 - UIUC.bb M chi ^ 2 * R⁻¹ ^ 2) := by
    have : pd 0 (UIUCModel.gammaDD M chi 1 1) q / UIUCModel.gammaDD M chi 1 1 q + pd 0 (UIUCModel.gammaDD M chi 2 2) q / UIUCModel.gammaDD M chi 2 2 q =
        (pd 0 (UIUCModel.gammaDD M chi 1 1) q * UIUCModel.gammaDD M chi 2 2 q + UIUCModel.gammaDD M chi 1 1 q * pd 0 (UIUCModel.gammaDD M chi 2 2) q) /
          (UIUCModel.gammaDD M chi 1 1 q * UIUCModel.gammaDD M chi 2 2 q) := by field_simp
    rw [this, ← dp, epq]
    simp
    field_simp
  have hdA : 0 < 4 * UIUCModel.rBL M chi R * (UIUCModel.rBL M chi R ^ 2 + UIUCModel.a M chi ^ 2) -
        (2 * UIUCModel.rBL M chi R - 2 * M) * UIUCModel.a M chi ^ 2 * sin (x 1) ^ 2 := by
    have hs1 : sin (x 1) ^ 2 ≤ 1 := sin_sq_le_one _
    have ha := sq_nonneg (UIUCModel.a M chi)
    have hs0 := sq_nonneg (sin (x 1))
    have t1 := mul_nonneg (mul_nonneg hQp.le ha) (sub_nonneg.2 hs1)
    have t2 := mul_nonneg (mul_nonneg hM.le ha) hs0
    have t3 := pow_pos hQp 3
    have t4 := mul_nonneg hQp.le ha
    nlinarith
  refine ⟨1 / √(UIUCModel.gammaDD M chi 0 0 q) * (1 / 2 * ((4 * UIUCModel.rBL M chi R * (UIUCModel.rBL M chi R ^ 2 + UIUCModel.a M chi ^ 2) -
        (2 * UIUCModel.rBL M chi R - 2 * M) * UIUCModel.a M chi ^ 2 * sin (x 1) ^ 2) / UIUCModel.AA M chi R (x 1))), ?_, ?_⟩
  · have := sqrt_pos.2 (hpos 0 q hq)
    positivity
  rw [theta_diagonal hP hG (fun i j => (Q.hK i j).sm) (fun i j => by fin_cases i <;> fin_cases j <;> rfl)
    (fun i j => by fin_cases i <;> fin_cases j <;> rfl) (fun i j hij y _ => by fin_cases i <;> fin_cases j <;> first | rfl | exact absurd rfl hij)
    hpos hR hs, ← hqd, hlog]
  congr 1
  have k1 : UIUCModel.KDD M chi 1 1 q = 0 := rfl
  have k2 : UIUCModel.KDD M chi 2 2 q = 0 := rfl
  rw [k1, k2]
  have eb : ((M + √(M ^ 2 - (M * chi) ^ 2)) / (4 * R)) ^ 2 = UIUC.bb M chi ^ 2 * R⁻¹ ^ 2 := by
    have : M + √(M ^ 2 - (M * chi) ^ 2) = 4 * UIUC.bb M chi := (UIUC.rp_eq H)
    rw [this]
    field_simp
  rw [eb]
  ring

end

/-! ### Cases that meet the hypotheses -/

/-- The trumpet with a surface that is not a sphere, `r = 2 + cos θ`. -/
example {P : CoordParams} (hP : P.b ≠ 0) : ∃ F : Fields, ∃ h : ℝ → ℝ → ℝ, ∃ x : Vec,
    Setting P (c% "Spherical") (spherical P.rmax) outside F .W ∧ Traceless (spherical P.rmax).scale F outside ∧ Sm outside (hField h) ∧
    (∀ y ∈ outside, Riemannian (gammaF (spherical P.rmax).scale F .W) y) ∧ onSurface h x ∈ outside ∧ pd 1 (hField h) x ≠ 0 ∧
    KF (spherical P.rmax).scale F .W 0 0 (onSurface h x) ≠ 0 := by
  have Q := Trumpet.slice (M := 1) one_pos.le
  have hsc : IsRfm outside (spherical P.rmax).scale := isRfm_of_choose hP (spherical_known P) fun y hy i => spherical_regular _ hy i
  have hdet : ∀ y ∈ outside, 0 < (Matrix.of fun i j => TrumpetModel.gammaDD 1 i j y).det := fun y hy => trumpet_det one_pos.le hy.1 hy.2
  have hγs : ∀ i j, TrumpetModel.gammaDD 1 i j = TrumpetModel.gammaDD 1 j i := fun i j => by fin_cases i <;> fin_cases j <;> rfl
  have hKs : ∀ i j, TrumpetModel.KDD 1 i j = TrumpetModel.KDD 1 j i := fun i j => by fin_cases i <;> fin_cases j <;> rfl
  have hb := bssnOf_setting hsc (fun i j => (Q.hG i j).sm) (fun i j => (Q.hK i j).sm) hγs hKs hdet rfl hP (spherical_known P)
  have trip := fun y (hy : y ∈ outside) => bssnOf_trip (K := TrumpetModel.KDD 1) hsc hγs hKs hdet hy
  have hx : onSurface (fun th _ => 2 + cos th) ![0, π / 2, 0] ∈ outside := ⟨by simp [onSurface], by simp [onSurface]⟩
  refine ⟨_, fun th _ => 2 + cos th, ![0, π / 2, 0], hb.1, hb.2, (Sm.const 2).add sm_cos, fun y hy => ?_, hx, ?_, ?_⟩
  · have hy0 : 0 < y 0 := hy.1
    have hs2 := sq_pos_of_ne_zero (show sin (y 1) ≠ 0 from hy.2)
    have h4 : 0 < TrumpetModel.psi0 1 (y 0) ^ 4 := pow_pos (sqrt_pos.2 (by positivity)) 4
    refine riemannian_diagonal (fun i j hij => ?_) fun i => ?_
    · rw [(trip y hy).1]
      fin_cases i <;> fin_cases j <;> first | rfl | exact absurd rfl hij
    · rw [(trip y hy).1]
      fin_cases i
      · exact h4
      · exact mul_pos h4 (pow_pos hy0 2)
      · exact mul_pos (mul_pos h4 (pow_pos hy0 2)) hs2
  · rw [show hField (fun th _ => 2 + cos th) = fun y => (fun t => 2 + cos t) (y 1) from rfl,
      pd_one (φ := fun t => 2 + cos t) 1 ((hasDerivAt_cos _).const_add 2)]
    simp
  · rw [(trip _ hx).2.1]
    show -1 / (onSurface (fun th _ => 2 + cos th) ![0, π / 2, 0] 0) ^ 2 ≠ 0
    simp [onSurface]

/-- Radii inside, on and outside the horizon of a spinning hole. -/
example : ∃ d, initialDataSpherical ⟨1, 4 / 5, 0, 0⟩ "W" "UIUCBlackHole" false = .ok d ∧ |(4 / 5 : ℝ)| < 1 ∧
    (1 + √(1 ^ 2 - (1 * (4 / 5)) ^ 2 : ℝ)) / 4 = 2 / 5 := by
  obtain ⟨d, hd⟩ := (C84_choices ⟨1, 4 / 5, 0, 0⟩ "W" "UIUCBlackHole" false).2 (by simp)
  refine ⟨d, hd, by rw [abs_of_pos] <;> norm_num, ?_⟩
  rw [show (1 ^ 2 - (1 * (4 / 5)) ^ 2 : ℝ) = (3 / 5) ^ 2 by norm_num, sqrt_sq (by norm_num)]
  norm_num

end Verif.Horizon
