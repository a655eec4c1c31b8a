import Verif.Initial.Poly
import Verif.Initial.ConfFlat
import Verif.Initial.Model
import Verif.BSSN.Claims
import Mathlib.Analysis.InnerProductSpace.PiL2

/-!
# C83: Brill–Lindquist initial data
-/
namespace Verif.Initial
open Verif.RefMetric Verif.BSSN Verif.Wave Verif.IndexedExp Real
open scoped ContDiff

/-- Everywhere but at the two holes. -/
def offHoles (h : Holes) : Dom := away h.BH1_posn ⊓ away h.BH2_posn

theorem bl_psi_eq (h : Holes) : bl_psi h = fun x => 1 + h.BH1_mass / 2 * invDist h.BH1_posn x + h.BH2_mass / 2 * invDist h.BH2_posn x := by
  funext x
  simp only [bl_psi, invDist, dist3]
  ring

section
variable {h : Holes}

theorem inv1_smooth : Sm (offHoles h) (invDist h.BH1_posn) := (sm_invDist _).mono fun _ hx => hx.1
theorem inv2_smooth : Sm (offHoles h) (invDist h.BH2_posn) := (sm_invDist _).mono fun _ hx => hx.2

theorem bl_psi_smooth : Sm (offHoles h) (bl_psi h) := by
  rw [bl_psi_eq]
  exact ((Sm.const 1).add ((Sm.const _).mul inv1_smooth)).add ((Sm.const _).mul inv2_smooth)

theorem invDist_laplacian {c x : Vec} (hx : x ≠ c) : laplacian (invDist c) x = 0 := by
  have e : ∀ k, pd k (pd k (invDist c)) x = ((QE.q.der k).der k).eval c x := fun k => by
    rw [pd_congr_on (Ω := away c) (fun y hy => show pd k (invDist c) y = (QE.q.der k).eval c y from QE.pd_eval hy k .q) hx k,
      QE.pd_eval hx]
  have h := invDist_sq hx
  simp only [laplacian, e, QE.der, QE.eval, Fin.sum_univ_three, if_true]
  linear_combination (3 * invDist c x ^ 3) * h

theorem bl_psi_laplacian {x : Vec} (hx : x ∈ offHoles h) : laplacian (bl_psi h) x = 0 := by
  have s1 := inv1_smooth (h := h)
  have s2 := inv2_smooth (h := h)
  have d1 : ∀ y ∈ offHoles h, ∀ k, pd k (bl_psi h) y =
      h.BH1_mass / 2 * pd k (invDist h.BH1_posn) y + h.BH2_mass / 2 * pd k (invDist h.BH2_posn) y := fun y hy k => by
    rw [bl_psi_eq, dpd_add hy k ((Sm.const 1).add ((Sm.const _).mul s1)) ((Sm.const _).mul s2),
      dpd_add hy k (Sm.const 1) ((Sm.const _).mul s1), dpd_const, dpd_cmul hy k _ s1, dpd_cmul hy k _ s2, zero_add]
  have d2 : ∀ k, pd k (pd k (bl_psi h)) x =
      h.BH1_mass / 2 * pd k (pd k (invDist h.BH1_posn)) x + h.BH2_mass / 2 * pd k (pd k (invDist h.BH2_posn)) x := fun k => by
    rw [pd_congr_on (fun y hy => d1 y hy k) hx k, dpd_add hx k ((Sm.const _).mul (s1.pd k)) ((Sm.const _).mul (s2.pd k)),
      dpd_cmul hx k _ (s1.pd k), dpd_cmul hx k _ (s2.pd k)]
  have l1 := invDist_laplacian hx.1
  have l2 := invDist_laplacian hx.2
  simp only [laplacian] at l1 l2 ⊢
  simp only [d2, Finset.sum_add_distrib, ← Finset.mul_sum, l1, l2]
  ring

end

theorem bl_psi_pos {h : Holes} (h1 : 0 ≤ h.BH1_mass) (h2 : 0 ≤ h.BH2_mass) (x : Vec) : 1 ≤ bl_psi h x := by
  have a : 0 ≤ invDist h.BH1_posn x := inv_nonneg.2 (Real.sqrt_nonneg _)
  have b : 0 ≤ invDist h.BH2_posn x := inv_nonneg.2 (Real.sqrt_nonneg _)
  rw [bl_psi_eq]
  have := mul_nonneg (div_nonneg h1 two_pos.le) a
  have := mul_nonneg (div_nonneg h2 two_pos.le) b
  simp only
  linarith

/-- **C83**: the data satisfy the vacuum constraints everywhere but at the holes. -/
theorem C83_constraints {h : Holes} (h1 : 0 ≤ h.BH1_mass) (h2 : 0 ≤ h.BH2_mass) {x : Vec} (hx1 : x ≠ h.BH1_posn) (hx2 : x ≠ h.BH2_posn) :
    hamiltonian (bl_gammaDD h) bl_KDD .vacuum x = 0 ∧ ∀ i, momentum (bl_gammaDD h) bl_KDD .vacuum i x = 0 := by
  have hx : x ∈ offHoles h := ⟨hx1, hx2⟩
  have hp : ∀ y ∈ offHoles h, 0 < bl_psi h y := fun y _ => lt_of_lt_of_le one_pos (bl_psi_pos h1 h2 y)
  have eg : bl_gammaDD h = confFlat (bl_psi h) := rfl
  have ek : bl_KDD = confK (bl_psi h) fun _ _ _ => 0 := by
    funext i j x
    simp [bl_KDD, confK]
  rw [eg, ek]
  constructor
  · rw [confFlat_hamiltonian bl_psi_smooth hp _ hx, bl_psi_laplacian hx]
    simp
  · intro i
    rw [confFlat_momentum bl_psi_smooth hp (fun _ _ => Sm.const 0) (fun _ _ _ _ => rfl) (fun _ _ => by simp) hx i]
    simp [dpd_const]

theorem dist_bound (c x : Vec) : |dist3 c x - √(∑ i, x i ^ 2)| ≤ √(∑ i, c i ^ 2) := by
  have e : ∀ z : Vec, √(∑ i, z i ^ 2) = ‖(WithLp.toLp 2 z : EuclideanSpace ℝ (Fin 3))‖ := fun z => by
    rw [EuclideanSpace.norm_eq]
    simp
  have e2 : dist3 c x = ‖(WithLp.toLp 2 x : EuclideanSpace ℝ (Fin 3)) - WithLp.toLp 2 c‖ := by
    rw [EuclideanSpace.norm_eq]
    simp [dist3, Fin.sum_univ_three]
  rw [e, e, e2]
  have h1 := abs_norm_sub_norm_le ((WithLp.toLp 2 x : EuclideanSpace ℝ (Fin 3)) - WithLp.toLp 2 c) (WithLp.toLp 2 x)
  simpa using h1

/-- Far away. -/
noncomputable abbrev infinity : Filter Vec := Filter.comap (fun x => √(∑ i, x i ^ 2)) Filter.atTop

theorem dist_atTop (c : Vec) : Filter.Tendsto (dist3 c) infinity Filter.atTop := by
  have h1 : Filter.Tendsto (fun x : Vec => √(∑ i, x i ^ 2) - √(∑ i, c i ^ 2)) infinity Filter.atTop :=
    Filter.tendsto_atTop_add_const_right _ _ Filter.tendsto_comap
  exact Filter.tendsto_atTop_mono (fun x => by have := abs_le.1 (dist_bound c x); linarith [this.1]) h1

theorem invDist_zero (c : Vec) : Filter.Tendsto (invDist c) infinity (nhds 0) := tendsto_inv_atTop_zero.comp (dist_atTop c)

theorem invDist_one (c : Vec) : Filter.Tendsto (fun x => √(∑ i, x i ^ 2) * invDist c x) infinity (nhds 1) := by
  have h0 := (invDist_zero c).const_mul (√(∑ i, c i ^ 2))
  rw [mul_zero] at h0
  have h1 : Filter.Tendsto (fun x => √(∑ i, x i ^ 2) * invDist c x - 1) infinity (nhds 0) := by
    have hev : ∀ᶠ x in infinity, 0 < dist3 c x := (dist_atTop c).eventually_gt_atTop 0
    refine squeeze_zero_norm' ?_ h0
    filter_upwards [hev] with x hx
    have e : √(∑ i, x i ^ 2) * invDist c x - 1 = -(dist3 c x - √(∑ i, x i ^ 2)) * invDist c x := by
      unfold invDist
      field_simp
      ring
    rw [e, Real.norm_eq_abs, abs_mul, abs_neg, abs_of_pos (show 0 < invDist c x from inv_pos.2 hx)]
    exact mul_le_mul_of_nonneg_right (dist_bound c x) (inv_pos.2 hx).le
  simpa using h1.add_const 1

theorem bl_psi_one (h : Holes) : Filter.Tendsto (bl_psi h) infinity (nhds 1) := by
  rw [bl_psi_eq]
  have := ((invDist_zero h.BH1_posn).const_mul (h.BH1_mass / 2)).const_add 1 |>.add ((invDist_zero h.BH2_posn).const_mul (h.BH2_mass / 2))
  simpa using this

/-- **C83**: far away the metric is flat. -/
theorem C83_asymptotic (h : Holes) (i j : Fin 3) :
    Filter.Tendsto (bl_gammaDD h i j) infinity (nhds (if i = j then 1 else 0)) := by
  unfold bl_gammaDD
  split
  · simpa using (bl_psi_one h).pow 4
  · exact tendsto_const_nhds

/-- **C83**: the mass read off far away, where `γ_{ij} ≈ (1 + 2M/r) δ_{ij}`, is the sum of the two masses. -/
theorem C83_mass (h : Holes) (i j : Fin 3) :
    Filter.Tendsto (fun x => √(∑ i, x i ^ 2) * (bl_gammaDD h i j x - if i = j then 1 else 0)) infinity
      (nhds (if i = j then 2 * (h.BH1_mass + h.BH2_mass) else 0)) := by
  by_cases hij : i = j
  · have h1 := ((invDist_one h.BH1_posn).const_mul (h.BH1_mass / 2)).add ((invDist_one h.BH2_posn).const_mul (h.BH2_mass / 2))
    have h2 := h1.mul ((((bl_psi_one h).pow 3).add ((bl_psi_one h).pow 2)).add ((bl_psi_one h).add_const 1))
    simp only [hij, if_true, bl_gammaDD]
    have e : 2 * (h.BH1_mass + h.BH2_mass) = (h.BH1_mass / 2 * 1 + h.BH2_mass / 2 * 1) * (1 ^ 3 + 1 ^ 2 + (1 + 1)) := by ring
    rw [e]
    refine h2.congr fun x => ?_
    rw [bl_psi_eq]
    ring
  · simpa [hij, bl_gammaDD] using tendsto_const_nhds

theorem bl_det (h : Holes) (x : Vec) : FromADM.gammaDET (bl_adm h x) = bl_psi h x ^ 12 := by
  simp only [FromADM.gammaDET, symmInv3Det, bl_adm, bl_gammaDD]
  simp
  ring

theorem rpow_psi {ψ : ℝ} (hp : 0 < ψ) (a : ℝ) : (ψ ^ 12) ^ a = ψ ^ (12 * a) := by
  rw [← Real.rpow_natCast ψ 12, ← Real.rpow_mul hp.le]
  norm_num

theorem bl_gammabarDET {h : Holes} (x : Vec) (hp : 0 < bl_psi h x) : FromADM.gammabarDET (cartRfm x) (bl_adm h x) = 1 := by
  have hd : (cartRfm x).detgammahat = 1 := by
    simp [cartRfm, rfmAt, RefMetric.detgammahat, RefMetric.ghatDD, symmInv3Det]
  have e : (1 / bl_psi h x ^ 12) ^ (1 / 3 : ℝ) = (bl_psi h x ^ 4)⁻¹ := by
    rw [one_div, Real.inv_rpow (by positivity), rpow_psi hp, show (12 : ℝ) * (1 / 3) = ((4 : ℕ) : ℝ) by norm_num, Real.rpow_natCast]
  have hg : ∀ i j, FromADM.gammabarDD (cartRfm x) (bl_adm h x) i j = if i = j then 1 else 0 := fun i j => by
    rw [FromADM.gammabarDD, hd, bl_det, e]
    simp only [bl_adm, bl_gammaDD]
    split
    · exact inv_mul_cancel₀ (pow_pos hp 4).ne'
    · simp
  simp only [FromADM.gammabarDET, symmInv3Det, hg]
  simp

/-- **C83**: the lapse is `ψ⁻²`, whichever conformal factor is evolved. -/
theorem C83_lapse (c : CF) {h : Holes} (h1 : 0 ≤ h.BH1_mass) (h2 : 0 ≤ h.BH2_mass) (x : Vec) : bl_alpha c h x = 1 / bl_psi h x ^ 2 := by
  have hp : 0 < bl_psi h x := lt_of_lt_of_le one_pos (bl_psi_pos h1 h2 x)
  have e2 : bl_psi h x ^ (-2 : ℝ) = 1 / bl_psi h x ^ 2 := by
    rw [Real.rpow_neg hp.le, one_div, show (2 : ℝ) = ((2 : ℕ) : ℝ) by norm_num, Real.rpow_natCast]
  cases c
  · simp only [bl_alpha, FromADM.cf, bl_gammabarDET x hp, bl_det, div_one, Real.log_pow]
    rw [← e2, Real.rpow_def_of_pos hp]
    congr 1
    push_cast
    ring
  · simp only [bl_alpha, FromADM.cf, bl_gammabarDET x hp, bl_det, div_one]
    rw [rpow_psi hp, ← e2]
    norm_num
  · simp only [bl_alpha, FromADM.cf, bl_gammabarDET x hp, bl_det, div_one]
    rw [rpow_psi hp, Real.sqrt_eq_rpow, ← Real.rpow_mul hp.le, ← e2]
    norm_num

/-- The default parameters: two holes of mass one half. -/
example : ∃ (h : Holes) (x : Vec), 0 < h.BH1_mass ∧ 0 < h.BH2_mass ∧ x ≠ h.BH1_posn ∧ x ≠ h.BH2_posn ∧ bl_psi h x ≠ 1 := by
  refine ⟨⟨![0, 0, 1 / 2], 1 / 2, ![0, 0, -1 / 2], 1 / 2⟩, ![0, 0, 1], by norm_num, by norm_num, fun h => ?_, fun h => ?_, ?_⟩
  · have h2 : (1 : ℝ) = 1 / 2 := congrFun h 2
    norm_num at h2
  · have h2 : (1 : ℝ) = -1 / 2 := congrFun h 2
    norm_num at h2
  · have e : ∀ a b c d : ℝ, 0 < b → 0 < d → 0 < a → 0 < c → 1 + a / (2 * b) + c / (2 * d) ≠ 1 := fun a b c d hb hd ha hc => by
      have := div_pos ha (mul_pos two_pos hb)
      have := div_pos hc (mul_pos two_pos hd)
      linarith
    refine e _ _ _ _ (Real.sqrt_pos.2 ?_) (Real.sqrt_pos.2 ?_) (by norm_num) (by norm_num)
    · show (0 : ℝ) < (0 - 0) ^ 2 + (0 - 0) ^ 2 + (1 - 1 / 2) ^ 2
      norm_num
    · show (0 : ℝ) < (0 - 0) ^ 2 + (0 - 0) ^ 2 + (1 - -1 / 2) ^ 2
      norm_num

end Verif.Initial
