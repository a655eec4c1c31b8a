import Verif.TOV.Claims
import Mathlib.Analysis.ODE.ExistUnique
import Mathlib.Analysis.SpecialFunctions.Sqrt

/-!
# C92: solutions of the equations of stellar structure, and the center
-/
namespace Verif.TOV
open Verif.RefMetric Verif.BSSN Verif.Initial Verif.Hydro Real Set Filter Topology

/-- The equations with the radius as one of the unknowns; `z` is radius, pressure, `nu`, mass and isotropic radius. -/
noncomputable def field (e : Eos) (z : ℝ × ℝ × ℝ × ℝ × ℝ) : ℝ × ℝ × ℝ × ℝ × ℝ :=
  (1, dP_dr z.1 ((z.2.1 / e.K) ^ (1 / e.Gamma) + z.2.1 / (e.Gamma - 1)) z.2.1 z.2.2.2.1, dnu_dr z.1 z.2.1 z.2.2.2.1,
    dM_dr z.1 ((z.2.1 / e.K) ^ (1 / e.Gamma) + z.2.1 / (e.Gamma - 1)), dr_iso_dr z.1 z.2.2.2.2 z.2.2.2.1)

theorem field_smooth (e : Eos) (hK : 0 < e.K) {z : ℝ × ℝ × ℝ × ℝ × ℝ} (hr : 0 < z.1) (hP : 0 < z.2.1) (hM : 2 * z.2.2.2.1 < z.1) :
    ContDiffAt ℝ 1 (field e) z := by
  have harg : 0 < 1 - 2 * z.2.2.2.1 / z.1 := by rw [sub_pos, div_lt_one hr]; exact hM
  have c1 : ContDiffAt ℝ 1 (fun z : ℝ × ℝ × ℝ × ℝ × ℝ => z.1) z := contDiffAt_fst
  have c2 : ContDiffAt ℝ 1 (fun z : ℝ × ℝ × ℝ × ℝ × ℝ => z.2.1) z := contDiffAt_fst.comp z contDiffAt_snd
  have c3 : ContDiffAt ℝ 1 (fun z : ℝ × ℝ × ℝ × ℝ × ℝ => z.2.2.2.1) z := by fun_prop
  have c4 : ContDiffAt ℝ 1 (fun z : ℝ × ℝ × ℝ × ℝ × ℝ => z.2.2.2.2) z := by fun_prop
  have ce : ContDiffAt ℝ 1 (fun z : ℝ × ℝ × ℝ × ℝ × ℝ => (z.2.1 / e.K) ^ (1 / e.Gamma) + z.2.1 / (e.Gamma - 1)) z :=
    ((c2.div_const e.K).rpow_const_of_ne (div_pos hP hK).ne').add (c2.div_const _)
  have cx : ContDiffAt ℝ 1 (fun z : ℝ × ℝ × ℝ × ℝ × ℝ => 2 * z.2.2.2.1 / z.1) z := (contDiffAt_const.mul c3).div c1 hr.ne'
  have cu : ContDiffAt ℝ 1 (fun z : ℝ × ℝ × ℝ × ℝ × ℝ => 2 * z.2.2.2.1 / z.1 + 8 * π * z.1 * z.1 * z.2.1) z :=
    cx.add (((contDiffAt_const.mul c1).mul c1).mul c2)
  have cy : ContDiffAt ℝ 1 (fun z : ℝ × ℝ × ℝ × ℝ × ℝ => 1 - 2 * z.2.2.2.1 / z.1) z := contDiffAt_const.sub cx
  refine contDiffAt_const.prodMk (ContDiffAt.prodMk ?_ (ContDiffAt.prodMk ?_ (ContDiffAt.prodMk ?_ ?_)))
  · exact ((ce.add c2).mul cu).neg.div ((c1.mul contDiffAt_const).mul cy) (mul_ne_zero (mul_ne_zero hr.ne' two_ne_zero) harg.ne')
  · exact cu.div (c1.mul cy) (mul_ne_zero hr.ne' harg.ne')
  · exact ((contDiffAt_const.mul c1).mul c1).mul ce
  · exact c4.div (c1.mul (cy.sqrt harg.ne')) (mul_ne_zero hr.ne' (sqrt_pos.2 harg).ne')

/-- Through every state with positive pressure outside its own horizon there is a solution, and it stays such near the starting radius. -/
theorem C92_exists (e : Eos) (hK : 0 < e.K) (hG : 1 < e.Gamma) (r₀ : ℝ) (s : State) (hr : 0 < r₀) (hP : 0 < s.P) (hM : 2 * s.M < r₀)
    (hi : 0 < s.riso) : ∃ (a b : ℝ) (y : ℝ → State), 0 ≤ a ∧ r₀ ∈ Ioo a b ∧ y r₀ = s ∧ Solves e a b y ∧
      ∀ r ∈ Ioo a b, 2 * (y r).M < r ∧ 0 < (y r).riso ∧ 0 < (y r).P := by
  obtain ⟨α, h0, ε, hε, hα⟩ := (field_smooth e hK (z := (r₀, s.P, s.nu, s.M, s.riso)) hr hP
    hM).exists_forall_mem_closedBall_exists_eq_forall_mem_Ioo_hasDerivAt₀ r₀
  have hmem : r₀ ∈ Ioo (r₀ - ε) (r₀ + ε) := ⟨by linarith, by linarith⟩
  -- the first unknown is the radius
  have h1 : ∀ t ∈ Ioo (r₀ - ε) (r₀ + ε), (α t).1 = t := by
    have hd : ∀ t ∈ Ioo (r₀ - ε) (r₀ + ε), HasDerivAt (fun t => (α t).1 - t) 0 t := fun t ht => by
      have h : HasDerivAt (fun t => (α t).1) 1 t := (hα t ht).fst
      exact (h.sub (hasDerivAt_id t)).congr_deriv (sub_self 1)
    intro t ht
    have hc := (convex_Ioo (r₀ - ε) (r₀ + ε)).is_const_of_fderivWithin_eq_zero (𝕜 := ℝ) (f := fun t => (α t).1 - t)
      (fun r hr => (hd r hr).differentiableAt.differentiableWithinAt) (fun r hr => by
        rw [fderivWithin_of_isOpen isOpen_Ioo hr, (hd r hr).hasFDerivAt.fderiv]
        ext
        simp) ht hmem
    simp only [h0, sub_self] at hc
    linarith
  -- the inequalities hold near the starting radius
  have hcont : ContinuousAt α r₀ := (hα r₀ hmem).continuousAt
  have hopen : ∀ᶠ t in 𝓝 r₀, 0 < t ∧ 2 * (α t).2.2.2.1 < t ∧ 0 < (α t).2.2.2.2 ∧ 0 < (α t).2.1 := by
    refine (lt_mem_nhds hr).and (Eventually.and ?_ (Eventually.and ?_ ?_))
    · have : ContinuousAt (fun t => t - 2 * (α t).2.2.2.1) r₀ := by fun_prop
      filter_upwards [this.eventually (lt_mem_nhds (show 0 < r₀ - 2 * (α r₀).2.2.2.1 by rw [h0]; show 0 < r₀ - 2 * s.M; linarith))] with t ht
      linarith
    · have : ContinuousAt (fun t => (α t).2.2.2.2) r₀ := by fun_prop
      exact this.eventually (lt_mem_nhds (show 0 < (α r₀).2.2.2.2 by rw [h0]; exact hi))
    · have : ContinuousAt (fun t => (α t).2.1) r₀ := by fun_prop
      exact this.eventually (lt_mem_nhds (show 0 < (α r₀).2.1 by rw [h0]; exact hP))
  obtain ⟨δ, hδ, hball⟩ := Metric.eventually_nhds_iff.1 hopen
  set η := min ε δ with hη
  have hηp : 0 < η := lt_min hε hδ
  have hnear : ∀ t ∈ Ioo (r₀ - η) (r₀ + η), t ∈ Ioo (r₀ - ε) (r₀ + ε) ∧ 0 < t ∧ 2 * (α t).2.2.2.1 < t ∧ 0 < (α t).2.2.2.2 ∧ 0 < (α t).2.1 := by
    intro t ht
    have a1 : η ≤ ε := min_le_left _ _
    have a2 : η ≤ δ := min_le_right _ _
    refine ⟨⟨by linarith [ht.1], by linarith [ht.2]⟩, hball ?_⟩
    rw [Real.dist_eq, abs_lt]
    exact ⟨by linarith [ht.1], by linarith [ht.2]⟩
  have ha : 0 ≤ r₀ - η := by
    by_contra hneg
    push Not at hneg
    have := (hnear ((max (r₀ - η) (-r₀)) / 2) ⟨by
      rcases le_total (r₀ - η) (-r₀) with h | h
      · rw [max_eq_right h]; linarith
      · rw [max_eq_left h]; linarith, by
      have : max (r₀ - η) (-r₀) < 0 := max_lt hneg (by linarith)
      linarith⟩).2.1
    have : max (r₀ - η) (-r₀) < 0 := max_lt hneg (by linarith)
    linarith
  have hsol : ∀ t ∈ Ioo (r₀ - η) (r₀ + η), HasDerivAt α (1, (ode e t ⟨(α t).2.1, (α t).2.2.1, (α t).2.2.2.1, (α t).2.2.2.2⟩).P,
      (ode e t ⟨(α t).2.1, (α t).2.2.1, (α t).2.2.2.1, (α t).2.2.2.2⟩).nu, (ode e t ⟨(α t).2.1, (α t).2.2.1, (α t).2.2.2.1, (α t).2.2.2.2⟩).M,
      (ode e t ⟨(α t).2.1, (α t).2.2.1, (α t).2.2.2.1, (α t).2.2.2.2⟩).riso) t := by
    intro t ht
    obtain ⟨b1, b2, b3, b4, b5⟩ := hnear t ht
    refine (hα t b1).congr_deriv ?_
    rw [ode, if_neg b2.ne']
    simp only [field, h1 t b1, (C92_eos e hK hG _ b5).2.2]
    rfl
  refine ⟨r₀ - η, r₀ + η, fun t => ⟨(α t).2.1, (α t).2.2.1, (α t).2.2.2.1, (α t).2.2.2.2⟩, ha, ⟨by linarith, by linarith⟩, by simp only [h0],
    ⟨fun t ht => (hsol t ht).snd.fst, fun t ht => (hsol t ht).snd.snd.fst, fun t ht => (hsol t ht).snd.snd.snd.fst,
      fun t ht => (hsol t ht).snd.snd.snd.snd⟩, fun t ht => ?_⟩
  obtain ⟨b1, b2, b3, b4, b5⟩ := hnear t ht
  exact ⟨b3, b4, b5⟩

/-- The hypotheses of `C92_star` and `C92_bernoulli` are met with the default parameters of the code, a star of matter at positive pressure. -/
example : ∃ (a b : ℝ) (y : ℝ → State) (v : ℝ → Values), 0 ≤ a ∧ (1 : ℝ) ∈ Ioo a b ∧ Solves ⟨1, 2⟩ a b y ∧
    (∀ r ∈ Ioo a b, 2 * (y r).M < r ∧ 0 < (y r).riso ∧ 0 < (y r).P) ∧
    ∀ r ∈ Ioo a b, v (normalized 2 ⟨0, 0, 0.1, 1⟩ r (y r)).1 =
      ⟨energy ⟨1, 2⟩ (y r).P, (y r).P, (normalized 2 ⟨0, 0, 0.1, 1⟩ r (y r)).2.1, (normalized 2 ⟨0, 0, 0.1, 1⟩ r (y r)).2.2⟩ := by
  obtain ⟨a, b, y, ha, h1, h2, h3, h4⟩ := C92_exists ⟨1, 2⟩ one_pos (by norm_num) 1 ⟨0.01, 0, 0.05, 0.9⟩ one_pos (by norm_num) (by norm_num) (by norm_num)
  have hn : 0 < normalize 2 0.1 1 := normalize_pos (by norm_num) (by norm_num) one_pos
  have hF : ∀ r ∈ Ioo a b, HasDerivAt (fun t => (y t).riso * normalize 2 0.1 1)
      ((y r).riso * normalize 2 0.1 1 / (r * √(1 - 2 * (y r).M / r))) r := fun r hr => by
    refine ((h3.riso r hr).mul_const _).congr_deriv ?_
    rw [ode, if_neg (ha.trans_lt hr.1).ne']
    simp only [dr_iso_dr]
    ring
  obtain ⟨G, _, hG, _⟩ := inverse_on hF fun r hr => div_pos (mul_pos (h4 r hr).2.1 hn) (mul_pos (ha.trans_lt hr.1) (sqrt_pos.2 (by
    rw [sub_pos, div_lt_one (ha.trans_lt hr.1)]; exact (h4 r hr).1)))
  refine ⟨a, b, y, fun x => ⟨energy ⟨1, 2⟩ (y (G x)).P, (y (G x)).P, (normalized 2 ⟨0, 0, 0.1, 1⟩ (G x) (y (G x))).2.1,
    (normalized 2 ⟨0, 0, 0.1, 1⟩ (G x) (y (G x))).2.2⟩, ha, h1, h3, h4, fun r hr => ?_⟩
  have : G (normalized 2 ⟨0, 0, 0.1, 1⟩ r (y r)).1 = r := hG r hr
  simp only [this]

/-- At the center the code sets the derivatives to their limits: along a solution that is continuous at the center, with no mass inside radius zero
and an isotropic radius that starts as the areal radius, the right-hand side tends to what is set at radius zero. -/
theorem C92_center (e : Eos) (b : ℝ) (hb : 0 < b) (y : ℝ → State) (hy : Solves e 0 b y) (hP : ContinuousWithinAt (fun r => (y r).P) (Ici 0) 0)
    (hE : ContinuousWithinAt (fun r => energy e (y r).P) (Ici 0) 0) (hM : ContinuousWithinAt (fun r => (y r).M) (Ici 0) 0) (hM0 : (y 0).M = 0)
    (hi : Tendsto (fun r => (y r).riso / r) (𝓝[>] 0) (𝓝 1)) :
    Tendsto (fun r => (ode e r (y r)).P) (𝓝[>] 0) (𝓝 (ode e 0 (y 0)).P) ∧ Tendsto (fun r => (ode e r (y r)).nu) (𝓝[>] 0) (𝓝 (ode e 0 (y 0)).nu) ∧
    Tendsto (fun r => (ode e r (y r)).M) (𝓝[>] 0) (𝓝 (ode e 0 (y 0)).M) ∧
    Tendsto (fun r => (ode e r (y r)).riso) (𝓝[>] 0) (𝓝 (ode e 0 (y 0)).riso) := by
  have h0 : ode e 0 (y 0) = ⟨0, 0, 0, 1⟩ := by rw [ode, if_pos rfl]
  rw [h0]
  have hode : ∀ r : ℝ, 0 < r → ode e r (y r) = ⟨dP_dr r (energy e (y r).P) (y r).P (y r).M, dnu_dr r (y r).P (y r).M, dM_dr r (energy e (y r).P),
      dr_iso_dr r (y r).riso (y r).M⟩ := fun r hr => by rw [ode, if_neg hr.ne']
  have hpos : ∀ᶠ r in 𝓝[>] (0 : ℝ), 0 < r := self_mem_nhdsWithin
  have hsub : 𝓝[>] (0 : ℝ) ≤ 𝓝[≥] 0 := nhdsWithin_mono _ Ioi_subset_Ici_self
  have tP : Tendsto (fun r => (y r).P) (𝓝[>] 0) (𝓝 (y 0).P) := hP.tendsto.mono_left hsub
  have tE : Tendsto (fun r => energy e (y r).P) (𝓝[>] 0) (𝓝 (energy e (y 0).P)) := hE.tendsto.mono_left hsub
  have tr : Tendsto (fun r : ℝ => r) (𝓝[>] 0) (𝓝 0) := tendsto_nhdsWithin_of_tendsto_nhds tendsto_id
  -- the mass is of third order in the radius
  have hbd : ∀ᶠ r in 𝓝[>] (0 : ℝ), |energy e (y r).P| < |energy e (y 0).P| + 1 := tE.abs.eventually (gt_mem_nhds (by linarith))
  obtain ⟨δ, hδ, hball⟩ := (mem_nhdsGT_iff_exists_Ioo_subset).1 hbd
  have hδ' : (0 : ℝ) < δ := hδ
  set C := 4 * π * (|energy e (y 0).P| + 1) with hC
  have hMb : ∀ r, 0 < r → r < min δ b → |(y r).M| ≤ C * r ^ 3 := by
    intro r hr hrd
    have hrδ : r < δ := hrd.trans_le (min_le_left _ _)
    have hrb : r < b := hrd.trans_le (min_le_right _ _)
    obtain ⟨c, hc, hs⟩ := exists_hasDerivAt_eq_slope (fun r => (y r).M) (fun r => (ode e r (y r)).M) hr (fun t ht => by
      rcases eq_or_lt_of_le ht.1 with h | h
      · subst h
        exact hM.mono Icc_subset_Ici_self
      · exact (hy.M t ⟨h, ht.2.trans_lt hrb⟩).continuousAt.continuousWithinAt) (fun t ht => hy.M t ⟨ht.1, ht.2.trans hrb⟩)
    have hE' : |energy e (y c).P| < |energy e (y 0).P| + 1 := hball ⟨hc.1, hc.2.trans hrδ⟩
    rw [hode c hc.1] at hs
    simp only [dM_dr, hM0, sub_zero] at hs
    have : (y r).M = 4 * π * c * c * energy e (y c).P * r := by rw [hs]; field_simp
    rw [this]
    have hpi := Real.pi_pos
    have h1 : |4 * π * c * c * energy e (y c).P * r| = 4 * π * (c * c) * |energy e (y c).P| * r := by
      rw [abs_mul, abs_mul, abs_of_pos hr, abs_of_pos (by have := hc.1; positivity : 0 < 4 * π * c * c)]
      ring
    rw [h1]
    have h2 : c * c ≤ r * r := mul_self_le_mul_self hc.1.le hc.2.le
    calc 4 * π * (c * c) * |energy e (y c).P| * r ≤ 4 * π * (r * r) * (|energy e (y 0).P| + 1) * r := by gcongr
      _ = C * r ^ 3 := by rw [hC]; ring
  have hsmall : ∀ᶠ r in 𝓝[>] (0 : ℝ), 0 < r ∧ r < min δ b :=
    Ioo_mem_nhdsGT (lt_min hδ' hb)
  have hpow : ∀ n : ℕ, 0 < n → Tendsto (fun r : ℝ => C * r ^ n) (𝓝[>] 0) (𝓝 0) := fun n hn => by
    have := (tr.pow n).const_mul C
    rwa [zero_pow hn.ne', mul_zero] at this
  have tM2 : Tendsto (fun r => (y r).M / r ^ 2) (𝓝[>] 0) (𝓝 0) := by
    refine squeeze_zero_norm' ?_ (hpow 1 one_pos)
    filter_upwards [hsmall] with r hr
    rw [Real.norm_eq_abs, abs_div, abs_of_pos (pow_pos hr.1 2), div_le_iff₀ (pow_pos hr.1 2)]
    calc _ ≤ C * r ^ 3 := hMb r hr.1 hr.2
      _ = _ := by ring
  have tM1 : Tendsto (fun r => (y r).M / r) (𝓝[>] 0) (𝓝 0) := by
    have := tM2.mul tr
    rw [mul_zero] at this
    refine this.congr' ?_
    filter_upwards [hpos] with r hr
    field_simp
  have tD : Tendsto (fun r => 1 - 2 * (y r).M / r) (𝓝[>] 0) (𝓝 1) := by
    have := (tM1.const_mul 2).const_sub 1
    rw [mul_zero, sub_zero] at this
    refine this.congr fun r => ?_
    ring
  have hD : ∀ᶠ r in 𝓝[>] (0 : ℝ), 0 < 1 - 2 * (y r).M / r := tD.eventually (lt_mem_nhds one_pos)
  have tN : Tendsto (fun r => (2 * ((y r).M / r ^ 2) + 8 * π * r * (y r).P) / (1 - 2 * (y r).M / r)) (𝓝[>] 0) (𝓝 0) := by
    have := ((tM2.const_mul 2).add ((tr.const_mul (8 * π)).mul tP)).div tD one_ne_zero
    simp only [mul_zero, zero_mul, add_zero, zero_div] at this
    exact this
  refine ⟨?_, ?_, ?_, ?_⟩
  · have := ((tE.add tP).mul tN).const_mul (-1 / 2)
    rw [mul_zero, mul_zero] at this
    refine this.congr' ?_
    filter_upwards [hpos, hD] with r hr hd
    rw [hode r hr]
    simp only [dP_dr]
    generalize 1 - 2 * (y r).M / r = d at hd ⊢
    have := hr.ne'
    have := hd.ne'
    field_simp
  · refine tN.congr' ?_
    filter_upwards [hpos, hD] with r hr hd
    rw [hode r hr]
    simp only [dnu_dr]
    generalize 1 - 2 * (y r).M / r = d at hd ⊢
    have := hr.ne'
    have := hd.ne'
    field_simp
  · have := ((tr.mul tr).mul tE).const_mul (4 * π)
    rw [mul_zero, zero_mul, mul_zero] at this
    refine this.congr' ?_
    filter_upwards [hpos] with r hr
    rw [hode r hr]
    simp only [dM_dr]
    ring
  · have := hi.div tD.sqrt (by rw [Real.sqrt_one]; exact one_ne_zero)
    rw [Real.sqrt_one, div_one] at this
    refine this.congr' ?_
    filter_upwards [hpos] with r hr
    rw [hode r hr]
    simp only [dr_iso_dr, Pi.div_apply]
    rw [div_div]

/-- The hypotheses of `C92_center` are met by a solution with pressure that is not constant. -/
example : let y : ℝ → State := fun r => ⟨-1 / (1 - 2 * π * r ^ 2), 2 * log (1 - 2 * π * r ^ 2), 0, r⟩
    Solves ⟨1, 2⟩ 0 (1 / 3) y ∧ ContinuousWithinAt (fun r => (y r).P) (Ici 0) 0 ∧ ContinuousWithinAt (fun r => energy ⟨1, 2⟩ (y r).P) (Ici 0) 0 ∧
    ContinuousWithinAt (fun r => (y r).M) (Ici 0) 0 ∧ (y 0).M = 0 ∧ Tendsto (fun r => (y r).riso / r) (𝓝[>] 0) (𝓝 1) := by
  intro y
  have hpi := Real.pi_lt_d2
  have hpos := Real.pi_pos
  have hd : ∀ r ∈ Ico (0 : ℝ) (1 / 3), 0 < 1 - 2 * π * r ^ 2 := fun r hr => by
    have : r ^ 2 ≤ (1 / 3) ^ 2 := pow_le_pow_left₀ hr.1 hr.2.le 2
    nlinarith
  have hE : ∀ r ∈ Ico (0 : ℝ) (1 / 3), energy ⟨1, 2⟩ (y r).P = 0 := fun r hr => by
    have : ¬ 0 < -1 / (1 - 2 * π * r ^ 2) := not_lt.2 (div_nonpos_of_nonpos_of_nonneg (by norm_num) (hd r hr).le)
    simp only [energy, densities, y, if_neg this]
    rfl
  have hD : ∀ r : ℝ, HasDerivAt (fun r : ℝ => 1 - 2 * π * r ^ 2) (-(4 * π * r)) r := fun r => by
    refine (((hasDerivAt_pow 2 r).const_mul (2 * π)).const_sub 1).congr_deriv ?_
    push_cast
    ring
  have hode : ∀ r ∈ Ioo (0 : ℝ) (1 / 3), ode ⟨1, 2⟩ r (y r) = ⟨dP_dr r 0 (y r).P 0, dnu_dr r (y r).P 0, dM_dr r 0, dr_iso_dr r r 0⟩ := fun r hr => by
    rw [ode, if_neg hr.1.ne', hE r ⟨hr.1.le, hr.2⟩]
  refine ⟨⟨fun r hr => ?_, fun r hr => ?_, fun r hr => ?_, fun r hr => ?_⟩, ?_, ?_, continuousWithinAt_const, rfl, ?_⟩
  · have h := (hd r ⟨hr.1.le, hr.2⟩).ne'
    have h0 := hr.1.ne'
    rw [hode r hr]
    refine ((hasDerivAt_const r (-1 : ℝ)).div (hD r) h).congr_deriv ?_
    simp only [dP_dr, y, mul_zero, zero_div, sub_zero, zero_add, mul_one]
    generalize 1 - 2 * π * r ^ 2 = d at h ⊢
    field_simp
    ring
  · have h := (hd r ⟨hr.1.le, hr.2⟩).ne'
    have h0 := hr.1.ne'
    rw [hode r hr]
    refine (((hD r).log h).const_mul 2).congr_deriv ?_
    simp only [dnu_dr, y, mul_zero, zero_div, sub_zero, zero_add, mul_one]
    generalize 1 - 2 * π * r ^ 2 = d at h ⊢
    field_simp
    ring
  · rw [hode r hr]
    refine (hasDerivAt_const r (0 : ℝ)).congr_deriv ?_
    simp [dM_dr]
  · rw [hode r hr]
    refine (hasDerivAt_id r).congr_deriv ?_
    have h0 := hr.1.ne'
    simp [dr_iso_dr, h0]
  · exact ((hasDerivAt_const 0 (-1 : ℝ)).div (hD 0) (by norm_num)).continuousAt.continuousWithinAt
  · refine (continuousWithinAt_const (b := 0)).congr_of_eventuallyEq ?_ (hE 0 (by norm_num))
    filter_upwards [Ico_mem_nhdsGE (show (0 : ℝ) < 1 / 3 by norm_num)] with r hr
    exact hE r hr
  · refine tendsto_const_nhds.congr' ?_
    filter_upwards [self_mem_nhdsWithin] with r hr
    exact (div_self (ne_of_gt hr)).symm

/-- The hypotheses of `C92_exterior` and `C92_surface` are met: a star of mass `0.1` and areal radius `1`. -/
example : (0 : ℝ) ≤ 0.1 ∧ (0.1 : ℝ) < 2 * 0.9 ∧ (∀ t, (0.9 : ℝ) ≤ t → exterior 0.1 t = exterior 0.1 t) ∧ 2 * (⟨0, 0, 0.1, 0.8⟩ : State).M < 1 ∧
    (⟨0, 0, 0.1, 0.8⟩ : State).riso ≠ 0 := by
  refine ⟨by norm_num, by norm_num, fun _ _ => rfl, ?_, ?_⟩ <;> norm_num

end Verif.TOV
