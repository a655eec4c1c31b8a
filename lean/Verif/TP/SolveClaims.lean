import Verif.TP.Krylov
import Mathlib.LinearAlgebra.CrossProduct

/-!
# C99: what the solver of TwoPunctures returns

The statements on the linear and nonlinear iteration use `residualOf` (the array that `F_of_v` fills, C97: the Hamiltonian constraint at the nodes), `jacobian` (the array that
`J_times_dv` fills, C97: the derivative of the residual), sums of squares, and the largest absolute value `maxAbs`.
-/
namespace Verif.TP
open Real Verif.RefMetric Verif.BSSN Verif.Wave Filter Topology

/-! ## Specification -/

/-- `it` steps of the iteration lead from the values of `v` to those of `w`. -/
def NewtonRun (tridiag : Tridiag) (par : Par) (n1 n2 n3 : ℕ) (v w : Derivs) (it : ℕ) : Prop :=
  ∃ vs : ℕ → Derivs, (vs 0).d0 = v.d0 ∧ (vs it).d0 = w.d0 ∧ ∀ m, m < it → NewtonStep tridiag par n1 n2 n3 (vs m) (vs (m + 1))

/-- The correction to the conformal factor, in the frame of the solver. -/
noncomputable def uOf (p : Persist) (d0 : ℤ → ℝ) : Scal := fun s => PunctIntPolAtArbitPosition p.par_b p.npoints_A p.npoints_B p.npoints_phi d0 (s 0) (s 1) (s 2)

/-- The mass of the puncture `+`, seen from its own asymptotic end, for bare masses `mp` and `mm`: `mp (1 + up + mm / 2d)` with the distance `d = 2b` of the punctures. -/
noncomputable def punctureMass (b up mp mm : ℝ) : ℝ := mp * (1 + up + mm / (2 * (2 * b)))

/-! ## Lemmas -/

theorem newton_run {par : Par} (hb : 0 < par.par_b) {n1 n2 M : ℕ} (hM : 0 < M) (hn : 0 < n1 * n2 * (2 * M)) (tridiag : Tridiag) (v : Derivs) (tol : ℝ) (htol : tol < 1) (itmax : ℕ) :
    let w := TP_Newton tridiag par n1 n2 (2 * M) v tol itmax
    NewtonRun tridiag par n1 n2 (2 * M) v w.1 w.2.2 ∧ w.2.1 = maxAbs (residualOf par n1 n2 (2 * M) w.1) (n1 * n2 * (2 * M)) ∧ (∃ d, w.1 = Derivatives_AB3 1 n1 n2 (2 * M) d) ∧
      w.2.2 ≤ itmax ∧ (w.2.2 = itmax ∨ w.2.1 ≤ tol) := newton_spec hb hM hn tridiag v tol htol itmax

theorem maxAbs_le {F : ℤ → ℝ} {n : ℕ} (hn : 0 < n) {c : ℝ} : maxAbs F n ≤ c ↔ ∀ x : ℤ, 0 ≤ x ∧ x < (n : ℕ) → |F x| ≤ c := by
  have h := norm_inf_greatest F [List.range n] hn (by simp)
  rw [← norm_inf_eq F [List.range n] hn (by simp)]
  constructor
  · intro hc x hx
    obtain ⟨m, rfl⟩ := Int.eq_ofNat_of_zero_le hx.1
    exact (h.2 ⟨m, by exact_mod_cast hx.2, rfl⟩).trans hc
  · intro hc
    obtain ⟨⟨j, hj, e⟩, -⟩ := h
    rw [← e]
    exact hc j ⟨by positivity, by exact_mod_cast hj⟩

theorem toABphi_phi0 (b x t : ℝ) (ht : 0 ≤ t) : (toABphi b x t 0).2.2 = 0 := by
  have : Complex.arg ⟨t, 0⟩ = 0 := Complex.arg_ofReal_of_nonneg ht
  simp [toABphi, this]

/-- The correction is continuous at the punctures, from the side. -/
theorem intPol_puncture {b : ℝ} (hb : 0 < b) {n1 n2 M : ℕ} (h1 : 0 < n1) (h2 : 0 < n2) (hM : 0 < M) (v : ℤ → ℝ) {s : ℝ} (hs : s = b ∨ s = -b) :
    Tendsto (fun t => PunctIntPolAtArbitPosition b n1 n2 (2 * M) v s t 0) (𝓝[>] 0) (𝓝 (PunctIntPolAtArbitPosition b n1 n2 (2 * M) v s 0 0)) := by
  obtain ⟨f, ⟨hf, -⟩, -, ev⟩ := C94_grid_evaluation n1 n2 M h1 h2 hM v v
  have hc : Continuous (unc f) := (hf.contDiff hM).continuous
  have e : ∀ t : ℝ, 0 ≤ t → PunctIntPolAtArbitPosition b n1 n2 (2 * M) v s t 0 = ((toABphi b s t 0).1 - 1) * unc f ![(toABphi b s t 0).1, (toABphi b s t 0).2.1, 0] := fun t ht => by
    have := toABphi_phi0 b s t ht
    simp only [PunctIntPolAtArbitPosition, (ev _ _ _).1, this, unc]
    rfl
  rw [e 0 le_rfl]
  refine Tendsto.congr' (eventually_nhdsWithin_of_forall fun t ht => (e t (le_of_lt ht)).symm) ?_
  have hss : s / b * (s / b) = 1 := by
    rcases hs with rfl | rfl
    · field_simp
    · field_simp
  have cA : Continuous fun t => (toABphi b s t 0).1 := by
    clear hc ev e hf
    have ht : Continuous tanh := contDiff_tanh'.continuous
    simp only [toABphi]
    have := continuous_arsinh
    fun_prop
  have cB : ContinuousAt (fun t => (toABphi b s t 0).2.1) 0 := by
    simp only [toABphi]
    have cR : Continuous fun t : ℝ => arcsin (min 1 √(-(0.5 * (s / b * (s / b) + (t / b * (t / b) + 0 / b * (0 / b)) - 1)) +
        √(0.5 * (s / b * (s / b) + (t / b * (t / b) + 0 / b * (0 / b)) - 1) * (0.5 * (s / b * (s / b) + (t / b * (t / b) + 0 / b * (0 / b)) - 1)) + (t / b * (t / b) + 0 / b * (0 / b))))) := by
      clear hc ev e hf cA
      have := continuous_arcsin
      fun_prop
    have e0 : arcsin (min 1 √(-(0.5 * (s / b * (s / b) + (0 / b * (0 / b) + 0 / b * (0 / b)) - 1)) +
        √(0.5 * (s / b * (s / b) + (0 / b * (0 / b) + 0 / b * (0 / b)) - 1) * (0.5 * (s / b * (s / b) + (0 / b * (0 / b) + 0 / b * (0 / b)) - 1)) + (0 / b * (0 / b) + 0 / b * (0 / b))))) = 0 := by
      rw [hss]
      simp
    by_cases h0 : s < 0
    · simp only [if_pos h0]
      refine ContinuousAt.comp (g := tan) ?_ (((continuousAt_const.mul (continuousAt_const.sub cR.continuousAt))).sub continuousAt_const)
      rw [continuousAt_tan, e0, show 0.5 * (π - 0) - π / 4 = π / 4 by ring, cos_pi_div_four]
      positivity
    · simp only [if_neg h0]
      refine ContinuousAt.comp (g := tan) ?_ (((continuousAt_const.mul cR.continuousAt)).sub continuousAt_const)
      rw [continuousAt_tan, e0, show 0.5 * 0 - π / 4 = -(π / 4) by ring, cos_neg, cos_pi_div_four]
      positivity
  have c : ContinuousAt (fun t => ((toABphi b s t 0).1 - 1) * unc f ![(toABphi b s t 0).1, (toABphi b s t 0).2.1, 0]) 0 := by
    refine (cA.continuousAt.sub continuousAt_const).mul (hc.continuousAt.comp ?_)
    rw [continuousAt_pi]
    intro i
    fin_cases i
    · exact cA.continuousAt
    · exact cB
    · exact continuousAt_const
  exact c.tendsto.mono_left nhdsWithin_le_nhds

/-- The coordinates of the points of the positive `y` axis. -/
theorem toABphi_axis {b : ℝ} (hb : 0 < b) {t : ℝ} (ht : 0 < t) :
    ∃ a : ℝ, 0 ≤ a ∧ a < 1 ∧ toABphi b 0 t 0 = (2 * a - 1, 0, 0) ∧ t * (1 - a) = 2 * a * b / (1 + a) := by
  obtain ⟨hA, hB, -, hp⟩ := C96_inverse b 0 t 0 hb
  have hphi := toABphi_phi0 b 0 t ht.le
  rcases hq : toABphi b 0 t 0 with ⟨A, B, phi⟩
  rw [hq] at hA hB hp hphi
  simp only at hA hB hp hphi
  subst hphi
  obtain ⟨a, rfl⟩ : ∃ a, A = 2 * a - 1 := ⟨(A + 1) / 2, by ring⟩
  have ha0 : 0 ≤ a := by linarith [hA.1]
  have ha1 : a < 1 := by linarith [hA.2]
  have e0 := congrFun hp 0
  have e1 := congrFun hp 1
  simp only [position, Matrix.cons_val_zero, Matrix.cons_val_one] at e0 e1
  rw [show (2 * a - 1 + 1) / 2 = a by ring] at e0 e1
  have hB0 : B = 0 := by
    have h1 : a ^ 2 - 1 ≠ 0 := by nlinarith
    have h2 : (a ^ 2 + 1) / (a ^ 2 - 1) ≠ 0 := div_ne_zero (by positivity) h1
    rcases mul_eq_zero.1 e0 with h | h
    · exact absurd h (mul_ne_zero hb.ne' h2)
    · have : 1 + B ^ 2 ≠ 0 := by positivity
      rcases div_eq_zero_iff.1 h with h | h
      · linarith
      · exact absurd h this
  subst hB0
  refine ⟨a, ha0, ha1, rfl, ?_⟩
  have h1 : 1 - a ^ 2 ≠ 0 := by nlinarith
  have h2 : 1 + a ≠ 0 := by linarith
  simp at e1
  rw [← e1]
  field_simp
  ring

/-- `2 t u → -4 b v(A = 1, B = 0, phi = 0)` along the `y` axis. -/
theorem intPol_infinity {b : ℝ} (hb : 0 < b) {n1 n2 M : ℕ} (h1 : 0 < n1) (h2 : 0 < n2) (hM : 0 < M) (v : ℤ → ℝ) :
    Tendsto (fun t => 2 * t * PunctIntPolAtArbitPosition b n1 n2 (2 * M) v 0 t 0) atTop (𝓝 (-4 * b * PunctEvalAtArbitPosition v 0 1 0 0 1 n1 n2 (2 * M))) := by
  obtain ⟨f, ⟨hf, -⟩, -, ev⟩ := C94_grid_evaluation n1 n2 M h1 h2 hM v v
  have hc : Continuous (unc f) := (hf.contDiff hM).continuous
  rw [(ev 1 0 0).1]
  have key : ∀ t : ℝ, ∃ a : ℝ, 0 < t → 0 ≤ a ∧ a < 1 ∧ toABphi b 0 t 0 = (2 * a - 1, 0, 0) ∧ t * (1 - a) = 2 * a * b / (1 + a) := fun t => by
    by_cases ht : 0 < t
    · obtain ⟨a, h⟩ := toABphi_axis hb ht
      exact ⟨a, fun _ => h⟩
    · exact ⟨0, fun h => absurd h ht⟩
  choose a ha using key
  have lim : Tendsto a atTop (𝓝 1) := by
    have l0 : Tendsto (fun t : ℝ => 1 - 2 * b / t) atTop (𝓝 1) := by
      have := (tendsto_const_nhds (x := 2 * b)).div_atTop (tendsto_id (α := ℝ) (x := atTop))
      simpa using (tendsto_const_nhds (x := (1 : ℝ))).sub this
    refine tendsto_of_tendsto_of_tendsto_of_le_of_le' l0 tendsto_const_nhds ?_ ?_
    · filter_upwards [eventually_gt_atTop 0] with t ht
      obtain ⟨p0, p1, -, p3⟩ := ha t ht
      have : t * (1 - a t) ≤ 2 * b := by
        rw [p3, div_le_iff₀ (by linarith)]
        nlinarith
      rw [sub_le_comm, le_div_iff₀ ht]
      linarith
    · filter_upwards [eventually_gt_atTop 0] with t ht
      exact (ha t ht).2.1.le
  have e : ∀ t : ℝ, 0 < t → 2 * t * PunctIntPolAtArbitPosition b n1 n2 (2 * M) v 0 t 0 = -4 * (2 * a t * b / (1 + a t)) * unc f ![2 * a t - 1, 0, 0] := fun t ht => by
    obtain ⟨p0, p1, p2, p3⟩ := ha t ht
    simp only [PunctIntPolAtArbitPosition, (ev _ _ _).1, p2]
    have : unc f ![2 * a t - 1, 0, 0] = f (2 * a t - 1) 0 0 := rfl
    rw [this, ← p3]
    ring
  refine Tendsto.congr' ((eventually_gt_atTop 0).mono fun t ht => (e t ht).symm) ?_
  have g : ContinuousAt (fun a : ℝ => -4 * (2 * a * b / (1 + a)) * unc f ![2 * a - 1, 0, 0]) 1 := by
    refine ContinuousAt.mul ?_ (hc.continuousAt.comp ?_)
    · exact continuousAt_const.mul (((continuousAt_const.mul continuousAt_id).mul continuousAt_const).div (continuousAt_const.add continuousAt_id) (by norm_num))
    · rw [continuousAt_pi]
      intro i
      fin_cases i
      · exact (continuousAt_const.mul continuousAt_id).sub continuousAt_const
      · exact continuousAt_const
      · exact continuousAt_const
  have g1 : -4 * (2 * 1 * b / (1 + 1)) * unc f ![2 * 1 - 1, 0, 0] = -4 * b * f 1 0 0 := by
    have : unc f ![2 * 1 - 1, 0, 0] = f (2 * 1 - 1) 0 0 := rfl
    rw [this]
    norm_num
  have := g.tendsto.comp lim
  rw [g1] at this
  exact this

theorem bare_inverse {b Mp Mm up um : ℝ} (hb : 0 < b) (hp : 0 < 1 + up) (hm : 0 < 1 + um) (hMp : 0 ≤ Mp) (hMm : 0 ≤ Mm) :
    let tmp := -4 * b * (1 + um + up + um * up) + √(16 * b * Mm * (1 + um) * (1 + up) + (-Mm + Mp + 4 * b * (1 + um) * (1 + up)) ^ 2)
    let mp := (tmp + Mp - Mm) / (2 * (1 + up))
    let mm := (tmp - Mp + Mm) / (2 * (1 + um))
    (1 + up) * mp + mp * mm / (4 * b) = Mp ∧ (1 + um) * mm + mp * mm / (4 * b) = Mm ∧ 0 ≤ mp ∧ 0 ≤ mm := by
  intro tmp mp mm
  obtain ⟨K, hK⟩ : ∃ K, 4 * b * (1 + um) * (1 + up) = K := ⟨_, rfl⟩
  have K0 : 0 < K := by rw [← hK]; positivity
  obtain ⟨S, hS⟩ : ∃ S, √(16 * b * Mm * (1 + um) * (1 + up) + (-Mm + Mp + 4 * b * (1 + um) * (1 + up)) ^ 2) = S := ⟨_, rfl⟩
  have S0 : 0 ≤ S := by rw [← hS]; exact sqrt_nonneg _
  have S2 : S ^ 2 = (Mp - Mm) ^ 2 + K ^ 2 + 2 * K * (Mp + Mm) := by
    rw [← hS, sq_sqrt (by positivity), ← hK]
    ring
  have ht : tmp = S - K := by
    simp only [tmp]
    rw [hS, ← hK]
    ring
  have hX : (1 + up) * mp = (S - K + (Mp - Mm)) / 2 := by
    simp only [mp, ht]
    field_simp
    ring
  have hY : (1 + um) * mm = (S - K - (Mp - Mm)) / 2 := by
    simp only [mm, ht]
    field_simp
    ring
  have hXY : mp * mm / (4 * b) = (K + Mp + Mm - S) / 2 := by
    have e : mp * mm / (4 * b) = ((1 + up) * mp) * ((1 + um) * mm) / K := by
      rw [← hK]
      field_simp
    rw [e, hX, hY, div_eq_iff K0.ne']
    linear_combination S2 / 4
  have n1 : K + (Mm - Mp) ≤ S := abs_le_of_sq_le_sq' (by rw [S2]; nlinarith) S0 |>.2
  have n2 : K + (Mp - Mm) ≤ S := abs_le_of_sq_le_sq' (by rw [S2]; nlinarith) S0 |>.2
  refine ⟨by rw [hX, hXY]; ring, by rw [hY, hXY]; ring, ?_, ?_⟩
  · refine nonneg_of_mul_nonneg_right ?_ hp
    rw [hX]
    linarith
  · refine nonneg_of_mul_nonneg_right ?_ hm
    rw [hY]
    linarith

/-! ## The structure of the driver -/

/-- The same structure with other fields that the solver writes. -/
def Persist.written (p : Persist) (v : Derivs) (cf : ℤ → ℝ) (mp mm : ℝ) : Persist := { p with par_m_plus := mp, par_m_minus := mm, mp := mp, mm := mm, v := v, cf_v := cf }

theorem loop_cases (tridiag : Tridiag) : ∀ (fuel : ℕ) (p q : Persist), p = p.written p.v p.cf_v p.mp p.mm → bareMassLoop tridiag fuel p = some q →
    ∃ (v : Derivs) (mp mm : ℝ), q = (bareMassStep tridiag (p.written v p.cf_v mp mm)).1 ∧
      (bareMassStep tridiag (p.written v p.cf_v mp mm)).2.1 ≤ p.adm_tol ∧ (bareMassStep tridiag (p.written v p.cf_v mp mm)).2.2 ≤ p.adm_tol
  | 0, p, q, _, h => by simp [bareMassLoop] at h
  | fuel + 1, p, q, hp, h => by
    have hw : (bareMassStep tridiag p).1 = p.written (bareMassStep tridiag p).1.v p.cf_v (bareMassStep tridiag p).1.mp (bareMassStep tridiag p).1.mm := rfl
    rw [bareMassLoop] at h
    simp only at h
    split_ifs at h with hc
    · obtain ⟨v, mp, mm, h1, h2, h3⟩ := loop_cases tridiag fuel _ q rfl h
      exact ⟨v, mp, mm, h1, h2, h3⟩
    · have hc' := not_or.1 hc
      refine ⟨p.v, p.mp, p.mm, ?_⟩
      rw [← hp]
      exact ⟨(Option.some.inj h).symm, not_lt.1 hc'.1, not_lt.1 hc'.2⟩

/-- The solve at the end. -/
noncomputable def lastSolve (tridiag : Tridiag) (p : Persist) : Persist :=
  let v := (F_of_v p.toPar p.npoints_A p.npoints_B p.npoints_phi (TP_Newton tridiag p.toPar p.npoints_A p.npoints_B p.npoints_phi p.v p.Newton_tol p.Newton_maxit).1 0 .zero).1
  { p with v := v, cf_v := SpecCoef p.npoints_A p.npoints_B p.npoints_phi 0 v.d0 p.cf_v }

theorem solve_cases {tridiag : Tridiag} {fuel : ℕ} {p q : Persist} {R : Results} (h : TP_solve tridiag fuel p = some (q, R)) :
    ∃ q0, q = lastSolve tridiag q0 ∧
      (p.give_bare_mass = true → q0 = p.written .zero (fun _ => 0) p.par_m_plus p.par_m_minus) ∧
      (p.give_bare_mass = false → bareMassLoop tridiag fuel (p.written .zero (fun _ => 0) p.par_m_plus p.par_m_minus) = some q0) ∧
      R.mp_adm = (admMasses q (atPunctures q).1 (atPunctures q).2).1 ∧ R.mm_adm = (admMasses q (atPunctures q).1 (atPunctures q).2).2 ∧
      R.E = q.mp + q.mm - 4 * q.par_b * PunctEvalAtArbitPosition q.v.d0 0 1 0 0 1 q.npoints_A q.npoints_B q.npoints_phi ∧
      ![R.J1, R.J2, R.J3] = crossProduct (q.center_offset + plus q.toPar) q.par_P_plus + crossProduct (q.center_offset + minus q.toPar) q.par_P_minus +
        q.par_S_plus + q.par_S_minus := by
  simp only [TP_solve] at h
  obtain ⟨q0, h0, h1⟩ := Option.map_eq_some_iff.1 h
  have hq : q = lastSolve tridiag q0 := (congrArg Prod.fst h1).symm
  have hR := (congrArg Prod.snd h1).symm
  simp only at hR
  refine ⟨q0, hq, fun hg => ?_, fun hg => ?_, ?_, ?_, ?_, ?_⟩
  · rw [if_neg (by rw [hg]; simp)] at h0
    exact (Option.some.inj h0).symm
  · rw [if_pos hg] at h0
    exact h0
  · rw [hR, hq]
    rfl
  · rw [hR, hq]
    rfl
  · rw [hR, hq]
    rfl
  · rw [hR, hq]
    simp only [cross_apply, lastSolve, plus, minus]
    funext i
    fin_cases i <;> simp [Matrix.vecHead, Matrix.vecTail] <;> ring

theorem step_newton {p : Persist} (hb : 0 < p.par_b) {M : ℕ} (hM : 0 < M) (h1 : 0 < p.npoints_A) (h2 : 0 < p.npoints_B) (h3 : p.npoints_phi = 2 * M) (ht : p.Newton_tol < 1)
    (tridiag : Tridiag) (itmax : ℕ) :
    let w := (F_of_v p.toPar p.npoints_A p.npoints_B p.npoints_phi (TP_Newton tridiag p.toPar p.npoints_A p.npoints_B p.npoints_phi p.v p.Newton_tol itmax).1 0 .zero).1
    (∃ d, w = Derivatives_AB3 1 p.npoints_A p.npoints_B p.npoints_phi d) ∧
    ∃ it ≤ itmax, NewtonRun tridiag p.toPar p.npoints_A p.npoints_B p.npoints_phi p.v w it ∧ (it = itmax ∨
      ∀ x : ℤ, 0 ≤ x ∧ x < (p.npoints_A * p.npoints_B * p.npoints_phi : ℕ) → |residualOf p.toPar p.npoints_A p.npoints_B p.npoints_phi w x| ≤ p.Newton_tol) := by
  have hn : 0 < p.npoints_A * p.npoints_B * (2 * M) := by positivity
  rw [h3]
  obtain ⟨⟨vs, r0, r1, r2⟩, e1, -, e3, e4⟩ := newton_run (par := p.toPar) hb hM hn tridiag p.v p.Newton_tol ht itmax
  have e := (F_of_v_at p.toPar p.npoints_A p.npoints_B (2 * M) (TP_Newton tridiag p.toPar p.npoints_A p.npoints_B (2 * M) p.v p.Newton_tol itmax).1 0 .zero).1
  have ed : (F_of_v p.toPar p.npoints_A p.npoints_B (2 * M) (TP_Newton tridiag p.toPar p.npoints_A p.npoints_B (2 * M) p.v p.Newton_tol itmax).1 0 .zero).1.d0 =
      (TP_Newton tridiag p.toPar p.npoints_A p.npoints_B (2 * M) p.v p.Newton_tol itmax).1.d0 := F_d0 hM _ _ _
  refine ⟨⟨_, e⟩, _, e3, ⟨vs, r0, r1.trans ed.symm, r2⟩, e4.imp id fun h x hx => ?_⟩
  rw [e1] at h
  have := (maxAbs_le hn).1 h x hx
  rwa [residualOf, residual_congr hM hb _ _ 0 .zero (fun y _ => by rw [ed]) hx] at this

/-! ## C99 -/

/-- C99: the linear solver returns, as a norm and independently of the preconditioner, the norm of the residual of the linear system for the array that it returns, and reports
success (zero) if and only if this is at most the tolerance. -/
theorem C99_bicgstab (tridiag : Tridiag) (par : Par) (hb : 0 < par.par_b) (n1 n2 M : ℕ) (hM : 0 < M) (v dv : Derivs) (itmax : ℕ) (tol : ℝ) :
    let w := bicgstab tridiag par n1 n2 (2 * M) v dv itmax tol
    w.2.1 = √(∑ x ∈ Finset.range (n1 * n2 * (2 * M)), ((F_of_v par n1 n2 (2 * M) v 0 .zero).2.1 x -
      (J_times_dv par n1 n2 (2 * M) w.1 0 (F_of_v par n1 n2 (2 * M) v 0 .zero).2.2).2 x) ^ 2) ∧
    (w.2.2 = 0 ↔ w.2.1 ≤ tol) ∧ (∀ x : ℤ, ¬(0 ≤ x ∧ x < (n1 * n2 * (2 * M) : ℕ)) → w.1.d0 x = dv.d0 x) := by
  intro w
  obtain ⟨h1, h2, -, -, h5⟩ := bicgstab_spec hb hM tridiag v dv itmax tol
  refine ⟨?_, h2, h5⟩
  have : w.2.1 = _ := h1
  rw [this, linNorm, norm2_eq]
  congr 1
  refine Finset.sum_congr rfl fun x hx => ?_
  have hx' : (0 : ℤ) ≤ x ∧ (x : ℤ) < (n1 * n2 * (2 * M) : ℕ) := ⟨by positivity, by exact_mod_cast Finset.mem_range.1 hx⟩
  rw [← jacobian_eq hb hM v w.1 0 hx' 0 .zero]
  rfl

/-- C99, the other results: the code for too many iterations is never returned, and a positive result, which the documentation calls a success, is the number of iterations after
which the tolerance was not reached. -/
theorem C99_bicgstab_codes (tridiag : Tridiag) (par : Par) (hb : 0 < par.par_b) (n1 n2 M : ℕ) (hM : 0 < M) (v dv : Derivs) (itmax : ℕ) (tol : ℝ) :
    let w := bicgstab tridiag par n1 n2 (2 * M) v dv itmax tol
    w.2.2 ≠ -1 ∧ w.2.2 ≤ itmax + 1 ∧ (0 < w.2.2 → tol < w.2.1) := by
  intro w
  obtain ⟨-, h2, h3, h4, -⟩ := bicgstab_spec hb hM tridiag v dv itmax tol
  refine ⟨h3, h4, fun h => not_le.1 fun hc => ?_⟩
  have : w.2.2 = 0 := h2.2 hc
  omega

/-- C99: the maximum norm is the largest absolute value, for every distribution of the indices over the threads and every order in which these finish. -/
theorem C99_norm_inf (F : ℤ → ℝ) (chunks : List (List ℕ)) (n : ℕ) (hn : 0 < n) (h : chunks.flatten.Perm (List.range n)) :
    IsGreatest ((fun j : ℕ => |F j|) '' {j | j < n}) (norm_inf F chunks) := norm_inf_greatest F chunks hn h

/-- C99: the nonlinear solver.  The result is reached by steps `v - d` in which `d` solves the linearised equation at `v` up to a thousandth of the largest residual whenever the
linear solver reports success; at the end the residual at every node is at most the tolerance unless all iterations have been used. -/
theorem C99_newton_partial (tridiag : Tridiag) (par : Par) (hb : 0 < par.par_b) (n1 n2 M : ℕ) (h1 : 0 < n1) (h2 : 0 < n2) (hM : 0 < M) (v : Derivs) (tol : ℝ) (ht : tol < 1) (itmax : ℕ) :
    let w := TP_Newton tridiag par n1 n2 (2 * M) v tol itmax
    NewtonRun tridiag par n1 n2 (2 * M) v w.1 w.2.2 ∧ w.2.2 ≤ itmax ∧
    (w.2.2 = itmax ∨ ∀ i < n1, ∀ j < n2, ∀ k < 2 * M, |(F_of_v par n1 n2 (2 * M) w.1 0 .zero).2.1 (Index 0 i j k 1 n1 n2 (2 * M : ℕ))| ≤ tol) := by
  have hn : 0 < n1 * n2 * (2 * M) := by positivity
  obtain ⟨r1, r2, -, r4, r5⟩ := newton_run hb hM hn tridiag v tol ht itmax
  refine ⟨r1, r4, r5.imp id fun h i hi j hj k hk => ?_⟩
  rw [r2] at h
  exact (maxAbs_le hn).1 h _ (node_index hi hj hk)

/-- C99: what a step is, in terms of the linear solver's report. -/
theorem C99_newton_step (tridiag : Tridiag) (par : Par) (hb : 0 < par.par_b) (n1 n2 M : ℕ) (hM : 0 < M) (v w : Derivs) (h : NewtonStep tridiag par n1 n2 (2 * M) v w) :
    ∃ (d : Derivs) (report : ℤ), (∃ dv norm, bicgstab tridiag par n1 n2 (2 * M) v dv 100 (maxAbs (residualOf par n1 n2 (2 * M) v) (n1 * n2 * (2 * M)) * 1e-3) = (d, norm, report)) ∧
      (∀ i < n1, ∀ j < n2, ∀ k < 2 * M, w.d0 (Index 0 i j k 1 n1 n2 (2 * M : ℕ)) = v.d0 (Index 0 i j k 1 n1 n2 (2 * M : ℕ)) - d.d0 (Index 0 i j k 1 n1 n2 (2 * M : ℕ))) ∧
      (report = 0 → √(∑ x ∈ Finset.range (n1 * n2 * (2 * M)), ((F_of_v par n1 n2 (2 * M) v 0 .zero).2.1 x -
        (J_times_dv par n1 n2 (2 * M) d 0 (F_of_v par n1 n2 (2 * M) v 0 .zero).2.2).2 x) ^ 2) ≤
          maxAbs (residualOf par n1 n2 (2 * M) v) (n1 * n2 * (2 * M)) / 1000) := by
  obtain ⟨dv, -, h1, -⟩ := h
  obtain ⟨e1, e2, -⟩ := C99_bicgstab tridiag par hb n1 n2 M hM v dv 100 (maxAbs (residualOf par n1 n2 (2 * M) v) (n1 * n2 * (2 * M)) * 1e-3)
  generalize hB : bicgstab tridiag par n1 n2 (2 * M) v dv 100 _ = B at h1 e1 e2
  refine ⟨B.1, B.2.2, ⟨dv, B.2.1, hB⟩, fun i hi j hj k hk => h1 _ (node_index hi hj hk), fun h => ?_⟩
  rw [← e1]
  refine (e2.1 h).trans (le_of_eq ?_)
  norm_num
  ring

/-- C99: the driver.  Only the solution, its spectral coefficients and the bare masses change, which the equations and the interpolation then agree on; so the hypotheses of
`C98_constraints` hold.  The solution comes from the nonlinear solver with the final bare masses, and has residuals at most the tolerance unless all iterations have been used;
with `give_bare_mass` the bare masses are the given ones and the iteration starts at zero. -/
theorem C99_solve (tridiag : Tridiag) (fuel : ℕ) (p q : Persist) (R : Results) (h : TP_solve tridiag fuel p = some (q, R)) (hb : 0 < p.par_b) (M : ℕ) (hM : 0 < M)
    (h1 : 0 < p.npoints_A) (h2 : 0 < p.npoints_B) (h3 : p.npoints_phi = 2 * M) (ht : p.Newton_tol < 1) :
    q = { p with par_m_plus := q.mp, par_m_minus := q.mm, mp := q.mp, mm := q.mm, v := q.v, cf_v := q.cf_v } ∧
    q.cf_v = SpecCoef p.npoints_A p.npoints_B p.npoints_phi 0 q.v.d0 (fun _ => 0) ∧ (∃ d, q.v = Derivatives_AB3 1 p.npoints_A p.npoints_B p.npoints_phi d) ∧
    ∃ v0 : Derivs, (p.give_bare_mass = true → v0.d0 = 0 ∧ q.mp = p.par_m_plus ∧ q.mm = p.par_m_minus) ∧
    ∃ it ≤ p.Newton_maxit, NewtonRun tridiag q.toPar p.npoints_A p.npoints_B p.npoints_phi v0 q.v it ∧ (it = p.Newton_maxit ∨
      ∀ i < p.npoints_A, ∀ j < p.npoints_B, ∀ k < p.npoints_phi,
        |(F_of_v q.toPar p.npoints_A p.npoints_B p.npoints_phi q.v 0 .zero).2.1 (Index 0 i j k 1 p.npoints_A p.npoints_B p.npoints_phi)| ≤ p.Newton_tol) := by
  obtain ⟨q0, hq, hgt, hgf, -⟩ := solve_cases h
  have hq0 : q0 = p.written q0.v (fun _ => 0) q0.mp q0.mm := by
    rcases hg : p.give_bare_mass with _ | _
    · obtain ⟨v, mp, mm, e, -, -⟩ := loop_cases tridiag fuel _ _ rfl (hgf hg)
      rw [e]
      rfl
    · rw [hgt hg]
      rfl
  obtain ⟨d, it, hi, hr, ho⟩ := step_newton (p := q0) (by rw [hq0]; exact hb) hM (by rw [hq0]; exact h1) (by rw [hq0]; exact h2) (by rw [hq0]; exact h3) (by rw [hq0]; exact ht) tridiag q0.Newton_maxit
  have en : q0.npoints_A = p.npoints_A ∧ q0.npoints_B = p.npoints_B ∧ q0.npoints_phi = p.npoints_phi ∧ q0.Newton_maxit = p.Newton_maxit ∧ q0.Newton_tol = p.Newton_tol ∧
      q0.cf_v = fun _ => 0 := by
    rw [hq0]
    exact ⟨rfl, rfl, rfl, rfl, rfl, rfl⟩
  have eP : q.toPar = q0.toPar := by rw [hq]; rfl
  have ev : q.v = (F_of_v q0.toPar q0.npoints_A q0.npoints_B q0.npoints_phi (TP_Newton tridiag q0.toPar q0.npoints_A q0.npoints_B q0.npoints_phi q0.v q0.Newton_tol
    q0.Newton_maxit).1 0 .zero).1 := by rw [hq]; rfl
  rw [← ev, en.1, en.2.1, en.2.2.1] at d hr ho
  rw [en.2.2.2.1] at hi ho
  rw [en.2.2.2.2.1] at ho
  refine ⟨?_, ?_, d, q0.v, fun hg => ?_, it, hi, by rw [eP]; exact hr, ho.imp id fun h i hi j hj k hk => ?_⟩
  · rw [hq, hq0]
    rfl
  · rw [ev, hq]
    simp only [lastSolve, en]
  · rw [hq, hgt hg]
    exact ⟨rfl, rfl, rfl⟩
  · rw [eP]
    exact h _ (node_index hi hj hk)

/-- C99: with target masses, the final bare masses are such that the masses of the punctures equal the targets, for the solution of the last pass of the loop for the bare masses
(from which the final solve starts), provided that `1 + u` is positive at the punctures there; and in that pass the masses before the update were within the tolerance. -/
theorem C99_bare_masses (tridiag : Tridiag) (fuel : ℕ) (p q : Persist) (R : Results) (h : TP_solve tridiag fuel p = some (q, R)) (hb : 0 < p.par_b) (M : ℕ) (hM : 0 < M)
    (h1 : 0 < p.npoints_A) (h2 : 0 < p.npoints_B) (h3 : p.npoints_phi = 2 * M) (ht : p.Newton_tol < 1) (hg : p.give_bare_mass = false) (hMp : 0 ≤ p.target_M_plus)
    (hMm : 0 ≤ p.target_M_minus) :
    ∃ (w : Derivs) (it : ℕ), NewtonRun tridiag q.toPar p.npoints_A p.npoints_B p.npoints_phi w q.v it ∧
      let up := uOf p w.d0 (plus p.toPar)
      let um := uOf p w.d0 (minus p.toPar)
      (0 < 1 + up → 0 < 1 + um → punctureMass p.par_b up q.mp q.mm = p.target_M_plus ∧ punctureMass p.par_b um q.mm q.mp = p.target_M_minus ∧ 0 ≤ q.mp ∧ 0 ≤ q.mm) ∧
      ∃ mp mm : ℝ, |p.target_M_plus - punctureMass p.par_b up mp mm| ≤ p.adm_tol ∧ |p.target_M_minus - punctureMass p.par_b um mm mp| ≤ p.adm_tol := by
  obtain ⟨q0, hq, -, hgf, -⟩ := solve_cases h
  obtain ⟨v, mp, mm, e, t1, t2⟩ := loop_cases tridiag fuel _ _ rfl (hgf hg)
  set p' := (p.written Derivs.zero (fun _ => 0) p.par_m_plus p.par_m_minus).written v (p.written Derivs.zero (fun _ => 0) p.par_m_plus p.par_m_minus).cf_v mp mm with hp'
  have hq0 : q0 = p.written q0.v (fun _ => 0) q0.mp q0.mm := by
    rw [e]
    rfl
  obtain ⟨-, it, -, hr, -⟩ := step_newton (p := q0) (by rw [hq0]; exact hb) hM (by rw [hq0]; exact h1) (by rw [hq0]; exact h2) (by rw [hq0]; exact h3) (by rw [hq0]; exact ht) tridiag q0.Newton_maxit
  have en : q0.npoints_A = p.npoints_A ∧ q0.npoints_B = p.npoints_B ∧ q0.npoints_phi = p.npoints_phi := by
    rw [hq0]
    exact ⟨rfl, rfl, rfl⟩
  have eP : q.toPar = q0.toPar := by rw [hq]; rfl
  have ev : q.v = (F_of_v q0.toPar q0.npoints_A q0.npoints_B q0.npoints_phi (TP_Newton tridiag q0.toPar q0.npoints_A q0.npoints_B q0.npoints_phi q0.v q0.Newton_tol
    q0.Newton_maxit).1 0 .zero).1 := by rw [hq]; rfl
  rw [← ev, en.1, en.2.1, en.2.2, ← eP] at hr
  have emp : q.mp = q0.mp := by rw [hq]; rfl
  have emm : q.mm = q0.mm := by rw [hq]; rfl
  refine ⟨q0.v, it, hr, ?_⟩
  have eu : uOf p q0.v.d0 (plus p.toPar) = (atPunctures q0).1 := by
    rw [hq0]
    simp [uOf, atPunctures, plus, Persist.written]
  have em : uOf p q0.v.d0 (minus p.toPar) = (atPunctures q0).2 := by
    rw [hq0]
    simp [uOf, atPunctures, minus, Persist.written]
  rw [eu, em]
  intro up um
  have b0 : p.par_b ≠ 0 := hb.ne'
  have pm : ∀ u m m' : ℝ, punctureMass p.par_b u m m' = (1 + u) * m + m * m' / (4 * p.par_b) := fun u m m' => by
    rw [punctureMass]
    field_simp
    ring
  have pm' : ∀ u m m' : ℝ, punctureMass p.par_b u m m' = (1 + u) * m + m' * m / (4 * p.par_b) := fun u m m' => by
    rw [punctureMass]
    field_simp
    ring
  refine ⟨fun hp hm => ?_, mp, mm, ?_, ?_⟩
  · rw [pm, pm', emp, emm]
    have := bare_inverse hb hp hm hMp hMm
    have f1 : q0.mp = (-4 * p.par_b * (1 + um + up + um * up) + √(16 * p.par_b * p.target_M_minus * (1 + um) * (1 + up) +
        (-p.target_M_minus + p.target_M_plus + 4 * p.par_b * (1 + um) * (1 + up)) ^ 2) + p.target_M_plus - p.target_M_minus) / (2 * (1 + up)) := by
      simp only [up, um]
      rw [e]
      rfl
    have f2 : q0.mm = (-4 * p.par_b * (1 + um + up + um * up) + √(16 * p.par_b * p.target_M_minus * (1 + um) * (1 + up) +
        (-p.target_M_minus + p.target_M_plus + 4 * p.par_b * (1 + um) * (1 + up)) ^ 2) - p.target_M_plus + p.target_M_minus) / (2 * (1 + um)) := by
      simp only [up, um]
      rw [e]
      rfl
    rw [f1, f2]
    exact this
  · rw [pm]
    simp only [up]
    rw [e]
    exact t1
  · rw [pm']
    simp only [um]
    rw [e]
    exact t2

/-- C99: the reported masses of the punctures are those of the final solution and bare masses, and the limits `m (ψ - m / 2r)` at the punctures. -/
theorem C99_puncture_masses (tridiag : Tridiag) (fuel : ℕ) (p q : Persist) (R : Results) (h : TP_solve tridiag fuel p = some (q, R)) (hb : 0 < p.par_b) (M : ℕ) (hM : 0 < M)
    (h1 : 0 < p.npoints_A) (h2 : 0 < p.npoints_B) (h3 : p.npoints_phi = 2 * M) (ht : p.Newton_tol < 1) :
    R.mp_adm = punctureMass p.par_b (uOf p q.v.d0 (plus p.toPar)) q.mp q.mm ∧
    R.mm_adm = punctureMass p.par_b (uOf p q.v.d0 (minus p.toPar)) q.mm q.mp ∧
    Tendsto (fun t => q.mp * (conformal q.toPar (uOf q q.v.d0) ![p.par_b, t, 0] - q.mp / (2 * t))) (𝓝[>] 0) (𝓝 R.mp_adm) ∧
    Tendsto (fun t => q.mm * (conformal q.toPar (uOf q q.v.d0) ![-p.par_b, t, 0] - q.mm / (2 * t))) (𝓝[>] 0) (𝓝 R.mm_adm) := by
  obtain ⟨-, -, -, -, r1, r2, -, -⟩ := solve_cases h
  have hq := (C99_solve tridiag fuel p q R h hb M hM h1 h2 h3 ht).1
  have eb : q.par_b = p.par_b := by rw [hq]
  have eA : q.npoints_A = p.npoints_A := by rw [hq]
  have eB : q.npoints_B = p.npoints_B := by rw [hq]
  have ep : q.npoints_phi = 2 * M := by rw [← h3, hq]
  have emp : q.par_m_plus = q.mp := by rw [hq]
  have emm : q.par_m_minus = q.mm := by rw [hq]
  have b0 : p.par_b ≠ 0 := hb.ne'
  have u1 : uOf p q.v.d0 (plus p.toPar) = PunctIntPolAtArbitPosition p.par_b p.npoints_A p.npoints_B (2 * M) q.v.d0 p.par_b 0 0 := by
    simp [uOf, plus, h3]
  have u2 : uOf p q.v.d0 (minus p.toPar) = PunctIntPolAtArbitPosition p.par_b p.npoints_A p.npoints_B (2 * M) q.v.d0 (-p.par_b) 0 0 := by
    simp [uOf, minus, h3]
  have s1 : R.mp_adm = punctureMass p.par_b (uOf p q.v.d0 (plus p.toPar)) q.mp q.mm := by
    rw [r1, u1]
    simp only [admMasses, atPunctures, eb, eA, eB, ep, punctureMass]
    field_simp
    ring
  have s2 : R.mm_adm = punctureMass p.par_b (uOf p q.v.d0 (minus p.toPar)) q.mm q.mp := by
    rw [r2, u2]
    simp only [admMasses, atPunctures, eb, eA, eB, ep, punctureMass]
    field_simp
    ring
  have l1 := intPol_puncture hb h1 h2 hM q.v.d0 (Or.inl rfl)
  have l2 := intPol_puncture hb h1 h2 hM q.v.d0 (Or.inr rfl)
  rw [← u1] at l1
  rw [← u2] at l2
  have lr : Tendsto (fun t : ℝ => √((2 * p.par_b) ^ 2 + t ^ 2)) (𝓝[>] 0) (𝓝 (2 * p.par_b)) := by
    have c : Continuous fun t : ℝ => √((2 * p.par_b) ^ 2 + t ^ 2) := by fun_prop
    have := c.tendsto 0
    simp only [ne_eq, OfNat.ofNat_ne_zero, not_false_eq_true, zero_pow, add_zero] at this
    rw [sqrt_sq (by positivity)] at this
    exact this.mono_left nhdsWithin_le_nhds
  have hne : 2 * (2 * p.par_b) ≠ 0 := by positivity
  refine ⟨s1, s2, ?_, ?_⟩
  · rw [s1, punctureMass]
    refine Tendsto.congr' (f₁ := fun t => q.mp * (1 + PunctIntPolAtArbitPosition p.par_b p.npoints_A p.npoints_B (2 * M) q.v.d0 p.par_b t 0 +
      q.mm / (2 * √((2 * p.par_b) ^ 2 + t ^ 2)))) ?_ ?_
    · refine eventually_nhdsWithin_of_forall fun t ht => ?_
      have ht' : (0 : ℝ) < t := ht
      simp only [conformal, uOf, plus, minus, dist3, emp, emm, eb, eA, eB, ep, Matrix.cons_val_zero, Matrix.cons_val_one, Matrix.cons_val]
      rw [show (p.par_b - p.par_b) ^ 2 + (t - 0) ^ 2 + (0 - 0) ^ 2 = t ^ 2 by ring, sqrt_sq ht'.le, show (p.par_b - -p.par_b) ^ 2 + (t - 0) ^ 2 + (0 - 0) ^ 2 = (2 * p.par_b) ^ 2 + t ^ 2 by ring]
      ring
    · exact tendsto_const_nhds.mul ((tendsto_const_nhds.add l1).add (tendsto_const_nhds.div (tendsto_const_nhds.mul lr) hne))
  · rw [s2, punctureMass]
    refine Tendsto.congr' (f₁ := fun t => q.mm * (1 + PunctIntPolAtArbitPosition p.par_b p.npoints_A p.npoints_B (2 * M) q.v.d0 (-p.par_b) t 0 +
      q.mp / (2 * √((2 * p.par_b) ^ 2 + t ^ 2)))) ?_ ?_
    · refine eventually_nhdsWithin_of_forall fun t ht => ?_
      have ht' : (0 : ℝ) < t := ht
      simp only [conformal, uOf, plus, minus, dist3, emp, emm, eb, eA, eB, ep, Matrix.cons_val_zero, Matrix.cons_val_one, Matrix.cons_val]
      rw [show (-p.par_b - -p.par_b) ^ 2 + (t - 0) ^ 2 + (0 - 0) ^ 2 = t ^ 2 by ring, sqrt_sq ht'.le, show (-p.par_b - p.par_b) ^ 2 + (t - 0) ^ 2 + (0 - 0) ^ 2 = (2 * p.par_b) ^ 2 + t ^ 2 by ring]
      ring
    · exact tendsto_const_nhds.mul ((tendsto_const_nhds.add l2).add (tendsto_const_nhds.div (tendsto_const_nhds.mul lr) hne))

/-- C99: the reported total energy is the coefficient of the conformal factor at infinity: the limit of `2 r (ψ - 1)` along the `y` axis. -/
theorem C99_energy (tridiag : Tridiag) (fuel : ℕ) (p q : Persist) (R : Results) (h : TP_solve tridiag fuel p = some (q, R)) (hb : 0 < p.par_b) (M : ℕ) (hM : 0 < M)
    (h1 : 0 < p.npoints_A) (h2 : 0 < p.npoints_B) (h3 : p.npoints_phi = 2 * M) (ht : p.Newton_tol < 1) :
    Tendsto (fun t => 2 * t * (conformal q.toPar (uOf q q.v.d0) ![0, t, 0] - 1)) atTop (𝓝 R.E) := by
  obtain ⟨-, -, -, -, -, -, r3, -⟩ := solve_cases h
  have hq := (C99_solve tridiag fuel p q R h hb M hM h1 h2 h3 ht).1
  have eb : q.par_b = p.par_b := by rw [hq]
  have eA : q.npoints_A = p.npoints_A := by rw [hq]
  have eB : q.npoints_B = p.npoints_B := by rw [hq]
  have ep : q.npoints_phi = 2 * M := by rw [← h3, hq]
  have emp : q.par_m_plus = q.mp := by rw [hq]
  have emm : q.par_m_minus = q.mm := by rw [hq]
  have l := intPol_infinity hb h1 h2 hM q.v.d0
  have lr : Tendsto (fun t : ℝ => t / √(p.par_b ^ 2 + t ^ 2)) atTop (𝓝 1) := by
    have : Tendsto (fun t : ℝ => 1 / √((p.par_b / t) ^ 2 + 1)) atTop (𝓝 1) := by
      have hz : Tendsto (fun t : ℝ => p.par_b / t) atTop (𝓝 0) := tendsto_const_nhds.div_atTop tendsto_id
      have c : ContinuousAt (fun z : ℝ => 1 / √(z ^ 2 + 1)) 0 := by
        refine continuousAt_const.div (by fun_prop) ?_
        norm_num
      have := c.tendsto.comp hz
      simpa [Function.comp_def] using this
    refine this.congr' ((eventually_gt_atTop 0).mono fun t ht => ?_)
    have : p.par_b ^ 2 + t ^ 2 = ((p.par_b / t) ^ 2 + 1) * t ^ 2 := by
      field_simp
    beta_reduce
    rw [this, sqrt_mul (by positivity), sqrt_sq ht.le]
    field_simp
  have lim := ((lr.const_mul (q.mp + q.mm)).add l)
  rw [r3, eb, eA, eB, ep]
  rw [show q.mp + q.mm - 4 * p.par_b * PunctEvalAtArbitPosition q.v.d0 0 1 0 0 1 p.npoints_A p.npoints_B (2 * M) =
    (q.mp + q.mm) * 1 + -4 * p.par_b * PunctEvalAtArbitPosition q.v.d0 0 1 0 0 1 p.npoints_A p.npoints_B (2 * M) by ring]
  refine lim.congr fun t => ?_
  simp only [conformal, uOf, plus, minus, dist3, emp, emm, eb, eA, eB, ep, Matrix.cons_val_zero, Matrix.cons_val_one, Matrix.cons_val]
  rw [show (0 - p.par_b) ^ 2 + (t - 0) ^ 2 + (0 - 0) ^ 2 = p.par_b ^ 2 + t ^ 2 by ring, show (0 - -p.par_b) ^ 2 + (t - 0) ^ 2 + (0 - 0) ^ 2 = p.par_b ^ 2 + t ^ 2 by ring]
  field_simp
  ring

/-- C99: the reported angular momentum is the sum of `r × P + S` over the punctures at the positions `center_offset ± (b, 0, 0)`. -/
theorem C99_angular_momentum (tridiag : Tridiag) (fuel : ℕ) (p q : Persist) (R : Results) (h : TP_solve tridiag fuel p = some (q, R)) :
    ![R.J1, R.J2, R.J3] = crossProduct (q.center_offset + plus q.toPar) q.par_P_plus + crossProduct (q.center_offset + minus q.toPar) q.par_P_minus +
      q.par_S_plus + q.par_S_minus := by
  obtain ⟨-, -, -, -, -, -, -, r4⟩ := solve_cases h
  exact r4

/-- C99: if the total linear momentum vanishes, the reported angular momentum, turned to the frame of the evolution code, is the one of the punctures in that frame. -/
theorem C99_angular_momentum_frame (tridiag : Tridiag) (fuel : ℕ) (p q : Persist) (R : Results) (h : TP_solve tridiag fuel p = some (q, R)) (hP : q.par_P_plus + q.par_P_minus = 0) :
    turnedSpin q.swap_xz ![R.J1, R.J2, R.J3] = crossProduct (plusAt q) (turned q.swap_xz q.par_P_plus) + crossProduct (minusAt q) (turned q.swap_xz q.par_P_minus) +
      turnedSpin q.swap_xz q.par_S_plus + turnedSpin q.swap_xz q.par_S_minus := by
  rw [C99_angular_momentum tridiag fuel p q R h]
  have e : ∀ i, q.par_P_minus i = -q.par_P_plus i := fun i => by
    have := congrFun hP i
    simp only [Pi.add_apply, Pi.zero_apply] at this
    linarith
  funext i
  cases hs : q.swap_xz <;> fin_cases i <;> simp [turnedSpin, turned, plusAt, minusAt, destOf, plus, minus, hs, cross_apply, e, Matrix.vecHead, Matrix.vecTail] <;> ring_nf

/-! ## Concrete cases -/

/-- With `give_bare_mass` the driver always returns. -/
theorem solve_some (tridiag : Tridiag) (fuel : ℕ) (p : Persist) (hg : p.give_bare_mass = true) : ∃ q R, TP_solve tridiag fuel p = some (q, R) ∧ q = lastSolve tridiag
    (p.written .zero (fun _ => 0) p.par_m_plus p.par_m_minus) := by
  simp only [TP_solve]
  rw [if_neg (by rw [hg]; simp)]
  exact ⟨_, _, rfl, rfl⟩

theorem solve_some_loop {tridiag : Tridiag} {fuel : ℕ} {p q0 : Persist} (hg : p.give_bare_mass = false)
    (h : bareMassLoop tridiag fuel (p.written .zero (fun _ => 0) p.par_m_plus p.par_m_minus) = some q0) : ∃ q R, TP_solve tridiag fuel p = some (q, R) := by
  simp only [TP_solve]
  rw [if_pos hg]
  have h' := h
  simp only [Persist.written] at h'
  rw [h']
  exact ⟨_, _, rfl⟩

/-- A moving puncture, a puncture at rest, and an offset of the centre. -/
noncomputable def moving : Persist := { unequal "psi^n" false with par_P_plus := ![0, 1, 0], center_offset := ![1, 0, 0] }

/-- C99 fails for the angular momentum in the frame of the evolution code if the total momentum does not vanish: the offset of the centre has its components in that frame, but
is added to the positions in the frame of the solver. -/
theorem C99_angular_momentum_frame_violation : ∃ (p q : Persist) (R : Results), (∀ tridiag fuel, ∃ q R, TP_solve tridiag fuel p = some (q, R)) ∧
    TP_solve (fun _ _ _ _ b => b) 0 p = some (q, R) ∧
    turnedSpin q.swap_xz ![R.J1, R.J2, R.J3] ≠ crossProduct (plusAt q) (turned q.swap_xz q.par_P_plus) + crossProduct (minusAt q) (turned q.swap_xz q.par_P_minus) +
      turnedSpin q.swap_xz q.par_S_plus + turnedSpin q.swap_xz q.par_S_minus := by
  obtain ⟨q, R, h, hq⟩ := solve_some (fun _ _ _ _ b => b) 0 moving rfl
  refine ⟨moving, q, R, fun tridiag fuel => ?_, h, ?_⟩
  · obtain ⟨q, R, h, -⟩ := solve_some tridiag fuel moving rfl
    exact ⟨q, R, h⟩
  · rw [C99_angular_momentum _ _ _ _ _ h, hq]
    intro hc
    have := congrFun hc 1
    simp [turnedSpin, turned, plusAt, minusAt, destOf, plus, minus, cross_apply, lastSolve, Persist.written, moving, unequal] at this

/-- The hypotheses of the theorems on the driver hold for unequal punctures with given bare masses. -/
example (tridiag : Tridiag) : ∃ q R, TP_solve tridiag 0 (unequal "psi^n" false) = some (q, R) ∧ 0 < (unequal "psi^n" false).par_b ∧ 0 < (unequal "psi^n" false).npoints_A ∧
    0 < (unequal "psi^n" false).npoints_B ∧ (unequal "psi^n" false).npoints_phi = 2 * 2 ∧ (unequal "psi^n" false).Newton_tol < 1 ∧ q.par_P_plus + q.par_P_minus = 0 := by
  obtain ⟨q, R, h, hq⟩ := solve_some tridiag 0 (unequal "psi^n" false) rfl
  refine ⟨q, R, h, ?_⟩
  rw [hq]
  norm_num [unequal, lastSolve, Persist.written]

/-- And for target masses: with some tolerance the loop for the bare masses ends after one pass. -/
example (tridiag : Tridiag) : ∃ tol : ℝ, ∃ q R, TP_solve tridiag 1 { unequal "psi^n" false with give_bare_mass := false, adm_tol := tol } = some (q, R) := by
  obtain ⟨P, hP⟩ : ∃ P : ℝ → Persist, P = fun tol => ({ unequal "psi^n" false with give_bare_mass := false, adm_tol := tol } : Persist).written .zero (fun _ => 0) 1 2 := ⟨_, rfl⟩
  have he : ∀ tol, (bareMassStep tridiag (P tol)).2 = (bareMassStep tridiag (P 0)).2 := fun _ => by subst hP; rfl
  refine ⟨max (bareMassStep tridiag (P 0)).2.1 (bareMassStep tridiag (P 0)).2.2, ?_⟩
  generalize ht : max (bareMassStep tridiag (P 0)).2.1 (bareMassStep tridiag (P 0)).2.2 = tol
  have hl : bareMassLoop tridiag 1 (P tol) = some (bareMassStep tridiag (P tol)).1 := by
    rw [bareMassLoop]
    simp only
    refine if_neg ?_
    rw [not_or, not_lt, not_lt]
    have : (bareMassStep tridiag (P tol)).1.adm_tol = tol := by subst hP; rfl
    rw [this]
    exact ⟨(congrArg Prod.fst (he tol)).le.trans (ht ▸ le_max_left _ _), (congrArg Prod.snd (he tol)).le.trans (ht ▸ le_max_right _ _)⟩
  rw [hP] at hl
  exact solve_some_loop rfl hl

end Verif.TP
