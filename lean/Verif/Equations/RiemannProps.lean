import Verif.Equations.Riemann
import Verif.Equations.FourMetricProps
import Verif.Equations.MinMaxProps
import Mathlib.Tactic.LinearCombination
import Mathlib.LinearAlgebra.Matrix.ToLinearEquiv

/-!
# C50: characteristic speeds and the HLL flux
-/
namespace Verif.Equations

/-! ## Specification -/

/-- Dispersion relation of sound waves with wave covector `(-c, 1)` in the flux direction:
`(1 - cs²) (u·k)² = cs² g(k, k)` with the sign of the metric used by the code. -/
def IsWaveSpeed (dirn : Fin 3) (g4UU : Fin 4 → Fin 4 → ℝ) (u4U : Fin 4 → ℝ) (cs2 c : ℝ) : Prop :=
  (1 - cs2) * (u4U dirn.succ - c * u4U 0) ^ 2 =
    cs2 * (g4UU dirn.succ dirn.succ - 2 * c * g4UU dirn.succ 0 + c ^ 2 * g4UU 0 0)

/-- Value of the four-metric on a vector. -/
def g4val (gammaDD : Fin 3 → Fin 3 → ℝ) (betaU : Fin 3 → ℝ) (alpha : ℝ) (u : Fin 4 → ℝ) : ℝ :=
  lineElement gammaDD betaU alpha (u 0) fun i => u i.succ

/-- Positive definite. -/
def PosDef3 (g : Fin 3 → Fin 3 → ℝ) : Prop := ∀ x : Fin 3 → ℝ, x ≠ 0 → 0 < ∑ i, ∑ j, g i j * x i * x j

/-! ## Speeds on one side -/

theorem findCpCm_eq (dirn : Fin 3) (g4UU : Fin 4 → Fin 4 → ℝ) (u4U : Fin 4 → ℝ) (cs2 a b c : ℝ)
    (h : speedCoeffs dirn g4UU u4U cs2 = (a, b, c)) (ha : a ≠ 0) :
    findCpCm dirn g4UU u4U cs2 =
      some (min (1 / 2 * (-b / a + Real.sqrt (max 0 (b * b - 4 * a * c)) / a))
          (1 / 2 * -(b / a + Real.sqrt (max 0 (b * b - 4 * a * c)) / a)),
        max (1 / 2 * (-b / a + Real.sqrt (max 0 (b * b - 4 * a * c)) / a))
          (1 / 2 * -(b / a + Real.sqrt (max 0 (b * b - 4 * a * c)) / a))) := by
  unfold findCpCm
  rw [h]
  simp only [C49_max, C49_min]
  rw [if_neg ha]
  rfl

/-- **C50** (speeds of one state): with a nonnegative discriminant, the two numbers returned are exactly the
solutions of the dispersion relation, in increasing order. -/
theorem C50_speeds (dirn : Fin 3) (g4UU : Fin 4 → Fin 4 → ℝ) (u4U : Fin 4 → ℝ) (cs2 a b c : ℝ)
    (h : speedCoeffs dirn g4UU u4U cs2 = (a, b, c)) (ha : a ≠ 0) (hd : 0 ≤ b * b - 4 * a * c) :
    ∃ cm cp, findCpCm dirn g4UU u4U cs2 = some (cm, cp) ∧ cm ≤ cp ∧
      (∀ s, IsWaveSpeed dirn g4UU u4U cs2 s ↔ s = cm ∨ s = cp) ∧ (0 < b * b - 4 * a * c → cm < cp) := by
  rw [findCpCm_eq dirn g4UU u4U cs2 a b c h ha, max_eq_right hd]
  have hq : Real.sqrt (b * b - 4 * a * c) * Real.sqrt (b * b - 4 * a * c) = b * b - 4 * a * c :=
    Real.mul_self_sqrt hd
  have hpos : 0 < b * b - 4 * a * c → 0 < Real.sqrt (b * b - 4 * a * c) := Real.sqrt_pos.2
  generalize Real.sqrt (b * b - 4 * a * c) = q at *
  refine ⟨_, _, rfl, le_trans (min_le_left _ _) (le_max_left _ _), ?_, ?_⟩
  · intro s
    have e : IsWaveSpeed dirn g4UU u4U cs2 s ↔ a * s ^ 2 + b * s + c = 0 := by
      unfold IsWaveSpeed speedCoeffs at *
      cases h
      constructor <;> intro h <;> linear_combination h
    have e2 : a * s ^ 2 + b * s + c = 0 ↔
        s = 1 / 2 * (-b / a + q / a) ∨ s = 1 / 2 * -(b / a + q / a) := by
      have f : a * s ^ 2 + b * s + c = a * (s - 1 / 2 * (-b / a + q / a)) * (s - 1 / 2 * -(b / a + q / a)) := by
        field_simp
        linear_combination hq
      rw [f]
      constructor
      · intro h0
        rcases mul_eq_zero.1 h0 with h0 | h0
        · rcases mul_eq_zero.1 h0 with h0 | h0
          · exact absurd h0 ha
          · exact .inl (by linarith)
        · exact .inr (by linarith)
      · rintro (h0 | h0)
        · rw [← h0]; ring
        · rw [← h0]; ring
    rw [e, e2]
    rcases le_total (1 / 2 * (-b / a + q / a)) (1 / 2 * -(b / a + q / a)) with h' | h'
    · rw [min_eq_left h', max_eq_right h']
    · rw [min_eq_right h', max_eq_left h', or_comm]
  · intro hdp
    have hne : 1 / 2 * (-b / a + q / a) ≠ 1 / 2 * -(b / a + q / a) := by
      intro he
      have : q / a = 0 := by linear_combination he
      rcases div_eq_zero_iff.1 this with h0 | h0
      · exact (hpos hdp).ne' h0
      · exact ha h0
    rcases lt_or_gt_of_ne hne with h' | h'
    · rw [min_eq_left h'.le, max_eq_right h'.le]
      exact h'
    · rw [min_eq_right h'.le, max_eq_left h'.le]
      exact h'

/-- Cauchy-Schwarz for one component: `(wⁱ)² ≤ γⁱⁱ γ(w, w)`, and `γⁱⁱ > 0`. -/
theorem inv_diag (g u : Fin 3 → Fin 3 → ℝ) (hs : ∀ i j, g i j = g j i) (hp : PosDef3 g)
    (hu : ∀ i j, ∑ k, u i k * g k j = if i = j then 1 else 0) (w : Fin 3 → ℝ) (i : Fin 3) :
    0 < u i i ∧ w i ^ 2 ≤ u i i * ∑ j, ∑ k, g j k * w j * w k := by
  -- γ(uⁱ, y) = yⁱ
  have hg : ∀ y : Fin 3 → ℝ, ∑ j, ∑ k, g j k * u i j * y k = y i := by
    intro y
    rw [Finset.sum_comm]
    have : ∀ k, ∑ j, g j k * u i j * y k = (if i = k then 1 else 0) * y k := by
      intro k
      rw [← hu i k, Finset.sum_mul]
      exact Finset.sum_congr rfl fun j _ => by ring
    simp only [this]
    simp
  have hne : u i ≠ 0 := by
    intro h0
    have := hg (Pi.single i 1)
    rw [h0] at this
    simp at this
  have hpos : 0 < u i i := by
    have h1 := hp (u i) hne
    rw [hg] at h1
    exact h1
  refine ⟨hpos, ?_⟩
  have hq : ∀ t : ℝ, 0 ≤ (∑ j, ∑ k, g j k * w j * w k) + 2 * t * w i + t ^ 2 * u i i := by
    intro t
    have e : ∑ j, ∑ k, g j k * (w j + t * u i j) * (w k + t * u i k) =
        (∑ j, ∑ k, g j k * w j * w k) + 2 * t * w i + t ^ 2 * u i i := by
      have h1 := hg w
      have h2 := hg (u i)
      have h3 : ∑ j, ∑ k, g j k * w j * u i k = w i := by
        rw [← h1, Finset.sum_comm]
        refine Finset.sum_congr rfl fun k _ => Finset.sum_congr rfl fun j _ => ?_
        rw [hs j k]
        ring
      have : ∑ j, ∑ k, g j k * (w j + t * u i j) * (w k + t * u i k) =
          (∑ j, ∑ k, g j k * w j * w k) + t * (∑ j, ∑ k, g j k * w j * u i k) + t * (∑ j, ∑ k, g j k * u i j * w k) +
            t ^ 2 * (∑ j, ∑ k, g j k * u i j * u i k) := by
        simp only [Finset.mul_sum, ← Finset.sum_add_distrib]
        refine Finset.sum_congr rfl fun j _ => Finset.sum_congr rfl fun k _ => ?_
        ring
      rw [this, h1, h2, h3]
      ring
    rw [← e]
    by_cases h0 : (fun j => w j + t * u i j) = 0
    · have h0' : ∀ j, w j + t * u i j = 0 := fun j => congrFun h0 j
      simp [h0']
    · exact (hp _ h0).le
  have := hq (-(w i / u i i))
  have e : (∑ j, ∑ k, g j k * w j * w k) + 2 * -(w i / u i i) * w i + (-(w i / u i i)) ^ 2 * u i i =
      (∑ j, ∑ k, g j k * w j * w k) - w i ^ 2 / u i i := by
    field_simp
    ring
  rw [e] at this
  have h2 : w i ^ 2 / u i i ≤ ∑ j, ∑ k, g j k * w j * w k := by linarith
  rw [div_le_iff₀ hpos] at h2
  linarith

/-- Positive definite implies invertible. -/
theorem posDef_det (g : Fin 3 → Fin 3 → ℝ) (hp : PosDef3 g) : (Matrix.of g).det ≠ 0 := by
  intro h0
  obtain ⟨x, hx, hz⟩ := Matrix.exists_mulVec_eq_zero_iff.2 h0
  have h1 := hp x hx
  have : ∑ i, ∑ j, g i j * x i * x j = ∑ i, x i * (Matrix.of g).mulVec x i := by
    refine Finset.sum_congr rfl fun i _ => ?_
    rw [Matrix.mulVec, dotProduct, Finset.mul_sum]
    exact Finset.sum_congr rfl fun j _ => by rw [Matrix.of_apply]; ring
  rw [this, hz] at h1
  simp at h1

/-- Coefficient `a` and discriminant for a timelike four-velocity. -/
theorem disc_pos (dirn : Fin 3) (gammaDD u : Fin 3 → Fin 3 → ℝ) (hs : ∀ i j, gammaDD i j = gammaDD j i)
    (hp : PosDef3 gammaDD) (hu : ∀ i j, ∑ k, u i k * gammaDD k j = if i = j then 1 else 0) (betaU : Fin 3 → ℝ)
    (alpha : ℝ) (ha : alpha ≠ 0) (u4U : Fin 4 → ℝ) (ht : g4val gammaDD betaU alpha u4U < 0) (cs2 : ℝ)
    (h0 : 0 < cs2) (h1 : cs2 ≤ 1) :
    ∃ a b c, speedCoeffs dirn (g4UUof u betaU alpha) u4U cs2 = (a, b, c) ∧ 0 < a ∧ 0 < b * b - 4 * a * c := by
  refine ⟨_, _, _, rfl, ?_, ?_⟩
  · simp only [g4UUof, block4, Fin.cases_zero]
    have : 0 < cs2 / alpha ^ 2 := by positivity
    have h3 : 0 ≤ (1 - cs2) * u4U 0 ^ 2 := mul_nonneg (by linarith) (sq_nonneg _)
    have e : cs2 * (-1 / alpha ^ 2) = -(cs2 / alpha ^ 2) := by ring
    rw [e]
    linarith
  · obtain ⟨hg, hcs⟩ := inv_diag gammaDD u hs hp hu (fun i => u4U i.succ + betaU i * u4U 0) dirn
    have hlt : ∑ j, ∑ k, gammaDD j k * (u4U j.succ + betaU j * u4U 0) * (u4U k.succ + betaU k * u4U 0) <
        alpha ^ 2 * u4U 0 ^ 2 := by
      unfold g4val lineElement at ht
      linarith
    have hw : (u4U dirn.succ + betaU dirn * u4U 0) ^ 2 ≤ u dirn dirn * (alpha ^ 2 * u4U 0 ^ 2) :=
      le_trans hcs (mul_le_mul_of_nonneg_left hlt.le hg.le)
    simp only [g4UUof, block4, Fin.cases_zero, Fin.cases_succ]
    have ha2 : 0 < alpha ^ 2 := by positivity
    have e : (2 * cs2 * (betaU dirn / alpha ^ 2) - 2 * u4U dirn.succ * u4U 0 * (1 - cs2)) *
          (2 * cs2 * (betaU dirn / alpha ^ 2) - 2 * u4U dirn.succ * u4U 0 * (1 - cs2)) -
        4 * ((1 - cs2) * u4U 0 ^ 2 - cs2 * (-1 / alpha ^ 2)) *
          ((1 - cs2) * u4U dirn.succ ^ 2 - cs2 * (u dirn dirn - betaU dirn * betaU dirn / alpha ^ 2)) =
        4 * cs2 / alpha ^ 2 * ((1 - cs2) * (u dirn dirn * (alpha ^ 2 * u4U 0 ^ 2) -
          (u4U dirn.succ + betaU dirn * u4U 0) ^ 2) + cs2 * u dirn dirn) := by
      field_simp
      ring
    rw [e]
    have h2 : 0 ≤ (1 - cs2) * (u dirn dirn * (alpha ^ 2 * u4U 0 ^ 2) -
          (u4U dirn.succ + betaU dirn * u4U 0) ^ 2) := mul_nonneg (by linarith) (by linarith)
    have h3 : 0 < cs2 * u dirn dirn := mul_pos h0 hg
    have h4 : 0 < 4 * cs2 / alpha ^ 2 := by positivity
    exact mul_pos h4 (by linarith)

/-! ## The property -/

/-- **C50** (bounds): for a positive definite spatial metric, nonzero lapse, timelike four-velocities and squared
sound speeds in (0, 1] on both sides, the function succeeds; the speeds are nonnegative, bound all wave speeds of
both states, are attained or zero, and their sum is positive. -/
theorem C50_bounds (z : Bool) (dirn : Fin 3) (gammaDD : Fin 3 → Fin 3 → ℝ) (hs : ∀ i j, gammaDD i j = gammaDD j i)
    (hp : PosDef3 gammaDD) (betaU : Fin 3 → ℝ) (alpha : ℝ) (ha : alpha ≠ 0) (u4r u4l : Fin 4 → ℝ)
    (hr : g4val gammaDD betaU alpha u4r < 0) (hl : g4val gammaDD betaU alpha u4l < 0) (cs2r cs2l : ℝ)
    (hr0 : 0 < cs2r) (hr1 : cs2r ≤ 1) (hl0 : 0 < cs2l) (hl1 : cs2l ≤ 1) :
    ∃ g4UU cmin cmax, Matrix.of g4UU * Matrix.of (admToG4DD gammaDD betaU alpha) = 1 ∧
      findCmaxCmin z dirn gammaDD betaU alpha u4r u4l cs2r cs2l = some (cmin, cmax) ∧
      0 ≤ cmin ∧ 0 ≤ cmax ∧ 0 < cmax + cmin ∧
      (∀ s, IsWaveSpeed dirn g4UU u4r cs2r s ∨ IsWaveSpeed dirn g4UU u4l cs2l s → -cmin ≤ s ∧ s ≤ cmax) ∧
      (cmax = 0 ∨ IsWaveSpeed dirn g4UU u4r cs2r cmax ∨ IsWaveSpeed dirn g4UU u4l cs2l cmax) ∧
      (cmin = 0 ∨ IsWaveSpeed dirn g4UU u4r cs2r (-cmin) ∨ IsWaveSpeed dirn g4UU u4l cs2l (-cmin)) := by
  obtain ⟨u, d, hu1, hu2⟩ := symmInv3_some gammaDD hs (posDef_det gammaDD hp)
  obtain ⟨a, b, c, e, ha', hd⟩ := disc_pos dirn gammaDD u hs hp hu2 betaU alpha ha u4r hr cs2r hr0 hr1
  obtain ⟨a', b', c', e', ha'', hd'⟩ := disc_pos dirn gammaDD u hs hp hu2 betaU alpha ha u4l hl cs2l hl0 hl1
  obtain ⟨cmr, cpr, er, hler, hwr, hltr⟩ := C50_speeds dirn _ u4r cs2r a b c e ha'.ne' hd.le
  obtain ⟨cml, cpl, el, hlel, hwl, hltl⟩ := C50_speeds dirn _ u4l cs2l a' b' c' e' ha''.ne' hd'.le
  have hres : findCmaxCmin z dirn gammaDD betaU alpha u4r u4l cs2r cs2l =
      some (-min 0 (min cml cmr), max 0 (max cpl cpr)) := by
    unfold findCmaxCmin admToG4UU
    rw [hu1]
    simp only [Option.map_some, bind, Option.bind, er, el, C49_max, C49_min]
    rfl
  refine ⟨g4UUof u betaU alpha, _, _, g4_mul gammaDD u hs betaU alpha ha hu2, hres, ?_, le_max_left _ _, ?_, ?_, ?_, ?_⟩
  · have := min_le_left 0 (min cml cmr)
    linarith
  · have h1 : min 0 (min cml cmr) ≤ cmr := le_trans (min_le_right _ _) (min_le_right _ _)
    have h2 : cpr ≤ max 0 (max cpl cpr) := le_trans (le_max_right _ _) (le_max_right _ _)
    have := hltr hd
    linarith
  · intro s hsp
    rw [hwr, hwl] at hsp
    rw [neg_neg]
    have h1 : min 0 (min cml cmr) ≤ cmr := le_trans (min_le_right _ _) (min_le_right _ _)
    have h2 : cpr ≤ max 0 (max cpl cpr) := le_trans (le_max_right _ _) (le_max_right _ _)
    have h3 : min 0 (min cml cmr) ≤ cml := le_trans (min_le_right _ _) (min_le_left _ _)
    have h4 : cpl ≤ max 0 (max cpl cpr) := le_trans (le_max_left _ _) (le_max_right _ _)
    rcases hsp with (rfl | rfl) | (rfl | rfl) <;> constructor <;> linarith
  · rw [hwr, hwl]
    rcases max_choice 0 (max cpl cpr) with h | h
    · exact .inl h
    · rcases max_choice cpl cpr with h' | h'
      · exact .inr (.inr (.inr (h.trans h')))
      · exact .inr (.inl (.inr (h.trans h')))
  · rw [hwr, hwl, neg_neg]
    rcases min_choice 0 (min cml cmr) with h | h
    · exact .inl (by rw [h, neg_zero])
    · rcases min_choice cml cmr with h' | h'
      · exact .inr (.inr (.inl (h.trans h')))
      · exact .inr (.inl (.inl (h.trans h')))

/-- **C50** (HLL): for speeds with nonzero sum the solver returns the flux of the two-wave Riemann solution: there is
an intermediate state `U` such that the flux satisfies the jump conditions across the left wave (speed `-cmin`) and
the right wave (speed `cmax`), and it is the only flux for which there is such a state. -/
theorem C50_hll (cmax cmin Fr Fl Ur Ul : ℝ) (h : cmax + cmin ≠ 0) :
    ∃ F, hllSolver cmax cmin Fr Fl Ur Ul = some F ∧
      ∀ F', (∃ U, F' - Fl = -cmin * (U - Ul) ∧ Fr - F' = cmax * (Ur - U)) ↔ F' = F := by
  refine ⟨(cmin * Fr + cmax * Fl - cmin * cmax * (Ur - Ul)) / (cmax + cmin), divR_some id _ _ h, fun F' => ?_⟩
  constructor
  · rintro ⟨U, h1, h2⟩
    rw [eq_div_iff h]
    linear_combination cmax * h1 - cmin * h2
  · rintro rfl
    refine ⟨(cmax * Ur + cmin * Ul - (Fr - Fl)) / (cmax + cmin), ?_, ?_⟩
    · field_simp
      ring
    · field_simp
      ring

/-- **C50** (consistency): equal states give the physical flux. -/
theorem C50_consistent (cmax cmin F U : ℝ) (h : cmax + cmin ≠ 0) : hllSolver cmax cmin F F U U = some F := by
  unfold hllSolver
  rw [divR_some _ _ _ h]
  congr 1
  show _ / _ = _
  field_simp
  ring

/-- **C50** (upwind): the solver returns the left flux if no wave moves to the left, and the right flux if none
moves to the right. -/
theorem C50_upwind (cmax cmin Fr Fl Ur Ul : ℝ) (h : 0 < cmax) (h' : 0 < cmin) :
    hllSolver cmax 0 Fr Fl Ur Ul = some Fl ∧ hllSolver 0 cmin Fr Fl Ur Ul = some Fr := by
  unfold hllSolver
  rw [divR_some _ _ _ (by linarith), divR_some _ _ _ (by linarith)]
  constructor
  · congr 1
    show _ / _ = _
    field_simp
    ring
  · congr 1
    show _ / _ = _
    field_simp
    ring

/-- **C50** (mirror): exchanging left and right, with the sign of fluxes reversed, reverses the sign of the result. -/
theorem C50_mirror (cmax cmin Fr Fl Ur Ul : ℝ) :
    hllSolver cmin cmax (-Fl) (-Fr) Ul Ur = (hllSolver cmax cmin Fr Fl Ur Ul).map fun F => -F := by
  unfold hllSolver
  by_cases h : cmax + cmin = 0
  · unfold divR
    rw [if_pos h, if_pos (by rw [add_comm]; exact h)]
    rfl
  · rw [divR_some _ _ _ h, divR_some _ _ _ (by rw [add_comm]; exact h), Option.map_some]
    congr 1
    show _ / _ = -(_ / _)
    rw [← neg_div, add_comm cmin cmax]
    congr 1
    ring

/-- Flat space with shift, a moving fluid on the right and a fluid at rest on the left. -/
example : PosDef3 (fun i j => if i = j then 1 else 0) ∧
    g4val (fun i j => if i = j then 1 else 0) (fun _ => 0) 1 ![2, 1, 0, 1] < 0 ∧
    g4val (fun i j => if i = j then 1 else 0) (fun _ => 0) 1 ![1, 0, 0, 0] < 0 := by
  refine ⟨?_, ?_, ?_⟩
  · intro x hx
    have : ∑ i : Fin 3, ∑ j : Fin 3, (if i = j then (1 : ℝ) else 0) * x i * x j = ∑ i, x i * x i := by
      refine Finset.sum_congr rfl fun i _ => ?_
      simp
    rw [this]
    obtain ⟨i, hi⟩ : ∃ i, x i ≠ 0 := by
      by_contra hc
      exact hx (funext fun i => by_contra fun h => hc ⟨i, h⟩)
    exact Finset.sum_pos' (fun j _ => mul_self_nonneg _) ⟨i, Finset.mem_univ _, mul_self_pos.2 hi⟩
  · simp [g4val, lineElement, Fin.sum_univ_three]
    norm_num
  · simp [g4val, lineElement, Fin.sum_univ_three]

end Verif.Equations
