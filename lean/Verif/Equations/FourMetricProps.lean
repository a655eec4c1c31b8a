import Verif.Equations.FourMetric
import Verif.IndexedExp.InvertersProps
import Mathlib.Tactic.FieldSimp
import Mathlib.Algebra.BigOperators.Field
import Mathlib.Tactic.LinearCombination

/-!
# C46: 4-metric and ADM variables
-/
namespace Verif.Equations
open Verif.IndexedExp Matrix

/-! ## Specification -/

/-- The line element with lapse, shift and spatial metric, evaluated on the vector `(t, x)`:
`-α² t² + γ_ij (x^i + β^i t)(x^j + β^j t)`. -/
def lineElement (gammaDD : Fin 3 → Fin 3 → ℝ) (betaU : Fin 3 → ℝ) (alpha : ℝ) (t : ℝ) (x : Fin 3 → ℝ) : ℝ :=
  -(alpha ^ 2) * t ^ 2 + ∑ i, ∑ j, gammaDD i j * (x i + betaU i * t) * (x j + betaU j * t)

/-! ## Proofs -/

theorem symmInv3_some (g : Fin 3 → Fin 3 → ℝ) (hs : ∀ i j, g i j = g j i) (hd : (Matrix.of g).det ≠ 0) :
    ∃ u d, (open Classical in symmInv3 g) = some (u, d) ∧
      (∀ i j, ∑ k, u i k * g k j = if i = j then 1 else 0) := by
  classical
  have hS : (Matrix.of g).IsSymm := by
    ext i j
    exact hs j i
  have h := C14_symm3 (Matrix.of g) hS
  rcases hr : symmInv3 (Matrix.of g : Fin 3 → Fin 3 → ℝ) with _ | ⟨u, d⟩
  · exact absurd (h.1.1 hr) hd
  · obtain ⟨-, -, h2⟩ := h.2 u d hr
    refine ⟨u, d, ?_, ?_⟩
    · rw [← hr]
      rfl
    · intro i j
      have := congrFun (congrFun h2 i) j
      rw [Matrix.mul_apply, Matrix.one_apply] at this
      exact this

/-- **C46** (meaning of the 4-metric): `g_{μν} v^μ v^ν` is the line element. -/
theorem C46_lineElement (gammaDD : Fin 3 → Fin 3 → ℝ) (hs : ∀ i j, gammaDD i j = gammaDD j i)
    (betaU : Fin 3 → ℝ) (alpha t : ℝ) (x : Fin 3 → ℝ) :
    ∑ mu, ∑ nu, admToG4DD gammaDD betaU alpha mu nu * (Fin.cons t x : Fin 4 → ℝ) mu * (Fin.cons t x : Fin 4 → ℝ) nu =
      lineElement gammaDD betaU alpha t x := by
  have h10 := hs 1 0
  have h20 := hs 2 0
  have h21 := hs 2 1
  simp only [Fin.sum_univ_succ (n := 3), Fin.cons_zero, Fin.cons_succ, admToG4DD, block4, Fin.cases_zero,
    Fin.cases_succ, lineElement, lower, Fin.sum_univ_three, h10, h20, h21]
  ring

/-- The entries of the product of the two 4-metrics. -/
theorem g4_mul (gammaDD u : Fin 3 → Fin 3 → ℝ) (hs : ∀ i j, gammaDD i j = gammaDD j i) (betaU : Fin 3 → ℝ)
    (alpha : ℝ) (ha : alpha ≠ 0) (hu : ∀ i j, ∑ k, u i k * gammaDD k j = if i = j then 1 else 0) :
    Matrix.of (g4UUof u betaU alpha) * Matrix.of (admToG4DD gammaDD betaU alpha) = 1 := by
  have hsum : ∀ j, ∑ i, betaU i * gammaDD i j = lower gammaDD betaU j := by
    intro j
    unfold lower
    exact Finset.sum_congr rfl fun i _ => by rw [hs i j, mul_comm]
  have hraise : ∀ i, ∑ k, u i k * lower gammaDD betaU k = betaU i := by
    intro i
    unfold lower
    simp only [Finset.mul_sum]
    rw [Finset.sum_comm]
    calc ∑ l, ∑ k, u i k * (gammaDD k l * betaU l) = ∑ l, (∑ k, u i k * gammaDD k l) * betaU l := by
          refine Finset.sum_congr rfl fun l _ => ?_
          rw [Finset.sum_mul]
          exact Finset.sum_congr rfl fun k _ => by ring
      _ = betaU i := by simp [hu]
  have ha2 : alpha ^ 2 ≠ 0 := pow_ne_zero 2 ha
  ext mu nu
  rw [Matrix.mul_apply, Fin.sum_univ_succ]
  simp only [Matrix.of_apply, g4UUof, admToG4DD, block4]
  refine Fin.cases ?_ (fun i => ?_) mu <;> refine Fin.cases ?_ (fun j => ?_) nu <;>
    simp only [Fin.cases_zero, Fin.cases_succ]
  · have : ∑ x, betaU x / alpha ^ 2 * lower gammaDD betaU x =
        (∑ x, betaU x * lower gammaDD betaU x) / alpha ^ 2 := by
      rw [Finset.sum_div]
      exact Finset.sum_congr rfl fun x _ => by ring
    rw [this, Matrix.one_apply_eq]
    field_simp
    ring
  · have : ∑ x, betaU x / alpha ^ 2 * gammaDD x j = lower gammaDD betaU j / alpha ^ 2 := by
      rw [← hsum, Finset.sum_div]
      exact Finset.sum_congr rfl fun x _ => by ring
    rw [this, Matrix.one_apply_ne (Fin.succ_ne_zero j).symm]
    ring
  · have : ∑ x, (u i x - betaU i * betaU x / alpha ^ 2) * lower gammaDD betaU x =
        betaU i - betaU i / alpha ^ 2 * ∑ x, betaU x * lower gammaDD betaU x := by
      simp only [sub_mul, Finset.sum_sub_distrib, hraise]
      rw [Finset.mul_sum]
      congr 1
      exact Finset.sum_congr rfl fun x _ => by ring
    rw [this, Matrix.one_apply_ne (Fin.succ_ne_zero i)]
    field_simp
    ring
  · have : ∑ x, (u i x - betaU i * betaU x / alpha ^ 2) * gammaDD x j =
        (if i = j then 1 else 0) - betaU i / alpha ^ 2 * lower gammaDD betaU j := by
      simp only [sub_mul, Finset.sum_sub_distrib, hu]
      rw [← hsum, Finset.mul_sum]
      congr 1
      exact Finset.sum_congr rfl fun x _ => by ring
    rw [this, Matrix.one_apply]
    simp only [Fin.succ_inj]
    ring

/-- **C46** (inverse): for an invertible symmetric spatial metric and nonzero lapse `ADM_to_g4UU` succeeds and
is the inverse of `ADM_to_g4DD`; it fails only when the spatial metric is not invertible. -/
theorem C46_inverse (gammaDD : Fin 3 → Fin 3 → ℝ) (hs : ∀ i j, gammaDD i j = gammaDD j i) (betaU : Fin 3 → ℝ)
    (alpha : ℝ) (ha : alpha ≠ 0) (hd : (Matrix.of gammaDD).det ≠ 0) :
    ∃ g4UU, admToG4UU gammaDD betaU alpha none = some g4UU ∧
      Matrix.of g4UU * Matrix.of (admToG4DD gammaDD betaU alpha) = 1 ∧
      Matrix.of (admToG4DD gammaDD betaU alpha) * Matrix.of g4UU = 1 := by
  obtain ⟨u, d, h1, h2⟩ := symmInv3_some gammaDD hs hd
  have h := g4_mul gammaDD u hs betaU alpha ha h2
  refine ⟨g4UUof u betaU alpha, ?_, h, mul_eq_one_comm.1 h⟩
  unfold admToG4UU
  simp only
  rw [h1]
  rfl

/-- **C46** (given inverse): the same with the inverse spatial metric as an argument. -/
theorem C46_inverse_given (gammaDD gammaUU : Fin 3 → Fin 3 → ℝ) (hs : ∀ i j, gammaDD i j = gammaDD j i)
    (hu : Matrix.of gammaUU * Matrix.of gammaDD = 1) (betaU : Fin 3 → ℝ) (alpha : ℝ) (ha : alpha ≠ 0) :
    ∃ g4UU, admToG4UU gammaDD betaU alpha (some gammaUU) = some g4UU ∧
      Matrix.of g4UU * Matrix.of (admToG4DD gammaDD betaU alpha) = 1 := by
  refine ⟨_, rfl, g4_mul gammaDD gammaUU hs betaU alpha ha fun i j => ?_⟩
  have := congrFun (congrFun hu i) j
  rw [Matrix.mul_apply, Matrix.one_apply] at this
  exact this

/-- **C46** (round trip, part that holds): `g4DD_to_ADM` recovers the spatial metric.  The shift it returns is
the one the 4-metric was built from exactly when three relations hold; they express that the code reads
`g4DD[0][i]` for the shift instead of `g4DD[0][i+1]`. -/
theorem C46_roundtrip_partial (gammaDD : Fin 3 → Fin 3 → ℝ) (hs : ∀ i j, gammaDD i j = gammaDD j i)
    (betaU : Fin 3 → ℝ) (alpha : ℝ) (hd : (Matrix.of gammaDD).det ≠ 0) :
    ∃ alphaSq shift, g4DDToADM (admToG4DD gammaDD betaU alpha) = some (gammaDD, alphaSq, shift) ∧
      (shift = betaU ↔ lower gammaDD betaU 0 = -(alpha ^ 2) + ∑ i, betaU i * lower gammaDD betaU i ∧
        lower gammaDD betaU 1 = lower gammaDD betaU 0 ∧ lower gammaDD betaU 2 = lower gammaDD betaU 1) ∧
      (shift = betaU → alphaSq = alpha ^ 2) := by
  obtain ⟨u, d, h1, h2⟩ := symmInv3_some gammaDD hs hd
  have hg : (fun i j : Fin 3 => admToG4DD gammaDD betaU alpha i.succ j.succ) = gammaDD := by
    funext i j
    rfl
  let b : Fin 3 → ℝ := fun i => admToG4DD gammaDD betaU alpha 0 i.castSucc
  have b0 : b 0 = -(alpha ^ 2) + ∑ i, betaU i * lower gammaDD betaU i := rfl
  have b1 : b 1 = lower gammaDD betaU 0 := rfl
  have b2 : b 2 = lower gammaDD betaU 1 := rfl
  have hU : Matrix.of u * Matrix.of gammaDD = 1 := by
    ext i j
    rw [Matrix.mul_apply, Matrix.one_apply]
    exact h2 i j
  have hU' : Matrix.of gammaDD * Matrix.of u = 1 := mul_eq_one_comm.1 hU
  have hlow : lower gammaDD (fun i => ∑ j, u i j * b j) = b := by
    have : (Matrix.of gammaDD).mulVec ((Matrix.of u).mulVec b) = b := by
      rw [Matrix.mulVec_mulVec, hU', Matrix.one_mulVec]
    exact this
  have hraise : (fun i => ∑ j, u i j * lower gammaDD betaU j) = betaU := by
    have : (Matrix.of u).mulVec ((Matrix.of gammaDD).mulVec betaU) = betaU := by
      rw [Matrix.mulVec_mulVec, hU, Matrix.one_mulVec]
    exact this
  have hiff : (fun i => ∑ j, u i j * b j) = betaU ↔ b = lower gammaDD betaU := by
    constructor
    · intro h
      rw [h] at hlow
      exact hlow.symm
    · intro h
      rw [h]
      exact hraise
  refine ⟨∑ k, (∑ j, u k j * b j) * b k - (-(alpha ^ 2) + ∑ i, betaU i * lower gammaDD betaU i),
    fun i => ∑ j, u i j * b j, ?_, ?_, ?_⟩
  · unfold g4DDToADM
    simp only [hg]
    rw [h1]
    rfl
  · rw [hiff]
    constructor
    · intro h
      refine ⟨?_, ?_, ?_⟩
      · rw [← b0, h]
      · rw [← b1, h]
      · rw [← b2, h]
    · rintro ⟨e0, e1, e2⟩
      funext i
      match i with
      | 0 => rw [b0, e0]
      | 1 => rw [b1, e1]
      | 2 => rw [b2, e2]
  · intro h
    have hb := hiff.1 h
    have : ∑ k, (∑ j, u k j * b j) * b k = ∑ i, betaU i * lower gammaDD betaU i := by
      refine Finset.sum_congr rfl fun k _ => ?_
      rw [congrFun h k, hb]
    rw [this]
    ring

/-- **C46** (violation): for the Minkowski metric (unit lapse, zero shift) `g4DD_to_ADM` returns the shift
`(-1, 0, 0)` and the squared lapse 2. -/
theorem C46_minkowski : g4DDToADM (admToG4DD (fun i j => if i = j then 1 else 0) (fun _ => 0) 1) =
    some (fun i j => if i = j then 1 else 0, 2, fun i => if i = 0 then -1 else 0) := by
  have hdet : (Matrix.of fun i j : Fin 3 => if i = j then (1 : ℝ) else 0).det ≠ 0 := by
    have : (Matrix.of fun i j : Fin 3 => if i = j then (1 : ℝ) else 0) = 1 := by
      ext i j
      rw [Matrix.one_apply]
      rfl
    rw [this, Matrix.det_one]
    exact one_ne_zero
  obtain ⟨u, d, h1, h2⟩ := symmInv3_some (fun i j => if i = j then 1 else 0)
    (fun i j => by by_cases h : i = j <;> simp [h, eq_comm]) hdet
  have hu : u = fun i j => if i = j then 1 else 0 := by
    funext i j
    rw [← h2 i j]
    simp
  have hg : (fun i j : Fin 3 => admToG4DD (fun i j => if i = j then 1 else 0) (fun _ => 0) 1 i.succ j.succ) =
      fun i j => if i = j then 1 else 0 := by
    funext i j
    rfl
  have b0 : admToG4DD (fun i j => if i = j then 1 else 0) (fun _ => 0) 1 0 0 = -1 := by
    simp [admToG4DD, block4]
  have b1 : admToG4DD (fun i j => if i = j then 1 else 0) (fun _ => 0) 1 0 1 = 0 := by
    have e : admToG4DD (fun i j => if i = j then 1 else 0) (fun _ => 0) 1 0 1 =
      lower (fun i j => if i = j then 1 else 0) (fun _ => 0) 0 := rfl
    rw [e]
    simp [lower]
  have b2 : admToG4DD (fun i j => if i = j then 1 else 0) (fun _ => 0) 1 0 2 = 0 := by
    have e : admToG4DD (fun i j => if i = j then 1 else 0) (fun _ => 0) 1 0 2 =
      lower (fun i j => if i = j then 1 else 0) (fun _ => 0) 1 := rfl
    rw [e]
    simp [lower]
  unfold g4DDToADM
  simp only [hg]
  rw [h1, hu]
  simp only [Option.map_some, Option.some.injEq, Prod.mk.injEq, true_and]
  constructor
  · simp only [Fin.sum_univ_three]
    simp [b0, b1, b2]
    norm_num
  · funext i
    simp only [Fin.sum_univ_three]
    match i with
    | 0 => simp [b0]
    | 1 => simp [b1]
    | 2 => simp [b2]

/-- A metric with shift that meets the hypotheses of the theorems. -/
example : (∀ i j, (fun i j : Fin 3 => if i = j then (2 : ℝ) else 0) i j = if j = i then 2 else 0) ∧
    (Matrix.of fun i j : Fin 3 => if i = j then (2 : ℝ) else 0).det ≠ 0 := by
  constructor
  · intro i j
    simp [eq_comm]
  · rw [Matrix.det_fin_three]
    simp

end Verif.Equations
