import Verif.Equations.MinMax
import Mathlib.Tactic.Linarith
import Mathlib.Tactic.FieldSimp
import Mathlib.Tactic.Ring
import Mathlib.Algebra.Order.Group.Abs
import Mathlib.Algebra.Order.Field.Basic
import Mathlib.Analysis.SpecialFunctions.Log.Base
import Mathlib.Data.Sign.Basic
import Mathlib.Tactic.Positivity

/-!
# C49: branch-free minimum, maximum and bound indicators
-/
namespace Verif.Equations

/-! ## Specification -/

/-- What is used of rounding: monotone, idempotent, exact on `0`, `1` and on doubling and negation of
representable numbers (no overflow). -/
structure Rounding (r : ℝ → ℝ) : Prop where
  mono : ∀ x y, x ≤ y → r x ≤ r y
  idem : ∀ x, r (r x) = r x
  zero : r 0 = 0
  one : r 1 = 1
  neg : ∀ x, r (-x) = -r x
  two : ∀ x, r x = x → r (2 * x) = 2 * x

theorem rounding_id : Rounding id where
  mono := fun _ _ h => h
  idem := fun _ => rfl
  zero := rfl
  one := rfl
  neg := fun _ => rfl
  two := fun _ _ => rfl

/-! ## Minimum and maximum -/

/-- **C49** (minimum): in exact arithmetic `min_noif` is the minimum, whichever branch is taken. -/
theorem C49_min (a b : NoifArg) : minNoif id a b = min a.val b.val := by
  unfold minNoif
  simp only [id]
  split
  · rename_i h
    rw [a.sound h]
    rcases le_total 0 b.val with hb | hb
    · rw [abs_of_nonneg hb, min_eq_left hb]; ring
    · rw [abs_of_nonpos hb, min_eq_right hb]; ring
  · split
    · rename_i h
      rw [b.sound h]
      rcases le_total 0 a.val with hb | hb
      · rw [abs_of_nonneg hb, min_eq_right hb]; ring
      · rw [abs_of_nonpos hb, min_eq_left hb]; ring
    · rcases le_total a.val b.val with hb | hb
      · rw [abs_of_nonpos (by linarith), min_eq_left hb]; ring
      · rw [abs_of_nonneg (by linarith), min_eq_right hb]; ring

/-- **C49** (maximum): in exact arithmetic `max_noif` is the maximum, whichever branch is taken. -/
theorem C49_max (a b : NoifArg) : maxNoif id a b = max a.val b.val := by
  unfold maxNoif
  simp only [id]
  split
  · rename_i h
    rw [a.sound h]
    rcases le_total 0 b.val with hb | hb
    · rw [abs_of_nonneg hb, max_eq_right hb]; ring
    · rw [abs_of_nonpos hb, max_eq_left hb]; ring
  · split
    · rename_i h
      rw [b.sound h]
      rcases le_total 0 a.val with hb | hb
      · rw [abs_of_nonneg hb, max_eq_left hb]; ring
      · rw [abs_of_nonpos hb, max_eq_right hb]; ring
    · rcases le_total a.val b.val with hb | hb
      · rw [abs_of_nonpos (by linarith), max_eq_right hb]; ring
      · rw [abs_of_nonneg (by linarith), max_eq_left hb]; ring

/-- The minimum of a representable number and zero is exact under rounding. -/
theorem minNoif_zero {r : ℝ → ℝ} (hr : Rounding r) (z : Bool) (x : ℝ) (hx : r x = x) :
    minNoif r (.of x) (.zero z) = min x 0 := by
  have key : r (1 / 2 * r (x - |x|)) = min x 0 := by
    rcases le_total 0 x with h | h
    · rw [abs_of_nonneg h, min_eq_right h, sub_self, hr.zero, mul_zero, hr.zero]
    · rw [abs_of_nonpos h, min_eq_left h, show x - -x = 2 * x by ring, hr.two x hx,
        show 1 / 2 * (2 * x) = x by ring, hx]
  unfold minNoif NoifArg.of NoifArg.zero
  cases z
  · simpa only [Bool.false_eq_true, if_false, add_zero, sub_zero, hx] using key
  · simpa only [Bool.false_eq_true, if_false, if_true] using key

theorem maxNoif_zero {r : ℝ → ℝ} (hr : Rounding r) (z : Bool) (x : ℝ) (hx : r x = x) :
    maxNoif r (.of x) (.zero z) = max x 0 := by
  have key : r (1 / 2 * r (x + |x|)) = max x 0 := by
    rcases le_total 0 x with h | h
    · rw [abs_of_nonneg h, max_eq_left h, show x + x = 2 * x by ring, hr.two x hx,
        show 1 / 2 * (2 * x) = x by ring, hx]
    · rw [abs_of_nonpos h, max_eq_right h, show x + -x = 0 by ring, hr.zero, mul_zero, hr.zero]
  unfold maxNoif NoifArg.of NoifArg.zero
  cases z
  · simpa only [Bool.false_eq_true, if_false, add_zero, sub_zero, hx] using key
  · simpa only [Bool.false_eq_true, if_false, if_true] using key

theorem divR_some (r : ℝ → ℝ) (a b : ℝ) (h : b ≠ 0) : divR r a b = some (r (a / b)) := by
  unfold divR
  rw [if_neg h]

theorem divR_one {r : ℝ → ℝ} (hr : Rounding r) (a : ℝ) (h : a ≠ 0) : divR r a a = some 1 := by
  rw [divR_some r _ _ h, div_self h, hr.one]

theorem divR_zero {r : ℝ → ℝ} (hr : Rounding r) (a : ℝ) (h : a ≠ 0) : divR r 0 a = some 0 := by
  rw [divR_some r _ _ h, zero_div, hr.zero]

/-! ## Indicators with rounding -/

/-- **C49** (indicators, floating point): when adding or subtracting `T` to the difference of the arguments is
rounded away, or the arguments are equal, the four indicators are exactly 1 where the comparison holds and 0
where it fails. -/
theorem C49_indicators {r : ℝ → ℝ} (hr : Rounding r) (T : ℝ) (hT : 0 < T) (hTr : r T = T) (z : Bool) (x xs : ℝ)
    (hnz : x ≠ xs → r (x - xs) ≠ 0)
    (habs : x ≠ xs → r (r (x - xs) - T) = r (x - xs) ∧ r (r (x - xs) + T) = r (x - xs)) :
    coordLeq r T z x xs = some (if x ≤ xs then 1 else 0) ∧
    coordGeq r T z x xs = some (if xs ≤ x then 1 else 0) ∧
    coordLess r T z x xs = some (if x < xs then 1 else 0) ∧
    coordGreater r T z x xs = some (if xs < x then 1 else 0) := by
  unfold coordLeq coordGeq coordLess coordGreater
  rcases lt_trichotomy x xs with h | h | h
  · obtain ⟨h1, h2⟩ := habs h.ne
    have h3 := hnz h.ne
    have h4 : r (x - xs) ≤ 0 := by
      rw [← hr.zero]
      exact hr.mono _ _ (by linarith)
    rw [if_pos h.le, if_neg h.not_ge, if_pos h, if_neg h.not_gt]
    simp only [h1, h2, minNoif_zero hr z _ (hr.idem _), maxNoif_zero hr z _ (hr.idem _), min_eq_left h4,
      max_eq_right h4, divR_one hr _ h3, divR_zero hr _ h3, and_self]
  · subst h
    have e : r (-T) = -T := by rw [hr.neg, hTr]
    simp only [sub_self, hr.zero, zero_sub, zero_add, e, hTr, le_refl, lt_irrefl, if_true, if_false]
    rw [minNoif_zero hr z _ e, maxNoif_zero hr z _ hTr, minNoif_zero hr z _ hr.zero, maxNoif_zero hr z _ hr.zero,
      min_eq_left (by linarith), max_eq_left (by linarith), min_self, max_self, divR_one hr _ (by linarith),
      divR_one hr _ hT.ne', divR_zero hr _ (by linarith), divR_zero hr _ hT.ne']
    exact ⟨rfl, rfl, rfl, rfl⟩
  · obtain ⟨h1, h2⟩ := habs h.ne'
    have h3 := hnz h.ne'
    have h4 : 0 ≤ r (x - xs) := by
      rw [← hr.zero]
      exact hr.mono _ _ (by linarith)
    rw [if_neg h.not_ge, if_pos h.le, if_neg h.not_gt, if_pos h]
    simp only [h1, h2, minNoif_zero hr z _ (hr.idem _), maxNoif_zero hr z _ (hr.idem _), min_eq_right h4,
      max_eq_left h4, divR_one hr _ h3, divR_zero hr _ h3, and_self]

/-- A coarse floating-point format without mantissa: positive numbers are rounded to a power of two, to the
nearest exponent. -/
noncomputable def expRound (x : ℝ) : ℝ := SignType.sign x * (2 : ℝ) ^ ⌊Real.logb 2 |x| + 1 / 2⌋

theorem expRound_pos (x : ℝ) (h : 0 < x) : expRound x = (2 : ℝ) ^ ⌊Real.logb 2 x + 1 / 2⌋ := by
  unfold expRound
  rw [sign_pos h, abs_of_pos h]
  simp

theorem logb_two_zpow (n : ℤ) : Real.logb 2 ((2 : ℝ) ^ n) = n := by
  rw [← Real.rpow_intCast]
  exact Real.logb_rpow (by norm_num) (by norm_num)

theorem expRound_zpow (k : ℤ) : expRound ((2 : ℝ) ^ k) = (2 : ℝ) ^ k := by
  rw [expRound_pos _ (by positivity), logb_two_zpow]
  congr 2
  rw [Int.floor_eq_iff]
  constructor <;> push_cast <;> linarith

theorem expRound_neg (x : ℝ) : expRound (-x) = -expRound x := by
  unfold expRound
  rw [Left.sign_neg, abs_neg]
  simp

theorem expRound_cases (x : ℝ) : (x = 0 ∧ expRound x = 0) ∨ (0 < x ∧ ∃ k : ℤ, expRound x = (2 : ℝ) ^ k) ∨
    (x < 0 ∧ ∃ k : ℤ, expRound x = -(2 : ℝ) ^ k) := by
  rcases lt_trichotomy x 0 with h | h | h
  · refine .inr (.inr ⟨h, ⌊Real.logb 2 (-x) + 1 / 2⌋, ?_⟩)
    rw [← expRound_pos _ (by linarith), expRound_neg, neg_neg]
  · refine .inl ⟨h, ?_⟩
    rw [h]
    unfold expRound
    simp
  · exact .inr (.inl ⟨h, _, expRound_pos x h⟩)

theorem expRound_mono_pos (x y : ℝ) (hx : 0 < x) (h : x ≤ y) : expRound x ≤ expRound y := by
  rw [expRound_pos x hx, expRound_pos y (by linarith)]
  refine zpow_le_zpow_right₀ (by norm_num) (Int.floor_le_floor ?_)
  have := (Real.logb_le_logb (b := 2) (by norm_num) hx (by linarith)).2 h
  linarith

theorem expRound_rounding : Rounding expRound where
  zero := by simp [expRound]
  one := by simpa using expRound_zpow 0
  neg := expRound_neg
  mono := by
    intro x y h
    have hp : ∀ k : ℤ, (0 : ℝ) < 2 ^ k := fun k => by positivity
    rcases expRound_cases x with ⟨hx, ex⟩ | ⟨hx, k, ex⟩ | ⟨hx, k, ex⟩
    · rcases expRound_cases y with ⟨hy, ey⟩ | ⟨hy, m, ey⟩ | ⟨hy, m, ey⟩
      · rw [ex, ey]
      · rw [ex, ey]; exact (hp m).le
      · linarith
    · exact expRound_mono_pos x y hx h
    · rcases expRound_cases y with ⟨hy, ey⟩ | ⟨hy, m, ey⟩ | ⟨hy, m, ey⟩
      · rw [ex, ey]; linarith [hp k]
      · rw [ex, ey]; linarith [hp k, hp m]
      · have := expRound_mono_pos (-y) (-x) (by linarith) (by linarith)
        rw [expRound_neg, expRound_neg] at this
        linarith
  idem := by
    intro x
    rcases expRound_cases x with ⟨-, ex⟩ | ⟨-, k, ex⟩ | ⟨-, k, ex⟩
    · rw [ex]; simp [expRound]
    · rw [ex, expRound_zpow]
    · rw [ex, expRound_neg, expRound_zpow]
  two := by
    intro x hx
    have h2 : ∀ k : ℤ, 2 * (2 : ℝ) ^ k = 2 ^ (k + 1) := fun k => by rw [zpow_add_one₀ (by norm_num)]; ring
    rcases expRound_cases x with ⟨h, ex⟩ | ⟨h, k, ex⟩ | ⟨h, k, ex⟩
    · rw [h]; simp [expRound]
    · rw [← hx, ex, h2, expRound_zpow]
    · rw [← hx, ex, mul_neg, h2, expRound_neg, expRound_zpow]

theorem expRound_eq (x : ℝ) (k : ℤ) (hx : 0 < x) (h1 : (2 : ℝ) ^ (2 * k - 1) ≤ x ^ 2) (h2 : x ^ 2 < (2 : ℝ) ^ (2 * k + 1)) :
    expRound x = 2 ^ k := by
  have e : Real.logb 2 (x ^ 2) = 2 * Real.logb 2 x := by rw [Real.logb_pow]; norm_num
  have a1 := (Real.logb_le_logb (b := 2) (by norm_num) (by positivity) (by positivity)).2 h1
  have a2 := Real.logb_lt_logb (b := 2) (by norm_num) (by positivity) h2
  rw [logb_two_zpow, e] at a1 a2
  rw [expRound_pos x hx]
  congr 1
  rw [Int.floor_eq_iff]
  push_cast at a1 a2 ⊢
  constructor <;> linarith

/-- The hypotheses of `C49_indicators` are met by this format with `T = 1/8`, `x = 5`, `xs = 1`: the difference
is 4, and 4 ± 1/8 is rounded to 4. -/
example : Rounding expRound ∧ expRound (1 / 8) = 1 / 8 ∧ expRound (5 - 1) ≠ 0 ∧
    expRound (expRound (5 - 1) - 1 / 8) = expRound (5 - 1) ∧ expRound (expRound (5 - 1) + 1 / 8) = expRound (5 - 1) := by
  have e4 : expRound (5 - 1) = 4 := (expRound_eq _ 2 (by norm_num) (by norm_num) (by norm_num)).trans (by norm_num)
  have e8 : expRound (1 / 8) = 1 / 8 :=
    (expRound_eq _ (-3) (by norm_num) (by norm_num) (by norm_num)).trans (by norm_num)
  rw [e4]
  exact ⟨expRound_rounding, e8, by norm_num,
    (expRound_eq _ 2 (by norm_num) (by norm_num) (by norm_num)).trans (by norm_num),
    (expRound_eq _ 2 (by norm_num) (by norm_num) (by norm_num)).trans (by norm_num)⟩

/-! ## Indicators in exact arithmetic -/

/-- **C49** (`leq` and `geq`, exact arithmetic): correct outside the open window of width `T` next to the bound,
wrong inside it, undefined at its far end. -/
theorem C49_leq_geq_exact (T : ℝ) (z : Bool) (x xs : ℝ) :
    (x - xs < T → coordLeq id T z x xs = some 1) ∧ (x - xs = T → coordLeq id T z x xs = none) ∧
    (T < x - xs → coordLeq id T z x xs = some 0) ∧
    (-T < x - xs → coordGeq id T z x xs = some 1) ∧ (x - xs = -T → coordGeq id T z x xs = none) ∧
    (x - xs < -T → coordGeq id T z x xs = some 0) := by
  unfold coordLeq coordGeq
  simp only [id, minNoif_zero rounding_id z _ rfl, maxNoif_zero rounding_id z _ rfl]
  refine ⟨fun h => ?_, fun h => ?_, fun h => ?_, fun h => ?_, fun h => ?_, fun h => ?_⟩
  · rw [min_eq_left (by linarith)]
    exact divR_one rounding_id _ (by linarith)
  · unfold divR
    rw [if_pos (by linarith)]
  · rw [min_eq_right (by linarith)]
    exact divR_zero rounding_id _ (by linarith)
  · rw [max_eq_left (by linarith)]
    exact divR_one rounding_id _ (by linarith)
  · unfold divR
    rw [if_pos (by linarith)]
  · rw [max_eq_right (by linarith)]
    exact divR_zero rounding_id _ (by linarith)

/-- **C49** (`less` and `greater`, exact arithmetic): 0 where the comparison fails, except that they are
undefined at distance `T`; where it holds they are `d/(d + T)` with `d` the distance: below 1, never 1. -/
theorem C49_less_greater_partial (T : ℝ) (hT : 0 < T) (z : Bool) (x xs : ℝ) :
    (x < xs → ∃ y, coordLess id T z x xs = some y ∧ y = (xs - x) / (xs - x + T) ∧ 0 < y ∧ y < 1) ∧
    (xs ≤ x → x - xs ≠ T → coordLess id T z x xs = some 0) ∧ (x - xs = T → coordLess id T z x xs = none) ∧
    (xs < x → ∃ y, coordGreater id T z x xs = some y ∧ y = (x - xs) / (x - xs + T) ∧ 0 < y ∧ y < 1) ∧
    (x ≤ xs → xs - x ≠ T → coordGreater id T z x xs = some 0) ∧ (xs - x = T → coordGreater id T z x xs = none) := by
  unfold coordLess coordGreater
  simp only [id, minNoif_zero rounding_id z _ rfl, maxNoif_zero rounding_id z _ rfl]
  refine ⟨fun h => ?_, fun h h' => ?_, fun h => ?_, fun h => ?_, fun h h' => ?_, fun h => ?_⟩
  · rw [min_eq_left (by linarith), divR_some _ _ _ (by linarith)]
    have e : (x - xs) / (x - xs - T) = (xs - x) / (xs - x + T) := by
      rw [← neg_div_neg_eq]
      congr 1 <;> ring
    refine ⟨_, rfl, e, ?_⟩
    show 0 < (x - xs) / (x - xs - T) ∧ (x - xs) / (x - xs - T) < 1
    rw [e]
    exact ⟨div_pos (by linarith) (by linarith), (div_lt_one (by linarith)).2 (by linarith)⟩
  · rw [min_eq_right (by linarith)]
    exact divR_zero rounding_id _ (fun h => h' (by linarith))
  · unfold divR
    rw [if_pos (by linarith)]
  · rw [max_eq_left (by linarith), divR_some _ _ _ (by linarith)]
    refine ⟨_, rfl, rfl, div_pos (by linarith) (by linarith), (div_lt_one (by linarith)).2 (by linarith)⟩
  · rw [max_eq_right (by linarith)]
    exact divR_zero rounding_id _ (fun h => h' (by linarith))
  · unfold divR
    rw [if_pos (by linarith)]

/-- **C49** (order of the sum): if the sum `x - xs - T` is evaluated as `(-T + x) - xs` and `T` is absorbed by
`x`, then at `x = xs` the denominator of `coord_leq_bound` is zero, not `-T`. -/
theorem C49_printed_order {r : ℝ → ℝ} (hr : Rounding r) (T x : ℝ) (h : r (-T + x) = x) :
    divR r (min (r (r (-T + x) - x)) 0) (r (r (-T + x) - x)) = none := by
  rw [h, sub_self, hr.zero]
  unfold divR
  rw [if_pos rfl]

/-- The hypothesis of `C49_printed_order` is met: -1/8 + 4 is rounded to 4. -/
example : expRound (-(1 / 8) + 4) = 4 :=
  (expRound_eq _ 2 (by norm_num) (by norm_num) (by norm_num)).trans (by norm_num)

end Verif.Equations
