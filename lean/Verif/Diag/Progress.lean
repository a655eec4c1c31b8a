import Mathlib.Data.Real.Basic
import Mathlib.Data.Real.Archimedean
import Mathlib.Algebra.Order.Floor.Ring
import Mathlib.Tactic.Linarith
import Mathlib.Tactic.NormNum

/-!
# The progress indicator (C110)

BHaH/diagnostics/progress_indicator.py.  `REAL` is the real numbers.  C leaves `%` with divisor zero, the division of a real number by
zero followed by a conversion to `int`, and the conversion of a number outside the range of `int` undefined: `none`.
-/
namespace Verif.Diag.Progress

/-- The members of `commondata` that are used. -/
structure Clock where
  nn : ℤ
  nn0 : ℤ
  time : ℝ
  t0 : ℝ
  tFinal : ℝ
  outputEvery : ℤ

/-- What is shown: hours, minutes, seconds. -/
structure ETA where
  hrs : ℤ
  mins : ℤ
  secs : ℤ
deriving DecidableEq

/-- Conversion of a real number to `int` (truncation). -/
noncomputable def toInt (x : ℝ) : Option ℤ :=
  let n := if 0 ≤ x then ⌊x⌋ else ⌈x⌉
  if -2147483648 ≤ n ∧ n ≤ 2147483647 then some n else none

/-- Division of real numbers whose result is then converted. -/
noncomputable def cdiv (a b : ℝ) : Option ℝ := if b = 0 then none else some (a / b)

/-- The test whether to print (lines 82-86); C evaluates `&&` from the left. -/
def prints (c : Clock) : Option Bool :=
  if 0 ≤ c.outputEvery then
    if c.outputEvery = 0 then none else some (c.nn.tmod c.outputEvery == 0)
  else some false

/-- The wall-clock time that is remembered (lines 76-81): set in the first iteration. -/
def startTime (c : Clock) (stored now : ℝ) : ℝ := if c.nn = c.nn0 then now else stored

/-- The estimate (lines 87-105); `start` and `now` are in seconds. -/
noncomputable def eta (c : Clock) (start now : ℝ) : Option ETA := do
  let elapsed := now - start
  let perSec ← cdiv (c.time - c.t0) elapsed
  let q ← cdiv (c.tFinal - c.time) perSec
  let remaining ← toInt q
  let hrs ← toInt ((remaining : ℝ) / 3600)
  let m ← toInt ((remaining : ℝ) / 60)
  let mins := m.tmod 60
  let secs := remaining - mins * 60 - hrs * 3600
  if c.nn = 0 then some ⟨0, 0, 0⟩ else some ⟨hrs, mins, secs⟩

/-- `progress_indicator` with `compute_ETA`: what is printed (`some none`: nothing). -/
noncomputable def indicator (c : Clock) (stored now : ℝ) : Option (Option ETA) := do
  let b ← prints c
  if b then (eta c (startTime c stored now) now).map some else some none

/-! ### Claims -/

/-- C110, when it prints: for a positive period in the iterations that are multiples of it, for a negative period never. -/
theorem C110_when_partial (c : Clock) : (0 < c.outputEvery → prints c = some (decide (c.outputEvery ∣ c.nn))) ∧
    (c.outputEvery < 0 → prints c = some false) := by
  constructor
  · intro h
    unfold prints
    rw [if_pos h.le, if_neg h.ne']
    congr 1
    rw [Bool.eq_iff_iff]
    simp [Int.dvd_iff_tmod_eq_zero]
  · intro h
    unfold prints
    rw [if_neg (not_le.2 h)]

/-- C110, violation: a period of zero, documented to switch the output off, makes the program compute a remainder by zero. -/
theorem C110_zero_violation (c : Clock) (h : c.outputEvery = 0) : prints c = none := by
  unfold prints
  rw [h]
  rfl

theorem toInt_nonneg {x : ℝ} (h : 0 ≤ x) (h' : x < 2147483648) : toInt x = some ⌊x⌋ := by
  unfold toInt
  dsimp only
  rw [if_pos h, if_pos]
  have h1 : 0 ≤ ⌊x⌋ := Int.floor_nonneg.2 h
  have h2 : ⌊x⌋ < 2147483648 := Int.floor_lt.2 (by exact_mod_cast h')
  omega

theorem floor_div (n k : ℤ) (hk : 0 < k) : ⌊(n : ℝ) / k⌋ = n / k := by
  have hk' : (0 : ℝ) < k := by exact_mod_cast hk
  have e := Int.mul_ediv_add_emod n k
  have h1 := Int.emod_nonneg n hk.ne'
  have h2 := Int.emod_lt_of_pos n hk
  rw [Int.floor_eq_iff, le_div_iff₀ hk', div_lt_iff₀ hk']
  constructor
  · exact_mod_cast (by nlinarith : n / k * k ≤ n)
  · exact_mod_cast (by nlinarith : n < (n / k + 1) * k)

/-- C110, the estimate: in an iteration after the first, with time passing, hours, minutes and seconds add up to the remaining time (elapsed time divided
by the simulated time since the start, times the simulated time that is left) rounded down, minutes and seconds are below 60 and nothing is
negative. -/
theorem C110_eta_partial {c : Clock} {start now : ℝ} (h0 : c.nn ≠ 0) (ht : c.t0 < c.time) (hf : c.time ≤ c.tFinal) (hw : start < now)
    (hlim : (c.tFinal - c.time) * ((now - start) / (c.time - c.t0)) < 2147483648) :
    ∃ e, eta c start now = some e ∧ e.hrs * 3600 + e.mins * 60 + e.secs = ⌊(c.tFinal - c.time) * ((now - start) / (c.time - c.t0))⌋ ∧
      0 ≤ e.hrs ∧ 0 ≤ e.mins ∧ e.mins < 60 ∧ 0 ≤ e.secs ∧ e.secs < 60 := by
  have hd : 0 < c.time - c.t0 := by linarith
  have he : 0 < now - start := by linarith
  have hp : (c.time - c.t0) / (now - start) ≠ 0 := (div_pos hd he).ne'
  have eq : (c.tFinal - c.time) / ((c.time - c.t0) / (now - start)) = (c.tFinal - c.time) * ((now - start) / (c.time - c.t0)) := by
    rw [div_eq_mul_inv, inv_div]
  have hx0 : 0 ≤ (c.tFinal - c.time) * ((now - start) / (c.time - c.t0)) := mul_nonneg (by linarith) (div_pos he hd).le
  unfold eta
  dsimp only
  rw [cdiv, if_neg he.ne', Option.bind_eq_bind, Option.bind_some, cdiv, if_neg hp, Option.bind_eq_bind, Option.bind_some, eq]
  generalize (c.tFinal - c.time) * ((now - start) / (c.time - c.t0)) = x at *
  rw [toInt_nonneg hx0 hlim, Option.bind_some]
  have h1 : 0 ≤ ⌊x⌋ := Int.floor_nonneg.2 hx0
  have h2 : ⌊x⌋ < 2147483648 := Int.floor_lt.2 (by exact_mod_cast hlim)
  generalize ⌊x⌋ = r at *
  have hr0 : (0 : ℝ) ≤ r := by exact_mod_cast h1
  have hr1 : (r : ℝ) < 2147483648 := by exact_mod_cast h2
  rw [toInt_nonneg (by positivity) (by linarith), Option.bind_some, toInt_nonneg (by positivity) (by linarith), Option.bind_some,
    if_neg h0]
  have e1 : ⌊(r : ℝ) / 3600⌋ = r / 3600 := by have := floor_div r 3600 (by norm_num); simpa using this
  have e2 : ⌊(r : ℝ) / 60⌋ = r / 60 := by have := floor_div r 60 (by norm_num); simpa using this
  rw [e1, e2]
  refine ⟨_, rfl, ?_⟩
  dsimp only
  rw [Int.tmod_eq_emod_of_nonneg (by omega)]
  omega

/-- C110, the whole indicator, in an iteration after the first: an estimate with the wall-clock time of the first iteration as its start is shown if the iteration is a multiple of the period; otherwise nothing is
shown.  Missing: period zero and the first iteration, in which the program does what C leaves undefined. -/
theorem C110_shown_partial {c : Clock} {stored now : ℝ} (hp : 0 < c.outputEvery) (h1 : c.nn ≠ c.nn0) (h0 : c.nn ≠ 0) (ht : c.t0 < c.time)
    (hf : c.time ≤ c.tFinal) (hw : stored < now) (hlim : (c.tFinal - c.time) * ((now - stored) / (c.time - c.t0)) < 2147483648) :
    (¬ c.outputEvery ∣ c.nn → indicator c stored now = some none) ∧
      (c.outputEvery ∣ c.nn → ∃ e, indicator c stored now = some (some e) ∧
        e.hrs * 3600 + e.mins * 60 + e.secs = ⌊(c.tFinal - c.time) * ((now - stored) / (c.time - c.t0))⌋ ∧
        0 ≤ e.hrs ∧ 0 ≤ e.mins ∧ e.mins < 60 ∧ 0 ≤ e.secs ∧ e.secs < 60) := by
  have hs : startTime c stored now = stored := if_neg h1
  have hpr := (C110_when_partial c).1 hp
  constructor
  · intro hd
    unfold indicator
    rw [hpr, decide_eq_false hd]
    rfl
  · intro hd
    obtain ⟨e, he, rest⟩ := C110_eta_partial h0 ht hf hw hlim
    refine ⟨e, ?_, rest⟩
    unfold indicator
    rw [hpr, decide_eq_true hd, hs, he]
    rfl

/-- C110, violation: in the first iteration of every run, and of every run from a checkpoint, no simulated time has passed, and the program converts the
result of a division by zero to an integer. -/
theorem C110_first_violation {c : Clock} {start now : ℝ} (h : c.time = c.t0) : eta c start now = none := by
  unfold eta cdiv
  dsimp only
  by_cases he : now - start = 0
  · rw [if_pos he]; rfl
  · rw [if_neg he, h]; simp

/-- A run from 0 to 100, at time 25 after 10.5 seconds: 31 seconds are left. -/
example : ∃ e, eta ⟨50, 0, 25, 0, 100, 1⟩ 0 10.5 = some e ∧ e.hrs * 3600 + e.mins * 60 + e.secs = 31 := by
  obtain ⟨e, h, h', -⟩ := C110_eta_partial (c := ⟨50, 0, 25, 0, 100, 1⟩) (start := 0) (now := 10.5) (by norm_num) (by norm_num)
    (by norm_num) (by norm_num) (by norm_num)
  refine ⟨e, h, h'.trans ?_⟩
  norm_num [Int.floor_eq_iff]

end Verif.Diag.Progress
