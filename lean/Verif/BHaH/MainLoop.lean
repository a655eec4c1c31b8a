import Verif.Py.Str
import Mathlib.Data.Real.Archimedean
import Mathlib.Tactic.Linarith
import Mathlib.Tactic.Positivity
import Mathlib.Tactic.FieldSimp

/-!
# C119: the main loop of an evolution (`nrpy/infrastructures/BHaH/main_c.py`, `bhah_lib.py`)

Simplifications: real numbers; the user code between the parts of the loop is empty except for a checkpoint after the diagnostics; the right-hand sides do
not change the time, the step or the iteration.
-/
namespace Verif.BHaH.MainLoop
open Verif.Py

/-- The number of the iteration, the time and the gridfunctions. -/
structure St (Y : Type) where
  nn : ℤ
  time : ℝ
  y : Y

/-- The step, and the Method of Lines for the evolved gridfunctions. -/
structure Prog (Y : Type) where
  dt : ℝ
  mol : Y → Y

variable {Y : Type} (P : Prog Y)

/-- The end of `MoL_step_forward_in_time` (`MoLtimestepping/MoL.py` 747-754). -/
noncomputable def step (s : St Y) : St Y := ⟨s.nn + 1, (s.nn + 1 : ℤ) * P.dt, P.mol s.y⟩

/-- `numerical_grids_and_timestep.py` 342-348 and initial data. -/
def start (y : Y) : St Y := ⟨0, 0, y⟩

/-- The main loop (`main_c.py` 150-182, `bhah_lib.py` 146-149): the states given to `diagnostics` and the last state. `none`: the fuel did not suffice. -/
noncomputable def loop (tFinal : ℝ) : ℕ → St Y → Option (List (St Y) × St Y)
  | 0, _ => none
  | n + 1, s => if s.time < tFinal then (loop tFinal n (step P s)).map fun r => (s :: r.1, r.2) else some ([], s)

/-- The functions that have to be registered before `main` (`main_c.py` 41-58). -/
def required : List Str :=
  [c% "params_struct_set_to_default", c% "commondata_struct_set_to_default", c% "cmdline_input_and_parfile_parser", c% "numerical_grids_and_timestep",
   c% "MoL_malloc_y_n_gfs", c% "MoL_malloc_non_y_n_gfs", c% "initial_data", c% "MoL_step_forward_in_time", c% "diagnostics", c% "MoL_free_memory_y_n_gfs",
   c% "MoL_free_memory_non_y_n_gfs"]

/-- The functions that `main` calls, in the order of the text (`main_c.py` 100-187). -/
def called : List Str :=
  [c% "commondata_struct_set_to_default", c% "cmdline_input_and_parfile_parser", c% "params_struct_set_to_default", c% "numerical_grids_and_timestep",
   c% "MoL_malloc_y_n_gfs", c% "initial_data", c% "MoL_malloc_non_y_n_gfs", c% "diagnostics", c% "MoL_step_forward_in_time", c% "griddata_free"]

/-- `register_CFunction_main_c` (`main_c.py` 41-66, 188-198): the dictionary of functions afterwards; `none` is a `ValueError`. -/
def registerMain (dict : List Str) : Option (List Str) := if ∀ f ∈ required, f ∈ dict then some (dict ++ [c% "main"]) else none

/-! ## Specification -/

/-- The state after `n` steps. -/
def stateAt (y : Y) (n : ℕ) : St Y := ⟨n, n * P.dt, P.mol^[n] y⟩

/-- The number of steps to the final time. -/
noncomputable def numSteps (tFinal : ℝ) : ℕ := ⌈tFinal / P.dt⌉₊

/-! ## Proofs -/

theorem step_stateAt (y : Y) (n : ℕ) : step P (stateAt P y n) = stateAt P y (n + 1) := by
  unfold step stateAt
  simp only [Function.iterate_succ_apply']
  push_cast
  rfl

theorem lt_iff (h : 0 < P.dt) (tFinal : ℝ) (n : ℕ) : (n : ℝ) * P.dt < tFinal ↔ n < numSteps P tFinal := by
  unfold numSteps
  rw [Nat.lt_ceil, lt_div_iff₀ h]

/-- **C119** (run): a run that starts after `n` steps calls the diagnostics once for each state before the final time, in order, and ends in the first
state whose time is not before the final time; if there is none to make no step is made. -/
theorem C119_run (h : 0 < P.dt) (tFinal : ℝ) (y : Y) : ∀ (k n fuel : ℕ), numSteps P tFinal - n = k → k < fuel →
    loop P tFinal fuel (stateAt P y n) = some ((List.range' n k).map (stateAt P y), stateAt P y (n + k))
  | k, n, 0, _, hf => absurd hf (Nat.not_lt_zero _)
  | 0, n, fuel + 1, hk, _ => by
    have : ¬ (stateAt P y n).time < tFinal := by show ¬ (n : ℝ) * P.dt < tFinal; rw [lt_iff P h]; omega
    unfold loop
    rw [if_neg this]
    rfl
  | k + 1, n, fuel + 1, hk, hf => by
    have h1 : (stateAt P y n).time < tFinal := by show (n : ℝ) * P.dt < tFinal; rw [lt_iff P h]; omega
    unfold loop
    rw [if_pos h1, step_stateAt, C119_run h tFinal y k (n + 1) fuel (by omega) (by omega)]
    simp only [Option.map_some, List.range'_succ, List.map_cons]
    congr 3
    omega

/-- **C119** (end): the last state is the first one whose time is not before the final time. -/
theorem C119_end (h : 0 < P.dt) (tFinal : ℝ) (ht : 0 ≤ tFinal) (y : Y) :
    ∃ l s, loop P tFinal (numSteps P tFinal + 1) (start y) = some (l, s) ∧ tFinal ≤ s.time ∧ s.time < tFinal + P.dt ∧ s.time = s.nn * P.dt ∧
      s.y = P.mol^[s.nn.toNat] y ∧ l.length = s.nn.toNat := by
  have e : start y = stateAt P y 0 := by simp [start, stateAt]
  rw [e, C119_run P h tFinal y _ 0 (numSteps P tFinal + 1) rfl (by omega)]
  refine ⟨_, _, rfl, ?_, ?_, ?_, ?_, ?_⟩
  · have := (lt_iff P h tFinal (numSteps P tFinal)).not.mpr (Nat.lt_irrefl _)
    simpa [stateAt] using this
  · simp only [stateAt, Nat.zero_add, Nat.sub_zero]
    have h1 := Nat.ceil_lt_add_one (div_nonneg ht h.le)
    have h2 : (numSteps P tFinal : ℝ) * P.dt < (tFinal / P.dt + 1) * P.dt := mul_lt_mul_of_pos_right h1 h
    have h3 : (tFinal / P.dt + 1) * P.dt = tFinal + P.dt := by field_simp
    linarith
  · simp [stateAt]
  · simp [stateAt]
  · simp [stateAt]

/-- **C119** (times): the diagnostics are called at the multiples of the step before the final time, each once. -/
theorem C119_diagnostics (h : 0 < P.dt) (tFinal : ℝ) (y : Y) {fuel : ℕ} (hf : numSteps P tFinal < fuel) {l : List (St Y)} {s : St Y}
    (hl : loop P tFinal fuel (start y) = some (l, s)) :
    (l.map St.nn).Nodup ∧ ∀ x : St Y, x ∈ l ↔ ∃ n : ℕ, x = stateAt P y n ∧ (n : ℝ) * P.dt < tFinal := by
  have e : start y = stateAt P y 0 := by simp [start, stateAt]
  rw [e, C119_run P h tFinal y _ 0 _ rfl hf] at hl
  obtain ⟨rfl, rfl⟩ := Prod.mk.inj (Option.some.inj hl)
  constructor
  · rw [List.map_map]
    refine List.Nodup.map (fun a b hab => ?_) List.nodup_range'
    simpa [stateAt] using hab
  · intro x
    rw [List.mem_map]
    constructor
    · rintro ⟨n, hn, rfl⟩
      refine ⟨n, rfl, (lt_iff P h tFinal n).mpr ?_⟩
      have := List.mem_range'_1.mp hn
      omega
    · rintro ⟨n, rfl, hn⟩
      exact ⟨n, List.mem_range'_1.mpr ⟨Nat.zero_le _, by have := (lt_iff P h tFinal n).mp hn; omega⟩, rfl⟩

/-- **C119** (finding): the state at the end of a run is never given to the diagnostics. -/
theorem C119_final_violation (h : 0 < P.dt) (tFinal : ℝ) (y : Y) {fuel : ℕ} (hf : numSteps P tFinal < fuel) {l : List (St Y)} {s : St Y}
    (hl : loop P tFinal fuel (start y) = some (l, s)) : ∀ x ∈ l, x.time < tFinal ∧ x.nn < s.nn := by
  intro x hx
  obtain ⟨n, rfl, hn⟩ := ((C119_diagnostics P h tFinal y hf hl).2 x).mp hx
  refine ⟨hn, ?_⟩
  have e : start y = stateAt P y 0 := by simp [start, stateAt]
  rw [e, C119_run P h tFinal y _ 0 _ rfl hf] at hl
  obtain ⟨-, rfl⟩ := Prod.mk.inj (Option.some.inj hl)
  have := (lt_iff P h tFinal n).mp hn
  simp only [stateAt]
  omega

/-- **C119** (restart): a run that is started again from the checkpoint of the `n`-th state ends in the same state, and its diagnostics are those of the
first run from the `n`-th on, which is done a second time. -/
theorem C119_restart (h : 0 < P.dt) (tFinal : ℝ) (y : Y) {fuel : ℕ} (hf : numSteps P tFinal < fuel) {l : List (St Y)} {s : St Y}
    (hl : loop P tFinal fuel (start y) = some (l, s)) (n : ℕ) (c : St Y) (hc : l[n]? = some c) :
    loop P tFinal fuel c = some (l.drop n, s) := by
  have e : start y = stateAt P y 0 := by simp [start, stateAt]
  rw [e, C119_run P h tFinal y _ 0 _ rfl hf] at hl
  obtain ⟨rfl, rfl⟩ := Prod.mk.inj (Option.some.inj hl)
  simp only [Nat.sub_zero] at hc ⊢
  rw [List.getElem?_map] at hc
  obtain ⟨m, hm, rfl⟩ := Option.map_eq_some_iff.mp hc
  obtain ⟨hlt, hm⟩ := List.getElem?_eq_some_iff.mp hm
  rw [List.getElem_range'] at hm
  rw [List.length_range'] at hlt
  have : m = n := by omega
  subst this
  rw [C119_run P h tFinal y _ m _ rfl (by omega), ← List.map_drop, List.drop_range']
  congr 2
  · congr 2; omega
  · congr 1; omega

/-- **C119** (library): two calls of `bhah_evolve` with growing final times do what one call does. -/
theorem C119_evolve_twice (h : 0 < P.dt) {t1 t2 : ℝ} (h12 : t1 ≤ t2) (y : Y) {fuel : ℕ} (hf : numSteps P t2 < fuel) :
    ∃ l1 s1 l2 s2, loop P t1 fuel (start y) = some (l1, s1) ∧ loop P t2 fuel s1 = some (l2, s2) ∧ loop P t2 fuel (start y) = some (l1 ++ l2, s2) := by
  have e : start y = stateAt P y 0 := by simp [start, stateAt]
  have hm : numSteps P t1 ≤ numSteps P t2 := Nat.ceil_mono (div_le_div_of_nonneg_right h12 h.le)
  refine ⟨_, _, _, _, by rw [e, C119_run P h t1 y _ 0 _ rfl (by omega)], by rw [C119_run P h t2 y _ _ _ rfl (by omega)], ?_⟩
  rw [e, C119_run P h t2 y _ 0 _ rfl hf, ← List.map_append]
  congr 2
  · congr 1
    have := List.range'_append (s := 0) (m := numSteps P t1 - 0) (n := numSteps P t2 - (0 + (numSteps P t1 - 0))) (step := 1)
    rw [Nat.one_mul] at this
    rw [this]
    congr 1
    omega
  · congr 1; omega

/-- **C119** (functions): if `main` is registered, every function that it calls is registered, except perhaps `griddata_free`. -/
theorem C119_required_partial {dict d : List Str} (h : registerMain dict = some d) : (c% "main") ∈ d ∧ ∀ f ∈ called, f ≠ (c% "griddata_free") → f ∈ d := by
  unfold registerMain at h
  split at h
  · rename_i hr
    cases h
    refine ⟨by simp, fun f hf hn => List.mem_append_left _ (hr f ?_)⟩
    have : ∀ f ∈ called, f ≠ (c% "griddata_free") → f ∈ required := by decide
    exact this f hf hn
  · cases h

/-- **C119** (functions, finding): `main` may be registered without `griddata_free`, which it calls: the project is written but cannot be linked. -/
theorem C119_required_violation : ∃ dict d, registerMain dict = some d ∧ ∃ f ∈ called, f ∉ d :=
  ⟨required, _, if_pos fun _ h => h, c% "griddata_free", by decide, by decide⟩

example : ∃ P : Prog ℤ, 0 < P.dt ∧ numSteps P 1 = 2 := ⟨⟨2 / 3, fun y => y + 1⟩, by norm_num, by
  unfold numSteps
  rw [Nat.ceil_eq_iff (by norm_num)]
  norm_num⟩

end Verif.BHaH.MainLoop
