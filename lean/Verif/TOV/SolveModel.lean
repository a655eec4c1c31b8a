import Verif.TOV.Model
import Mathlib.Algebra.BigOperators.Group.Finset.Basic

/-!
# Model of the driver of TOVola and of its interpolation

The C code in `TOVola_solve.py` (`solve`) and `TOVola_interp.py` (`interp`).  Arrays are lists; an access outside of the allocated memory is the error
`outOfBounds`, and a value that was never set is `indeterminate`.  `malloc` and `realloc` succeed, `int` is unbounded.
-/
namespace Verif.TOV
open Real

/-- How a run can end other than by returning. -/
inductive Err where
  | outOfBounds
  | indeterminate
  | solver
  | fewPoints
  | bracketing
  | stencil
  deriving DecidableEq

/-! ### The integration loop -/

/-- `NEGATIVE_R_INTERP_BUFFER` (solve:27). -/
def buffer : ℕ := 11

/-- The entries with the same index of the arrays (solve:36-42). -/
structure Row where
  r_Schw : ℝ
  rho_energy : ℝ
  rho_baryon : ℝ
  P : ℝ
  M : ℝ
  nu : ℝ
  r_iso : ℝ

/-- The variables of the loop (solve:30-48, 344, 360): `rows` are the `numpoints_actually_saved` entries that were set. -/
structure Solver where
  current_position : ℝ
  y : State
  rho_baryon : ℝ
  r_lengthscale : ℝ
  rows : List Row
  alloced : ℕ

/-- `TOVola_exception_handler` (solve:67-72). -/
noncomputable def exceptionHandler (y : State) : State := if y.P < 0 then { y with P := 0 } else y

/-- What a call of `TOVola_ODE` does to `r_lengthscale` (solve:140-146, 163-165). -/
noncomputable def odeLength (e : Eos) (r_Schw : ℝ) (y : State) (L : ℝ) : ℝ :=
  if r_Schw = 0 then L
  else if 0 < y.riso ∧ 0 < |(ode e r_Schw y).riso| then |y.riso / (ode e r_Schw y).riso| else L

/-- `gsl_odeiv2_driver_apply`, by the number of the step, from one radius to another: `none` is an error, otherwise the arguments with which it
called `TOVola_ODE` and the new state. -/
abbrev Driver := ℕ → ℝ → ℝ → State → Option (List (ℝ × State) × State)

/-- The number of entries to allocate (solve:399-409). -/
def grow (saved alloced : ℕ) : ℕ := if saved + buffer + 1 ≥ alloced then 3 * alloced / 2 else alloced

/-- One pass of the loop (solve:376-436), with the condition of `TOVola_do_we_terminate`. -/
noncomputable def step (e : Eos) (rhoC : ℝ) (drv : Driver) (i : ℕ) (s : Solver) : Except Err (Solver × Bool) :=
  let dr := if s.rho_baryon < 0.05 * rhoC then 1e-6 * s.r_lengthscale else 0.01 * s.r_lengthscale
  match drv i s.current_position (s.current_position + dr) (exceptionHandler s.y) with
  | none => .error .solver
  | some (calls, y') =>
    let y := exceptionHandler y'
    let n := grow s.rows.length s.alloced
    let row : Row := ⟨s.current_position + dr, energy e y.P, (densities e y.P).1, y.P, y.M, y.nu, y.riso⟩
    if s.rows.length < n then
      .ok ({ current_position := s.current_position + dr
             y := y
             rho_baryon := (densities e y.P).1
             r_lengthscale := calls.foldl (fun L c => odeLength e c.1 c.2 L) s.r_lengthscale
             rows := s.rows ++ [row]
             alloced := n }, decide (y.P ≤ 0))
    else .error .outOfBounds

/-- The loop (solve:375-437); the first argument is the number of steps that are left, the second the number of the step. -/
noncomputable def loop (e : Eos) (rhoC : ℝ) (drv : Driver) : ℕ → ℕ → Solver → Except Err Solver
  | 0, _, s => .ok s
  | k + 1, i, s => do
    let (s, stop) ← step e rhoC drv i s
    if stop then pure s else loop e rhoC drv k (i + 1) s

/-- The state before the loop (solve:344-374). -/
noncomputable def start (e : Eos) (rhoC initial_ode_step_size : ℝ) : Solver :=
  { current_position := 0, y := (initialCondition e rhoC).1, rho_baryon := rhoC, r_lengthscale := initial_ode_step_size, rows := [], alloced := 1024 }

/-! ### After the loop -/

/-- `extend_to_negative_r` (solve:330-334).  It reads the first entries and writes back into an array of `alloced` entries. -/
noncomputable def extend (arr : List ℝ) (parity : ℝ) (alloced : ℕ) : Except Err (List ℝ) :=
  if arr.length + buffer > alloced then .error .outOfBounds
  else if arr.length < buffer then .error .indeterminate
  else .ok ((List.range buffer).map (fun i => parity * arr.getD (buffer - i - 1) 0) ++ arr)

/-- The arrays of `ID_persist` (ID_persist_struct.py:46-53). -/
structure Arrays where
  r_Schw : List ℝ
  rho_baryon : List ℝ
  rho_energy : List ℝ
  P : List ℝ
  M : List ℝ
  expnu : List ℝ
  exp4phi : List ℝ
  r_iso : List ℝ

/-- `TOVola_Normalize_and_set_data_integrated` (solve:290-327) of the extended arrays. -/
noncomputable def normalizeData (r_Schw rho_energy rho_baryon P M nu r_iso : List ℝ) : Except Err Arrays :=
  let n := r_Schw.length
  if n < 2 then .error .fewPoints
  else
    let R := r_Schw.getD (n - 1) 0
    let s : State := ⟨0, nu.getD (n - 1) 0, M.getD (n - 1) 0, r_iso.getD (n - 1) 0⟩
    .ok { r_Schw := r_Schw, rho_baryon := rho_baryon, rho_energy := rho_energy, P := P, M := M
          r_iso := r_iso.map fun r => r * normalize R s.M s.riso
          expnu := nu.map fun x => exp (x - s.nu + log (1 - 2 * s.M / R))
          exp4phi := List.zipWith (fun r q => r / q * (r / q)) r_Schw (r_iso.map fun r => r * normalize R s.M s.riso) }

/-- What follows the loop (solve:443-490). -/
noncomputable def finish (s : Solver) : Except Err Arrays := do
  let r_Schw ← extend (s.rows.map (·.r_Schw)) (-1) s.alloced
  let rho_energy ← extend (s.rows.map (·.rho_energy)) 1 s.alloced
  let rho_baryon ← extend (s.rows.map (·.rho_baryon)) 1 s.alloced
  let P ← extend (s.rows.map (·.P)) 1 s.alloced
  let M ← extend (s.rows.map (·.M)) 1 s.alloced
  let nu ← extend (s.rows.map (·.nu)) 1 s.alloced
  let r_iso ← extend (s.rows.map (·.r_iso)) (-1) s.alloced
  normalizeData r_Schw rho_energy rho_baryon P M nu r_iso

/-- `TOVola_solve` (solve:341-491). -/
noncomputable def solve (e : Eos) (rhoC initial_ode_step_size : ℝ) (ode_max_steps : ℕ) (drv : Driver) : Except Err Arrays := do
  let s ← loop e rhoC drv ode_max_steps 0 (start e rhoC initial_ode_step_size)
  finish s

/-! ### Interpolation -/

/-- Reading an entry. -/
def rd (arr : List ℝ) (i : ℤ) : Except Err ℝ :=
  if i < 0 then .error .outOfBounds
  else match arr[i.toNat]? with
    | some v => .ok v
    | none => .error .outOfBounds

/-- The loop of `TOVola_bisection_idx_finder` (interp:35-56); the first argument is the number of passes that are left. -/
noncomputable def bisectLoop (arr : List ℝ) (rr : ℝ) : ℕ → ℕ → ℕ → ℝ → Except Err ℕ
  | 0, _, _, _ => .error .bracketing
  | k + 1, x1, x2, y1 => do
    let m := (x1 + x2) / 2
    let ym := rr - (← rd arr m)
    let (x1, x2, y1) := if ym * y1 ≤ 0 then (x1, m, y1) else (m, x2, ym)
    if x2 = x1 + 1 ∨ x1 = x2 + 1 then
      let a ← rd arr x1
      let b ← rd arr x2
      pure (if |rr - a| < |rr - b| then x1 else x2)
    else bisectLoop arr rr k x1 x2 y1

/-- `TOVola_bisection_idx_finder` (interp:25-57). -/
noncomputable def bisect (arr : List ℝ) (rr : ℝ) : Except Err ℕ := do
  let y1 := rr - (← rd arr 0)
  let y2 := rr - (← rd arr (arr.length - 1))
  if y1 * y2 > 0 then throw .bracketing
  bisectLoop arr rr arr.length 0 (arr.length - 1) y1

/-- `idxmin` (interp:79-84). -/
def idxmin (n s : ℕ) (idx_mid : ℕ) : ℤ := min (max 0 ((idx_mid : ℤ) - (s / 2 : ℕ) - 1)) ((n : ℤ) - 1 - s + 1)

/-- The coefficients (interp:101-111). -/
noncomputable def lagrange (s : ℕ) (sample : ℕ → ℝ) (rr : ℝ) (i : ℕ) : ℝ :=
  (∏ j ∈ (Finset.range s).erase i, (rr - sample j)) / ∏ j ∈ (Finset.range s).erase i, (sample i - sample j)

/-- The entries of the stencil (interp:96-99, 121-129). -/
def entries (arr : List ℝ) (i : ℤ) (s : ℕ) : Except Err (List ℝ) := (List.range s).mapM fun (k : ℕ) => rd arr (i + k)

/-- The sum over the stencil (interp:121-129). -/
noncomputable def combine (s : ℕ) (l : ℕ → ℝ) (a : List ℝ) : ℝ := ∑ k ∈ Finset.range s, l k * a.getD k 0

/-- What `TOVola_TOV_interpolate_1D` returns (interp:64-65). -/
structure Interpolated where
  rho_energy : ℝ
  rho_baryon : ℝ
  P : ℝ
  M : ℝ
  expnu : ℝ
  exp4phi : ℝ

/-- What `TOVola_interp` uses of it (interp:162-198). -/
def Interpolated.used (v : Interpolated) : Values := ⟨v.rho_energy, v.P, v.expnu, v.exp4phi⟩

/-- `TOVola_TOV_interpolate_1D` (interp:60-142); `s` is `commondata->interpolation_stencil_size` and `smax` is
`commondata->max_interpolation_stencil_size`.  The argument `interpolation_stencil_size` is not used in the function. -/
noncomputable def interpolate1D (A : Arrays) (s smax : ℕ) (rr_iso : ℝ) : Except Err Interpolated := do
  let n := A.r_iso.length
  let M_star ← rd A.M (n - 1)
  let rmax ← rd A.r_iso (n - 1)
  if rr_iso < rmax then
    let rr := if rr_iso < 0 then -rr_iso else rr_iso
    let mid ← bisect A.r_iso rr
    let i := idxmin n s mid
    if s > smax then throw .stencil
    let sample ← entries A.r_iso i s
    let l := lagrange s (fun k => sample.getD k 0) rr
    let _ ← entries A.r_Schw i s
    let rho_energy ← entries A.rho_energy i s
    let rho_baryon ← entries A.rho_baryon i s
    let P ← entries A.P i s
    let M ← entries A.M i s
    let expnu ← entries A.expnu i s
    let exp4phi ← entries A.exp4phi i s
    pure ⟨combine s l rho_energy, combine s l rho_baryon, combine s l P, combine s l M, combine s l expnu, combine s l exp4phi⟩
  else
    let v := exterior M_star rr_iso
    pure ⟨v.rho_energy, 0, v.P, M_star, v.expnu, v.exp4phi⟩

end Verif.TOV
