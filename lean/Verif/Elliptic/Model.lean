import Verif.Grids.Model
import Verif.RefMetric.Hatted
import Verif.BHaH.Checkpoint
import Mathlib.Analysis.SpecialFunctions.Log.Base

/-!
# Model of the driver of NRPyElliptic

BHaH/nrpyelliptic/conformally_flat_C_codegen_library.py (initial guess, wave speed, norm of the residual, diagnostics, stop
conditions), BHaH/main_c.py:150-182 (main loop) and examples/nrpyelliptic_conformally_flat.py:347-363 (what is called in the
loop).  Simplifications: `REAL` is the real numbers, `none` is NaN; C integers do not overflow; a gridfunction is a function
of the indices (the layout is C08, C37); the time step of the Method of Lines on the data (C36) and the residual at a point
(C79, C82) are parameters; 1D and 2D output (C104) is recorded by the iteration in which it happens; text on the terminal is
left out.
-/
namespace Verif.Elliptic
open Verif.Py Verif.RefMetric Verif.Grids

/-- Indices of a grid point. -/
abbrev Idx := ℕ × ℕ × ℕ

/-- A gridfunction in memory. -/
abbrev Arr := Idx → ℝ

/-- Points of one plane in the order of the loops. -/
def plane (lo n0 n1 i2 : ℕ) : List Idx :=
  (List.range n1).flatMap fun a1 => (List.range n0).map fun a0 => (lo + a0, lo + a1, i2)

/-- `loop_region="interior"` (BHaH/simple_loop.py:124-126): from `NGHOSTS` to below `NGHOSTS + Nxx`; `g` is `NGHOSTS`. -/
def interior (g : ℕ) (G : GridData) : List Idx :=
  (List.range (G.params.Nxx 2).toNat).flatMap fun a2 =>
    plane g (G.params.Nxx 0).toNat (G.params.Nxx 1).toNat (g + a2)

/-- `loop_region="all points"` (BHaH/simple_loop.py:120-122). -/
def allPoints (G : GridData) : List Idx :=
  (List.range (G.params.NxxG 2).toNat).flatMap fun i2 => plane 0 (G.params.NxxG 0).toNat (G.params.NxxG 1).toNat i2

/-- A loop that assigns `f i` at each point `i`. -/
noncomputable def assign (f : Idx → ℝ) (l : List Idx) (A : Arr) : Arr := l.foldl (fun A i => Function.update A i (f i)) A

/-! ### Setting the gridfunctions (lines 33-341) -/

/-- `initial_data` on a grid (lines 51-56, 100-117): both fields at all points. -/
noncomputable def initialGuess (G : GridData) (y : Arr × Arr) : Arr × Arr :=
  (assign (fun _ => 0) (allPoints G) y.1, assign (fun _ => 0) (allPoints G) y.2)

/-- The gridfunctions of `auxevol_gfs`. -/
structure Aux where
  wavespeed : Arr
  psi : Arr
  ADDAUU : Arr

/-- The wave speed at a point (lines 257-270). -/
noncomputable def wavespeedAt (M dt : ℝ) (G : GridData) (i : Idx) : ℝ :=
  let ds := fun d => G.sys.scale (G.point i) d * G.params.dxx d
  M * cMin (ds 0) (cMin (ds 1) (ds 2)) / dt

/-- `variable_wavespeed_gfs_all_points` (lines 272-290), in spite of its name over the interior. -/
noncomputable def setWavespeed (g : ℕ) (M dt : ℝ) (G : GridData) (A : Aux) : Aux :=
  { A with wavespeed := assign (wavespeedAt M dt G) (interior g G) A.wavespeed }

/-- `auxevol_gfs_all_points` (lines 204-221); `psi`, `add` are the expressions of `auxevol_gfs_single_point` (C82). -/
noncomputable def setAux (psi add : Vec → ℝ) (G : GridData) (A : Aux) : Aux :=
  { A with psi := assign (fun i => psi (G.point i)) (allPoints G) A.psi,
           ADDAUU := assign (fun i => add (G.point i)) (allPoints G) A.ADDAUU }

/-- `initialize_constant_auxevol` (lines 324-330). -/
noncomputable def initAux (g : ℕ) (M dt : ℝ) (psi add : Vec → ℝ) (G : GridData) (A : Aux) : Aux :=
  setAux psi add G (setWavespeed g M dt G A)

/-- Where the wave speed at the outer boundary is read (examples/nrpyelliptic_conformally_flat.py:238-239). -/
def outerIdx (g : ℕ) (G : GridData) : Idx := ((G.params.NxxG 0 - g - 1).toNat, g, (G.params.NxxG 2 / 2).toNat)

/-! ### The norm of the residual (lines 346-427, 713-780) -/

/-- `compute_residual_all_points`: the interior of `diagnostic_output_gfs`. -/
noncomputable def residual (g : ℕ) (G : GridData) (H : Idx → ℝ) (D : Arr) : Arr := assign H (interior g G) D

/-- The body of the loop (lines 368-388) on (`squared_sum`, `volume_sum`). -/
noncomputable def addPoint (G : GridData) (radius : ℝ) (f : Arr) (s : ℝ × ℝ) (i : Idx) : ℝ × ℝ :=
  let sqrtdetgamma := detgammahat G.sys.scale (G.point i)
  if G.sys.sph (G.point i) 0 < radius then
    let dV := sqrtdetgamma * G.params.dxx 0 * G.params.dxx 1 * G.params.dxx 2
    (s.1 + f i * f i * dV, s.2 + dV)
  else s

/-- The sums after the loop: `omp parallel for reduction(+:...)`, each thread visits the planes of its `chunk`, starting from
zero; the private sums are added to the originals in the order of `chunks` (lines 399-410). -/
noncomputable def sums (g : ℕ) (G : GridData) (radius : ℝ) (f : Arr) (chunks : List (List ℕ)) : ℝ × ℝ :=
  chunks.foldl (fun s chunk => s + ((chunk.flatMap fun i2 =>
    plane g (G.params.Nxx 0).toNat (G.params.Nxx 1).toNat i2).foldl (addPoint G radius f) (0, 0))) (0, 0)

/-- `compute_L2_norm_of_gridfunction` (lines 412-415); zero divided by zero is NaN. -/
noncomputable def l2norm (g : ℕ) (G : GridData) (radius : ℝ) (f : Arr) (chunks : List (List ℕ)) : Option ℝ :=
  let s := sums g G radius f chunks
  if s.2 = 0 then none else some (Real.logb 10 (1e-16 + √(s.1 / s.2)))

/-! ### The loop -/

/-- Parameters of a run, and the parts that other models describe: a time step of the data, and the norm of their residual. -/
structure Prog (Y : Type) where
  dt : ℝ
  tFinal : ℝ
  nnMax : ℤ
  tol : ℝ
  outEvery : ℤ
  mol : Y → Y
  norm : Y → Option ℝ

/-- The members of `commondata` that change, and the evolved gridfunctions: what a checkpoint stores. -/
structure Core (Y : Type) where
  nn : ℤ
  time : ℝ
  res : Option ℝ
  stop : Bool
  every : ℝ
  y : Y

/-- State with the files: `residual_l2_norm.txt`, the 1D and 2D files (by iteration), the checkpoint. -/
structure State (Y : Type) where
  core : Core Y
  lines : List (ℤ × ℝ × Option ℝ)
  dumps : List ℤ
  chk : Option (Core Y)

/-- `a < b` for numbers that may be NaN. -/
noncomputable def cLt : Option ℝ → ℝ → Bool
  | some a, b => decide (a < b)
  | none, _ => false

section
variable {Y : Type} (P : Prog Y)

/-- The part of `diagnostics` that changes `commondata` (lines 519-529). -/
def measure (c : Core Y) : Core Y := { c with res := P.norm c.y }

/-- `diagnostics` (lines 501-564). -/
def diagnostics (s : State Y) : State Y :=
  let c := measure P s.core
  let line := (c.nn, c.time, c.res)
  { s with core := c,
           lines := if c.nn = 0 then [line] else s.lines ++ [line],
           dumps := if c.nn.tmod P.outEvery = 0 then s.dumps ++ [c.nn] else s.dumps }

open Classical in
/-- `write_checkpoint` (BHaH/checkpointing.py:140-147; C43, C45). -/
noncomputable def writeCheckpoint (s : State Y) : State Y :=
  if BHaH.outputTest s.core.time P.dt s.core.every then { s with chk := some s.core } else s

/-- `MoL_step_forward_in_time` (C36; BHaH/MoLtimestepping/MoL.py:748-753). -/
noncomputable def step (c : Core Y) : Core Y := { c with y := P.mol c.y, time := (c.nn + 1 : ℤ) * P.dt, nn := c.nn + 1 }

/-- `check_stop_conditions` (lines 614-628). -/
noncomputable def checkStop (c : Core Y) : Core Y :=
  if c.nn ≥ P.nnMax ∨ cLt c.res P.tol then { c with stop := true } else c

/-- One pass through the body of the loop; the Boolean says whether the loop goes on (main_c.py:153-182; the example, lines
347-362). -/
noncomputable def iteration (s : State Y) : State Y × Bool :=
  let s := writeCheckpoint P (diagnostics P s)
  let s := { s with core := checkStop P (step P s.core) }
  if s.core.stop then
    (writeCheckpoint P { s with core := { s.core with every := 1e-4 * P.dt } }, false)
  else (s, true)

/-- `while(commondata.time < commondata.t_final)`; `none`: the fuel did not suffice. -/
noncomputable def loop : ℕ → State Y → Option (State Y)
  | 0, _ => none
  | n + 1, s =>
    if s.core.time < P.tFinal then
      let r := iteration P s
      if r.2 then loop n r.1 else some r.1
    else some s

/-- Before the loop: defaults of the parameters (lines 593-612) and the initial guess, or the contents of the checkpoint
(lines 95-99; BHaH/checkpointing.py:46-100). -/
def start (every : ℝ) (guess : Y) (files : State Y) : State Y :=
  match files.chk with
  | none => { files with core := ⟨0, 0, some 1, false, every, guess⟩ }
  | some c => { files with core := c }

end
end Verif.Elliptic
