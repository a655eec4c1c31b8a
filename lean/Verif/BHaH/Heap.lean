import Mathlib.Data.Finset.Card
import Mathlib.Data.Set.Basic
import Mathlib.Logic.Function.Basic

/-!
# The memory of a run: `main` (`BHaH/main_c.py`), the library (`BHaH/bhah_lib.py`) and the functions that allocate and free

Programs are lists of the calls of `malloc` and `free` and of the accesses to `griddata[grid]`, in their order. `malloc` always succeeds. Left out:
memory that a function allocates and frees itself (except in checkpoints), the memory of the horizon finder, the user code between the steps.
-/
namespace Verif.BHaH.Heap

/-- The variables that hold pointers: `griddata`, the struct of the library and its `commondata`, and for grid `g` the coordinates `xx[i]`, the arrays
of `rfmstruct`, the arrays of `bcstruct`, `y_n_gfs`, the other gridfunctions of the Method of Lines; the two arrays of a checkpoint. -/
inductive Slot
  | griddata | handle | common | indices | compact
  | xx (g i : ℕ) | rfm (g k : ℕ) | inner (g : ℕ) | outer (g k : ℕ) | y (g : ℕ) | non (g k : ℕ)
  deriving DecidableEq

/-- An operation. -/
inductive Op
  /-- `griddata = malloc(sizeof(griddata_struct) * n)`. -/
  | alloc (n : ℕ)
  | malloc (s : Slot)
  | free (s : Slot)
  /-- `griddata[g]` is read or written. -/
  | touch (g : ℕ)

/-- The pointers, the blocks that are allocated, the next block, and the number of structs in `griddata`. -/
structure Mem where
  ptr : Slot → Option ℕ
  live : Finset ℕ
  next : ℕ
  cap : ℕ

/-- At the start nothing is allocated and no pointer is set. -/
def Mem.empty : Mem := ⟨fun _ => none, ∅, 0, 0⟩

/-- `malloc`. -/
def Mem.malloc (m : Mem) (s : Slot) : Mem :=
  { m with ptr := Function.update m.ptr s (some m.next), live := insert m.next m.live, next := m.next + 1 }

/-- One operation; `none` if the behaviour is undefined: a pointer is freed that was not set or whose block was freed before, or there is no struct of
that number. -/
def exec (m : Mem) : Op → Option Mem
  | .alloc n => some { m.malloc .griddata with cap := n }
  | .malloc s => some (m.malloc s)
  | .free s => match m.ptr s with
    | none => none
    | some b => if b ∈ m.live then some { m with live := m.live.erase b } else none
  | .touch g => match m.ptr .griddata with
    | none => none
    | some b => if b ∈ m.live ∧ g < m.cap then some m else none

/-- A program. -/
def run (m : Mem) : List Op → Option Mem
  | [] => some m
  | o :: l => (exec m o).bind (run · l)

/-! ### The functions -/

/-- The choices with which the C code is generated and run. -/
structure Config where
  /-- The number of grids that `numerical_grids_and_timestep` sets. -/
  grids : ℕ
  /-- `MAXNUMGRIDS`. -/
  maxGrids : ℕ
  ng : ℕ
  /-- `enable_rfm_precompute` and `enable_CurviBCs` of `numerical_grids_and_timestep`. -/
  rfm : Bool
  bcs : Bool
  /-- The same of `register_CFunction_griddata_free`. -/
  freeRfm : Bool
  freeBcs : Bool
  /-- The number of arrays in `rfmstruct` of a grid, and of gridfunctions other than `y_n_gfs`. -/
  numRfm : ℕ → ℕ
  numNon : ℕ
  /-- `set_initial_data_after_auxevol_malloc`. -/
  auxFirst : Bool
  /-- There is a checkpoint file at the start. -/
  restart : Bool
  /-- For each time step, whether a checkpoint is written. -/
  steps : List Bool

variable (c : Config)

/-- Pointers of grid `g`: coordinates (`numerical_grids_and_timestep.py` 149-151). -/
def xxs (g : ℕ) : List Slot := [.xx g 0, .xx g 1, .xx g 2]
/-- `rfm_precompute_malloc` (`rfm_precompute.py`). -/
def rfms (g : ℕ) : List Slot := (List.range (c.numRfm g)).map (.rfm g)
/-- `bcstruct_set_up` (`CurviBoundaryConditions.py` 569, 616, 632, 649). -/
def bcsOf (g : ℕ) : List Slot := .inner g :: (List.range c.ng).flatMap fun gz => [.outer g (3 * gz), .outer g (3 * gz + 1), .outer g (3 * gz + 2)]
/-- `MoL_malloc_non_y_n_gfs`. -/
def nons (g : ℕ) : List Slot := (List.range c.numNon).map (.non g)

/-- `for(int grid=0; grid<n; grid++)` with operations on `griddata[grid]`. -/
def forGrids (n : ℕ) (body : ℕ → List Op) : List Op := (List.range n).flatMap fun g => .touch g :: body g

/-- `numerical_grids_and_timestep` (`numerical_grids_and_timestep.py` 230-330). -/
def numericalGrids : List Op :=
  forGrids c.grids (fun g => (xxs g).map .malloc) ++
  (if c.rfm then forGrids c.grids fun g => (rfms c g).map .malloc else []) ++
  (if c.bcs then forGrids c.grids fun g => (bcsOf c g).map .malloc else [])

/-- `read_checkpoint` (`checkpointing.py` 62-90) for one grid. -/
def readGrid (g : ℕ) : List Op := [.malloc .indices, .malloc .compact, .malloc (.y g), .free .indices, .free .compact]

/-- `write_checkpoint` (`checkpointing.py` 159-196) for one grid. -/
def writeGrid (g : ℕ) : List Op := [.free (.y g), .malloc .indices, .malloc .compact, .free .indices, .free .compact, .malloc (.y g)]

/-- `initial_data`: a checkpoint is read if there is one (`wave_equation_C_codegen_library.py` 115 and others). -/
def initialData : List Op := if c.restart then forGrids c.grids readGrid else []

/-- `griddata_free` (`griddata_commondata.py` 99-126) with the flag true. -/
def griddataFree : List Op :=
  forGrids c.grids (fun g => ((if c.freeRfm then rfms c g else []) ++
    (if c.freeBcs then Slot.inner g :: (List.range (c.ng * 3)).map (Slot.outer g) else []) ++ [Slot.y g] ++ nons c g ++ xxs g).map .free) ++
  [.free .griddata]

/-- The time steps (`main_c.py` 152-181): diagnostics write a checkpoint when it is time. -/
def evolve : List Op := c.steps.flatMap fun cp => if cp then forGrids c.grids writeGrid else []

/-- `main` (`main_c.py` 100-190). -/
def mainProg : List Op :=
  [.alloc c.maxGrids] ++ numericalGrids c ++ forGrids c.grids (fun g => [.malloc (.y g)]) ++
  (if c.auxFirst then forGrids c.grids (fun g => (nons c g).map .malloc) ++ initialData c
    else initialData c ++ forGrids c.grids (fun g => (nons c g).map .malloc)) ++
  evolve c ++ griddataFree c

/-- `bhah_initialize`, `bhah_evolve` and `bhah_finalize` (`bhah_lib.py` 24-60, 82-95, 145-152); `n0` is `NUMGRIDS` as set by
`commondata_struct_set_to_default`. -/
def libProg (n0 : ℕ) : List Op :=
  [.malloc .handle, .malloc .common, .alloc n0] ++ numericalGrids c ++
  forGrids n0 (fun g => [.malloc (.y g)] ++ (nons c g).map .malloc) ++ initialData c ++ evolve c ++
  forGrids c.grids (fun g => ([Slot.y g] ++ nons c g ++ rfms c g).map .free) ++
  [.free .common, .free .griddata, .free .handle]

end Verif.BHaH.Heap
