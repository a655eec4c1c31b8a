import Mathlib.Logic.Function.Basic
import Mathlib.Data.Real.Basic
import Mathlib.Algebra.Order.Floor.Ring
import Mathlib.Data.Real.Archimedean

/-!
# Model of checkpoints and of the output test (nrpy/infrastructures/BHaH/checkpointing.py)

A file is a list of bytes (type `β`).  The C types are given by codecs: how a value is laid out and read back.
`commondata_struct`, `params_struct` and `bhahaha_params_and_data_struct` are opaque types of which only the members
used by the code are visible.  Simplifications: arrays are functions from indices to values or lists in index order;
`malloc` succeeds and returns memory with arbitrary content (`fresh`); arithmetic on `int` indices is exact; real
numbers stand for `REAL` in the output test.  `fprintf` to stderr is left out.
-/
namespace Verif.BHaH

/-- How values of a C type are stored: `fwrite` writes `enc a`, `fread` interprets `size` bytes by `dec`. -/
structure Codec (β α : Type) where
  size : Nat
  enc : α → List β
  dec : List β → α

/-- The program's types and the members used here: `NUMGRIDS`, `bah_num_horizons`, `Nxx_plus_2NGHOSTS0/1/2`,
`NUM_EVOL_GFS`, and the assignment of `t_0` and `nn_0` (checkpointing.py:95-96). -/
structure Layout (β C H P R : Type) where
  common : Codec β C
  horizon : Codec β H
  params : Codec β P
  int : Codec β Nat
  real : Codec β R
  bah : Bool
  numGrids : C → Nat
  numHorizons : C → Nat
  restart : C → C
  n0 : P → Nat
  n1 : P → Nat
  n2 : P → Nat
  numEvol : Nat

/-- `griddata[grid]`: parameters, `y_n_gfs` and `diagnostic_output_gfs`. -/
structure GridMem (P R : Type) where
  params : P
  y : Nat → R
  diag : Nat → R

/-- One entry of `bhahaha_params_and_data` with its three stored horizons. -/
structure Horizon (H R : Type) where
  data : H
  m1 : List R
  m2 : List R
  m3 : List R

section
variable {β C H P R : Type} (L : Layout β C H P R)

/-- Number of points (checkpointing.py:76, 162-164). -/
def Layout.ntot (p : P) : Nat := L.n0 p * L.n1 p * L.n2 p

/-- Number of values per stored horizon (checkpointing.py:55-60, 154-156). -/
def horizonPts : Nat := 64 * 32

/-- `fwrite` of several values. -/
def fwrite {α : Type} (c : Codec β α) (l : List α) : List β := l.flatMap c.enc

/-- `fread` of `n` values from the rest of the file; `none`: fewer bytes are left, and the items not read keep whatever
was in memory (the return value is not checked, checkpointing.py:31). -/
def fread {α : Type} (c : Codec β α) : Nat → List β → Option (List α × List β)
  | 0, s => some ([], s)
  | n + 1, s =>
    if c.size ≤ s.length then
      match fread c n (s.drop c.size) with
      | some (l, r) => some (c.dec (s.take c.size) :: l, r)
      | none => none
    else none

/-! ### Writing -/

/-- Bytes written for one horizon (checkpointing.py:153-156). -/
def horizonBytes (h : Horizon H R) : List β :=
  L.horizon.enc h.data ++ fwrite L.real h.m1 ++ fwrite L.real h.m2 ++ fwrite L.real h.m3

/-- `y_n_gfs` is copied to `diagnostic_output_gfs` (checkpointing.py:165-167). -/
def copyToDiag (g : GridMem P R) : Nat → R :=
  fun k => if k < L.ntot g.params * L.numEvol then g.y k else g.diag k

/-- `count` (checkpointing.py:170-175): the mask is the constant 1. -/
def countPts (p : P) : Nat := ((List.range (L.ntot p)).filter fun _ => decide ((0 : Int) ≤ 1)).length

/-- `out_data_indices` (checkpointing.py:180-188). -/
def outIndices (p : P) : List Nat := (List.range (L.ntot p)).filter fun _ => decide ((0 : Int) ≤ 1)

/-- `compact_out_data`: the entry at `which_el*NUM_EVOL_GFS + gf` (checkpointing.py:184-185). -/
def compact (p : P) (diag : Nat → R) : List R :=
  (List.range (countPts L p * L.numEvol)).map fun k => diag (L.ntot p * (k % L.numEvol) + k / L.numEvol)

/-- Bytes written for one grid (checkpointing.py:160-191). -/
def gridBytes (g : GridMem P R) : List β :=
  L.params.enc g.params ++ L.int.enc (countPts L g.params) ++ fwrite L.int (outIndices L g.params) ++
    fwrite L.real (compact L g.params (copyToDiag L g))

/-- Everything written to the file (checkpointing.py:147-196). -/
def writeBytes (c : C) (hs : List (Horizon H R)) (gs : List (GridMem P R)) : List β :=
  L.common.enc c ++ (if L.bah then hs.flatMap (horizonBytes L) else []) ++ gs.flatMap (gridBytes L)

/-- Memory of a grid after its data were written: `y_n_gfs` was freed, allocated again and copied back
(checkpointing.py:165-195). -/
def writeGridMem (fresh : Nat → R) (g : GridMem P R) : GridMem P R :=
  let diag := copyToDiag L g
  ⟨g.params, fun k => if k < L.ntot g.params * L.numEvol then diag k else fresh k, diag⟩

/-! ### Reading -/

/-- Result of `read_checkpoint`: 0 and nothing read; 1 and everything read; 1 although some `fread` met the end of the
file, so that memory holds other data. -/
inductive ReadResult (C H P R : Type)
  | absent
  | restored (c : C) (hs : List (Horizon H R)) (gs : List (P × (Nat → R)))
  | garbage

/-- One value. -/
def fread1 {α : Type} (c : Codec β α) (s : List β) : Option (α × List β) :=
  match fread c 1 s with
  | some (a :: _, r) => some (a, r)
  | _ => none

/-- checkpointing.py:54-60. -/
def readHorizon (s : List β) : Option (Horizon H R × List β) := do
  let (d, s) ← fread1 L.horizon s
  let (m1, s) ← fread L.real horizonPts s
  let (m2, s) ← fread L.real horizonPts s
  let (m3, s) ← fread L.real horizonPts s
  return (⟨d, m1, m2, m3⟩, s)

/-- The assignments to `y_n_gfs` in loop order (checkpointing.py:83-87), with `IDX4pt` of BHaH_defines_h.py:353. -/
def assignments (p : P) (count : Nat) (idx : List Nat) (data : List R) : List (Nat × R) :=
  (List.range count).flatMap fun i => (List.range L.numEvol).filterMap fun gf =>
    match idx[i]?, data[i * L.numEvol + gf]? with
    | some j, some v => some (j + L.n0 p * L.n1 p * L.n2 p * gf, v)
    | _, _ => none

/-- checkpointing.py:64-90. -/
def readGrid (fresh : Nat → R) (s : List β) : Option ((P × (Nat → R)) × List β) := do
  let (p, s) ← fread1 L.params s
  let (count, s) ← fread1 L.int s
  let (idx, s) ← fread L.int count s
  let (data, s) ← fread L.real (count * L.numEvol) s
  return ((p, (assignments L p count idx data).foldl (fun y a => Function.update y a.1 a.2) fresh), s)

/-- Repeating a read (the loops at checkpointing.py:53 and 64). -/
def readMany {α : Type} (f : List β → Option (α × List β)) : Nat → List β → Option (List α × List β)
  | 0, s => some ([], s)
  | n + 1, s =>
    match f s with
    | some (a, s) =>
      match readMany f n s with
      | some (l, s) => some (a :: l, s)
      | none => none
    | none => none

/-- checkpointing.py:53-61. -/
def readHorizons (c : C) (s : List β) : Option (List (Horizon H R) × List β) :=
  if L.bah then readMany (readHorizon L) (L.numHorizons c) s else some ([], s)

/-- checkpointing.py:48-90; also returns the bytes left over. -/
def readAll (fresh : Nat → R) (s : List β) :
    Option ((C × List (Horizon H R) × List (P × (Nat → R))) × List β) := do
  let (c, s) ← fread1 L.common s
  let (hs, s) ← readHorizons L c s
  let (gs, s) ← readMany (readGrid L fresh) (L.numGrids c) s
  return ((L.restart c, hs, gs), s)

/-- `read_checkpoint` (checkpointing.py:43-98) on a file that may be missing. -/
def readCheckpoint (fresh : Nat → R) : Option (List β) → ReadResult C H P R
  | none => .absent
  | some s =>
    match readAll L fresh s with
    | some ((c, hs, gs), _) => .restored c hs gs
    | none => .garbage

/-! ### The file during a write -/

/-- Steps of `write_checkpoint` that affect the file: opening with mode "w+", which truncates
(checkpointing.py:146), and bytes reaching the file. -/
inductive FileStep (β : Type)
  | truncate
  | append (b : List β)

def FileStep.run : FileStep β → Option (List β) → Option (List β)
  | .truncate, _ => some []
  | .append b, some f => some (f ++ b)
  | .append b, none => some b

/-- The steps, one byte at a time (checkpointing.py:146-197). -/
def writeSteps (c : C) (hs : List (Horizon H R)) (gs : List (GridMem P R)) : List (FileStep β) :=
  .truncate :: (writeBytes L c hs gs).map fun b => .append [b]

/-- The file after the first `k` steps. -/
def fileAfter (steps : List (FileStep β)) (k : Nat) (old : Option (List β)) : Option (List β) :=
  (steps.take k).foldl (fun f s => s.run f) old

end

/-! ### The output test -/

/-- C `round`: to the nearest integer, halves away from zero. -/
noncomputable def cround (x : ℝ) : ℤ := if 0 ≤ x then ⌊x + 1 / 2⌋ else -⌊-x + 1 / 2⌋

/-- The test in front of checkpoints and diagnostics (checkpointing.py:145, BSSN_C_codegen_library.py:242,
wave_equation_C_codegen_library.py:250, timestepping_chare.py:1387, 1391). -/
def outputTest (time dt every : ℝ) : Prop := |(cround (time / every) : ℝ) * every - time| < 0.5 * dt

end Verif.BHaH
