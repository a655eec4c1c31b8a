import Verif.Loop.Simple
import Mathlib.Data.Real.Basic
import Mathlib.Data.Fin.VecNotation
import Mathlib.Data.List.Forall2
import Mathlib.Logic.Function.Basic

/-!
# Model of the boundary-condition functions in BHaH/CurviBoundaryConditions/CurviBoundaryConditions.py

The generated C functions `bcstruct_set_up`, `apply_bcs_inner_only`, `apply_bcs_outerextrap_and_inner` and
`apply_bcs_outerradiation_and_inner`.  The map of a grid point to its partner and the parities, which depend on the
coordinate system, are parameters here and are modelled in `CurviBC/Eigen.lean`.  Simplifications: gridfunction values
are real numbers; C integers do not overflow (grid indices are stored as `short`); `exit(1)` and an access outside of an
array are `none`.
-/
namespace Verif.CurviBC
open Verif.Loop

/-- A grid index `(i0, i1, i2)`. -/
abbrev Idx := Fin 3 → ℤ

/-- Size of a grid: `Nxx_plus_2NGHOSTS{0,1,2}` and `NGHOSTS`. -/
structure Grid where
  n : Idx
  g : ℕ

/-- `IS_IN_GRID_INTERIOR` (BHaH/BHaH_defines_h.py:363-366). -/
def Grid.inInterior (G : Grid) (p : Idx) : Bool :=
  p 0 ≥ G.g && p 0 < G.n 0 - G.g && (p 1 ≥ G.g && p 1 < G.n 1 - G.g) && (p 2 ≥ G.g && p 2 < G.n 2 - G.g)

/-- `IDX3(i0,i1,i2)` (BHaH/BHaH_defines_h.py:354). -/
def Grid.at (G : Grid) (p : Idx) : ℤ := idx3 (G.n 0) (G.n 1) (p 0) (p 1) (p 2)

/-- `IDX4pt(gf,idx)` (BHaH/BHaH_defines_h.py:353). -/
def Grid.pt (G : Grid) (gf : ℕ) (idx : ℤ) : ℤ := idx4pt (G.n 0) (G.n 1) (G.n 2) gf idx

/-- Values of the counter in `for(int i=a;i<b;i++)`. -/
def counter (a b : ℤ) : List ℤ := (List.range (b - a).toNat).map fun k : ℕ => a + (k : ℤ)

/-- Grid points in the order of `LOOP_NOOMP` (BHaH/BHaH_defines_h.py:360-361). -/
def loop (lo hi : Idx) : List Idx :=
  (counter (lo 2) (hi 2)).flatMap fun i2 => (counter (lo 1) (hi 1)).flatMap fun i1 =>
    (counter (lo 0) (hi 0)).map fun i0 => ![i0, i1, i2]

/-- `innerpt_bc_struct` (lines 1289-1293). -/
structure InnerPt where
  dst : ℤ
  src : ℤ
  parity : Fin 10 → ℤ

/-- `outerpt_bc_struct` (lines 1295-1304). -/
structure OuterPt where
  i : Idx
  face : Idx

/-- `bc_struct` (lines 1306-1321) with the sizes of the allocated arrays. -/
structure BcStruct where
  numInner : ℕ
  inner : List InnerPt
  numOuter : ℕ → Fin 3 → ℕ
  outer : ℕ → Fin 3 → List OuterPt
  allocOuter : ℕ → Fin 3 → ℤ

/-- What `bcstruct_set_up` gets from the coordinate system: the partner of a grid point
(`EigenCoord_set_x0x1x2_inbounds__i0i1i2_inbounds_single_pt`) and the parities of a pair of points
(`set_parity_for_inner_boundary_single_pt`). -/
structure Maps where
  partner : Idx → Option Idx
  parity : Idx → Idx → Option (Fin 10 → ℤ)

/-- First loop of `bcstruct_set_up`: count the inner points (lines 536-557). -/
def countInner (G : Grid) (m : Maps) : List Idx → Option ℕ
  | [] => some 0
  | p :: l =>
    if G.inInterior p then countInner G m l
    else (m.partner p).bind fun q =>
      (countInner G m l).map fun k => if p 0 = q 0 ∧ p 1 = q 1 ∧ p 2 = q 2 then k else k + 1

/-- Second loop of `bcstruct_set_up`: fill `inner_bc_array` (lines 565-588). -/
def fillInner (G : Grid) (m : Maps) : List Idx → Option (List InnerPt)
  | [] => some []
  | p :: l =>
    if G.inInterior p then fillInner G m l
    else (m.partner p).bind fun q =>
      if p 0 = q 0 ∧ p 1 = q 1 ∧ p 2 = q 2 then fillInner G m l
      else (m.parity p q).bind fun par => (fillInner G m l).map fun rest => ⟨G.at p, G.at q, par⟩ :: rest

/-- Bounds `{i0min,i0max, i1min,i1max, i2min,i2max}` of a loop over a face, as lower and upper corner. -/
structure Range where
  lo : Idx
  hi : Idx

/-- The six face ranges of one ghost zone and the values of `imin` and `imax` after it (lines 596-603). -/
def zoneRanges (imin imax : Idx) : (Fin 3 → Range × Range) × Idx × Idx :=
  let x0min : Range := ⟨![imin 0 - 1, imin 1, imin 2], ![imin 0, imax 1, imax 2]⟩
  let imin : Idx := ![imin 0 - 1, imin 1, imin 2]
  let x0max : Range := ⟨![imax 0, imin 1, imin 2], ![imax 0 + 1, imax 1, imax 2]⟩
  let imax : Idx := ![imax 0 + 1, imax 1, imax 2]
  let x1min : Range := ⟨![imin 0, imin 1 - 1, imin 2], ![imax 0, imin 1, imax 2]⟩
  let imin : Idx := ![imin 0, imin 1 - 1, imin 2]
  let x1max : Range := ⟨![imin 0, imax 1, imin 2], ![imax 0, imax 1 + 1, imax 2]⟩
  let imax : Idx := ![imax 0, imax 1 + 1, imax 2]
  let x2min : Range := ⟨![imin 0, imin 1, imin 2 - 1], ![imax 0, imax 1, imin 2]⟩
  let imin : Idx := ![imin 0, imin 1, imin 2 - 1]
  let x2max : Range := ⟨![imin 0, imin 1, imax 2], ![imax 0, imax 1, imax 2 + 1]⟩
  let imax : Idx := ![imax 0, imax 1, imax 2 + 1]
  (![(x0min, x0max), (x1min, x1max), (x2min, x2max)], imin, imax)

/-- `imin` and `imax` before ghost zone `which_gz` (lines 594-596). -/
def corners (G : Grid) : ℕ → Idx × Idx
  | 0 => (![G.g, G.g, G.g], ![G.n 0 - G.g, G.n 1 - G.g, G.n 2 - G.g])
  | gz + 1 => (zoneRanges (corners G gz).1 (corners G gz).2).2

/-- `bc_loop_bounds[which_gz][2*dirn]` and `[2*dirn+1]` (lines 605-659). -/
def faceRanges (G : Grid) (gz : ℕ) (d : Fin 3) : Range × Range :=
  (zoneRanges (corners G gz).1 (corners G gz).2).1 d

/-- Number of elements of `pure_outer_bc_array[3*which_gz + dirn]`: twice the size of the lower face
(lines 611-614, 627-630, 644-647). -/
def allocOuter (G : Grid) (gz : ℕ) (d : Fin 3) : ℤ :=
  let r := (faceRanges G gz d).1
  2 * ((r.hi 0 - r.lo 0) * (r.hi 1 - r.lo 1) * (r.hi 2 - r.lo 2))

/-- `FACEX0`, `FACEX1`, `FACEX2` of a face (lines 670-672, 695-697). -/
def facex (face : ℕ) : Idx :=
  ![(if face = 0 then 1 else 0) - (if face = 1 then 1 else 0), (if face = 2 then 1 else 0) - (if face = 3 then 1 else 0),
    (if face = 4 then 1 else 0) - (if face = 5 then 1 else 0)]

/-- Loop over one face that stores the points which are their own partners (lines 673-690, 698-715). -/
def fillFace (m : Maps) (face : ℕ) : List Idx → Option (List OuterPt)
  | [] => some []
  | p :: l =>
    (m.partner p).bind fun q =>
      (fillFace m face l).map fun rest =>
        if p 0 = q 0 ∧ p 1 = q 1 ∧ p 2 = q 2 then ⟨p, facex face⟩ :: rest else rest

/-- One pass of the last loop of `bcstruct_set_up`: lower face, then upper face (lines 661-718). -/
def fillOuter (G : Grid) (m : Maps) (gz : ℕ) (d : Fin 3) : Option (List OuterPt) :=
  let r := faceRanges G gz d
  (fillFace m (d * 2) (loop r.1.lo r.1.hi)).bind fun lower =>
    (fillFace m (d * 2 + 1) (loop r.2.lo r.2.hi)).map fun upper => lower ++ upper

/-- `bcstruct_set_up` (lines 529-720). -/
def setUp (G : Grid) (m : Maps) : Option BcStruct :=
  let all := loop ![0, 0, 0] G.n
  (countInner G m all).bind fun num =>
    (fillInner G m all).bind fun inner =>
      if ∀ gz < G.g, ∀ d : Fin 3, (fillOuter G m gz d).isSome then
        some {
          numInner := num
          inner := inner
          numOuter := fun gz d => ((fillOuter G m gz d).getD []).length
          outer := fun gz d => (fillOuter G m gz d).getD []
          allocOuter := allocOuter G }
      else none

/-! ### Applying the boundary conditions -/

/-- The array of all gridfunctions. -/
abbrev Mem := ℤ → ℝ

/-- One assignment `mem[dst] = val`, whose right-hand side reads the addresses `reads`. -/
structure Asg where
  dst : ℤ
  reads : List ℤ
  val : List ℝ → ℝ

/-- Effect of an assignment. -/
def Asg.run (a : Asg) (s : Mem) : Mem := Function.update s a.dst (a.val (a.reads.map s))

/-- Assignments one after the other. -/
def runList (l : List Asg) (s : Mem) : Mem := l.foldl (fun s a => a.run s) s

/-- A parallel loop: the assignments of all iterations in some order.  `#pragma omp for` ends with a barrier. -/
def RunsLoop (l : List Asg) (s s' : Mem) : Prop := ∃ l', l'.Perm l ∧ s' = runList l' s

/-- Parallel loops one after the other. -/
inductive Runs : List (List Asg) → Mem → Mem → Prop
  | nil (s : Mem) : Runs [] s s
  | cons {l : List Asg} {ls : List (List Asg)} {s s' s'' : Mem} : RunsLoop l s s' → Runs ls s' s'' → Runs (l :: ls) s s''

/-- Assignments of `apply_bcs_inner_only` (lines 746-758); `nGfs` is `NUM_EVOL_GFS`, `types` is `evol_gf_parity`. -/
def innerAsgs (G : Grid) (bc : BcStruct) (nGfs : ℕ) (types : ℕ → Fin 10) : List Asg :=
  (List.range nGfs).flatMap fun gf => (bc.inner.take bc.numInner).map fun pt =>
    ⟨G.pt gf pt.dst, [G.pt gf pt.src], fun v => (pt.parity (types gf) : ℝ) * v.headD 0⟩

/-- The grid point `k` steps from an outer boundary point into the grid (lines 826-829). -/
def OuterPt.step (b : OuterPt) (k : ℤ) : Idx :=
  ![b.i 0 + k * b.face 0, b.i 1 + k * b.face 1, b.i 2 + k * b.face 2]

/-- Right-hand side of the extrapolation (lines 832-835) from the values at the three next points. -/
def extrap (v : List ℝ) : ℝ := 3 * v.getD 0 0 - 3 * v.getD 1 0 + 1 * v.getD 2 0

/-- Assignments of one parallel loop of `apply_bcs_outerextrap_and_inner` (lines 818-836). -/
def extrapAsgs (G : Grid) (bc : BcStruct) (nGfs : ℕ) (gz : ℕ) (d : Fin 3) : List Asg :=
  ((bc.outer gz d).take (bc.numOuter gz d)).flatMap fun b => (List.range nGfs).map fun gf =>
    ⟨G.pt gf (G.at (b.step 0)), [G.pt gf (G.at (b.step 1)), G.pt gf (G.at (b.step 2)), G.pt gf (G.at (b.step 3))],
      extrap⟩

/-- The parallel loops of `apply_bcs_outerextrap_and_inner` in order (lines 811-845). -/
def extrapLoops (G : Grid) (bc : BcStruct) (nGfs : ℕ) (types : ℕ → Fin 10) : List (List Asg) :=
  ((List.range G.g).flatMap fun gz => [0, 1, 2].map fun d => extrapAsgs G bc nGfs gz d) ++ [innerAsgs G bc nGfs types]

/-- Right-hand side of `radiation_bcs` (lines 1164-1184) as a function of `partial_t_f_int`; all other arguments are read
from arrays that the loops do not change. -/
noncomputable def radiation (c fInf r rInt drf drfInt f fInt : ℝ) (dtfInt : ℝ) : ℝ :=
  let dtfIntOut := -c * (drfInt + (fInt - fInf) / rInt)
  let k := rInt * rInt * rInt * (dtfInt - dtfIntOut)
  let rinv := 1 / r
  let dtfOut := -c * (drf + (f - fInf) * rinv)
  dtfOut + k * rinv * rinv * rinv

/-- Assignments of one parallel loop of `apply_bcs_outerradiation_and_inner` (lines 1237-1256); `rhs` is the value of
`radiation_bcs` for a gridfunction at a boundary point, as a function of the time derivative at the next point. -/
def radiationAsgs (G : Grid) (bc : BcStruct) (nGfs : ℕ) (rhs : ℕ → OuterPt → ℝ → ℝ) (gz : ℕ) (d : Fin 3) : List Asg :=
  ((bc.outer gz d).take (bc.numOuter gz d)).flatMap fun b => (List.range nGfs).map fun gf =>
    ⟨G.pt gf (G.at b.i), [G.pt gf (G.at (b.step 1))], fun v => rhs gf b (v.headD 0)⟩

/-- The parallel loops of `apply_bcs_outerradiation_and_inner` in order (lines 1228-1268). -/
def radiationLoops (G : Grid) (bc : BcStruct) (nGfs : ℕ) (types : ℕ → Fin 10) (rhs : ℕ → OuterPt → ℝ → ℝ) :
    List (List Asg) :=
  ((List.range G.g).flatMap fun gz => [0, 1, 2].map fun d => radiationAsgs G bc nGfs rhs gz d) ++
    [innerAsgs G bc nGfs types]

end Verif.CurviBC
