import Verif.CurviBC.Eigen

/-!
# Model of BHaH/numerical_grids_and_timestep.py, and of the grid of a chare in superB/numerical_grids.py

The generated C functions `numerical_grid_params_Nxx_dxx_xx`, `cfl_limited_timestep` and `numerical_grids_and_timestep`
(independent grids).  Simplifications: `REAL` is the real numbers; C integers do not overflow; `sp.Abs` of a product is
the absolute value; a name that the reference metric does not know is `none`.  Not modelled: the names copied into
`CoordSystemName`, `CoordSystem_hash`, the branch "multipatch" (its functions are not in the repository), and the calls
of `rfm_precompute_*` and `bcstruct_set_up` (the latter is modelled in `CurviBC`).
-/
namespace Verif.Grids
open Verif.Py Verif.RefMetric

/-- The fields of `params_struct` set here: `Nxx`, `Nxx_plus_2NGHOSTS`, `xxmin`, `xxmax`, `dxx`, `invdxx` (lines 20-31), the
parameters of the coordinate systems, `grid_physical_size` and `grid_hole_radius` (reference_metric.py:24-38). -/
structure Params where
  Nxx : Fin 3 → ℤ
  NxxG : Fin 3 → ℤ
  xxmin : Vec
  xxmax : Vec
  dxx : Vec
  invdxx : Vec
  rfm : CoordParams
  size : ℝ
  hole : ℝ

/-- The assignments of `grid_physical_size_dict` (lines 106-112; reference_metric.py:700-707, 749, 815, 951, 1002, 1038,
1122, 1311-1315, 1344-1347, 1387-1390).  `AMPL`, `AMPLXYZ` and `AMPLRHO` are the same field `ampl` of the model. -/
noncomputable def setSize (name : Str) (s : ℝ) (P : CoordParams) : CoordParams :=
  if containsSub (c% "Cartesian") name then
    if name = (c% "Cartesian") then { P with lo := ![-s, -s, -s], hi := ![s, s, s] }
    else { P with ampl := s }
  else if containsSub (c% "Spherical") name then
    if name = (c% "Spherical") then { P with rmax := s } else { P with ampl := s }
  else if containsSub (c% "Wedge") name then { P with ampl := s }
  else if containsSub (c% "SymTP") name then { P with amax := s }
  else if name = (c% "Cylindrical") then { P with rhomax := s, zmin := -s, zmax := s }
  else { P with ampl := s, amplz := s }

/-- The assignments of `grid_hole_radius_dict` (lines 114-122; reference_metric.py:814, 998). -/
noncomputable def setHole (name : Str) (h : ℝ) (P : CoordParams) : CoordParams :=
  if containsSub (c% "Holey") name || containsSub (c% "Wedge") name then { P with rmin := h } else P

/-- `params->Nxx *= convergence_factor` unless `Nxx == 2` (lines 89-95): a product of `REAL`, converted to `int`. -/
noncomputable def resize (cf : ℝ) (n : ℤ) : ℤ := if n ≠ 2 then CurviBC.truncate (n * cf) else n

/-- `Nxx` before the resizing (lines 77-86). -/
def chosenN (Ndict Nx : Fin 3 → ℤ) (d : Fin 3) : ℤ :=
  if Nx 0 ≠ -1 ∧ Nx 1 ≠ -1 ∧ Nx 2 ≠ -1 then Nx d else Ndict d

/-- The coordinates of one direction (lines 149-154). -/
noncomputable def coordArray (g : ℕ) (lo dx : ℝ) (tot : ℤ) : List ℝ :=
  (List.range tot.toNat).map fun (j : ℕ) => lo + ((((j : ℤ) - g : ℤ) : ℝ) + 1.0 / 2.0) * dx

/-- Lines 135-144: what depends on `Nxx` and the ranges. -/
noncomputable def setSpacing (p : Params) : Params :=
  { p with
    dxx := fun d => (p.xxmax d - p.xxmin d) / (p.Nxx d : ℝ)
    invdxx := fun d => (p.Nxx d : ℝ) / (p.xxmax d - p.xxmin d) }

/-- A grid: coordinate system, parameters, coordinate arrays. -/
structure GridData where
  name : Str
  sys : Coords
  params : Params
  xx : Fin 3 → List ℝ

/-- `numerical_grid_params_Nxx_dxx_xx` (lines 77-155); `g` is `NGHOSTS`. -/
noncomputable def gridParams (name : Str) (g : ℕ) (cf : ℝ) (Ndict Nx : Fin 3 → ℤ) (toDefaults : Bool) (p : Params) :
    Option GridData :=
  let N : Fin 3 → ℤ := fun d => resize cf (chosenN Ndict Nx d)
  let rfm := setHole name p.hole (setSize name p.size p.rfm)
  match choose rfm name with
  | .sys c =>
    let p1 : Params := { p with Nxx := N, NxxG := fun d => N d + 2 * g, rfm := rfm }
    let p2 : Params := if toDefaults then { p1 with xxmin := c.xxmin, xxmax := c.xxmax } else p1
    let p3 := setSpacing p2
    some ⟨name, c, p3, fun d => coordArray g (p3.xxmin d) (p3.dxx d) (p3.NxxG d)⟩
  | _ => none

/-- `MIN` (BHaH/BHaH_defines_h.py:185-189). -/
noncomputable def cMin (a b : ℝ) : ℝ := if a < b then a else b

/-- Coordinates read at a grid point (lines 190-192). -/
noncomputable def GridData.point (G : GridData) (i : ℕ × ℕ × ℕ) : Vec :=
  ![((G.xx 0)[i.1]?).getD 0, ((G.xx 1)[i.2.1]?).getD 0, ((G.xx 2)[i.2.2]?).getD 0]

/-- `dsmin0`, `dsmin1`, `dsmin2` (lines 193-205). -/
noncomputable def GridData.ds (G : GridData) (i : ℕ × ℕ × ℕ) (d : Fin 3) : ℝ :=
  |G.sys.scale (G.point i) d * G.params.dxx d|

/-- The body of the loop (line 206). -/
noncomputable def GridData.visit (G : GridData) (acc : ℝ) (i : ℕ × ℕ × ℕ) : ℝ :=
  cMin acc (cMin (G.ds i 0) (cMin (G.ds i 1) (G.ds i 2)))

/-- The points with a given `i2` in the order of `LOOP_NOOMP` (BHaH/BHaH_defines_h.py:360-361). -/
def slab (N0 N1 i2 : ℕ) : List (ℕ × ℕ × ℕ) :=
  (List.range N1).flatMap fun i1 => (List.range N0).map fun i0 => (i0, i1, i2)

/-- `ds_min` after the loop (lines 185-207).  The outermost loop is `omp parallel for reduction(min:ds_min)`: each thread
starts from a private copy `big`, visits its values of `i2`, and the private copies are combined with the original. -/
noncomputable def GridData.dsMin (G : GridData) (big : ℝ) (chunks : List (List ℕ)) : ℝ :=
  chunks.foldl (fun acc chunk => cMin acc ((chunk.flatMap fun i2 =>
    slab (G.params.NxxG 0).toNat (G.params.NxxG 1).toNat i2).foldl G.visit big)) 1e38

/-- `cfl_limited_timestep` (lines 184-209). -/
noncomputable def cflTimestep (CFL big dt : ℝ) (G : GridData) (chunks : List (List ℕ)) : ℝ :=
  cMin dt (G.dsMin big chunks * CFL)

/-- The fields of `commondata_struct` used here. -/
structure Common where
  convergence_factor : ℝ
  CFL_FACTOR : ℝ
  dt : ℝ
  nn : ℤ
  nn_0 : ℤ
  t_0 : ℝ
  time : ℝ

/-- What the generated function has for each grid: name, physical size, default numbers of points, and the parameters set
by `params_struct_set_to_default`. -/
structure Spec where
  name : Str
  size : ℝ
  N : Fin 3 → ℤ
  defaults : Params

/-- One grid of Step 1.c (lines 268-274): `Nx` is -1 and the ranges are the default ones. -/
noncomputable def Spec.setUp (g : ℕ) (cf : ℝ) (s : Spec) : Option GridData :=
  gridParams s.name g cf s.N (fun _ => -1) true { s.defaults with size := s.size }

/-- Step 1.f (lines 334-340); `sched` says how the loop over `i2` of each grid is distributed. -/
noncomputable def timestep (CFL big : ℝ) (sched : GridData → List (List ℕ)) (Gs : List GridData) : ℝ :=
  Gs.foldl (fun dt G => cflTimestep CFL big dt G (sched G)) 1e30

/-- Step 1.g (lines 341-348). -/
noncomputable def Common.firstCall (first : Bool) (C : Common) : Common :=
  if first then { C with nn := 0, nn_0 := 0, t_0 := 0.0, time := 0.0 } else C

/-- `numerical_grids_and_timestep` (lines 251-349) with `enable_set_cfl_timestep`. -/
noncomputable def numericalGrids (g : ℕ) (big : ℝ) (sched : GridData → List (List ℕ)) (specs : List Spec) (first : Bool)
    (C : Common) : Option (Common × List GridData) :=
  match specs.mapM (Spec.setUp g C.convergence_factor) with
  | some Gs => some (({ C with dt := timestep C.CFL_FACTOR big sched Gs }).firstCall first, Gs)
  | none => none

/-- `numerical_grid_params_Nxx_dxx_xx_chare` (superB/numerical_grids.py:33-103): `none` is `exit(1)`. -/
noncomputable def gridChare (g : ℕ) (Nchare ch : Fin 3 → ℕ) (G : GridData) (pc : Params) : Option GridData :=
  if ∃ d, G.params.Nxx d % Nchare d ≠ 0 then none
  else if ∃ d, 1 < Nchare d ∧ G.params.Nxx d / Nchare d < g then none
  else
    let N : Fin 3 → ℤ := fun d => G.params.Nxx d / Nchare d
    let rfm := setSize G.name pc.size pc.rfm
    let p : Params := { pc with
      Nxx := N
      NxxG := fun d => N d + 2 * g
      rfm := rfm
      xxmin := fun d => G.params.xxmin d + G.params.dxx d * ((N d * ch d : ℤ) : ℝ)
      xxmax := fun d => G.params.xxmax d + G.params.dxx d * ((N d * ch d : ℤ) : ℝ)
      dxx := G.params.dxx
      invdxx := G.params.invdxx }
    match choose rfm G.name with
    | .sys c => some ⟨G.name, c, p, fun d => (List.range (p.NxxG d).toNat).map fun (j : ℕ) =>
        G.params.xxmin d + ((((j : ℤ) - g + N d * ch d : ℤ) : ℝ) + 1.0 / 2.0) * p.dxx d⟩
    | _ => none

end Verif.Grids
