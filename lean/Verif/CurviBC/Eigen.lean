import Verif.CurviBC.Model
import Verif.RefMetric.Coords
import Verif.Grid.Model

/-!
# Model of the partner of a grid point and of the parities

`EigenCoord_set_x0x1x2_inbounds__i0i1i2_inbounds_single_pt` and `set_parity_for_inner_boundary_single_pt` in
CurviBoundaryConditions.py and the coordinate arrays set in numerical_grids_and_timestep.py, with exact real numbers in the
place of `DOUBLE`; the tolerances are as in the code.
-/
namespace Verif.CurviBC
open Verif.Py Verif.RefMetric

/-- `EigenCoord` (reference_metric.py:185-203). -/
def eigenName (name : Str) : Option Str :=
  if containsSub (c% "Cartesian") name then some (c% "Cartesian")
  else if containsSub (c% "Spherical") name then some (c% "Spherical")
  else if containsSub (c% "Wedge") name then some (c% "Cartesian")
  else if containsSub (c% "SymTP") name then some (c% "SymTP")
  else if containsSub (c% "Cylindrical") name then some (c% "Cylindrical")
  else none

/-- `dxx{0,1,2}` (numerical_grids_and_timestep.py:98-100, 138-140), for the default ranges of the coordinates. -/
noncomputable def dxx (G : Grid) (c : Coords) (d : Fin 3) : ℝ := (c.xxmax d - c.xxmin d) / ((G.n d - 2 * G.g : ℤ) : ℝ)

/-- `xx[d][j]` (numerical_grids_and_timestep.py:152-154). -/
noncomputable def xx (G : Grid) (c : Coords) (d : Fin 3) (j : ℤ) : ℝ :=
  c.xxmin d + (((j - G.g : ℤ) : ℝ) + 1 / 2) * dxx G c d

/-- Coordinates of a grid point. -/
noncomputable def xxAt (G : Grid) (c : Coords) (p : Idx) : Vec := fun d => xx G c d (p d)

/-- The conversion `(int)`. -/
noncomputable def truncate (x : ℝ) : ℤ := if 0 ≤ x then ⌊x⌋ else ⌈x⌉

/-- `i{0,1,2}_inbounds` from a coordinate (lines 300-312). -/
noncomputable def inbounds (G : Grid) (c : Coords) (d : Fin 3) (y : ℝ) : ℤ :=
  let xxmin := xx G c d 0 - (((0 - G.g : ℤ) : ℝ) + 1 / 2) * dxx G c d
  truncate ((y - xxmin - 1 / 2 * dxx G c d + (G.g : ℝ) * dxx G c d) / dxx G c d + 1 / 2)

/-- The comparison of Cartesian coordinates (lines 350-356) fails. -/
noncomputable def mismatch (eps : ℝ) (a b : Vec) : Prop :=
  let norm := √(a 0 * a 0 + a 1 * a 1 + a 2 * a 2) + 1 / 10 ^ 15
  |a 0 - b 0| > eps * norm ∨ |a 1 - b 1| > eps * norm ∨ |a 2 - b 2| > eps * norm

open Classical in
/-- `EigenCoord_set_x0x1x2_inbounds__i0i1i2_inbounds_single_pt` (lines 233-375): `none` if the process ends or reads
outside of the coordinate arrays. -/
noncomputable def partner (eps : ℝ) (G : Grid) (orig eig : Coords) (p : Idx) : Option Idx :=
  eig.ofCart.bind fun ofCart =>
    let y := ofCart (eig.toCart (xxAt G orig p))
    let q : Idx := ![inbounds G orig 0 (y 0), inbounds G orig 1 (y 1), inbounds G orig 2 (y 2)]
    if ∀ d, 0 ≤ q d ∧ q d < G.n d then
      if mismatch eps (orig.toCart (xxAt G orig p)) (orig.toCart (xxAt G orig q)) then none else some q
    else none

/-- Dot product of the unit vectors number `k` at two points (lines 62-66). -/
noncomputable def dot (c : Coords) (x x' : Vec) (k : ℕ) : ℝ :=
  if h : k < 3 then ∑ i, c.unit x ⟨k, h⟩ i * c.unit x' ⟨k, h⟩ i else 0

open Classical in
/-- `set_parity_for_inner_boundary_single_pt` (lines 416-450): `none` if the process ends. -/
noncomputable def parity (eps : ℝ) (G : Grid) (orig : Coords) (p q : Idx) : Option (Fin 10 → ℤ) :=
  let a := Verif.Grid.parityArray (dot orig (xxAt G orig p) (xxAt G orig q))
  if ∃ v ∈ a, |v| < 1 - eps ∨ |v| > 1 + eps then none
  else some fun k => if a.getD k 0 < 0 then -1 else 1

/-- What `bcstruct_set_up` gets for a coordinate system and its eigencoordinate system. -/
noncomputable def mapsOf (eps : ℝ) (G : Grid) (orig eig : Coords) : Maps :=
  ⟨partner eps G orig eig, parity eps G orig⟩

end Verif.CurviBC
