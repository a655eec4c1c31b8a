import Verif.CurviBC.Eigen
import Verif.FD.Coeffs
import Verif.RefMetric.Hatted
import Verif.IndexedExp.Inverters

/-!
# Model of the radiation boundary conditions

The functions in CurviBoundaryConditions.py that generate `r_and_partial_xi_partial_r_derivs`, `FD1_arbitrary_upwind`,
`compute_partial_r_f` and `radiation_bcs`, and what the generated functions compute, with exact real numbers in the place
of `REAL`.
-/
namespace Verif.CurviBC
open Verif.RefMetric Verif.FD Verif.IndexedExp

/-- `get_arb_offset_FD_coeffs_indices` for the first derivative (lines 912-941): indices and coefficients.  Order zero,
which raises an `IndexError`, is not modelled. -/
noncomputable def arbCoeffs (order : ℕ) (offset : ℤ) : List (ℤ × ℚ) :=
  (List.range (order + 1)).map fun i : ℕ => ((i : ℤ) - ((order / 2 : ℕ) : ℤ) + offset,
    if h : i < order + 1 ∧ 1 < order + 1 then minv (order + 1) offset ⟨i, h.1⟩ ⟨1, h.2⟩ else 0)

/-- The offsets with a `case` in `FD1_arbitrary_upwind` (lines 977-983). -/
def caseOffsets (order : ℕ) : List ℤ :=
  (List.range (order / 2 + 1)).flatMap fun k : ℕ => if k > 0 then [(k : ℤ), -(k : ℤ)] else [(k : ℤ)]

/-- The terms of one `case` (lines 985-1007): coefficients that are zero are left out. -/
noncomputable def caseTerms (order : ℕ) (offset : ℤ) : List (ℤ × ℚ) := (arbCoeffs order offset).filter fun t => t.2 ≠ 0

/-- The point `k` steps from `p` in direction `d` (lines 996-1004). -/
def along (p : Idx) (d : Fin 3) (k : ℤ) : Idx := Function.update p d (p d + k)

/-- `FD1_arbitrary_upwind_x{d}_dirn` (lines 944-1028); `nan` stands for the value `0.0 / 0.0` returned for other offsets. -/
noncomputable def fd1 (nan : ℝ) (order : ℕ) (invdx : ℝ) (f : Idx → ℝ) (p : Idx) (d : Fin 3) (offset : ℤ) : ℝ :=
  if offset ∈ caseOffsets order then
    ((caseTerms order offset).map fun t => ((t.2 : ℚ) : ℝ) * f (along p d t.1)).sum * invdx
  else nan

/-- `i{d}_offset` (lines 1081-1085). -/
def offsetOf (radius : ℕ) (n dest face : ℤ) : ℤ :=
  if dest < radius then radius - dest else if dest > n - radius - 1 then n - radius - 1 - dest else face

/-- `Jac_dUrfm_dDSphUD` (reference_metric.py:227-243): the inverse of the matrix of derivatives of `xxSph`.  The test for a
determinant that is zero as an expression is not modelled. -/
noncomputable def jacRfmSph (c : Coords) (x : Vec) (i j : Fin 3) : ℝ :=
  genInv3Num (fun i j => pd j (fun y => c.sph y i) x) i j / genInv3Det (fun i j => pd j (fun y => c.sph y i) x)

/-- `compute_partial_r_f` (lines 1033-1106); `zero i` says that `check_zero` found `Jac_dUrfm_dDSphUD[i][0]` to be zero. -/
noncomputable def partialR (nan : ℝ) (order : ℕ) (G : Grid) (c : Coords) (zero : Fin 3 → Bool) (gfs : Mem) (gf : ℕ)
    (dest face : Idx) : ℝ :=
  let partialX := fun i : Fin 3 => if zero i then 0 else
    fd1 nan order (1 / dxx G c i) (fun q => gfs (G.pt gf (G.at q))) dest i (offsetOf (order / 2) (G.n i) (dest i) (face i))
  jacRfmSph c (xxAt G c dest) 0 0 * partialX 0 + jacRfmSph c (xxAt G c dest) 1 0 * partialX 1 +
    jacRfmSph c (xxAt G c dest) 2 0 * partialX 2

/-- `radiation_bcs` (lines 1109-1200) as a function of `partial_t_f_int`. -/
noncomputable def radiationBcs (nan : ℝ) (order : ℕ) (G : Grid) (c : Coords) (zero : Fin 3 → Bool) (gfs : Mem)
    (speed fInf : ℕ → ℝ) (gf : ℕ) (b : OuterPt) : ℝ → ℝ :=
  let q := b.step 1
  radiation (speed gf) (fInf gf) (c.sph (xxAt G c b.i) 0) (c.sph (xxAt G c q) 0)
    (partialR nan order G c zero gfs gf b.i b.face) (partialR nan order G c zero gfs gf q b.face)
    (gfs (G.pt gf (G.at b.i))) (gfs (G.pt gf (G.at q)))

end Verif.CurviBC
