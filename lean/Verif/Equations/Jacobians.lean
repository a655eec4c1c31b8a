import Verif.Equations.FourMetric

/-!
# Model of helpers/jacobians.py

At one point of the grid: the entries of the Jacobians are real numbers.
-/
namespace Verif.Equations
open Verif.IndexedExp

abbrev Arr3 := Fin 3 → Fin 3 → ℝ

/-- The two Jacobians of a reference metric: `Jac_dUCart_dDrfmUD` and `Jac_dUrfm_dDCartUD`. -/
structure JacPair where
  toCart : Arr3
  toRfm : Arr3

/-- Jacobian and inverse Jacobian (reference_metric.py:207-224).  `none`: the inverter's determinant vanishes. -/
noncomputable def jacPair (jac : Arr3) : Option JacPair :=
  open Classical in (genInv3 jac).map fun r => ⟨jac, r.1⟩

/-- `basis_transform_vectorU_from_rfmbasis_to_Cartesian` (jacobians.py:27-42). -/
def vecUToCart (J : JacPair) (v : Fin 3 → ℝ) : Fin 3 → ℝ := fun i => ∑ l, J.toCart i l * v l

/-- `basis_transform_vectorD_from_rfmbasis_to_Cartesian` (jacobians.py:45-60). -/
def vecDToCart (J : JacPair) (v : Fin 3 → ℝ) : Fin 3 → ℝ := fun i => ∑ l, J.toRfm l i * v l

/-- `basis_transform_tensorDD_from_rfmbasis_to_Cartesian` (jacobians.py:63-84). -/
def tensDDToCart (J : JacPair) (T : Arr3) : Arr3 := fun i j => ∑ l, ∑ m, J.toRfm l i * J.toRfm m j * T l m

/-- `basis_transform_vectorU_from_Cartesian_to_rfmbasis` (jacobians.py:87-102). -/
def vecUToRfm (J : JacPair) (v : Fin 3 → ℝ) : Fin 3 → ℝ := fun i => ∑ l, J.toRfm i l * v l

/-- `basis_transform_vectorD_from_Cartesian_to_rfmbasis` (jacobians.py:105-120). -/
def vecDToRfm (J : JacPair) (v : Fin 3 → ℝ) : Fin 3 → ℝ := fun i => ∑ l, J.toCart l i * v l

/-- `basis_transform_tensorDD_from_Cartesian_to_rfmbasis` (jacobians.py:123-144). -/
def tensDDToRfm (J : JacPair) (T : Arr3) : Arr3 := fun i j => ∑ l, ∑ m, J.toCart l i * J.toCart m j * T l m

/-- `Jac4_…` (jacobians.py:160-164, 191-195). -/
def jac4 (J : Arr3) : Fin 4 → Fin 4 → ℝ := block4 1 (fun _ => 0) (fun _ => 0) J

/-- `basis_transform_4tensorUU_from_time_indep_rfmbasis_to_Cartesian` (jacobians.py:148-176). -/
def tens4ToCart (J : JacPair) (T : Fin 4 → Fin 4 → ℝ) : Fin 4 → Fin 4 → ℝ := fun mu nu =>
  ∑ d, ∑ s, jac4 J.toCart mu d * jac4 J.toCart nu s * T d s

/-- `basis_transform_4tensorUU_from_Cartesian_to_time_indep_rfmbasis` (jacobians.py:179-207). -/
def tens4ToRfm (J : JacPair) (T : Fin 4 → Fin 4 → ℝ) : Fin 4 → Fin 4 → ℝ := fun mu nu =>
  ∑ d, ∑ s, jac4 J.toRfm mu d * jac4 J.toRfm nu s * T d s

end Verif.Equations
