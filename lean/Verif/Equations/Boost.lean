import Verif.Equations.FourMetric

/-!
# Model of equations/general_relativity/LorentzBoost.py

`none`: some entry of the matrix is not a real number (division by zero, or square root of a negative number).
-/
namespace Verif.Equations

/-- `vBoost2` (LorentzBoost.py:48-50). -/
def boostV2 (v : Fin 3 → ℝ) : ℝ := ∑ i, v i ^ 2

/-- `gamma_lorentz` (LorentzBoost.py:51). -/
noncomputable def boostGamma (v : Fin 3 → ℝ) : ℝ := 1 / Real.sqrt (1 - boostV2 v)

/-- The entries set before symmetrization (LorentzBoost.py:53-71): first row, and the upper triangle. -/
noncomputable def boostUpper (v : Fin 3 → ℝ) : Fin 4 → Fin 4 → ℝ :=
  block4 (boostGamma v) (fun i => -boostGamma v * v i) (fun _ => 0) fun i j =>
    if i ≤ j then (boostGamma v - 1) * v i * v j / boostV2 v + (if i = j then 1 else 0) else 0

/-- `symmetrize_rank2` with `sym01` (indexedexp.py:279-292): entries below the diagonal are copied from above. -/
def copyUpper (m : Fin 4 → Fin 4 → ℝ) : Fin 4 → Fin 4 → ℝ := fun i j => if j < i then m j i else m i j

/-- `_compute_LorentzMatrix` (LorentzBoost.py:39-80). -/
noncomputable def lorentzMatrix (v : Fin 3 → ℝ) : Option (Fin 4 → Fin 4 → ℝ) :=
  open Classical in
  if boostV2 v = 0 ∨ 1 - boostV2 v ≤ 0 then none else some (copyUpper (boostUpper v))

/-- The two matrices of a `LorentzBoost` object (LorentzBoost.py:21-37). -/
structure BoostObj where
  mat : Fin 4 → Fin 4 → ℝ
  inv : Fin 4 → Fin 4 → ℝ

/-- The constructor (LorentzBoost.py:21-37). -/
noncomputable def mkBoost (v : Fin 3 → ℝ) : Option BoostObj := do
  let m ← lorentzMatrix v
  let i ← lorentzMatrix fun k => -(v k)
  return ⟨m, i⟩

/-- `boost_vectorU` (LorentzBoost.py:82-100). -/
def BoostObj.vectorU (B : BoostObj) (x : Fin 4 → ℝ) : Fin 4 → ℝ := fun mu => ∑ nu, B.mat mu nu * x nu

/-- `inverse_boost_vectorU` (LorentzBoost.py:102-122). -/
def BoostObj.invVectorU (B : BoostObj) (x : Fin 4 → ℝ) : Fin 4 → ℝ := fun mu => ∑ nu, B.inv mu nu * x nu

/-- `boost_vectorD` (LorentzBoost.py:124-142). -/
def BoostObj.vectorD (B : BoostObj) (w : Fin 4 → ℝ) : Fin 4 → ℝ := fun mu => ∑ nu, B.inv nu mu * w nu

/-- `boost_tensorDD` (LorentzBoost.py:144-168). -/
def BoostObj.tensorDD (B : BoostObj) (T : Fin 4 → Fin 4 → ℝ) : Fin 4 → Fin 4 → ℝ := fun m1 m2 =>
  ∑ n1, ∑ n2, B.inv n1 m1 * B.inv n2 m2 * T n1 n2

/-- `boost_tensorDDD` (LorentzBoost.py:170-199). -/
def BoostObj.tensorDDD (B : BoostObj) (T : Fin 4 → Fin 4 → Fin 4 → ℝ) : Fin 4 → Fin 4 → Fin 4 → ℝ :=
  fun m1 m2 m3 => ∑ n1, ∑ n2, ∑ n3, B.inv n1 m1 * B.inv n2 m2 * B.inv n3 m3 * T n1 n2 n3

/-- `boost_tensorDDDD` (LorentzBoost.py:201-240). -/
def BoostObj.tensorDDDD (B : BoostObj) (T : Fin 4 → Fin 4 → Fin 4 → Fin 4 → ℝ) :
    Fin 4 → Fin 4 → Fin 4 → Fin 4 → ℝ := fun m1 m2 m3 m4 =>
  ∑ n1, ∑ n2, ∑ n3, ∑ n4, B.inv n1 m1 * B.inv n2 m2 * B.inv n3 m3 * B.inv n4 m4 * T n1 n2 n3 n4

end Verif.Equations
