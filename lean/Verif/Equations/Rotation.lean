import Mathlib.Analysis.SpecialFunctions.Trigonometric.Basic

/-!
# Model of equations/quaternion_rotations/tensor_rotation.py

SymPy's quaternions are modelled from their documentation: Hamilton's product, and `from_axis_angle` which
normalises the axis.
-/
namespace Verif.Equations

/-- A quaternion `a + b i + c j + d k`. -/
structure Quat where
  a : ℝ
  b : ℝ
  c : ℝ
  d : ℝ

/-- Product of SymPy quaternions. -/
def Quat.mul (p q : Quat) : Quat where
  a := p.a * q.a - p.b * q.b - p.c * q.c - p.d * q.d
  b := p.a * q.b + p.b * q.a + p.c * q.d - p.d * q.c
  c := p.a * q.c - p.b * q.d + p.c * q.a + p.d * q.b
  d := p.a * q.d + p.b * q.c - p.c * q.b + p.d * q.a

/-- `conjugate`. -/
def Quat.conj (q : Quat) : Quat := ⟨q.a, -q.b, -q.c, -q.d⟩

/-- A `tensor` argument: a list of numbers or a list of rows. -/
inductive RotTensor
  | vec (l : List ℝ)
  | mat (rows : List (List ℝ))

/-- What goes wrong: an exception of the call, or a result that is not a number (zero axis). -/
inductive RotErr
  | indexError
  | valueError
  | notANumber

/-- `sp.Quaternion.from_axis_angle(axis, angle)` (called at tensor_rotation.py:110). -/
noncomputable def fromAxisAngle (axis : List ℝ) (angle : ℝ) : Except RotErr Quat :=
  match axis with
  | [x, y, z] =>
    let norm := Real.sqrt (x ^ 2 + y ^ 2 + z ^ 2)
    open Classical in
    if norm = 0 then .error .notANumber
    else
      let s := Real.sin (angle * (1 / 2))
      .ok ⟨Real.cos (angle * (1 / 2)), x / norm * s, y / norm * s, z / norm * s⟩
  | _ => .error .valueError

/-- `mul(q, mul(M, q.conjugate()))` for a list of pure quaternions (tensor_rotation.py:92-107, 120, 127): each
element becomes `q (m q*)`. -/
def mulList (q : Quat) (M : List Quat) : List Quat := (M.map fun m => m.mul q.conj).map q.mul

/-- `sp.Quaternion(0, *l)` for `l` of length three (tensor_rotation.py:117, 124, 136). -/
def pureQuat (l : Fin 3 → ℝ) : Quat := ⟨0, l 0, l 1, l 2⟩

/-- `[m.b, m.c, m.d]` (tensor_rotation.py:122, 129, 137). -/
def Quat.im (q : Quat) : List ℝ := [q.b, q.c, q.d]

/-- Entry `i` of a list of numbers, for positions known to exist. -/
def rotEntry (l : List ℝ) (i : Nat) : ℝ := (l[i]?).getD 0

/-- Column `i` of a matrix given by rows. -/
def rotCol (rows : List (List ℝ)) (i : Nat) : Fin 3 → ℝ := fun k => rotEntry ((rows[k.val]?).getD []) i

/-- Row `i` of a matrix given by rows. -/
def rotRow (rows : List (List ℝ)) (i : Nat) : Fin 3 → ℝ := fun k => rotEntry ((rows[i]?).getD []) k.val

/-- `rotate` (tensor_rotation.py:15-139). The matrix assignments `M[:, i] = …` give the matrix whose columns are
the new quaternions. -/
noncomputable def rotate (tensor : RotTensor) (axis : List ℝ) (angle : ℝ) : Except RotErr RotTensor := do
  let q ← fromAxisAngle axis angle
  match tensor with
  | .vec [] => .error .indexError
  | .mat rows =>
    if rows = [] then .error .indexError
    else if rows.length = 3 ∧ ∀ r ∈ rows, r.length = 3 then
      let cols := (mulList q ((List.range 3).map fun i => pureQuat (rotCol rows i))).map Quat.im
      let m1 := (List.range 3).map fun r => cols.map fun c => rotEntry c r
      let m2 := (mulList q ((List.range 3).map fun i => pureQuat (rotRow m1 i))).map Quat.im
      return .mat m2
    else .error .valueError
  | .vec l =>
    if l.length ≠ 3 then .error .valueError
    else return .vec ((q.mul (pureQuat fun k => rotEntry l k.val)).mul q.conj).im

end Verif.Equations
