import Verif.Grid.Model
import Verif.CurviBC.Model

/-!
# Model of the generators of Einstein Toolkit thorns: gridfunctions

ETLegacy/interface_ccl.py, ETLegacy/Symmetry_registration.py, ETLegacy/MoL_registration.py, ETLegacy/zero_rhss.py,
ETLegacy/boundary_conditions.py and the versions for CarpetX.  Simplifications: the text of interface.ccl is a list of groups;
the generated C functions are lists of calls; the constant parts of the texts are not modelled.
-/
namespace Verif.Thorn
open Verif.Py Verif.Grid

/-- A group of variables of `interface.ccl`; `parities` are the numbers in its tag, if it has one. -/
structure Group where
  name : Str
  timelevels : ℕ
  vars : List Str
  parities : Option (List ℤ)
deriving DecidableEq

/-- Cactus name of a gridfunction. -/
def gfName (n : Str) : Str := n ++ (c% "GF")

/-- Cactus name of its right-hand side. -/
def rhsName (n : Str) : Str := n ++ (c% "_rhsGF")

/-- The groups of `interface.ccl` (ETLegacy/interface_ccl.py:101-148). -/
def interfaceLegacy (d : Registry) (evol : Bool) : List Group :=
  let e := groupList d (c% "EVOL")
  let a := groupList d (c% "AUX")
  let x := groupList d (c% "AUXEVOL")
  if evol then
    (if e ≠ [] then
      [⟨(c% "evol_variables"), 3, e.map gfName, none⟩, ⟨(c% "evol_variables_rhs"), 1, e.map rhsName, none⟩] ++
        (if x ≠ [] then [⟨(c% "auxevol_variables"), 1, x.map gfName, none⟩] else [])
    else []) ++
    (if a ≠ [] then [⟨(c% "aux_variables"), 3, a.map gfName, none⟩] else [])
  else []

/-- `construct_parity_string` for one type (CarpetX/interface_ccl.py:76-94): the numbers. -/
def parityTag (p : ℕ) : List ℤ :=
  if p = 0 ∨ p = 4 ∨ p = 7 ∨ p = 9 then [1, 1, 1]
  else if p = 1 then [-1, 1, 1]
  else if p = 2 then [1, -1, 1]
  else if p = 3 then [1, 1, -1]
  else if p = 5 then [-1, -1, 1]
  else if p = 6 then [-1, 1, -1]
  else if p = 8 then [1, -1, -1]
  else []

/-- A group with its parities, if it is not empty. -/
def groupX (d : Registry) (name : Str) (l : List Str) : Except Err (List Group) :=
  if l ≠ [] then do
    let ps ← setParityTypes d l
    return [⟨name, 1, l.map gfName, some (ps.flatMap parityTag)⟩]
  else return []

/-- The groups of `interface.ccl` (CarpetX/interface_ccl.py:63-146). -/
def interfaceCarpetX (d : Registry) (evol : Bool) : Except Err (List Group) := do
  let e := groupList d (c% "EVOL")
  let ge ← if evol then groupX d (c% "evol_variables") e else pure []
  let gr := if evol ∧ e ≠ [] then [(⟨(c% "evol_variables_rhs"), 1, e.map rhsName, none⟩ : Group)] else []
  let gx ← if evol then groupX d (c% "auxevol_variables") (groupList d (c% "AUXEVOL")) else pure []
  let ga ← groupX d (c% "aux_variables") (groupList d (c% "AUX"))
  return ge ++ gr ++ gx ++ ga

/-- A statement on `int sym[3]`. -/
inductive SymStmt
  | mul (i : ℕ)
  | set (i : ℕ)
deriving DecidableEq

/-- The statements for one gridfunction (ETLegacy/Symmetry_registration.py:52-78). -/
def symStmts (gfname : Str) (dimension : ℕ) : Except Err (List SymStmt) :=
  let r := gfname.reverse
  let isDig (k : ℕ) : Bool := ((r[k]?).map Char.isDigit).getD false
  let int (k : ℕ) : Except Err ℕ := if isDig k then .ok (((r[k]?).map fun c => c.toNat - 48).getD 0) else .error .valueError
  if gfname.length > 2 ∧ isDig 2 then .error .valueError
  else if gfname.length > 3 ∧ isDig 1 then do
    let i0 ← int 1
    let i1 ← int 0
    if dimension = 4 then
      return (if i0 ≥ 1 then [.mul (i0 - 1)] else []) ++ (if i1 ≥ 1 then [.mul (i1 - 1)] else [])
    else return [.mul i0, .mul i1]
  else if isDig 0 then do
    let i ← int 0
    return [.set i]
  else return []

/-- Execution on `sym[3]`, which starts as (1, 1, 1) (line 45); `none` is an access out of bounds. -/
def symRun (l : List SymStmt) : Option (Fin 3 → ℤ) :=
  l.foldlM (fun s st => match st with
    | .mul i => if h : i < 3 then some (Function.update s ⟨i, h⟩ (-s ⟨i, h⟩)) else none
    | .set i => if h : i < 3 then some (Function.update s ⟨i, h⟩ (-1)) else none) fun _ => 1

/-- The calls of `SetCartSymVN` (lines 42-80): variable and parities. -/
def symmetries (d : Registry) : Except Err (List (Str × Option (Fin 3 → ℤ))) :=
  (d.filter fun kv => kv.2.group = (c% "EVOL") ∨ kv.2.group = (c% "AUXEVOL") ∨ kv.2.group = (c% "AUX")).mapM fun kv => do
    let l ← symStmts kv.1 kv.2.dimension
    return (gfName kv.1, symRun l)

/-- The groups given to `MoLRegisterEvolvedGroup` (ETLegacy/MoL_registration.py:35-37). -/
def molPair : Str × Str := ((c% "evol_variables"), (c% "evol_variables_rhs"))

/-- Assignments at a point by `zero_rhss` (ETLegacy/zero_rhss.py:28-32, CarpetX/zero_rhss.py:28-32). -/
def zeroed (d : Registry) : List Str :=
  (d.filter fun kv => kv.2.group = (c% "EVOL")).map fun kv => rhsName kv.1

/-- Insertion step of `sorted(glb_gridfcs_dict.items())`; the keys differ, so gridfunctions are not compared. -/
def insertKey {V : Type} (x : Str × V) : List (Str × V) → List (Str × V)
  | [] => [x]
  | y :: l => if strLe x.1 y.1 then x :: y :: l else y :: insertKey x l

/-- `sorted(dict.items())`. -/
def sortedItems {V : Type} (l : List (Str × V)) : List (Str × V) := l.foldr insertKey []

/-- Calls of `Driver_SelectVarForBC` (ETLegacy/boundary_conditions.py:50-60): variable, width, condition. -/
def driverBC (d : Registry) (fdOrder : ℤ) : List (Str × ℤ × Str) :=
  (sortedItems d).filterMap fun kv =>
    if kv.2.group = (c% "EVOL") then some (gfName kv.1, 1, (c% "none"))
    else if kv.2.group = (c% "AUX") then some (gfName kv.1, fdOrder.tdiv 2 + 1, (c% "flat"))
    else none

/-- Calls of `Boundary_SelectVarForBC` for evolved gridfunctions (lines 124-129). -/
def evolBC (d : Registry) : List (Str × ℤ × Str) :=
  (sortedItems d).filterMap fun kv => if kv.2.group = (c% "EVOL") then some (gfName kv.1, 1, (c% "none")) else none

/-- Calls of `Boundary_SelectVarForBC` for auxiliary gridfunctions (lines 194-199). -/
def auxBC (d : Registry) (fdOrder : ℤ) : List (Str × ℤ × Str) :=
  (sortedItems d).filterMap fun kv =>
    if kv.2.group = (c% "AUX") then some (gfName kv.1, fdOrder.tdiv 2 + 1, (c% "flat")) else none

/-- A call of `NewRad_Apply` or `NewRadX_Apply`. -/
structure NewRad where
  var : Str
  rhs : Str
  var0 : Str
  v0 : Str
  radpower : Str
deriving DecidableEq

/-- Lines 261-264 and CarpetX/boundary_conditions.py:49-52; all gridfunctions are of the class of the infrastructure. -/
def newRad (d : Registry) : List NewRad :=
  (d.filter fun kv => kv.2.group = (c% "EVOL")).map fun kv =>
    ⟨gfName kv.1, rhsName kv.1, kv.2.fInfinity, kv.2.wavespeed, (c% "1.0")⟩

end Verif.Thorn
