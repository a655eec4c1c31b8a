import Verif.Py.Dict
import Verif.Py.Str

/-!
# Model of nrpy/params.py

Parameter registries.  Values of NRPy parameters are never inspected by the code, so the value type
`V` is arbitrary.  Warnings (printed only when `very_verbose`) are not modelled.
-/
namespace Verif.Params
open Verif.Py

/-- Exceptions raised by the module; messages are not modelled. -/
inductive Err | valueError | typeError
  deriving DecidableEq, Repr

/-- The `py_type` argument of `NRPyParameter` (nrpy/params.py:31-33): the four accepted Python types
or anything else. -/
inductive PyType | bool | int | float | str | other
  deriving DecidableEq, Repr

/-- `NRPyParameter` object (nrpy/params.py:44-48). -/
structure NRPyParam (V : Type) where
  pyType : PyType
  module : Str
  name : Str
  value : V
  description : Str

/-- `glb_params_dict` (nrpy/params.py:164). -/
abbrev Registry (V : Type) := Dict Str (NRPyParam V)

/-- `NRPyParameter.__init__` / `register_param` (nrpy/params.py:44-58, 171-196): type check, then
insertion if the name is new. Returns the new registry and the outcome. -/
def registerParam {V : Type} (d : Registry V) (p : NRPyParam V) : Registry V × Except Err Unit :=
  if p.pyType = .other then (d, .error .valueError)
  else if d.contains p.name then (d, .ok ())
  else (d.set p.name p, .ok ())

/-- `parval_from_str` (nrpy/params.py:199-227): only the text after the last `::` is used. -/
def parvalFromStr {V : Type} (d : Registry V) (parameterName : Str) : Except Err V :=
  match d.get? (lastPart2 ':' ':' parameterName) with
  | some p => .ok p.value
  | none => .error .valueError

/-- `set_parval_from_str` (nrpy/params.py:230-253): the name is used as is. -/
def setParvalFromStr {V : Type} (d : Registry V) (parameterName : Str) (v : V) :
    Registry V × Except Err Unit :=
  match d.get? parameterName with
  | some p => (d.set parameterName { p with value := v }, .ok ())
  | none => (d, .error .valueError)

/-- A call that may change the NRPy parameter registry. -/
inductive Call (V : Type)
  | register (p : NRPyParam V)
  | set (name : Str) (v : V)

/-- One call on the registry. -/
def step {V : Type} (d : Registry V) : Call V → Registry V × Except Err Unit
  | .register p => registerParam d p
  | .set n v => setParvalFromStr d n v

/-- Registry after a history of calls (exceptions are caught by the caller, as in the tests). -/
def run {V : Type} (h : List (Call V)) (d : Registry V) : Registry V :=
  h.foldl (fun d c => (step d c).1) d

/-! ## Code parameters -/

/-- Default values: the code only compares them with the string `"unset"` (nrpy/params.py:140), so a
value is a string or some other Python object identified by a number. -/
inductive PyVal | str (s : Str) | other (id : Nat)
  deriving DecidableEq, Repr

/-- The string `"unset"`. -/
def unset : PyVal := .str (c% "unset")

/-- Keyword arguments of `CodeParameter.__init__` and the fields it stores (nrpy/params.py:83-121).
`addToGlb` is `add_to_glb_code_params_dict`. -/
structure CodeParam where
  cparamType : Str
  module : Str
  name : Str
  defaultvalue : PyVal
  assumption : Str
  commondata : Bool
  addToParfile : Bool
  addToSetH : Bool
  addToGlb : Bool
  description : Str
  deriving DecidableEq, Repr

/-- The SymPy symbol of a code parameter (nrpy/params.py:145-148): its name and whether it is assumed
positive. -/
structure Sym where
  name : Str
  positive : Bool
  deriving DecidableEq, Repr

/-- `glb_code_params_dict` (nrpy/params.py:166). -/
abbrev CPRegistry := Dict Str CodeParam

/-- The array test on the C type (nrpy/params.py:124-128). -/
def isArrayType (t : Str) : Bool :=
  ((c% "REAL").isPrefixOf t || (c% "int").isPrefixOf t) && t.contains '[' && t.contains ']'

/-- The checks of `CodeParameter.__init__` (nrpy/params.py:123-152): the object finally stored and its
symbol, or the exception. -/
def mkCodeParam (a : CodeParam) : Except Err (CodeParam × Sym) :=
  if isArrayType a.cparamType && !(a.commondata && !a.addToSetH) then .error .valueError
  else
    let b : CodeParam :=
      if a.cparamType = (c% "#define") then { a with addToParfile := false, addToSetH := false }
      else a
    if b.addToParfile && b.defaultvalue == unset then .error .valueError
    else if a.assumption = (c% "Real") then .ok (b, ⟨a.name, false⟩)
    else if a.assumption = (c% "RealPositive") then .ok (b, ⟨a.name, true⟩)
    else .error .valueError

/-- Insertion at the end of `CodeParameter.__init__` (nrpy/params.py:154-160). -/
def insertIfAbsent (d : CPRegistry) (cp : CodeParam) : CPRegistry :=
  if cp.addToGlb then (if d.contains cp.name then d else d.set cp.name cp) else d

/-- `register_CodeParameter` (nrpy/params.py:408-476). The `isinstance(name, str)` test always
succeeds in the model (names are strings). -/
def registerCodeParameter (d : CPRegistry) (a : CodeParam) : CPRegistry × Except Err Sym :=
  match mkCodeParam a with
  | .error e => (d, .error e)
  | .ok (cp, s) => (insertIfAbsent d cp, .ok s)

/-- The `defaultvalues` argument: one value or a list (nrpy/params.py:260). -/
inductive Defaults | scalar (v : PyVal) | list (vs : List PyVal)

/-- The `descriptions` argument: a string, a list, or something else (nrpy/params.py:266). -/
inductive Descrs | str (s : Str) | list (ds : List Str) | other

/-- The loop of `register_CodeParameters` (nrpy/params.py:387-403): the constructor inserts if absent,
then the entry is overwritten unconditionally; an exception leaves the earlier insertions in place. -/
def batchLoop (tmpl : CodeParam) :
    List (Str × PyVal × Str) → CPRegistry → List Sym → CPRegistry × Except Err (List Sym)
  | [], d, syms => (d, .ok syms)
  | (name, dflt, desc) :: rest, d, syms =>
    match mkCodeParam { tmpl with name := name, defaultvalue := dflt, description := desc } with
    | .error e => (d, .error e)
    | .ok (cp, s) =>
      let d1 := insertIfAbsent d cp
      let d2 := if tmpl.addToGlb then d1.set name cp else d1
      batchLoop tmpl rest d2 (syms ++ [s])

/-- `register_CodeParameters` (nrpy/params.py:256-405). `tmpl` carries the arguments common to all
names (`name`, `defaultvalue`, `description` of `tmpl` are ignored). -/
def registerCodeParameters (d : CPRegistry) (tmpl : CodeParam) (names : List Str)
    (dv : Defaults) (ds : Descrs) : CPRegistry × Except Err (List Sym) :=
  if names.length < 1 then (d, .error .valueError)
  else
    match (match dv with
      | .scalar v => some (List.replicate names.length v)
      | .list vs => if vs.length ≠ names.length then none else some vs) with
    | none => (d, .error .valueError)
    | some vals =>
      match (match ds with
        | .list l => if l.length ≠ names.length then Except.error Err.valueError else .ok l
        | .str s => if s ≠ [] then Except.error Err.valueError
                    else .ok (List.replicate names.length [])
        | .other => Except.error Err.typeError) with
      | .error e => (d, .error e)
      | .ok descs => batchLoop tmpl (names.zip (vals.zip descs)) d []

/-- `adjust_CodeParam_default` (nrpy/params.py:479-504). -/
def adjustDefault (d : CPRegistry) (name : Str) (v : PyVal) : CPRegistry × Except Err Unit :=
  match d.get? name with
  | some cp => (d.set name { cp with defaultvalue := v }, .ok ())
  | none => (d, .error .valueError)

/-- A call that may change the code parameter registry. -/
inductive CPCall
  | one (a : CodeParam)
  | many (tmpl : CodeParam) (names : List Str) (dv : Defaults) (ds : Descrs)
  | adjust (name : Str) (v : PyVal)

/-- One call on the code parameter registry. -/
def cpStep (d : CPRegistry) : CPCall → CPRegistry
  | .one a => (registerCodeParameter d a).1
  | .many t n dv ds => (registerCodeParameters d t n dv ds).1
  | .adjust n v => (adjustDefault d n v).1

/-- Registry after a history of calls. -/
def cpRun (h : List CPCall) (d : CPRegistry) : CPRegistry := h.foldl cpStep d

end Verif.Params
