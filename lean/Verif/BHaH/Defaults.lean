import Mathlib.Logic.Function.Basic
import Mathlib.Data.List.Basic

/-!
# Structs of parameters, their default values, and the headers that read them

Model of `nrpy/infrastructures/BHaH/CodeParameters.py`, of the structs in `BHaH_defines_h.py` 237-314, and of the steps 1.a to 1.e of
`main_c.py` with `numerical_grids_and_timestep.py` 251-260.

Simplifications: the type of a parameter is not a text but its kind (what the tests of the text for `char`, `[` and `]` find). The order of the
statements, which are sorted as text, is left open: any order is allowed. The value of an expression of C is represented by its text.
Texts in string literals have no backslash and no quotation mark.
-/
namespace Verif.BHaH.Defaults

/-- Text. -/
abbrev Text := List Char

/-- `params.py` 112, 124-127, 136; `CodeParameters.py` 98-107: the kinds of types that are told apart. `scalar true` is `REAL`. -/
inductive Kind
  | define
  | chars (size : ℕ)
  | array (size : ℕ)
  | scalar (isReal : Bool)
  deriving DecidableEq

/-- Default values: the word `unset`, a bool, an int or float (with Python's text for it), a str, and other objects (with their text). -/
inductive Val
  | unset
  | bool (b : Bool)
  | num (repr : Text)
  | str (s : Text)
  | other (repr : Text)
  deriving DecidableEq

/-- `params.py` 112-121: a parameter. -/
structure CP where
  name : Text
  kind : Kind
  default : Val
  commondata : Bool
  addToH : Bool

/-- Python's `str(value)`. -/
def Val.text : Val → Text
  | .unset => "unset".toList
  | .bool b => if b then "True".toList else "False".toList
  | .num t => t
  | .str s => s
  | .other t => t

/-- Python's `s.lower()` on ASCII text. -/
def lower (t : Text) : Text := t.map Char.toLower

/-- Values of members and variables: not initialised, the value of an expression, a string, an array. -/
inductive CVal
  | junk
  | expr (t : Text)
  | chars (s : Text)
  | array (l : List Text)
  deriving DecidableEq

/-- Statements that set a member. -/
inductive Stmt
  | snprintf (name : Text) (size : ℕ) (format : Text)
  | forSet (name : Text) (size : ℕ) (value : Text)
  | set (name : Text) (value : Text)
  deriving DecidableEq

/-- `CodeParameters.py` 98-115: the statement for a parameter; the inner `none` is the exception. -/
def stmt (p : CP) : Option Stmt :=
  match p.kind with
  | .chars n => some (.snprintf p.name n p.default.text)
  | .array n => some (.forSet p.name n (lower p.default.text))
  | .scalar isReal =>
    match p.default with
    | .bool _ => some (.set p.name (lower p.default.text))
    | .num _ => some (.set p.name (lower p.default.text))
    | .str _ => if isReal then some (.set p.name (lower p.default.text)) else none
    | .unset => none
    | .other _ => none
  | .define => none

/-- `CodeParameters.py` 86-94: the parameters that the function for one of the structs sets. -/
def chosen (common : Bool) (ps : List CP) : List CP :=
  ps.filter fun p => p.commondata = common ∧ p.default ≠ .unset ∧ p.kind ≠ .define

/-- `CodeParameters.py` 84-116: the statements of the function for one of the structs; `none` is the exception. -/
def stmts (common : Bool) (ps : List CP) : Option (List Stmt) := (chosen common ps).mapM stmt

/-- A struct: the value of each member. -/
abbrev Struct := Text → CVal

/-- What `snprintf(buf, size, format)` without further arguments leaves in the buffer: at most `size - 1` characters; `%%` is one percent sign;
other conversions are undefined. -/
def formatted : Text → Option Text
  | [] => some []
  | '%' :: '%' :: t => (formatted t).map ('%' :: ·)
  | '%' :: _ => none
  | c :: t => (formatted t).map (c :: ·)

/-- The effect of a statement. -/
def exec (s : Struct) : Stmt → Struct
  | .snprintf n size f => Function.update s n (match formatted f with | some t => .chars (t.take (size - 1)) | none => .junk)
  | .forSet n size v => Function.update s n (.array (List.replicate size v))
  | .set n v => Function.update s n (.expr v)

/-- `CodeParameters.py` 129-131: `commondata_struct_set_to_default`, with its statements in some order. -/
def setCommon (order : List Stmt) (c : Struct) : Struct := order.foldl exec c

/-- `CodeParameters.py` 119-127: `params_struct_set_to_default`, for the grids below `NUMGRIDS`. -/
def setParams (order : List Stmt) (numGrids : ℕ) (g : ℕ → Struct) : ℕ → Struct :=
  (List.range numGrids).foldl (fun g i => Function.update g i (order.foldl exec (g i))) g

/-- `BHaH_defines_h.py` 281-294: the members of a struct that come from parameters. -/
def members (common : Bool) (ps : List CP) : List Text :=
  (ps.filter fun p => p.kind ≠ .define ∧ p.commondata = common).map CP.name

/-! ### Headers -/

/-- Local variables declared by a header, with their values. -/
abbrev Locals := List (Text × CVal)

/-- `strncpy(x, member, size - 1); x[size - 1] = '\0';` on a member that holds a string. -/
def copyChars (size : ℕ) : CVal → CVal
  | .chars s => .chars (s.take (size - 1))
  | v => v

/-- `CodeParameters.py` 207-241: the variable for a parameter in `set_CodeParameters.h`. -/
def local1 (common params : Struct) (p : CP) : Text × CVal :=
  let v := (if p.commondata then common else params) p.name
  match p.kind with
  | .chars n => (p.name, copyChars n v)
  | _ => (p.name, v)

/-- `CodeParameters.py` 202-206: the parameters in the header. -/
def inHeader (onlyCommon : Bool) (ps : List CP) : List CP := ps.filter fun p => p.addToH ∧ ¬(onlyCommon ∧ ¬p.commondata)

/-- `CodeParameters.py` 190-243: `set_CodeParameters.h`; the variables in some order. -/
def header (onlyCommon : Bool) (common params : Struct) (ps : List CP) : Locals := (inHeader onlyCommon ps).map (local1 common params)

/-- `CodeParameters.py` 267-293: `set_CodeParameters-simd.h`. `splat` is `ConstSIMD`. -/
def headerSimd (splat : CVal → CVal) (onlyCommon : Bool) (common params : Struct) (ps : List CP) : Locals :=
  ((inHeader onlyCommon ps).filter fun p => match p.kind with | .chars _ => false | .array _ => false | _ => true).flatMap fun p =>
    let v := (if p.commondata then common else params) p.name
    if p.kind = .scalar true then [("NOSIMD".toList ++ p.name, v), (p.name, splat v)] else [(p.name, v)]

/-! ### Start of a program -/

/-- The memory that the start of a program sets; `numGrids` is `commondata.NUMGRIDS`. -/
structure Mem where
  common : Struct
  grids : ℕ → Struct
  numGrids : ℕ

/-- `main_c.py` 103-123, `numerical_grids_and_timestep.py` 251-259: step 1.a (here `numGrids` becomes its default), step 1.b (`parse`, which cannot change `NUMGRIDS`, since
it is registered with `add_to_parfile=False`, `grid.py` 39-41), step 1.d, and step 1.e up to the assignment of the number of coordinate systems. -/
def start (oc op : List Stmt) (parse : Struct → Struct) (defaultNum numCoord : ℕ) (m : Mem) : Mem :=
  let c := parse (setCommon oc m.common)
  let g := setParams op defaultNum m.grids
  let g := setParams op defaultNum g
  ⟨c, g, numCoord⟩

end Verif.BHaH.Defaults
