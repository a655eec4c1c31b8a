import Verif.BHaH.Parfile
import Verif.Py.Dict
import Verif.Helpers.FileUpdater

/-!
# Model of the parameter table and of the default parameter file
(nrpy/infrastructures/BHaH/cmdline_input_and_parfiles.py:152-213, 661-897)

Text is taken to be ASCII, so that bytes and characters agree.  Printing of floating-point numbers and the conversions
`float(v)` and `int(v)` are parameters.
-/
namespace Verif.BHaH.Parfile
open Verif.Py

/-- Default values of parameters. -/
inductive PyVal (F : Type)
  | real (x : F)
  | int (n : Int)
  | str (s : Str)

/-- Python's numbers: `repr(x)`, `float(v)`, `int(v)`; `none` is an exception. -/
structure PyNum (F : Type) where
  repr : F → Str
  toFloat : PyVal F → Option F
  toInt : PyVal F → Option Int

/-- What is used of `CodeParameter` (nrpy/params.py). -/
structure CodeParam (F : Type) where
  module : Str
  ctype : Str
  default : PyVal F
  description : Str
  commondata : Bool
  addToParfile : Bool

/-- `int(cparam_type.split("[")[1].split("]")[0])` (lines 171, 175, 185); `none` is `ValueError`.  Simplification: a
negative size is refused too. -/
def sizeIn (ctype : Str) : Option Nat :=
  (parseInt ((split1 ']' (((split1 '[' ctype).drop 1).headD [])).headD [])).bind fun n =>
    if n < 0 then none else some n.toNat

/-- Lines 164-190: the kind of a parameter; `some none`: skipped. -/
def classify (ctype : Str) : Option (Option PKind) :=
  let t := Helpers.pyStrip ctype
  if containsSub (c% "int[") t || containsSub (c% "int [") t then (sizeIn t).map fun n => some (.ints n)
  else if containsSub (c% "REAL[") t || containsSub (c% "REAL [") t then (sizeIn t).map fun n => some (.reals n)
  else if t = (c% "int") then some (some .int)
  else if t = (c% "REAL") then some (some .real)
  else if containsSub (c% "char") t && decide ('[' ∈ t) && decide (']' ∈ t) then
    (sizeIn t).map fun n => some (.chars n)
  else some none

/-- Insertion of an element before the first one with a key that is not smaller; `sorted(l, key=key)`. -/
def insertBy {α : Type} (key : α → Str) (x : α) : List α → List α
  | [] => [x]
  | y :: l => if strLe (key x) (key y) then x :: y :: l else y :: insertBy key x l

def sortBy {α : Type} (key : α → Str) (l : List α) : List α := l.foldr (insertBy key) []

section
variable {F : Type} (py : PyNum F)

/-- Loop of lines 161-206. -/
def tableRows : List (Str × CodeParam F) → Option (List Desc)
  | [] => some []
  | (name, p) :: l =>
    if p.addToParfile && p.commondata then
      (classify p.ctype).bind fun k =>
        match k with
        | none => tableRows l
        | some k => (tableRows l).map fun ds => ⟨name, k⟩ :: ds
    else tableRows l

/-- `param_table` (lines 152-213). -/
def paramTable (params : Dict Str (CodeParam F)) : Option (List Desc) := tableRows (sortBy (·.1) params)

/-- `parse_array_type` (lines 774-788): base type and size. -/
def parseArrayType (ctype : Str) : Option (Str × Nat) :=
  if '[' ∈ ctype ∧ ']' ∈ ctype then
    let i := ctype.findIdx (· == '[')
    let j := ctype.findIdx (· == ']')
    let sizeStr := (ctype.drop (i + 1)).take (j - (i + 1))
    if allDigits sizeStr then some ((split1 '[' ctype).headD [], Nat.ofDigitChars 10 sizeStr 0) else none
  else none

/-- `str.lower` for ASCII. -/
def lower (s : Str) : Str := s.map Char.toLower

/-- `str(v)`. -/
def PyVal.show : PyVal F → Str
  | .real x => py.repr x
  | .int n => intStr n
  | .str s => s

/-- `", ".join(l)`. -/
def joinComma : List Str → Str
  | [] => []
  | [s] => s
  | s :: l => s ++ (c% ", ") ++ joinComma l

/-- A default text between quotes, with quotes escaped (lines 827-829, 848-850). -/
def quoted (s : Str) : Str := (c% "\"") ++ replaceAll (c% "\"") (c% "\\\"") s ++ (c% "\"")

/-- Lines 796-797. -/
def suffixOf (description : Str) : Str :=
  let d := Helpers.pyStrip description
  if d.isEmpty then [] else ' ' :: d

/-- Array of numbers (lines 808-820); `n` values `v`. -/
def arrayLine (name : Str) (n : Nat) (v : Str) (type suffix : Str) : Str :=
  name ++ (c% "[") ++ dec n ++ (c% "] = { ") ++ joinComma (List.replicate n v) ++ (c% " }  # (") ++ type ++ (c% ")") ++ suffix

def scalarLine (name value type suffix : Str) : Str :=
  name ++ (c% " = ") ++ value ++ (c% "  # (") ++ type ++ (c% ")") ++ suffix

/-- The line of a parameter without its newline (lines 794-863); `none` is an exception. -/
def paramLine (name : Str) (p : CodeParam F) : Option Str :=
  let suffix := suffixOf p.description
  match parseArrayType p.ctype with
  | some (base, n) =>
    if lower base = (c% "real") then
      (py.toFloat p.default).map fun x => arrayLine name n (py.repr x) (c% "REAL") suffix
    else if lower base = (c% "int") then
      (py.toInt p.default).map fun i => arrayLine name n (intStr i) (c% "int") suffix
    else if lower base = (c% "char") then
      match p.default with
      | .str s => some (scalarLine name (quoted s) ((c% "char[") ++ dec n ++ (c% "]")) suffix)
      | _ => none
    else none
  | none =>
    if (c% "char").isPrefixOf (lower p.ctype) then
      match p.default with
      | .str s => some (scalarLine name (quoted s) p.ctype suffix)
      | _ => none
    else some (scalarLine name (p.default.show py) p.ctype suffix)

/-- Loop of lines 790-863: lines by module. -/
def collect : List (Str × CodeParam F) → Dict Str (List Str) → Option (Dict Str (List Str))
  | [], d => some d
  | (name, p) :: l, d =>
    if p.commondata && p.addToParfile then
      (paramLine py name p).bind fun line =>
        collect l (d.set p.module ((d.get? p.module).getD [] ++ [line ++ (c% "\n")]))
    else collect l d

/-- Text of a module (lines 871-874). -/
def moduleText (m : Str × List Str) : Str :=
  (c% "###########################\n") ++ (c% "###########################\n") ++ (c% "### Module: ") ++ m.1 ++
    (c% "\n") ++ (sortedStr m.2).flatten

/-- `output_str` (lines 865-874).  Sorting by module is enough, modules are different. -/
def outputStr (project : Str) (d : Dict Str (List Str)) : Str :=
  (c% "#### ") ++ project ++ (c% " BH@H parameter file. NOTE: only commondata CodeParameters appear here ###\n") ++
    ((sortBy (·.1) d).map moduleText).flatten

/-- A line with a comment that is not only a comment (line 882). -/
def hasComment (line : Str) : Bool := decide ('#' ∈ line) && !((c% "#").isPrefixOf (Helpers.pyStrip line))

/-- `align_by_hash` (lines 876-901). -/
def alignLine (width : Nat) (line : Str) : Str :=
  if hasComment line then
    let i := line.findIdx (· == '#')
    line.take i ++ List.replicate (width - i) ' ' ++ line.drop i
  else line

def alignWidth (lines : List Str) : Nat :=
  ((lines.filter hasComment).map fun l => l.findIdx (· == '#')).foldl max 0

def alignByHash (s : Str) : Str :=
  joinWith '\n' ((split1 '\n' s).map (alignLine (alignWidth (split1 '\n' s))))

/-- `generate_default_parfile` (lines 661-907): the text of the file. -/
def defaultParfile (project : Str) (params : Dict Str (CodeParam F)) : Option Str :=
  (collect py (sortBy (·.2.module) params) []).map fun d => alignByHash (outputStr project d)

end

end Verif.BHaH.Parfile
