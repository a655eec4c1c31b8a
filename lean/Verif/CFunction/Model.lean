import Verif.Py.Dict
import Verif.Py.Str

/-!
# Model of nrpy/c_function.py and nrpy/infrastructures/BHaH/rfm_wrapper_functions.py

`clang_format` (an external program) is not modelled; the unformatted text is.
-/
namespace Verif.CFunction
open Verif.Py

/-- Exceptions; messages are not modelled. -/
inductive Err | valueError | typeError
  deriving DecidableEq, Repr

/-! ## Paths -/

/-- One component of `posixpath.normpath` (called at nrpy/c_function.py:139): empty components and
`.` are skipped, `..` removes the previous component when there is one that is not `..`, is dropped at
the root of an absolute path and kept at the start of a relative one. `st` is the list of components
kept so far, last first. -/
def normStep (absolute : Bool) (st : List Str) (comp : Str) : List Str :=
  if comp = [] ∨ comp = (c% ".") then st
  else if comp ≠ (c% "..") then comp :: st
  else match st with
    | [] => if absolute then [] else [(c% "..")]
    | top :: rest => if top = (c% "..") then comp :: st else rest

/-- Components kept by `os.path.normpath` (nrpy/c_function.py:139). -/
def normComps (path : Str) : List Str :=
  ((split1 '/' path).foldl (normStep ((c% "/").isPrefixOf path)) []).reverse

/-- `os.path.normpath` (posix; nrpy/c_function.py:139). Simplification: the POSIX special case of
exactly two leading slashes is treated as one. -/
def normpath (path : Str) : Str :=
  let body := joinWith '/' (normComps path)
  let full := if (c% "/").isPrefixOf path then '/' :: body else body
  if full = [] then (c% ".") else full

/-- `CFunction.subdirectory_depth` (nrpy/c_function.py:113-146). -/
def subdirectoryDepth (subdirectory : Str) : Nat :=
  let p := normpath subdirectory
  if p = (c% ".") then 0
  else ((split1 '/' p).filter (fun f => f ≠ [])).length

/-- `os.path.join(a, b)` (posix). -/
def osJoin (a b : Str) : Str :=
  if (c% "/").isPrefixOf b then b
  else if a = [] ∨ a.getLast? = some '/' then a ++ b
  else a ++ '/' :: b

/-- `rel_path_to_root_directory` (nrpy/c_function.py:161-163). -/
def relPathToRoot (subdirectory : Str) : Str :=
  (List.range (subdirectoryDepth subdirectory)).foldl (fun acc _ => osJoin acc (c% "..")) []

/-! ## C functions -/

/-- An element of `includes`: a string or some other object (nrpy/c_function.py:179-182). -/
inductive Inc | str (s : Str) | other
  deriving DecidableEq, Repr

/-- The `includes` argument (nrpy/c_function.py:80-81): `None`, a list, or something truthy that is
not a list. -/
inductive Includes | none | list (l : List Inc) | notAList
  deriving DecidableEq, Repr

/-- Arguments of `register_CFunction` (nrpy/c_function.py:247-266). The arguments that no modelled
code inspects (`ET_*`, `clang_format_options`) are carried in `rest`. -/
structure Args where
  subdirectory : Str
  enableSimd : Bool
  includes : Includes
  prefunc : Str
  desc : Str
  decorators : Str
  cfuncType : Str
  name : Str
  params : Str
  includeCodeParametersH : Bool
  body : Str
  postfunc : Str
  coordSystem : Str
  rest : Nat
  deriving DecidableEq, Repr

/-- A `CFunction` object: its arguments (with final name and subdirectory) and the generated texts
(nrpy/c_function.py:87-110). -/
structure CFunc where
  args : Args
  prototype : Str
  rawFunction : Str
  deriving DecidableEq, Repr

/-- `prefix_with_star` (nrpy/helpers/generic.py:36-56) is only used for the comment block; it is a
parameter of the text generator. -/
abbrev StarPrefix := Str → Str

/-- Text emitted for one include (nrpy/c_function.py:186-199). `bhah` is the test
`parval_from_str("Infrastructure") == "BHaH"`. -/
def includeLine (bhah : Bool) (rel : Str) (inc : Str) : Str :=
  if containsSub (c% "<") inc then (c% "#include ") ++ inc ++ (c% "\n")
  else
    let inc' := if bhah && ((containsSub (c% "BHaH_defines.h") inc) ||
        (containsSub (c% "BHaH_function_prototypes.h") inc) ||
        (containsSub (c% "simd_intrinsics.h") inc)) then osJoin rel inc else inc
    (c% "#include \"") ++ inc' ++ (c% "\"\n")

/-- All include lines, or `TypeError` (nrpy/c_function.py:177-199). -/
def includeLines (bhah : Bool) (rel : Str) : List Inc → Except Err Str
  | [] => .ok []
  | .other :: _ => .error .typeError
  | .str s :: l => (includeLines bhah rel l).map (includeLine bhah rel s ++ ·)

/-- `include_Cparams_str` (nrpy/c_function.py:165-175). -/
def includeCparams (bhah : Bool) (rel : Str) (a : Args) : Str :=
  if a.includeCodeParametersH then
    let file := if a.enableSimd || containsSub (c% "simd_width") a.body
      then (c% "set_CodeParameters-simd.h") else (c% "set_CodeParameters.h")
    (c% "#include \"") ++ (if bhah then osJoin rel file else file) ++ (c% "\"\n")
  else []

/-- `generate_full_function` (nrpy/c_function.py:148-218), without the `clang_format` call. -/
def generate (bhah : Bool) (star : StarPrefix) (a : Args) : Except Err (Str × Str) :=
  let rel := relPathToRoot a.subdirectory
  match (match a.includes with
    | .list l => includeLines bhah rel l
    | _ => .ok []) with
  | .error e => .error e
  | .ok incs =>
    let pre := if a.prefunc ≠ [] then a.prefunc ++ (c% "\n") else []
    let com := if a.desc ≠ [] then (c% "/**\n") ++ star a.desc ++ (c% "\n*/\n") else []
    let proto := a.decorators ++ a.cfuncType ++ (c% " ") ++ a.name ++ (c% "(") ++ a.params ++ (c% ");")
    let defn := replaceAll (c% ";") [] proto ++ (c% " {\n") ++ includeCparams bhah rel a ++ a.body ++
      (c% "}\n")
    .ok (proto, incs ++ pre ++ com ++ defn ++ a.postfunc ++ (c% "\n"))

/-- `CFunction.__init__` (nrpy/c_function.py:75-110). -/
def mkCFunc (bhah : Bool) (star : StarPrefix) (a : Args) : Except Err CFunc :=
  if a.name = [] ∨ a.desc = [] ∨ a.body = [] then .error .valueError
  else if a.includes = .notAList then .error .valueError
  else if a.coordSystem ≠ [] ∧ containsSub (c% "griddata_struct") a.params = true then
    .error .valueError
  else
    let a' := { a with decorators := if a.decorators ≠ [] then a.decorators ++ (c% " ") else [] }
    match generate bhah star a' with
    | .error e => .error e
    | .ok (p, r) => .ok ⟨a', p, r⟩

/-- `function_name_and_subdir_with_CoordSystem` (nrpy/c_function.py:224-244). -/
def nameAndSubdir (subdir name coord : Str) : Str × Str :=
  if coord ≠ [] then (osJoin subdir coord, name ++ (c% "__rfm__") ++ coord) else (subdir, name)

/-- `CFunction_dict` (nrpy/c_function.py:221). -/
abbrev Registry := Dict Str CFunc

/-- `register_CFunction` (nrpy/c_function.py:247-320). -/
def register (bhah : Bool) (star : StarPrefix) (d : Registry) (a : Args) :
    Registry × Except Err Unit :=
  let (sub, nm) := nameAndSubdir a.subdirectory a.name a.coordSystem
  if d.contains nm then (d, .error .valueError)
  else match mkCFunc bhah star { a with subdirectory := sub, name := nm } with
    | .error e => (d, .error e)
    | .ok cf => (d.set nm cf, .ok ())

/-- Registry after a history of calls. -/
def run (bhah : Bool) (star : StarPrefix) (h : List Args) (d : Registry) : Registry :=
  h.foldl (fun d a => (register bhah star d a).1) d

/-! ## Coordinate-system wrappers (nrpy/infrastructures/BHaH/rfm_wrapper_functions.py) -/

/-- `__rfm__{CoordSystem}`. -/
def rfmSuffix (coord : Str) : Str := (c% "__rfm__") ++ coord

/-- First loop (rfm_wrapper_functions.py:41-53): wrapper names in order of first occurrence with the
function that fixes the return type and parameters; a non-`void` first function raises. -/
def collectWrappers : List (Str × CFunc) → List (Str × CFunc) → Except Err (List (Str × CFunc))
  | [], acc => .ok acc
  | (_, cf) :: l, acc =>
    if cf.args.coordSystem ≠ [] then
      let w := replaceAll (rfmSuffix cf.args.coordSystem) [] cf.args.name
      if w ∈ acc.map Prod.fst then collectWrappers l acc
      else if cf.args.cfuncType ≠ (c% "void") then .error .valueError
      else collectWrappers l (acc ++ [(w, cf)])
    else collectWrappers l acc

/-- Second loop (rfm_wrapper_functions.py:58-67): coordinate systems found for one wrapper. -/
def coordsFor (d : List (Str × CFunc)) (w : Str) : List Str :=
  (d.filter (fun kv => w = replaceAll (rfmSuffix kv.2.args.coordSystem) [] kv.1)).map
    (·.2.args.coordSystem)

/-- Abstract form of the generated wrapper body (rfm_wrapper_functions.py:88-98): a list of
`case MACRO: call; break;` entries in the order emitted, followed by a default that aborts. -/
structure Wrapper where
  name : Str
  cases : List (Str × Str)
  deriving DecidableEq, Repr

/-- Wrapper generated for `w` (rfm_wrapper_functions.py:88-98). `upper` is `str.upper`. -/
def mkWrapper (upper : Str → Str) (d : List (Str × CFunc)) (w : Str) : Wrapper :=
  ⟨w, (sortedStr (coordsFor d w)).map (fun c => (upper c, w ++ (c% "__rfm__") ++ c))⟩

/-- Arguments of the `register_CFunction` call for a wrapper (rfm_wrapper_functions.py:99-112).
`text` renders the switch. The `wrapper_subdir` computation (line 66) is a parameter. -/
def wrapperArgs (text : Wrapper → Str) (subdir : Str) (base : CFunc) (w : Wrapper) : Args :=
  { base.args with
    subdirectory := subdir, enableSimd := false,
    includes := .list [.str (c% "BHaH_defines.h"), .str (c% "BHaH_function_prototypes.h")],
    prefunc := [], decorators := [], name := w.name, includeCodeParametersH := false,
    body := text w, postfunc := [], coordSystem := [] }

/-- Main loop (rfm_wrapper_functions.py:55-112): wrappers are registered one by one while the registry
grows; also collects the coordinate systems met (keys of `CoordSystem_hash_dict`). -/
def wrapperLoop (bhah : Bool) (star : StarPrefix) (upper : Str → Str) (text : Wrapper → Str)
    (subdir : Str) : List (Str × CFunc) → Registry → List Wrapper → List Str →
    Except Err (Registry × List Wrapper × List Str)
  | [], d, ws, cs => .ok (d, ws, cs)
  | (w, base) :: rest, d, ws, cs =>
    let wr := mkWrapper upper d w
    match register bhah star d (wrapperArgs text subdir base wr) with
    | (_, .error e) => .error e
    | (d', .ok ()) =>
      wrapperLoop bhah star upper text subdir rest d' (ws ++ [wr]) (cs ++ coordsFor d w)

/-- `register_CFunctions_CoordSystem_wrapper_funcs` (rfm_wrapper_functions.py:35-117): final registry,
wrappers, and `#define` table. `hash` is `get_CoordSystem_hash` (MD5 modulo 2^31, lines 17-31). -/
def registerWrappers (bhah : Bool) (star : StarPrefix) (upper : Str → Str) (hash : Str → Nat)
    (text : Wrapper → Str) (subdir : Str) (d : Registry) :
    Except Err (Registry × List Wrapper × List (Str × Nat)) :=
  match collectWrappers d [] with
  | .error e => .error e
  | .ok ws =>
    match wrapperLoop bhah star upper text subdir ws d [] [] with
    | .error e => .error e
    | .ok (d', wrs, cs) => .ok (d', wrs, cs.map (fun c => (upper c, hash c)))

/-- Meaning of a macro in C: the value in its `#define`. -/
def macroValue (defs : List (Str × Nat)) (m : Str) : Option Nat :=
  (defs.find? (fun kv => kv.1 = m)).map Prod.snd

/-- C `switch (h)`: the function called by the first case whose label has value `h`; `none` is the
default branch (error exit). -/
def dispatch (defs : List (Str × Nat)) (w : Wrapper) (h : Nat) : Option Str :=
  (w.cases.find? (fun c => macroValue defs c.1 = some h)).map Prod.snd

end Verif.CFunction
