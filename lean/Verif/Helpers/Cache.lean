import Verif.Py.Str
import Mathlib.Logic.Function.Basic

/-!
# Model of the on-disk cache (nrpy/helpers/cached_functions.py, clang_format in nrpy/helpers/generic.py)

The cache directory maps hashes to file contents.  SHA-256, UTF-8 encoding and pickling are parameters.  Two kinds of
calls share the directory: `clang_format` and `cached_simplify`.  A history is a list of calls, each of which may be cut
short by a crash after some bytes of the cache file were written.  Simplifications: one process at a time; the cache
directory exists; `clang-format` and `sp.simplify` are functions of their arguments.
-/
namespace Verif.Helpers
open Verif.Py

/-- Python objects that are stored. -/
inductive Obj (E : Type)
  | str (s : Str)
  | expr (e : E)
  deriving DecidableEq

structure CacheEnv (β η E : Type) where
  hash : List β → η
  utf8 : Str → List β
  dump : Obj E → List β
  load : List β → Option (Obj E)
  /-- `pickle.dumps(expr)`; `none`: `PicklingError`. -/
  pickle : E → Option (List β)
  /-- `clang-format`; `none`: nonzero exit code. -/
  clang : Str → Str → Option Str
  simplify : E → E
  zero : E
  /-- `__name__` of nrpy/helpers/generic.py. -/
  modName : Str

abbrev Disk (β η : Type) := η → Option (List β)

inductive Call (E : Type)
  | clangFormat (code opts : Str)
  | simplify (e : E)
  deriving DecidableEq

inductive Result (E : Type)
  | value (o : Obj E)
  /-- `RuntimeError` from `clang_format`. -/
  | formatError
  /-- `EOFError` or `UnpicklingError` from `pickle.load`. -/
  | loadError
  deriving DecidableEq

section
variable {β η E : Type} [DecidableEq η] [DecidableEq E] (V : CacheEnv β η E)

/-- `read_cached` (cached_functions.py:82-97). -/
def readCached (file : List β) : Result E :=
  match V.load file with
  | some o => .value o
  | none => .loadError

/-- `clang_format` (generic.py:84-102): key `__name__ + c_code_str + clang_format_options`.  The last argument is the
number of bytes of the cache file that are written before a crash, if there is one; then there is no result. -/
def cachedFormat (d : Disk β η) (code opts : Str) (crash : Option Nat) : Option (Result E) × Disk β η :=
  let k := V.hash (V.utf8 (V.modName ++ code ++ opts))
  match d k with
  | some f => (some (readCached V f), d)
  | none =>
    match V.clang code opts with
    | some out =>
      match crash with
      | none => (some (.value (.str out)), Function.update d k (some (V.dump (.str out))))
      | some j => (none, Function.update d k (some ((V.dump (.str out)).take j)))
    | none => (some .formatError, d)

/-- `cached_simplify` (cached_functions.py:118-148). -/
def cachedSimplify (d : Disk β η) (e : E) (crash : Option Nat) : Option (Result E) × Disk β η :=
  if e = V.zero then (some (.value (.expr V.zero)), d)
  else
    match V.pickle e with
    | none => (some (.value (.expr (V.simplify e))), d)
    | some p =>
      match d (V.hash p) with
      | some f => (some (readCached V f), d)
      | none =>
        match crash with
        | none => (some (.value (.expr (V.simplify e))),
            Function.update d (V.hash p) (some (V.dump (.expr (V.simplify e)))))
        | some j => (none, Function.update d (V.hash p) (some ((V.dump (.expr (V.simplify e))).take j)))

/-- One call. -/
def Call.run : Call E → Disk β η → Option Nat → Option (Result E) × Disk β η
  | .clangFormat code opts, d, j => cachedFormat V d code opts j
  | .simplify e, d, j => cachedSimplify V d e j

/-- A history: calls with their crashes; the results in order. -/
def history : List (Call E × Option Nat) → Disk β η → List (Option (Result E)) × Disk β η
  | [], d => ([], d)
  | (c, j) :: l, d =>
    ((Call.run V c d j).1 :: (history l (Call.run V c d j).2).1, (history l (Call.run V c d j).2).2)

end
end Verif.Helpers
