import Verif.Py.Str
import Verif.Py.Dict
import Mathlib.Logic.Function.Basic

/-!
# Model of parallel code generation (nrpy/helpers/parallel_codegen.py)

Workers are forked from the parent, so each starts with the parent's environment, and keeps what its own earlier tasks
did.  A schedule lists, in order of completion, which worker completes which task.  Simplifications: values stored in the
registries are opaque; `glb_extras_dict` has exactly two levels (its declared type is `Dict[str, Dict[str, Any]]` and
the leaves stored by NRPy are strings and lists); timing and logging are left out.
-/
namespace Verif.Helpers
open Verif.Py

/-- `NRPyEnv` (lines 43-72). -/
structure NEnv (V : Type) where
  params : Dict Str V
  codeParams : Dict Str V
  cfuncs : Dict Str V
  gridfcs : Dict Str V
  extras : Dict Str (Dict Str V)

variable {V : Type}

/-- `deep_update` (lines 75-94) on two levels. -/
def deepUpdate (d u : Dict Str (Dict Str V)) : Dict Str (Dict Str V) :=
  u.foldl (fun acc kv => acc.set kv.1 (((acc.get? kv.1).getD []).update kv.2)) d

/-- One round of `unpack_NRPy_environment_dict` (lines 105-110). -/
def unpackOne (E F : NEnv V) : NEnv V where
  params := E.params.update F.params
  codeParams := E.codeParams.update F.codeParams
  cfuncs := E.cfuncs.update F.cfuncs
  gridfcs := E.gridfcs.update F.gridfcs
  extras := deepUpdate E.extras F.extras

/-- `unpack_NRPy_environment_dict` (lines 97-110). -/
def unpackAll (E : NEnv V) (results : List (NEnv V)) : NEnv V := results.foldl unpackOne E

/-- `register_func_call` (lines 125-137); the arguments are given by `str(args)`.  `none`: `ValueError`. -/
def registerCall {α : Type} (d : Dict Str α) (name args : Str) (call : α) : Option (Dict Str α) :=
  if d.contains (name ++ args) then none else some (d.set (name ++ args) call)

/-- A registered task: what it does to the registries of the process it runs in; `none`: an exception. -/
abbrev Task (V : Type) := NEnv V → Option (NEnv V)

/-- `wrapper_func` (lines 202-232) in the pool: each worker has its own registries; results in order of completion.  An
exception in one task is raised by `pool.map`. -/
def runSchedule : List (Nat × Task V) → (Nat → NEnv V) → Option (List (NEnv V))
  | [], _ => some []
  | (w, t) :: l, W =>
    (t (W w)).bind fun E => (runSchedule l (Function.update W w E)).map (E :: ·)

/-- `do_parallel_codegen` (lines 235-254) in the given schedule; the environment is the one at the time of the fork. -/
def doParallel (enable : Bool) (E : NEnv V) (schedule : List (Nat × Task V)) : Option (NEnv V) :=
  if enable then (runSchedule schedule (fun _ => E)).map (unpackAll E) else some E

/-- The tasks run one after another in one process. -/
def runSequential : List (Task V) → NEnv V → Option (NEnv V)
  | [], E => some E
  | t :: l, E => (t E).bind (runSequential l)

end Verif.Helpers
