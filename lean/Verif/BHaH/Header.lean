import Verif.Thorn.Model
import Verif.GridData.Model

/-!
# `BHaH_defines.h` (`nrpy/infrastructures/BHaH/BHaH_defines_h.py`)

The texts that the function itself contributes are arguments of the model (the structs of parameters are modelled in `BHaH/Defaults.lean`); `clang_format`
is left out.
-/
namespace Verif.BHaH.Header
open Verif.Py

/-- `core_modules_list` (`BHaH_defines_h.py` 20-32). -/
def core : List Str :=
  [c% "general", c% "after_general", c% "nrpy.infrastructures.BHaH.diagnostics.progress_indicator", c% "commondata_struct", c% "params_struct",
   c% "finite_difference", c% "reference_metric", c% "nrpy.infrastructures.BHaH.CurviBoundaryConditions.CurviBoundaryConditions",
   c% "nrpy.infrastructures.BHaH.MoLtimestepping.MoL", c% "nrpy.infrastructures.BHaH.interpolation.interpolation", c% "grid"]

/-- `register_BHaH_defines` (`BHaH_defines_h.py` 92-112). -/
def register (d : Dict Str Str) (m t : Str) : Dict Str Str := match d.get? m with
  | none => d.set m t
  | some s => d.set m (s ++ t)

/-- `BHaH_defines_h.py` 389-405: the parts of the file in their order: module and text. -/
def sections (d : Dict Str Str) (suppl : List (Str × Str)) : List (Str × Str) :=
  core.filterMap (fun k => (d.get? k).map fun t => (k, t)) ++ (Thorn.sortedItems d).filter (fun kv => kv.1 ∉ core) ++ suppl

/-- `output_key` (`BHaH_defines_h.py` 372-382). -/
def outputKey (kv : Str × Str) : Str :=
  (c% "\n//********************************************\n// Basic definitions for module ") ++ kv.1 ++ (c% ":\n") ++ kv.2

/-- `BHaH_defines_h.py` 384-411: the file. -/
def file (d : Dict Str Str) (suppl : List (Str × Str)) (restr : Str) : Str :=
  replaceAll (c% "*restrict") restr ((c% "#ifndef __BHAH_DEFINES_H__\n#define __BHAH_DEFINES_H__\n") ++ (sections d suppl).flatMap outputKey ++ (c% "\n#endif\n"))

/-- The arguments, and the texts that depend on the state of other modules. -/
structure Args where
  general : Str
  params : Str
  common : Str
  /-- Macros of `finite_difference`, if that module is imported. -/
  fd : Option Str
  /-- `reference_metric` is imported; `enable_rfm_precompute`. -/
  rfm : Bool
  pre : Bool
  gridDefs : Str
  suppl : List (Str × Str)
  restr : Str

/-- `BHaH_defines_h.py` 50-73: the members registered by the function itself. -/
def calls (a : Args) : List GridData.Call :=
  ⟨c% "params", c% "params_struct params", c% "BHaH parameters, generated from NRPy+'s CodeParameters", false⟩ ::
  (if a.rfm then
    [⟨c% "reference_metric", c% "char CoordSystemname[100]", c% "the name of the CoordSystem (from reference_metric)", false⟩,
     ⟨c% "reference_metric", c% "char gridname[100]", c% "a user-defined alias for describing the grid", false⟩] ++
    (if a.pre then [⟨c% "reference_metric", c% "rfm_struct rfmstruct", c% "includes e.g., 1D arrays of reference metric quantities", false⟩] else [])
  else [])

/-- The calls in order; `false` if one raised a `ValueError`. -/
def registerAll (s : GridData.St) : List GridData.Call → GridData.St × Bool
  | [] => (s, true)
  | c :: l => if (GridData.register s c).2 then registerAll (GridData.register s c).1 l else ((GridData.register s c).1, false)

/-- `BHaH_defines_h.py` 75-89, without the constant comments. -/
def griddataStruct (t : GridData.Table) : Str :=
  (c% "\ntypedef struct __griddata__ {\n  REAL *restrict xx[3];\n") ++
  t.flatMap (fun ml => (c% "  // NRPy+ MODULE: ") ++ ml.1 ++ (c% "\n") ++
    ml.2.flatMap fun e => (c% "  ") ++ e.decl ++ (c% ";") ++ (if e.desc = [] then [] else (c% "// <- ") ++ e.desc) ++ (c% "\n")) ++
  (c% "} griddata_struct;\n")

/-- The dictionaries that last for the Python session. -/
structure State where
  defs : Dict Str Str
  gd : GridData.St

/-- `output_BHaH_defines_h` (`BHaH_defines_h.py` 115-418); `none` is a `ValueError`. -/
def output (s : State) (a : Args) : State × Option Str :=
  let d := register (register (register s.defs (c% "general") a.general) (c% "params_struct") a.params) (c% "commondata_struct") a.common
  let d := match a.fd with
    | none => d
    | some t => register d (c% "finite_difference") t
  match registerAll s.gd (calls a) with
  | (g, false) => (⟨d, g⟩, none)
  | (g, true) =>
    let d := register d (c% "grid") (a.gridDefs ++ griddataStruct g.griddata)
    (⟨d, g⟩, some (file d a.suppl a.restr))

end Verif.BHaH.Header
