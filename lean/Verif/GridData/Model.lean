import Verif.Py.Dict
import Verif.Py.Str

/-!
# Registration of griddata/commondata declarations
(`nrpy/infrastructures/BHaH/griddata_commondata.py`)
-/
namespace Verif.GridData
open Verif.Py

/-- `GridCommonData` (griddata_commondata.py:14-30). -/
structure Entry where
  modul : Str
  decl : Str
  desc : Str
  deriving DecidableEq, Repr

/-- `dictionary[module]` lists (griddata_commondata.py:56-58). -/
abbrev Table := Dict Str (List Entry)

/-- The two dictionaries inside `par.glb_extras_dict` (griddata_commondata.py:70-79). A dictionary that
has not been created yet is the same as an empty one for every reader. -/
structure St where
  griddata : Table
  commondata : Table
  deriving DecidableEq, Repr

/-- Arguments of `register_griddata_commondata` (griddata_commondata.py:33-35). -/
structure Call where
  modul : Str
  decl : Str
  desc : Str
  isCommon : Bool
  deriving DecidableEq, Repr

/-- `GridCommonData.__init__` (griddata_commondata.py:25-30). -/
def mkEntry (c : Call) : Option Entry :=
  if ';' ∈ c.decl then none else some ⟨c.modul, c.decl, c.desc⟩

/-- Inner function `register_griddata_or_commondata` (griddata_commondata.py:56-68);
`false` means that a `ValueError` was raised. -/
def registerIn (d : Table) (c : Call) : Table × Bool :=
  match d.get? c.modul with
  | some l =>
    if l.any (fun e => e.decl = c.decl) then (d, false)
    else match mkEntry c with
      | none => (d, false)
      | some e => (d.set c.modul (l ++ [e]), true)
  | none =>
    match mkEntry c with
    | none => (d, false)
    | some e => (d.set c.modul [e], true)

/-- `register_griddata_commondata` (griddata_commondata.py:33-79). -/
def register (s : St) (c : Call) : St × Bool :=
  if c.isCommon then
    let r := registerIn s.commondata c
    ({ s with commondata := r.1 }, r.2)
  else
    let r := registerIn s.griddata c
    ({ s with griddata := r.1 }, r.2)

/-- State after a history of calls. -/
def run (h : List Call) (s : St) : St := h.foldl (fun s c => (register s c).1) s

end Verif.GridData
