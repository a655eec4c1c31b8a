import Verif.Py.Dict
import Verif.Py.Num
import Verif.IndexedExp.Symmetrize

/-!
# Gridfunction registry, indices and parity types (nrpy/grid.py)

Names are C identifiers, so only ASCII letters and digits matter for `str.lower`, `str.upper` and
`str.isdigit`.  Floating-point values (`f_infinity`, `wavespeed`) are carried as the text that
`str(value)` prints.  The arguments `gf_array_name`, `sync_gf_in_superB`, `centering` and `thorn` are
not modelled; they influence no other modelled quantity except that CarpetX checks `centering`
(assumed to be one of the eight valid three-letter strings).
-/
namespace Verif.Grid
open Verif.Py Verif.IndexedExp

inductive Err
  | valueError
  | indexError
  | keyError
  deriving DecidableEq, Repr

inductive Infra
  | bhah
  | etLegacy
  | carpetX
  | unknown
  deriving DecidableEq, Repr

/-- A gridfunction object (grid.py:57-83). -/
structure GF where
  name : Str
  group : Str
  rank : Nat
  dimension : Nat
  fInfinity : Str
  wavespeed : Str
  isBasename : Bool
  deriving DecidableEq, Repr

/-- `f_infinity` and `wavespeed` may be one value or a list with one value per name. -/
inductive FArg
  | one (v : Str)
  | many (l : List Str)
  deriving DecidableEq, Repr

/-- Keyword arguments of `register_gridfunctions`. -/
structure Kw where
  group : Str := c% "EVOL"
  rank : Nat := 0
  fInfinity : FArg := .one (c% "0.0")
  wavespeed : FArg := .one (c% "1.0")
  isBasename : Bool := true
  deriving DecidableEq, Repr

/-- `verify_gridfunction_basename_is_valid` (grid.py:107-140). -/
def basenameOk (name : Str) : Bool :=
  match name.getLast? with
  | none => false
  | some c => !c.isDigit

/-- Groups accepted by BHaH (grid.py:315-320). -/
def bhahGroups : List Str := [(c% "EVOL"), (c% "AUX"), (c% "AUXEVOL")]

/-- Groups accepted by CarpetX (grid.py:643-652). -/
def carpetXGroups : List Str :=
  bhahGroups ++ [(c% "EXTERNAL"), (c% "CORE"), (c% "TILE_TMP"), (c% "SCALAR_TMP")]

/-- `group_suffixes` (grid.py:611-618). -/
def carpetXSuffix (group : Str) : Str :=
  if group = (c% "EXTERNAL") then c% "_ext"
  else if group = (c% "CORE") then c% "_core"
  else if group = (c% "TILE_TMP") then c% "_tile_tmp"
  else []

/-- The three constructors (grid.py:267-296, 458-479, 583-626).  ETLegacy never calls its own group
check. -/
def mkGF (infra : Infra) (name group : Str) (rank dimension : Nat) (fInf speed : Str)
    (isBasename : Bool) : Except Err GF :=
  if isBasename && !basenameOk name then .error .valueError
  else match infra with
  | .bhah => if group ∈ bhahGroups then
      .ok ⟨name, group, rank, dimension, fInf, speed, isBasename⟩ else .error .valueError
  | .etLegacy => .ok ⟨name, group, rank, dimension, fInf, speed, isBasename⟩
  | .carpetX => if group ∈ carpetXGroups then
      .ok ⟨name ++ carpetXSuffix group, group, rank, dimension, fInf, speed, isBasename⟩
      else .error .valueError
  | .unknown => .error .valueError

/-- `glb_gridfcs_dict` (grid.py:778-781). -/
abbrev Registry := Dict Str GF

/-- `kwargs_modify[param]` for the `i`-th name (grid.py:843-847): an empty list is falsy and is passed
on as it is. -/
def FArg.at (a : FArg) (i : Nat) : Except Err Str :=
  match a with
  | .one v => .ok v
  | .many [] => .ok (c% "[]")
  | .many l => match l[i]? with
    | some v => .ok v
    | none => .error .indexError

/-- The object built for the `i`-th name of a call (grid.py:842-855). -/
def build (infra : Infra) (dim : Nat) (kw : Kw) (i : Nat) (name : Str) : Except Err GF :=
  match kw.fInfinity.at i with
  | .error e => .error e
  | .ok f => match kw.wavespeed.at i with
    | .error e => .error e
    | .ok w => mkGF infra name kw.group kw.rank dim f w kw.isBasename

/-- The loop of `register_gridfunctions` (grid.py:838-858) from position `i` on. -/
def regFrom (infra : Infra) (dim : Nat) (kw : Kw) : Nat → List Str → Registry →
    Registry × Except Err Unit
  | _, [], d => (d, .ok ())
  | i, name :: l, d =>
    if d.contains name then regFrom infra dim kw (i + 1) l d
    else match build infra dim kw i name with
      | .error e => (d, .error e)
      | .ok gf => regFrom infra dim kw (i + 1) l (d.set name gf)

/-- `register_gridfunctions` (grid.py:788-861).  The returned symbols carry the given names. -/
def register (infra : Infra) (d : Registry) (names : List Str) (dim : Nat) (kw : Kw) :
    Registry × Except Err (List Str) :=
  match regFrom infra dim kw 0 names d with
  | (d', .ok ()) => (d', .ok names)
  | (d', .error e) => (d', .error e)

/-! ## Tensors -/

section
variable {R : Type} (str : R → Str)

/-- `register_gridfunctions_for_single_rank1` (grid.py:864-902) for the declared tensor `T`: the loop
is `range(3)` for every dimension. -/
def registerRank1 (infra : Infra) (d : Registry) (dim : Nat) (T : Tensor 1 R) (kw : Kw) :
    Registry × Except Err (Tensor 1 R) :=
  if dim < 3 then (d, .error .indexError)
  else
    let names := (List.range 3).map fun i : Nat => str (T fun _ => i)
    match register infra d names dim { kw with isBasename := false, rank := 1 } with
    | (d', .ok _) => (d', .ok T)
    | (d', .error e) => (d', .error e)

/-- The double loop of `register_gridfunctions_for_single_rank2` (grid.py:937-945): strings in order
of first occurrence. -/
def firstOccurrences : List Str → List Str → List Str
  | [], acc => acc
  | s :: l, acc => firstOccurrences l (if s ∈ acc then acc else acc ++ [s])

/-- `register_gridfunctions_for_single_rank2` (grid.py:905-954) for the declared tensor `T`. -/
def registerRank2 (infra : Infra) (d : Registry) (dim : Nat) (T : Tensor 2 R) (kw : Kw) :
    Registry × Except Err (Tensor 2 R) :=
  let names := firstOccurrences ((tuples 2 dim).map fun x => str (T x)) []
  match register infra d names dim { kw with isBasename := false, rank := 2 } with
  | (d', .ok _) => (d', .ok T)
  | (d', .error e) => (d', .error e)

/-- `register_gridfunctions_for_single_rankN` (grid.py:957-1073) for the declared tensor `T`.
`setOrder` is the order in which Python enumerates `set(...)`, which is unspecified. -/
def registerRankN (setOrder : List Str → List Str) (infra : Infra) (d : Registry) (dim r : Nat)
    (T : Tensor r R) (kw : Kw) : Registry × Except Err (Tensor r R) :=
  if r = 0 ∨ 4 < r then (d, .error .valueError)
  else
    let names := setOrder ((tuples r dim).map fun x => str (T x))
    match register infra d names dim { kw with isBasename := false, rank := r } with
    | (d', .ok _) => (d', .ok T)
    | (d', .error e) => (d', .error e)

end

/-! ## Indices -/

/-- `str.lower` and `str.upper` on identifiers. -/
def lower (s : Str) : Str := s.map Char.toLower
def upper (s : Str) : Str := s.map Char.toUpper

/-- Insertion step of `sorted(l, key=lambda x: x.lower())`. -/
def insertLower (x : Str) : List Str → List Str
  | [] => [x]
  | y :: l => if strLe (lower x) (lower y) then x :: y :: l else y :: insertLower x l

/-- `sorted(l, key=lambda x: x.lower())` (grid.py:178); stable. -/
def sortLower (l : List Str) : List Str := l.foldr insertLower []

/-- One of the lists returned by `gridfunction_lists` (grid.py:142-181). -/
def groupList (d : Registry) (group : Str) : List Str :=
  sortLower ((d.filter fun kv => kv.2.group = group).map fun kv => kv.2.name)

/-- `define_gfs` (grid.py:410-422): the `#define`s in order. -/
def defineGfs (group : Str) (gfs : List Str) : List (Str × Nat) :=
  ((c% "NUM_") ++ upper group ++ (c% "_GFS"), gfs.length) ::
    gfs.zipIdx.map fun p => (upper p.1 ++ (c% "GF"), p.2)

/-- All `#define`s emitted by `gridfunction_defines` (grid.py:394-452). -/
def defines (d : Registry) : List (Str × Nat) :=
  defineGfs (c% "EVOL") (groupList d (c% "EVOL")) ++
  defineGfs (c% "AUX") (groupList d (c% "AUX")) ++
  defineGfs (c% "AUXEVOL") (groupList d (c% "AUXEVOL"))

/-- The arrays `gridfunctions_f_infinity` and `gridfunctions_wavespeed` (grid.py:432-447). -/
def evolArrays (d : Registry) : Except Err (List Str × List Str) := do
  let gfs ← (groupList d (c% "EVOL")).mapM fun v => match d.get? v with
    | some gf => Except.ok gf
    | none => Except.error Err.keyError
  return (gfs.map (·.fInfinity), gfs.map (·.wavespeed))

/-! ## Parity types -/

/-- `parity_conditions` for dimension 3 (grid.py:212-223). -/
def parity3 : List ((Char × Char) × Nat) :=
  [(('0', '0'), 4), (('0', '1'), 5), (('1', '0'), 5), (('0', '2'), 6), (('2', '0'), 6),
   (('1', '1'), 7), (('1', '2'), 8), (('2', '1'), 8), (('2', '2'), 9)]

/-- `parity_conditions` for dimension 4 (grid.py:224-245). -/
def parity4 : List ((Char × Char) × Nat) :=
  [(('0', '0'), 0), (('0', '1'), 1), (('1', '0'), 1), (('0', '2'), 2), (('2', '0'), 2),
   (('0', '3'), 3), (('3', '0'), 3), (('1', '1'), 4), (('1', '2'), 5), (('2', '1'), 5),
   (('1', '3'), 6), (('3', '1'), 6), (('2', '2'), 7), (('2', '3'), 8), (('3', '2'), 8),
   (('3', '3'), 9)]

/-- Parity type of one gridfunction (grid.py:202-255).  Reading `name[-1]` or `name[-2]` of a name that
is too short is an `IndexError`; `int(name[-1])` of a non-digit is a `ValueError`. -/
def parityOf (gf : GF) : Except Err Nat :=
  if gf.rank = 0 then .ok 0
  else if gf.rank = 1 then
    match gf.name.getLast? with
    | none => .error .indexError
    | some c => if c.isDigit then .ok (c.toNat - 48 + 1) else .error .valueError
  else if gf.rank = 2 then
    match gf.name.reverse with
    | c1 :: c0 :: _ =>
      let table := if gf.dimension = 3 then parity3 else if gf.dimension = 4 then parity4 else []
      match table.find? (fun kv => kv.1 = (c0, c1)) with
      | some kv => .ok kv.2
      | none => .error .valueError
    | _ => .error .indexError
  else .error .valueError

/-- `set_parity_types` (grid.py:183-261). -/
def setParityTypes (d : Registry) (names : List Str) : Except Err (List Nat) := do
  let ps ← (names.flatMap fun n => (d.filter fun kv => kv.2.name = n).map (·.2)).mapM parityOf
  if ps.length ≠ names.length then .error .valueError else return ps

/-- `REAL_parity_array` from the dot products `e i` of the unit vectors at the two points
(CurviBoundaryConditions.py:56-77). -/
def parityArray {K : Type} [One K] [Mul K] (e : Nat → K) : List K :=
  [1, e 0, e 1, e 2] ++
  (List.range 3).flatMap fun i => (List.range (3 - i)).map fun j => e i * e (i + j)

end Verif.Grid
