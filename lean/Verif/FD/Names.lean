import Verif.Py.Num
import Verif.Helpers.Functional

/-!
# Names and memory reads of the finite-difference code generator
(`nrpy/finite_difference.py`, lines 333-836)
-/
namespace Verif.FD
open Verif.Py Verif.Helpers

inductive NameErr
  | emptyName
  | typeError
  | indexError
  | badMemStyle
  | noGridfunctions
  | bothKinds
  | badInt
  | badInfrastructure
  deriving DecidableEq, Repr

/-- One entry of `suffix_list` (finite_difference.py:477-482): nothing for a zero offset. -/
def offSuffix (k : Char) (o : Int) : List Str :=
  if o < 0 then ['i' :: k :: 'm' :: dec o.natAbs]
  else if 0 < o then ['i' :: k :: 'p' :: dec o.natAbs]
  else []

/-- `fd_temp_variable_name` (finite_difference.py:438-486). -/
def fdTempName (gf : Str) (i0 i1 i2 : Int) : Except NameErr Str :=
  if gf = [] then .error .emptyName
  else
    let suffixList := offSuffix '0' i0 ++ offSuffix '1' i1 ++ offSuffix '2' i2
    if suffixList = [] then .ok gf else .ok (gf ++ '_' :: joinWith '_' suffixList)

/-- `len(s) - len(s.rstrip("0123456789"))`. -/
def trailingDigits (s : Str) : Nat := (s.reverse.takeWhile Char.isDigit).length

/-- `s.rfind(c)`, `none` for -1. -/
def rfind (c : Char) (s : Str) : Option Nat :=
  let t := (s.reverse.takeWhile (· ≠ c)).length
  if t < s.length then some (s.length - 1 - t) else none

/-- `s[a:b]` for `0 <= a`, `0 <= b`. -/
def slice (s : Str) (a b : Nat) : Str := (s.take b).drop a

/-- One pass of `extract_base_gfs_and_deriv_ops_lists__from_list_of_deriv_vars`
(finite_difference.py:519-570): base gridfunction and derivative operator of a variable name. -/
def splitDeriv (s : Str) : Except NameErr (Str × Str) :=
  if s.count 'D' + s.count 'U' ≠ trailingDigits s then .error .typeError
  else
    match rfind '_' s with
    | some us =>
      let rank := ((s.take us).reverse.takeWhile (fun c => c = 'U' || c = 'D')).length
      let order := (s.drop (us + 1)).count 'D'
      .ok (s.take us ++ slice s (s.length - order - rank) (s.length - order),
           slice s (us + 1) (s.length - order - rank) ++ s.drop (s.length - order))
    | none =>
      -- `underscore_position` is -1: `varstr[:-1]` and `varstr[0:...]`, rank 0
      let order := s.count 'D'
      .ok (s.dropLast, s.take (s.length - order) ++ s.drop (s.length - order))

/-- The whole function (finite_difference.py:489-572). -/
def splitDerivs (vars : List Str) : Except NameErr (List Str × List Str) := do
  let l ← vars.mapM splitDeriv
  .ok (l.map (·.1), l.map (·.2))

inductive SymKind
  | gridfunction | cparameter | other
  deriving DecidableEq, Repr

/-- `symbol_is_gridfunction_Cparameter_or_other` (finite_difference.py:333-374): `gfs` are the keys of
the gridfunction registry, `cps` the names of the code parameters. -/
def symKind (gfs cps : List Str) (v : Str) : Except NameErr SymKind :=
  if v ∈ cps ∧ v ∈ gfs then .error .bothKinds
  else if v ∈ cps then .ok .cparameter
  else if v ∈ gfs then .ok .gridfunction
  else .ok .other

/-- `f"{coord[0]},{coord[1]},{coord[2]}"` (finite_difference.py:671). -/
def pointStr (coord : List Int) : Except NameErr Str :=
  match coord with
  | a :: b :: c :: _ => .ok (intStr a ++ ',' :: (intStr b ++ ',' :: intStr c))
  | _ => .error .indexError

/-- `map(int, point.split(","))` unpacked into three integers. -/
def parsePoint (s : Str) : Except NameErr (Int × Int × Int) :=
  match split1 ',' s with
  | [a, b, c] =>
    match parseInt a, parseInt b, parseInt c with
    | some x, some y, some z => .ok (x, y, z)
    | _, _, _ => .error .badInt
  | _ => .error .badInt

/-- `unique_idx` (finite_difference.py:703-728). -/
def uniqueIdx (style : Str) (p : Int × Int × Int) : Except NameErr Int :=
  if style = (c% "210") then .ok ((p.1 + 50) + 100 * ((p.2.1 + 50) + 100 * (p.2.2 + 50)))
  else if style = (c% "012") then .ok ((p.2.2 + 50) + 100 * ((p.2.1 + 50) + 100 * (p.1 + 50)))
  else .error .badMemStyle

/-- Insertion into a list sorted by key, after all entries with a smaller or equal key when inserting
from the left; `foldr` of it is a stable sort. -/
def insertKey {α} (x : Int × α) : List (Int × α) → List (Int × α)
  | [] => [x]
  | y :: l => if x.1 ≤ y.1 then x :: y :: l else y :: insertKey x l

/-- `sorted(l, key=itemgetter(0))`: Python's sort is stable. -/
def sortKey {α} (l : List (Int × α)) : List (Int × α) := l.foldr insertKey []

/-- Points for one gridfunction before de-duplication (finite_difference.py:662-691): stencil points of
the derivatives of `gf` in order, then `"0,0,0"` for every occurrence as a free symbol. The dictionary
of the source has one such list per registered gridfunction. -/
def pointsOf (gfs cps : List Str) (derivs : List (Str × List (List Int))) (free : List Str) (gf : Str) :
    Except NameErr (List Str) := do
  let a ← (derivs.filter (fun d => d.1 = gf)).mapM (fun d => d.2.mapM pointStr)
  let b ← free.mapM fun v => do
    let k ← symKind gfs cps v
    .ok (if k = .gridfunction ∧ v = gf then [(c% "0,0,0")] else [])
  .ok (a.flatten ++ b.flatten)

/-- `sort_memory_accesses` for one gridfunction (finite_difference.py:733-784). -/
def sortPoints (style : Str) (pts : List Str) : Except NameErr (List Str) := do
  let keyed ← pts.mapM fun s => do
    let p ← parsePoint s
    let k ← uniqueIdx style p
    .ok (k, s)
  .ok ((sortKey keyed).map (·.2))

/-- One generated read: `const <type> <var> = <array>[...gf at the offset...]`. -/
structure Read where
  var : Str
  gf : Str
  pt : Int × Int × Int
  deriving DecidableEq

/-- The reads generated for one gridfunction (finite_difference.py:820-834). -/
def readsOf (style : Str) (gf : Str) (pts : List Str) : Except NameErr (List Read) := do
  let sorted ← sortPoints style (superfastUniq pts)
  sorted.mapM fun s => do
    let p ← parsePoint s
    let v ← fdTempName gf p.1 p.2.1 p.2.2
    .ok ⟨v, gf, p⟩

/-- `read_gfs_from_memory` (finite_difference.py:575-836): the list of generated declarations, in
order. `gfs` are the registry keys in order of registration; `derivs` pairs each requested base
gridfunction with its stencil; `free` are the free symbols of the expressions. Simplifications: the C
type and the text of the memory access are left out (the access text is modelled in
`idxStr` below), and errors that would be raised by an earlier loop may be reported as another
error. A registered gridfunction's `name` is its registry key. -/
def readGfs (gfs cps : List Str) (style : Str) (derivs : List (Str × List (List Int))) (free : List Str) :
    Except NameErr (List Read) := do
  if gfs = [] then .error .noGridfunctions
  else
    let l ← (sortedStr gfs).mapM fun gf => do
      let pts ← pointsOf gfs cps derivs free gf
      readsOf style gf pts
    .ok l.flatten

/-- One offset of `BHaHGridFunction.read_gf_from_memory_Ccode_onept` and `access_gf`
(grid.py:352-354, 388-390): `f"i0+{o}".replace("+-", "-") if o != 0 else "i0"`. -/
def idxStr (k : Char) (o : Int) : Str :=
  if o ≠ 0 then replaceAll (c% "+-") (c% "-") ('i' :: k :: '+' :: intStr o) else ['i', k]

end Verif.FD
