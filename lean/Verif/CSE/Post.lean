import Verif.Sympy.Expr
import Verif.Py.Dict

/-!
# Model of `cse_postprocess` (nrpy/helpers/cse_preprocess_postprocess.py:275-496)

SymPy rebuilds an expression after a substitution and may simplify it while doing so.  That is the
parameter `canon : Expr → Expr`; the theorems hold for every `canon` that keeps values and introduces no
symbol.  `str` is SymPy's string form of an expression.
-/
namespace Verif.CSE
open Verif.Py Verif.Sympy Verif.Sympy.Expr

abbrev Repl := Str × Expr

inductive Err
  | assertion
  | indexError
  deriving DecidableEq, Repr

/-- An element of the reduced list: an expression or a `sp.Equality` whose left side is a symbol. -/
inductive Out
  | ex (e : Expr)
  | eq (lhs : Str) (rhs : Expr)
  deriving DecidableEq

section
variable (canon : Expr → Expr) (str : Expr → Str)

/-- `e.xreplace({x: v})` and `e.subs(x, v)`: nothing happens when `x` does not occur. -/
def xrep (x : Str) (v e : Expr) : Expr := if x ∈ e.free then canon (subst x v e) else e

/-- Equalities are appended to the replacements (lines 342-351). -/
def moveEqs (replaced : List Repl) (reduced : List Out) : List Repl × List Expr :=
  reduced.foldl (fun st o => match o with
    | .eq l r => (st.1 ++ [(l, r)], st.2)
    | .ex e => (st.1, st.2 ++ [e])) (replaced, [])

/-- Substitute one constant everywhere and drop its definition (lines 363-372). -/
def elimConst (st : List Repl × List Expr) (c : Repl) : List Repl × List Expr :=
  ((st.1.filter fun p => p.1 ≠ c.1).map fun p => (p.1, xrep canon c.1 c.2 p.2),
   st.2.map (xrep canon c.1 c.2))

/-- Replacements without free symbols (lines 355-359). -/
def constants (replaced : List Repl) : List Repl := replaced.filter fun p => p.2.free.isEmpty

/-- The `while True` loop (lines 354-372); `fuel` bounds the number of iterations. -/
def constLoop : Nat → List Repl × List Expr → List Repl × List Expr
  | 0, st => st
  | fuel + 1, st =>
    if (constants st.1).isEmpty then st
    else constLoop fuel ((constants st.1).foldl (elimConst canon) st)

/-- The sorting loop (lines 383-402).  `lookup` is the dictionary of not yet emitted replacements. -/
def sortLoop : Nat → Dict Str Repl → List Repl → Except Err (List Repl)
  | 0, _, acc => .ok acc
  | fuel + 1, lookup, acc =>
    if lookup.isEmpty then .ok acc
    else
      let waits : Str × Repl → Bool := fun kv => kv.2.2.free.any fun n => lookup.contains n
      let new := lookup.filter waits
      let done := (lookup.filter fun kv => !waits kv).map (·.2)
      if new.length < lookup.length then sortLoop fuel new (acc ++ done) else .error .assertion

/-- Sorting (lines 374-405). -/
def sortRepl (replaced : List Repl) : Except Err (List Repl) :=
  let lookup : Dict Str Repl := replaced.foldl (fun d p => d.set p.1 p) []
  match sortLoop (replaced.length + 1) lookup [] with
  | .error e => .error e
  | .ok r => if replaced.length = r.length then .ok r else .error .assertion

/-- Two-factor product with a symbol and minus one (lines 414-422). -/
def isNeg : Expr → Bool
  | .app .mul [a, b] =>
    let neg (x y : Expr) : Bool := (match x with | .sym _ => true | _ => false) &&
      (decide (y = .num (-1)) || containsSub (c% "_NegativeOne_") (str y))
    neg a b || neg b a
  | _ => false

/-- `arg.func == sp.Symbol or arg.is_Integer or arg.is_Rational`. -/
def isAtom : Expr → Bool
  | .sym _ => true
  | .num _ => true
  | .app .. => false

/-- Sum or product of at most two atoms, or square of a symbol (lines 437-446). -/
def isSimple : Expr → Bool
  | .app .add l => decide (0 < l.length) && decide (l.length ≤ 2) && l.all isAtom
  | .app .mul l => decide (0 < l.length) && decide (l.length ≤ 2) && l.all isAtom
  | .app .pow [.sym _, .num q] => decide (q = 2)
  | _ => false

/-- Substitute in the replacements after position `i`. -/
def subAfter (i : Nat) (x : Str) (v : Expr) (replaced : List Repl) : List Repl :=
  replaced.take (i + 1) ++ (replaced.drop (i + 1)).map fun p => (p.1, xrep canon x v p.2)

/-- Occurrences of `x` in the replacements from `i` on and in the reduced expressions, the latter being
counted only while the count is at most two (lines 447-461). -/
def symCount (i : Nat) (x : Str) (replaced : List Repl) (reduced : List Expr) : Nat :=
  reduced.foldl (fun n e => if n ≤ 2 then n + e.free.count x else n)
    (((replaced.drop i).map fun p => p.2.free.count x).sum)

/-- One iteration of the back-substitution loop (lines 409-473). -/
def backStep (replaced : List Repl) (reduced : List Expr) (i : Nat) :
    Except Err (List Repl × List Expr × Nat) :=
  match replaced[i]? with
  | none => .error .indexError
  | some (x, v) =>
    let (replaced, reduced, i) :=
      if isNeg str v then
        ((subAfter canon i x v replaced).eraseIdx i, reduced.map (xrep canon x v), i - 1)
      else (replaced, reduced, i)
    if isSimple v then
      let n := symCount i x replaced reduced
      if 0 < n ∧ n ≤ 2 then
        if i < replaced.length then
          .ok ((subAfter canon i x v replaced).eraseIdx i, reduced.map (xrep canon x v), i)
        else .error .indexError
      else .ok (replaced, reduced, i + 1)
    else .ok (replaced, reduced, i + 1)

/-- The back-substitution loop (lines 407-473). -/
def backLoop : Nat → List Repl → List Expr → Nat → Except Err (List Repl × List Expr)
  | 0, replaced, reduced, _ => .ok (replaced, reduced)
  | fuel + 1, replaced, reduced, i =>
    if i < replaced.length then
      match backStep canon str replaced reduced i with
      | .error e => .error e
      | .ok (r, o, j) => backLoop fuel r o j
    else .ok (replaced, reduced)

end

/-- The loop over `reversed(replaced)` (lines 486-490). -/
def prune : List Str → List Repl → List Repl
  | _, [] => []
  | used, p :: l => if p.1 ∈ used then p :: prune (used ++ p.2.free) l else prune used l

/-- `cse_postprocess` (lines 275-496). -/
def postprocess (canon : Expr → Expr) (str : Expr → Str) (replaced : List Repl) (reduced : List Out) :
    Except Err (List Repl × List Expr) :=
  let st := moveEqs replaced reduced
  let st := constLoop canon st.1.length st
  match sortRepl st.1 with
  | .error e => .error e
  | .ok r => match backLoop canon str r.length r st.2 0 with
    | .error e => .error e
    | .ok (r, o) => .ok ((prune (o.flatMap free) r.reverse).reverse, o)

end Verif.CSE
