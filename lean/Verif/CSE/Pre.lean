import Verif.Sympy.Tree
import Verif.Py.Dict
import Verif.Py.Num

/-!
# Model of `cse_preprocess` (nrpy/helpers/cse_preprocess_postprocess.py:22-272)

`sp.collect` is the parameter `collect`: the theorems hold for every function that keeps values, introduces no
symbol and keeps the shape `Fine` of an expression.  Replacing nodes of an `ExprTree` during a preorder traversal and reconstructing
is written as a recursion over the expression (compare C28).  `isFun` says which function heads are instances of
`sp.Function`.  `fuel` bounds the depth to which function arguments are rebuilt; the theorems hold for every value.
Not modelled: `debug` (default off).
-/
namespace Verif.CSE
open Verif.Py Verif.Sympy Verif.Sympy.Expr

/-- Options of `cse_preprocess` (lines 28-32). -/
structure PreOpts where
  pre : Str
  declareNeg1 : Bool
  factor : Bool
  negative : Bool

inductive PreErr
  | indexError
  | typeError
  deriving DecidableEq, Repr

/-- `symbol_to_Rational_dict` and `map_rat_to_sym` (lines 101-102). -/
structure PreSt where
  tab : Dict Str ℚ
  map : Dict ℚ Str

/-- Name of the symbol for minus one (line 98). -/
def negName (pre : Str) : Str := pre ++ (c% "_NegativeOne_")

/-- Name of `_One_` (lines 212, 228). -/
def oneName (pre : Str) : Str := pre ++ (c% "_Integer_1")

/-- Name of the symbol for a rational (lines 131-141). -/
def ratName (pre : Str) (q : ℚ) : Str :=
  if q.den ≠ 1 then pre ++ (c% "_Rational_") ++ dec q.num.natAbs ++ (c% "_") ++ dec q.den
  else pre ++ (c% "_Integer_") ++ dec q.num.natAbs

/-- The symbol for a nonnegative rational; new ones are entered in both tables (lines 129-147). -/
def ratSym (pre : Str) (st : PreSt) (q : ℚ) : Str × PreSt :=
  match st.map.get? q with
  | some s => (s, st)
  | none => (ratName pre q, ⟨st.tab.set (ratName pre q) q, st.map.set q (ratName pre q)⟩)

/-- The symbol for minus one (lines 158-164). -/
def negSym (pre : Str) (st : PreSt) : Str × PreSt :=
  match st.map.get? (-1) with
  | some s => (s, st)
  | none => (negName pre, ⟨st.tab.set (negName pre) (-1), st.map.set (-1) (negName pre)⟩)

/-- Visiting a node that holds minus one (lines 155-164). -/
def visitNeg1 (o : PreOpts) (st : PreSt) : Expr × PreSt :=
  if o.declareNeg1 then (.sym (negSym o.pre st).1, (negSym o.pre st).2) else (.num (-1), st)

/-- Visiting a node that holds a number; `f` is the function of its parent (lines 114-164).  A negative number becomes a
product whose first factor is visited next (line 153). -/
def replNum (o : PreOpts) (f : Option Head) (q : ℚ) (st : PreSt) : Expr × PreSt :=
  if q = -1 then visitNeg1 o st
  else if f = some .pow then (.num q, st)
  else if 0 ≤ q then (.sym (ratSym o.pre st q).1, (ratSym o.pre st q).2)
  else
    let r := ratSym o.pre st (-q)
    let n := visitNeg1 o r.2
    (.app .mul [n.1, .sym r.1], n.2)

mutual
/-- The first traversal and reconstruction (lines 106-166). -/
def repl (o : PreOpts) (f : Option Head) : Expr → PreSt → Expr × PreSt
  | .sym n, st => (.sym n, st)
  | .num q, st => replNum o f q st
  | .app h l, st => (.app h (replList o h l st).1, (replList o h l st).2)
def replList (o : PreOpts) (h : Head) : List Expr → PreSt → List Expr × PreSt
  | [], st => ([], st)
  | e :: l, st =>
    ((repl o (some h) e st).1 :: (replList o h l (repl o (some h) e st).2).1,
      (replList o h l (repl o (some h) e st).2).2)
end

section
variable (collect : Expr → List Str → Expr) (isFun : Str → Bool)

/-- First argument of a function rewritten (lines 177-182, 201-204). -/
def firstArg (g : Expr → Expr) (h : Head) (l : List Expr) : Except PreErr (List Expr) :=
  match h with
  | .fn n =>
    if isFun n then
      match l with
      | [] => .error .indexError
      | a :: t => .ok (g a :: t)
    else .ok l
  | _ => .ok l

/-- Traversal that rewrites first arguments and continues below them (lines 176-185, 200-205). -/
def funArgs (g : Expr → Expr) : Nat → Expr → Except PreErr Expr
  | 0, e => .ok e
  | _ + 1, .sym n => .ok (.sym n)
  | _ + 1, .num q => .ok (.num q)
  | fuel + 1, .app h l => do
    let l1 ← firstArg isFun g h l
    let l2 ← l1.mapM (funArgs g fuel)
    return .app h l2

/-- Collecting the introduced symbols that occur, one at a time (lines 179-181). -/
def collectEach (vars : List Str) (e : Expr) : Expr :=
  vars.foldl (fun a v => if v ∈ a.free then collect a [v] else a) e

/-- Lines 168-196. -/
def doFactor (o : PreOpts) (fuel : Nat) (e : Expr) (st : PreSt) : Except PreErr Expr := do
  let vars := st.tab.keys.filter (· ≠ negName o.pre)
  let e ← funArgs isFun (collectEach collect vars) fuel e
  return collect e (vars.filter (· ∈ e.free))

/-- Lines 198-207. -/
def doNegative (o : PreOpts) (fuel : Nat) (e : Expr) : Except PreErr Expr := do
  let e ← funArgs isFun (fun a => collect a [negName o.pre]) fuel e
  return collect e [negName o.pre]

/-- The replacement for a power of the symbol for minus one (lines 216-220).  `sp.Integer(exponent)` truncates a
number and raises `TypeError` for anything else. -/
def powNeg (neg one : Str) : List Expr → Except PreErr Expr
  | [_, .num q] => .ok (.sym (if (q.num.tdiv q.den) % 2 = 0 then one else neg))
  | _ => .error .typeError

mutual
/-- Powers of the symbol for minus one (lines 209-224). -/
def simpNeg (neg one : Str) : Expr → Except PreErr Expr
  | .sym n => .ok (.sym n)
  | .num q => .ok (.num q)
  | .app h l =>
    if h = .pow ∧ l.head? = some (.sym neg) then powNeg neg one l
    else match simpNegList neg one l with
      | .ok l' => .ok (.app h l')
      | .error e => .error e
def simpNegList (neg one : Str) : List Expr → Except PreErr (List Expr)
  | [] => .ok []
  | e :: l => match simpNeg neg one e with
    | .ok e' => match simpNegList neg one l with
      | .ok l' => .ok (e' :: l')
      | .error x => .error x
    | .error x => .error x
end

mutual
/-- Remaining ones (lines 229-232). -/
def ones (one : Str) : Expr → Expr
  | .sym n => .sym n
  | .num q => if q = 1 then .sym one else .num q
  | .app h l => .app h (onesList one l)
def onesList (one : Str) : List Expr → List Expr
  | [] => []
  | e :: l => ones one e :: onesList one l
end

/-- Lines 226-241. -/
def doOnes (o : PreOpts) (e : Expr) (st : PreSt) : Expr × PreSt :=
  if ones (oneName o.pre) e ≠ e then
    (ones (oneName o.pre) e,
      if st.map.get? 1 = none then ⟨st.tab.set (oneName o.pre) 1, st.map.set 1 (oneName o.pre)⟩ else st)
  else (e, st)

/-- One expression (lines 105-269). -/
def preOne (o : PreOpts) (fuel : Nat) (e : Expr) (st : PreSt) : Except PreErr (Expr × PreSt) :=
  let r := repl o none e st
  (if o.factor then doFactor collect isFun o fuel r.1 r.2 else .ok r.1).bind fun e1 =>
  (if o.negative then doNegative collect isFun o fuel e1 else .ok e1).bind fun e2 =>
  (if o.declareNeg1 then simpNeg (negName o.pre) (oneName o.pre) e2 else .ok e2).bind fun e3 =>
  .ok (if o.factor || o.negative then doOnes o e3 r.2 else (e3, r.2))

/-- The loop over the expressions (lines 105-272). -/
def preLoop (o : PreOpts) (fuel : Nat) : List Expr → PreSt → Except PreErr (List Expr × PreSt)
  | [], st => .ok ([], st)
  | e :: l, st => do
    let r ← preOne collect isFun o fuel e st
    let s ← preLoop o fuel l r.2
    return (r.1 :: s.1, s.2)

/-- `cse_preprocess` (lines 22-272). -/
def preprocess (o : PreOpts) (fuel : Nat) (es : List Expr) : Except PreErr (List Expr × Dict Str ℚ) := do
  let r ← preLoop collect isFun o fuel es ⟨[], []⟩
  return (r.1, r.2.tab)

end

end Verif.CSE
