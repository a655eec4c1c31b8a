import Verif.Sympy.Expr
import Verif.Py.Dict

/-!
# Model of `expr_convert_to_simd_intrins` (nrpy/helpers/simd.py:152-786)

Each step of the function is a preorder loop over the nodes of an `ExprTree` followed by `reconstruct`.
In the loop a node's expression may be replaced and the tree below it rebuilt, and the loop then goes on
into the (new) children.  On expressions this is top-down rewriting: `topDown f` rewrites the root with
`f` and then, from left to right, the arguments of the result.  The table `symbol_to_Rational_dict` is
threaded through because step 1 may add to it.  The recursion of `topDown` is bounded by `fuel`; `none`
means that the fuel was too small.

`canon` stands for SymPy's automatic evaluation in the calls `Mul(*subargs)`, `Add(subexpr, *args)` and
`SqrtSIMD(a) * a * a` (everything else is built with `evaluate=False` or from undefined functions, which
SymPy leaves alone).

Simplifications: SymPy `Float` exponents (0.5, -1.5, ...) are not modelled; the `debug` option is not
modelled.
-/
namespace Verif.SIMD
open Verif.Py Verif.Sympy

/-- `symbol_to_Rational_dict`. -/
abbrev Table := Dict Str ℚ

/-! ## Tree traversal -/

/-- Left-to-right traversal of arguments with the table threaded through. -/
def mapS (g : Table → Expr → Option (Expr × Table)) : Table → List Expr → Option (List Expr × Table)
  | d, [] => some ([], d)
  | d, e :: l => match g d e with
    | none => none
    | some (e', d1) => match mapS g d1 l with
      | none => none
      | some (l', d2) => some (e' :: l', d2)

/-- `for subtree in tree.preorder(): ...; tree.reconstruct()` for the local rewriting `f`. -/
def topDown (f : Table → Expr → Expr × Table) : Nat → Table → Expr → Option (Expr × Table)
  | 0, _, _ => none
  | fuel + 1, d, e => match f d e with
    | (.app h l, d1) => match mapS (topDown f fuel) d1 l with
      | none => none
      | some (l', d2) => some (.app h l', d2)
    | (a, d1) => some (a, d1)

/-- A rewriting that does not touch the table. -/
def pureStep (g : Table → Expr → Expr) (d : Table) (e : Expr) : Expr × Table := (g d e, d)

/-! ## Building and recognising intrinsics -/

def fn1 (n : Str) (a : Expr) : Expr := .app (.fn n) [a]
def fn2 (n : Str) (a b : Expr) : Expr := .app (.fn n) [a, b]
def fn3 (n : Str) (a b c : Expr) : Expr := .app (.fn n) [a, b, c]

abbrev nAdd : Str := c% "AddSIMD"
abbrev nSub : Str := c% "SubSIMD"
abbrev nMul : Str := c% "MulSIMD"
abbrev nDiv : Str := c% "DivSIMD"
abbrev nFMA : Str := c% "FusedMulAddSIMD"
abbrev nFMS : Str := c% "FusedMulSubSIMD"
abbrev nNFMA : Str := c% "NegFusedMulAddSIMD"
abbrev nNFMS : Str := c% "NegFusedMulSubSIMD"
abbrev nSqrt : Str := c% "SqrtSIMD"
abbrev nCbrt : Str := c% "CbrtSIMD"
abbrev nPow : Str := c% "PowSIMD"

/-- `e.func == n` for a two-argument function: its arguments. -/
def as2 (n : Str) : Expr → Option (Expr × Expr)
  | .app (.fn m) [a, b] => if m = n then some (a, b) else none
  | _ => none

/-- `e.func == n` for a three-argument function: its arguments. -/
def as3 (n : Str) : Expr → Option (Expr × Expr × Expr)
  | .app (.fn m) [a, b, c] => if m = n then some (a, b, c) else none
  | _ => none

/-- `lookup_rational` (simd.py:325-333): the number an atom stands for. -/
def lookup (d : Table) : Expr → Option ℚ
  | .num q => some q
  | .sym s => d.get? s
  | .app .. => none

/-- `lookup_rational(e) == q`. -/
def isVal (d : Table) (q : ℚ) (e : Expr) : Bool := decide (lookup d e = some q)

/-! ## Step 1 -/

/-- Renaming of transcendental functions (simd.py:283-298). -/
def simdName : List (Str × Str) :=
  [((c% "Abs"), (c% "AbsSIMD")), ((c% "exp"), (c% "ExpSIMD")), ((c% "log"), (c% "LogSIMD")),
   ((c% "sin"), (c% "SinSIMD")), ((c% "cos"), (c% "CosSIMD")), ((c% "sign"), (c% "SignSIMD"))]

def step1a (_ : Table) : Expr → Expr
  | .app (.fn n) l => match simdName.find? (fun p => p.1 = n) with
    | some p => .app (.fn p.2) l
    | none => .app (.fn n) l
  | e => e

/-- `IntegerPowSIMD` for exponents from zero (simd.py:302-305, 320-323). -/
def intPowNat (a : Expr) : Nat → Expr
  | 0 => a
  | 1 => a
  | 2 => fn2 nMul a a
  | n + 1 => fn2 nMul (intPowNat a n) a

/-- `prefix + "_Integer_1"`. -/
def oneSym (pre : Str) : Str := pre ++ (c% "_Integer_1")

/-- `IntegerPowSIMD` (simd.py:300-323): `n = 0` returns the base. -/
def intPow (pre : Str) (a : Expr) (n : ℤ) : Expr :=
  if 0 ≤ n then intPowNat a n.toNat
  else if n = -1 then fn2 nDiv (.sym (oneSym pre)) a
  else fn2 nDiv (.sym (oneSym pre)) (intPowNat a (-n).toNat)

/-- Declaration of the constant one for negative exponents (simd.py:254, 307-311, 314-318): only if no
symbol of the table has the value one. -/
def declareOne (pre : Str) (n : ℤ) (d : Table) : Table :=
  if n < 0 then (if d.any fun kv => decide (kv.2 = 1) then d else d.set (oneSym pre) 1) else d

section
variable (canon : Expr → Expr) (pre : Str)

/-- Powers (simd.py:335-361). -/
def step1b (d : Table) : Expr → Expr × Table
  | .app .pow [a, x] =>
    let one := Expr.sym (oneSym pre)
    match lookup d x with
    | some q =>
      if q = 1 / 2 then (fn1 nSqrt a, d)
      else if q = -(1 / 2) then (fn2 nDiv one (fn1 nSqrt a), d)
      else if q = -(3 / 2) then (fn2 nDiv one (canon (.app .mul [fn1 nSqrt a, a])), d)
      else if q = -(5 / 2) then (fn2 nDiv one (canon (.app .mul [fn1 nSqrt a, a, a])), d)
      else if q = 1 / 3 then (fn1 nCbrt a, d)
      else if q.den = 1 then (intPow pre a q.num, declareOne pre q.num d)
      else (fn2 nPow a x, d)
    | none => (fn2 nPow a x, d)
  | e => (e, d)

/-! ## Step 2 -/

/-- Is this a product with a factor minus one? -/
def isNegProd (d : Table) : Expr → Bool
  | .app .mul m => m.any (isVal d (-1))
  | _ => false

/-- Subtractions (simd.py:366-400). -/
def step2 (d : Table) : Expr → Expr
  | .app .add l =>
    match l.findIdx? (isNegProd d) with
    | none => .app .add l
    | some i => match l[i]? with
      | some (.app .mul m) =>
        match m.findIdx? (isVal d (-1)), l[if i = 0 then 1 else 0]? with
        | some j, some k =>
          let sub := fn2 nSub k (canon (.app .mul (m.eraseIdx j)))
          let rest := l.filter fun a => !(decide (a = .app .mul m) || decide (a = k))
          if 0 < rest.length then canon (.app .add (sub :: rest)) else sub
        | _, _ => .app .add l
      | _ => .app .add l
  | e => e

end

/-! ## Step 3 -/

/-- The loop over pairs (simd.py:415-420). -/
def pairUp (n : Str) : List Expr → Expr → Expr
  | a :: b :: l, s => pairUp n l (fn2 n (fn2 n a b) s)
  | [a], s => fn2 n a s
  | [], s => s

/-- `func(*args[-2:])` and the loop over the other arguments (simd.py:413-420). -/
def nest (n : Str) (l : List Expr) : Expr :=
  pairUp n (l.take (l.length - 2)) (.app (.fn n) (l.drop (l.length - 2)))

/-- Binary sums and products (simd.py:408-423). -/
def step3 (_ : Table) : Expr → Expr
  | .app .mul l => nest nMul l
  | .app .add l => nest nAdd l
  | e => e

/-! ## Step 4 -/

/-- Divisions (simd.py:426-445). -/
def step4 (d : Table) (e : Expr) : Expr :=
  match as2 nMul e with
  | none => e
  | some (x, y) =>
    match as2 nDiv x with
    | some (p, q) => if isVal d 1 p then fn2 nDiv y q else
      match as2 nDiv y with
      | some (p, q) => if isVal d 1 p then fn2 nDiv x q else e
      | none => e
    | none => match as2 nDiv y with
      | some (p, q) => if isVal d 1 p then fn2 nDiv x q else e
      | none => e

/-! ## Step 5 -/

/-- Sum of two products. -/
def asAddMulMul (e : Expr) : Option (Expr × Expr × Expr × Expr) :=
  match as2 nAdd e with
  | none => none
  | some (x, y) => match as2 nMul x, as2 nMul y with
    | some (b, c), some (p, q) => some (b, c, p, q)
    | _, _ => none

/-- Double FMA (simd.py:457-499). -/
def step5a (_ : Table) (e : Expr) : Expr :=
  match as2 nAdd e with
  | none => e
  | some (x, y) => match asAddMulMul y with
    | some (b, c, p, q) => fn3 nFMA b c (fn3 nFMA p q x)
    | none => match asAddMulMul x with
      | some (b, c, p, q) => fn3 nFMA b c (fn3 nFMA p q y)
      | none => e

/-- The four single-FMA rules (simd.py:502-520). -/
def singleFMA (e : Expr) : Expr :=
  match as2 nAdd e with
  | some (x, y) => match as2 nMul x with
    | some (b, c) => fn3 nFMA b c y
    | none => match as2 nMul y with
      | some (b, c) => fn3 nFMA b c x
      | none => e
  | none => match as2 nSub e with
    | some (x, y) => match as2 nMul x with
      | some (b, c) => fn3 nFMS b c y
      | none => match as2 nMul y with
        | some (b, c) => fn3 nNFMA b c x
        | none => e
    | none => e

/-- Single FMA and the rule for `FMS(-1, MulSIMD(a, b), c)` (simd.py:502-531). -/
def step5b (d : Table) (e : Expr) : Expr :=
  match as3 nFMS (singleFMA e) with
  | some (a, b, c) => match as2 nMul b with
    | some (p, q) => if isVal d (-1) a then fn3 nNFMS p q c else singleFMA e
    | none => singleFMA e
  | none => singleFMA e

/-- `f(b, c, MulSIMD(p, q))`. -/
def as3Mul (n : Str) (e : Expr) : Option (Expr × Expr × Expr × Expr) :=
  match as3 n e with
  | none => none
  | some (b, c, m) => match as2 nMul m with
    | some (p, q) => some (b, c, p, q)
    | none => none

/-- Remaining double FMA (simd.py:535-590). -/
def step5c (_ : Table) (e : Expr) : Expr :=
  match as2 nAdd e with
  | some (x, y) => match as3Mul nFMS y with
    | some (b, c, p, q) => fn3 nFMS b c (fn3 nFMS p q x)
    | none => e
  | none => match as2 nSub e with
    | some (x, y) => match as3Mul nFMA x with
      | some (b, c, p, q) => fn3 nFMA b c (fn3 nFMS p q y)
      | none => match as3Mul nFMS x with
        | some (b, c, p, q) => fn3 nFMS b c (fn3 nFMA p q y)
        | none => e
    | none => e

/-- The factor left after removing a factor minus one from a binary product, first factor tried first. -/
def dropNeg (d : Table) (e : Expr) : Option Expr :=
  match as2 nMul e with
  | none => none
  | some (p, q) => if isVal d (-1) p then some q else if isVal d (-1) q then some p else none

/-- Negated FMA (simd.py:593-628). -/
def step5d (d : Table) (e : Expr) : Expr :=
  match as3 nFMA e with
  | none => e
  | some (a, b, c) => match dropNeg d b with
    | some b' => fn3 nNFMA a b' c
    | none => match dropNeg d a with
      | some a' => fn3 nNFMA a' b c
      | none => e

/-- FMA with a factor minus one (simd.py:631-650). -/
def step5e (d : Table) (e : Expr) : Expr :=
  match as3 nFMA e with
  | some (a, b, c) =>
    if isVal d (-1) a then fn2 nSub c b
    else if isVal d (-1) b then fn2 nSub c a
    else e
  | none => match as3 nFMS e with
    | some (a, b, c) =>
      if isVal d (-1) b then fn2 nMul b (fn2 nAdd a c)
      else if isVal d (-1) a then fn2 nMul a (fn2 nAdd b c)
      else e
    | none => e

/-- Negated FMS (simd.py:653-710). -/
def step5f (d : Table) (e : Expr) : Expr :=
  match as3 nNFMA e with
  | some (a, b, c) => match dropNeg d c with
    | some c' => fn3 nNFMS a b c'
    | none => e
  | none => match as3 nFMS e with
    | some (a, b, c) => match dropNeg d b with
      | some b' => fn3 nNFMS a b' c
      | none => match as2 nMul b with
        | some (p, q) => match dropNeg d q with
          | some q' => fn3 nNFMS a (fn2 nMul p q') c
          | none => e
        | none => e
    | none => e

/-- Single FMA again, without the fourth rule (simd.py:713-728). -/
def step5g (_ : Table) (e : Expr) : Expr :=
  match as2 nAdd e with
  | some (x, y) => match as2 nMul x with
    | some (b, c) => fn3 nFMA b c y
    | none => match as2 nMul y with
      | some (b, c) => fn3 nFMA b c x
      | none => e
  | none => match as2 nSub e with
    | some (x, y) => match as2 nMul x with
      | some (b, c) => fn3 nFMS b c y
      | none => e
    | none => e

/-! ## The whole conversion -/

/-- The passes in order (simd.py:283-728). -/
def passes (canon : Expr → Expr) (pre : Str) (moreFMAs : Bool) : List (Table → Expr → Expr × Table) :=
  [pureStep step1a, step1b canon pre, pureStep (step2 canon), pureStep step3, pureStep step4] ++
  (if moreFMAs then [pureStep step5a] else []) ++ [pureStep step5b] ++
  (if moreFMAs then [pureStep step5c] else []) ++
  [pureStep step5d, pureStep step5e, pureStep step5f, pureStep step5g]

/-- One pass after the other. -/
def runPasses (fuel : Nat) : List (Table → Expr → Expr × Table) → Table → Expr → Option (Expr × Table)
  | [], d, e => some (e, d)
  | f :: fs, d, e => match topDown f fuel d e with
    | none => none
    | some (e', d') => runPasses fuel fs d' e'

/-- `remove_unused_NegativeOnes_from_symbol_to_Rational_dict` (simd.py:754-784). -/
def cleanNeg (pre : Str) (e : Expr) (d : Table) : Table :=
  if pre ++ (c% "_NegativeOne_") ∈ e.free then d
  else d.filter fun kv => kv.1 ≠ pre ++ (c% "_NegativeOne_")

/-- `expr_convert_to_simd_intrins` (simd.py:152-786) with a given `symbol_to_Rational_dict`. -/
def convert (canon : Expr → Expr) (pre : Str) (moreFMAs clean : Bool) (fuel : Nat) (d : Table)
    (e : Expr) : Option (Expr × Table) :=
  match runPasses fuel (passes canon pre moreFMAs) d e with
  | none => none
  | some (e', d') => some (e', if clean then cleanNeg pre e' d' else d')

/-- Conversion of a list of expressions one after the other with a shared table. -/
def convertList (canon : Expr → Expr) (pre : Str) (moreFMAs clean : Bool) (fuel : Nat) :
    Table → List Expr → Option (List Expr × Table) :=
  mapS (convert canon pre moreFMAs clean fuel)

/-- The SIMD branch of `c_codegen` after common subexpression elimination (nrpy/c_codegen.py:580-630):
the temporaries are converted first, then the outputs; `clean` is `simd_clean_NegativeOnes_after_processing`,
disabled if there is more than one output.  Returned are the right-hand sides of the temporaries, those
of the outputs, and the table from which the constants are declared (c_codegen.py:654-685). -/
def convertBlock (canon : Expr → Expr) (pre : Str) (moreFMAs clean : Bool) (fuel : Nat) (d : Table)
    (temps outs : List Expr) : Option (List Expr × List Expr × Table) :=
  match convertList canon pre moreFMAs false fuel d temps with
  | none => none
  | some (t, d1) =>
    match convertList canon pre moreFMAs (clean && decide (outs.length ≤ 1)) fuel d1 outs with
    | none => none
    | some (o, d2) => some (t, o, d2)

end Verif.SIMD
