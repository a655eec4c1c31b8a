import Verif.Py.Str
import Mathlib.Data.Fin.Tuple.Basic
import Mathlib.Algebra.Ring.Defs
import Mathlib.Data.Int.Cast.Basic
import Mathlib.Data.Fintype.Pi

/-!
# Symmetrization (`nrpy/indexedexp.py`, lines 260-430)

A tensor of rank `r` is a function from index tuples `Fin r → ℕ` to a ring of expressions. The three
functions of the code (ranks 2, 3 and 4) differ in the list of index pairs they accept, in the expansion
of symmetry strings with more than two indices, and in the schedule of passes; the inner loops are the
same for every pair, so they are modelled once with the pair as a parameter.
-/
namespace Verif.IndexedExp
open Verif.Py

variable {R : Type} [Ring R]

/-- A tensor of rank `r`: nested lists `indexedexp[i][j]...`. -/
abbrev Tensor (r : Nat) (R : Type) := (Fin r → Nat) → R

/-- Exchange of two index positions. -/
def swapPos {r : Nat} (p q : Fin r) (i : Fin r) : Fin r := if i = p then q else if i = q then p else i

/-- `func.product(range(dimension), repeat=r)`: all index tuples in lexicographic order
(indexedexp.py:281, 333, 395). -/
def tuples : (r : Nat) → (dim : Nat) → List (Fin r → Nat)
  | 0, _ => [Fin.elim0]
  | r + 1, dim => (List.range dim).flatMap fun i => (tuples r dim).map fun t => Fin.cons i t

/-- Assignment `indexedexp[i][j].. = v`. -/
def setEntry {r : Nat} (T : Tensor r R) (x : Fin r → Nat) (v : R) : Tensor r R :=
  fun y => if y = x then v else T y

/-- One iteration of the innermost loop for the pair `(p, q)` (indexedexp.py:282-287 for rank 2,
334-348 for rank 3, 396-425 for rank 4). -/
def passStep {r : Nat} (sign : Int) (p q : Fin r) (T : Tensor r R) (x : Fin r → Nat) : Tensor r R :=
  if x q < x p then setEntry T x ((sign : R) * T (x ∘ swapPos p q))
  else if x p = x q ∧ sign < 0 then setEntry T x 0
  else T

/-- One pass over all index tuples, in place. -/
def pass {r : Nat} (dim : Nat) (op : Int × Fin r × Fin r) (T : Tensor r R) : Tensor r R :=
  (tuples r dim).foldl (passStep op.1 op.2.1 op.2.2) T

/-- `sym[-2:]` compared with the pairs known to each rank (indexedexp.py:282; 334, 339, 344;
396, 401, 406, 411, 416, 421). -/
def pairOf (r : Nat) (s : Str) : Option (Fin r × Fin r) :=
  match r with
  | 2 => if s = (c% "01") then some (0, 1) else none
  | 3 => if s = (c% "01") then some (0, 1) else if s = (c% "02") then some (0, 2)
    else if s = (c% "12") then some (1, 2) else none
  | 4 => if s = (c% "01") then some (0, 1) else if s = (c% "02") then some (0, 2)
    else if s = (c% "03") then some (0, 3) else if s = (c% "12") then some (1, 2)
    else if s = (c% "13") then some (1, 3) else if s = (c% "23") then some (2, 3) else none
  | _ => none

/-- `sym[-2:]`. -/
def lastTwo (s : Str) : Str := s.drop (s.length - 2)

/-- What one element of the symmetry list asks for. -/
inductive Item (r : Nat)
  | op (o : Int × Fin r × Fin r)
  | nothing
  | bad
  deriving DecidableEq

/-- Sign and pair of an element of the symmetry list; `bad` stands for the `ValueError`
(indexedexp.py:280-291, 332-352, 394-429). -/
def itemOf (r : Nat) (sym : Str) : Item r :=
  let sign : Int := if sym.take 3 = (c% "sym") then 1 else -1
  match pairOf r (lastTwo sym) with
  | some (p, q) => .op (sign, p, q)
  | none => if sym = (c% "nosym") then .nothing else .bad

/-- Expansion of symmetries with three or four indices (indexedexp.py:320-328 for rank 3, 380-390 for
rank 4; rank 2 has none). -/
def expandSym (r : Nat) (sym : Str) : List Str :=
  let index := if sym.take 3 = (c% "sym") then 3 else 4
  let rest := sym.drop index
  let pre := sym.take index
  if (r = 3 ∨ r = 4) ∧ rest.length = 3 then
    [pre ++ rest.take 2, pre ++ (rest.drop 1).take 2]
  else if r = 4 ∧ rest.length = 4 then
    [pre ++ rest.take 2, pre ++ (rest.drop 1).take 2, pre ++ (rest.drop 2).take 2]
  else [sym]

/-- Order in which the elements of the list are applied: for rank 2 once each (indexedexp.py:279), for
ranks 3 and 4 `for n in range(len, 0, -1) for k in range(n)` (indexedexp.py:329-331, 391-393). -/
def schedule {α : Type} (r : Nat) (l : List α) : List α :=
  if r = 2 then l
  else (List.range l.length).flatMap fun d => l.take (l.length - d)

/-- The list of elements in the order in which the code processes them. -/
def symItems (r : Nat) (symmetry : Str) : List (Item r) :=
  (schedule r ((split1 '_' symmetry).flatMap (expandSym r))).map (itemOf r)

/-- Run the passes; an unsupported element raises as soon as the loop body is entered, which needs
`dimension > 0`. -/
def runItems {r : Nat} (dim : Nat) : List (Item r) → Tensor r R → Option (Tensor r R)
  | [], T => some T
  | .op o :: l, T => runItems dim l (pass dim o T)
  | .nothing :: l, T => runItems dim l T
  | .bad :: l, T => if dim = 0 then runItems dim l T else none

/-- `symmetrize_rank2`, `symmetrize_rank3`, `symmetrize_rank4` (indexedexp.py:260-430); `none` is
`ValueError`. -/
def symmetrize (r : Nat) (symmetry : Str) (dim : Nat) (T : Tensor r R) : Option (Tensor r R) :=
  runItems dim (symItems r symmetry) T

end Verif.IndexedExp
