import Verif.Py.Str

/-!
# List helpers (`nrpy/helpers/generic.py`, lines 21-32; `nrpy/helpers/functional.py`, lines 47-156)
-/
namespace Verif.Helpers

/-- The comprehension of `superfast_uniq` (generic.py:21-32), with the set `seen` as a list. -/
def uniqFrom {α} [DecidableEq α] (seen : List α) : List α → List α
  | [] => []
  | x :: xs => if x ∈ seen then uniqFrom seen xs else x :: uniqFrom (x :: seen) xs

/-- `superfast_uniq` (generic.py:21-32). Simplification: elements compare by structural equality. -/
def superfastUniq {α} [DecidableEq α] (l : List α) : List α := uniqFrom [] l

/-- `uniquify` (functional.py:111-122): `reduce(lambda l, x: l if x in l else l + [x], iterable, [])`. -/
def uniquify {α} [DecidableEq α] (l : List α) : List α :=
  l.foldl (fun acc x => if x ∈ acc then acc else acc ++ [x]) []

/-- What Python's `iter` sees of a value: the items of an iterable, or `none` for a value that is not
iterable (an `int`, a sympy symbol). A one-character string is an iterable whose only item is itself. -/
class PyIter (α : Type) where
  items : α → Option (List α)

/-- `chain(x, y)` for one argument (functional.py:49-65): a value that is not iterable stands for itself. -/
def chainItem {α} [PyIter α] (x : α) : List α := (PyIter.items x).getD [x]

inductive ProdErr
  | stopIteration
  | typeError
  deriving DecidableEq, Repr

/-- The partial results of `reduce(f, iterable)` in `product`: before the first `f` they are the raw
elements of the first iterable, afterwards Python lists. -/
inductive Partial (α : Type)
  | raw (x : α)
  | list (l : List α)

/-- `flatten` of one partial result. -/
def Partial.flat {α} [PyIter α] : Partial α → List α
  | .raw x => chainItem x
  | .list l => l

/-- `tuple(prod)` (functional.py:155-156). -/
def Partial.toTuple {α} [PyIter α] : Partial α → Except ProdErr (List α)
  | .raw x => match PyIter.items x with
    | some l => .ok l
    | none => .error .typeError
  | .list l => .ok l

/-- The inner function `f` of `product` (functional.py:152-153). -/
def prodStep {α} [PyIter α] (A : List (Partial α)) (B : List α) : List (Partial α) :=
  A.flatMap fun x => B.map fun y => .list (x.flat ++ chainItem y)

/-- `product(*iterable, repeat=rep)` (functional.py:125-156), as the list of all yielded tuples. The
generator is modelled as exhausted by its caller. -/
def product {α} [PyIter α] (iterables : List (List α)) (rep : Option Nat) : Except ProdErr (List (List α)) :=
  let its := match rep, iterables with
    | some r, [a] => if 1 < r then List.replicate r a else [a]
    | _, l => l
  match its with
  | [] => .error .stopIteration
  | a :: rest => (rest.foldl prodStep (a.map .raw)).mapM Partial.toTuple

end Verif.Helpers
