import Verif.Py.Str
import Verif.Py.Num

/-!
# Declared tensor names and symmetry axes (`nrpy/indexedexp.py`, lines 29-101 and 474-612)
-/
namespace Verif.IndexedExp
open Verif.Py

/-- Nested Python lists of entries; an entry is `none` for `sp.sympify(0)` and `some name` for a symbol
(possibly with a leading minus sign after antisymmetrization). -/
inductive NT
  | leaf (e : Option Str)
  | node (l : List NT)

/-- Entry for a full index list (indexedexp.py:77-90): symbol name followed by the indices in decimal;
zero if no name is given. -/
def entry (symbol : Str) (idx : List Nat) : Option Str :=
  if symbol = [] then none else some (symbol ++ idx.flatMap dec)

/-- `create_tensor_symbolic` with numeric indices (indexedexp.py:29-101). Simplification: the
`character_zero_index` variant is not modelled, and a shape must have at least one axis. -/
def create : List Nat → Str → List Nat → NT
  | [], symbol, pre => .leaf (entry symbol pre)
  | n :: rest, symbol, pre => .node ((List.range n).map fun i => create rest symbol (pre ++ [i]))

/-- Python indexing `t[i][j]...`. -/
def NT.get : NT → List Nat → Option (Option Str)
  | .leaf e, [] => some e
  | .node l, i :: is => (l[i]?).bind fun t => NT.get t is
  | _, _ => none

/-- `get_rank` (indexedexp.py:474-500). -/
def NT.rank : NT → Nat
  | .leaf _ => 0
  | .node [] => 1
  | .node (t :: _) => 1 + NT.rank t

inductive ZErr
  | badRank
  | orderTooHigh
  deriving DecidableEq, Repr

/-- Search for the derivative order (indexedexp.py:549-560): every `_d` is inspected, the rest of the
string after it may not contain `DDD` and sets the order to 2 if it contains `DD`. -/
def derivOrder : Str → Nat → Except ZErr Nat
  | [], k => .ok k
  | c :: s, k =>
    if (c% "_d").isPrefixOf (c :: s) then
      let rest := (c :: s).drop 2
      if containsSub (c% "DDD") rest then .error .orderTooHigh
      else derivOrder s (if containsSub (c% "DD") rest then 2 else k)
    else derivOrder s k

/-- `performs_derivative_across_symmetry_axis` (indexedexp.py:548-567). The loop looks at the last
`deriv_order` characters. -/
def acrossAxis (axes : Str) (s : Str) : Except ZErr Bool :=
  if containsSub (c% "_d") s then
    match derivOrder s 1 with
    | .error e => .error e
    | .ok k => .ok ((s.reverse.take k).any (fun c => axes.contains c))
  else .ok false

/-- One entry: a zero entry prints as `0` and is never a derivative. -/
def zeroEntry (axes : Str) : Option Str → Except ZErr (Option Str)
  | none => .ok none
  | some s => match acrossAxis axes s with
    | .error e => .error e
    | .ok true => .ok none
    | .ok false => .ok (some s)

mutual
/-- The nested loops (indexedexp.py:569-612). Simplification: the code loops over `range(DIM)` on every
axis, with `DIM` the length of the innermost list, which covers all entries of the tensors built by
`create` with equal extents; the model visits all entries. -/
def zeroNT (axes : Str) : NT → Except ZErr NT
  | .leaf e => (zeroEntry axes e).map .leaf
  | .node l => (zeroList axes l).map .node
/-- See `zeroNT`. -/
def zeroList (axes : Str) : List NT → Except ZErr (List NT)
  | [] => .ok []
  | t :: l => match zeroNT axes t with
    | .error e => .error e
    | .ok t' => (zeroList axes l).map (t' :: ·)
end

/-- `zero_out_derivatives_across_symmetry_axes` (indexedexp.py:503-612). -/
def zeroOut (axes : Str) (t : NT) : Except ZErr NT :=
  if axes = [] then .ok t
  else if t.rank > 4 ∨ t.rank = 0 then .error .badRank
  else zeroNT axes t

end Verif.IndexedExp
