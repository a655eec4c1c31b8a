import Verif.Py.Str

/-!
# Model of nrpy/helpers/loop.py, and execution of the generated loops

Simplifications: the arguments of `loop` are lists of strings (loop.py:116-126 wraps a single string into a
list, and the empty tile size into the empty list); the checks that arguments are strings are omitted.
-/
namespace Verif.Loop
open Verif.Py

inductive Err
  | valueError
  | indexError
  deriving DecidableEq, Repr

/-- The arguments of one call of `loop1D` (loop.py:16-22). -/
structure For where
  var : Str
  lo : Str
  hi : Str
  inc : Str
  pragma : Str
  deriving DecidableEq, Repr

/-- The `for (...)` line of `loop1D` (loop.py:58-62). -/
def forLine (f : For) : Str :=
  (c% "for (int ") ++ f.var ++ (c% " = ") ++ f.lo ++ (c% "; ") ++ f.var ++ (c% " < ") ++ f.hi ++ (c% "; ") ++ f.var ++
    (if f.inc ≠ (c% "1") then (c% " += ") ++ f.inc else (c% "++")) ++ (c% ")")

/-- Header returned by `loop1D` (loop.py:58-64). -/
def header (f : For) : Str :=
  (if f.pragma ≠ [] then f.pragma ++ (c% "\n") else []) ++ forLine f ++ (c% " {\n")

/-- Footer returned by `loop1D` (loop.py:63). (`header.strip()` changes nothing: the line starts with `for`
and ends with a parenthesis.) -/
def footer (f : For) : Str := (c% "} // END LOOP: ") ++ forLine f ++ (c% "\n")

/-- `xs[i]` with IndexError. -/
def item {α : Type} (xs : List α) (i : Nat) : Except Err α :=
  match xs[i]? with
  | some x => .ok x
  | none => .error .indexError

/-- One turn of the loop over the index variables (loop.py:135-162): `headers` (and, in parallel,
`footers`) as lists of `loop1D` calls. -/
def turn (lo hi inc pragma tile : List Str) (hs : List For) (i : Nat) (var : Str) :
    Except Err (List For) := do
  if tile ≠ [] then
    let ext : For := ⟨var ++ (c% "B"), ← item lo i, ← item hi i, ← item tile i, []⟩
    let f : For := ⟨var, var ++ (c% "B"),
      (c% "MIN(") ++ (← item hi i) ++ (c% ", ") ++ var ++ (c% "B + ") ++ (← item tile i) ++ (c% ")"),
      ← item inc i, ← item pragma i⟩
    return hs.insertIdx i ext ++ [f]
  else
    return hs ++ [⟨var, ← item lo i, ← item hi i, ← item inc i, ← item pragma i⟩]

def turns (lo hi inc pragma tile : List Str) : List Str → Nat → List For → Except Err (List For)
  | [], _, hs => .ok hs
  | v :: vs, i, hs => do turns lo hi inc pragma tile vs (i + 1) (← turn lo hi inc pragma tile hs i v)

/-- The loops of the nest from the outermost to the innermost (loop.py:133-162). -/
def nest (var lo hi inc pragma tile : List Str) : Except Err (List For) :=
  if lo.length ≠ var.length ∨ hi.length ≠ var.length ∨ inc.length ≠ var.length ∨
      pragma.length ≠ var.length then .error .valueError
  else turns lo hi inc pragma tile var 0 []

/-- The body with a newline after every line (loop.py:164-166). -/
def bodyText (body : Str) : Str := if body = [] then [] else body ++ (c% "\n")

/-- The text of `loop` (loop.py:168-171): headers, body, footers in reverse order. -/
def loopText (var lo hi inc pragma tile : List Str) (body : Str) : Except Err Str := do
  let hs ← nest var lo hi inc pragma tile
  return (hs.map header).flatten ++ bodyText body ++ (hs.map footer).reverse.flatten

/-! ## Execution of a loop nest -/

/-- Values of the C variables. -/
abbrev Env := Str → Int

def upd (σ : Env) (x : Str) (v : Int) : Env := fun y => if y = x then v else σ y

/-- Meaning of C expressions. -/
abbrev Eval := Str → Env → Int

/-- Execution of `for (int x = lo; x < hi; x += inc) ...` nests.  `Run ev fs none σ tr`: the nest `fs`
started with the variables `σ` ends, and `tr` are the values of the variables at each execution of the body,
in order; `Run ev (f :: fs) (some x) σ tr`: the same for the rest of the loop `f` with its variable at `x`.
OpenMP pragmas are ignored (sequential execution). -/
inductive Run (ev : Eval) : List For → Option Int → Env → List Env → Prop
  | body (σ : Env) : Run ev [] none σ [σ]
  | start {f : For} {fs : List For} {σ : Env} {tr : List Env} :
      Run ev (f :: fs) (some (ev f.lo σ)) σ tr → Run ev (f :: fs) none σ tr
  | stop {f : For} {fs : List For} {σ : Env} {x : Int} :
      ¬ x < ev f.hi (upd σ f.var x) → Run ev (f :: fs) (some x) σ []
  | turn {f : For} {fs : List For} {σ : Env} {x : Int} {t1 t2 : List Env} :
      x < ev f.hi (upd σ f.var x) → Run ev fs none (upd σ f.var x) t1 →
      Run ev (f :: fs) (some (x + ev f.inc (upd σ f.var x))) σ t2 →
      Run ev (f :: fs) (some x) σ (t1 ++ t2)

end Verif.Loop
