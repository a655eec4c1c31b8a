import Verif.CSE.Pre
import Verif.CSE.Post

/-!
# Model of `c_codegen` without SIMD (nrpy/c_codegen.py:280-739)

The result is the list of C statements in the order of the emitted text.  Left out: comments, braces, `prestring` and
`poststring`, types and the text that `sp.ccode` prints for a right-hand side.  An output name stands for the object it
denotes, without a leading type (`double blah` is `blah`).  `enable_simd` is left out (C25 to C27 treat its steps), and
so are the options for gridfunctions, which are in `Verif.CodeGen.Kernel`.

What comes from SymPy is collected in `Lib`; the theorems hold for every `Lib` within stated laws.
-/
namespace Verif.CodeGen
open Verif.Py Verif.Sympy Verif.Sympy.Expr Verif.CSE

/-- The functions of SymPy that the code calls. -/
structure Lib where
  /-- `sp.cse(exprs, numbered_symbols(prefix + "tmp"), order)` -/
  cse : Str → List Out → List Repl × List Out
  /-- rebuilding after a substitution -/
  canon : Expr → Expr
  /-- `str` -/
  str : Expr → Str
  /-- `sp.collect` -/
  collect : Expr → List Str → Expr
  /-- which heads are instances of `sp.Function` -/
  isFun : Str → Bool
  /-- `list(expr.free_symbols)`: a set listed in some order -/
  order : Expr → List Str
  /-- depth to which `cse_preprocess` rebuilds -/
  fuel : Nat

/-- The options of `CCodeGen` (lines 61-92) that matter here.  `none` and `{}` are the same for the last three
(lines 171-179, 494, 508). -/
structure Opts where
  enable_cse : Bool := true
  cse_varprefix : Str := []
  enable_cse_preprocess : Bool := false
  SCALAR_TMP_varnames : List Str := []
  SCALAR_TMP_sympyexprs : List Str := []
  postproc_substitution_dict : Dict Str Str := []
  symbol_to_Rational_dict : Dict Str ℚ := []

inductive Err
  | valueError
  | typeError
  | indexError
  | assertion
  | pre (e : PreErr)
  deriving DecidableEq, Repr

/-- `apply_substitution_dict` (lines 709-739). -/
def applySubst (L : Lib) (d : Dict Str Str) (e : Expr) : Expr :=
  (L.order e).foldl (fun e s => match d.get? s with
    | some t => xrep L.canon s (.sym (s ++ t)) e
    | none => e) e

/-- The emitted statements: constants (lines 508-521), temporaries (lines 580-609), outputs (lines 612-646 or
473-484). -/
structure Prog where
  consts : Dict Str ℚ
  temps : List Repl
  outs : List Repl

/-- The statements in the order of the text (lines 688-696). -/
def Prog.code (p : Prog) : List Repl := p.consts.map (fun c => (c.1, .num c.2)) ++ p.temps ++ p.outs

/-- The loop that turns marked outputs into equations (lines 539-554); `idx` counts the outputs. -/
def mark (o : Opts) : Nat → List Expr → List Str → Except Err (List Out × List Str)
  | idx, e :: es, n :: ns =>
    if n ∈ o.SCALAR_TMP_varnames then
      match o.SCALAR_TMP_sympyexprs[idx]? with
      | none => .error .indexError
      | some s => match mark o (idx + 1) es ns with
        | .error x => .error x
        | .ok (l, r) => .ok (.eq s e :: l, r)
    else match mark o (idx + 1) es ns with
      | .error x => .error x
      | .ok (l, r) => .ok (.ex e :: l, n :: r)
  | _, _, _ => .ok ([], [])

/-- Lines 492-507. -/
def preStage (L : Lib) (o : Opts) (es : List Expr) : Except Err (List Expr × Dict Str ℚ) :=
  if o.enable_cse_preprocess = true ∧ o.symbol_to_Rational_dict = [] then
    match preprocess L.collect L.isFun ⟨o.cse_varprefix, false, o.enable_cse_preprocess, false⟩ L.fuel es with
    | .ok r => .ok r
    | .error e => .error (.pre e)
  else .ok (es, o.symbol_to_Rational_dict)

/-- The temporaries, with the item assignment of lines 594-597: the elements are tuples, so it raises `TypeError`. -/
def emitTemps (o : Opts) (r : List Repl) : Except Err (List Repl) :=
  if o.postproc_substitution_dict ≠ [] ∧ r ≠ [] then .error .typeError else .ok r

/-- Lines 632-635. -/
def emitOut (L : Lib) (o : Opts) (e : Expr) : Expr :=
  if o.postproc_substitution_dict ≠ [] then applySubst L o.postproc_substitution_dict e else e

/-- `c_codegen` (lines 280-699). -/
def cCodegen (L : Lib) (o : Opts) (es : List Expr) (outs : List Str) : Except Err Prog :=
  if outs.length ≠ es.length then .error .valueError
  else if o.enable_cse = false then .ok ⟨[], [], outs.zip (es.map (emitOut L o))⟩
  else match preStage L o es with
    | .error e => .error e
    | .ok (es', table) => match mark o 0 es' outs with
      | .error e => .error e
      | .ok (ins, names) =>
        match postprocess L.canon L.str (L.cse o.cse_varprefix ins).1 (L.cse o.cse_varprefix ins).2 with
        | .error .assertion => .error .assertion
        | .error .indexError => .error .indexError
        | .ok (r, res) => match emitTemps o r with
          | .error e => .error e
          | .ok temps => .ok ⟨table, temps, names.zip (res.map (emitOut L o))⟩

end Verif.CodeGen
