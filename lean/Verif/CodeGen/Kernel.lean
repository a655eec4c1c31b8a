import Verif.CodeGen.Model
import Verif.FD.Pipeline

/-!
# Model of `c_codegen` with gridfunctions and finite differences
(`nrpy/c_codegen.py`, lines 360, 389-446 and 863-1185; `nrpy/finite_difference.py`, lines 947-1094)

The kernel has up to five parts: reads from memory, finite-difference expressions (common subexpressions eliminated),
the upwind switches, the upwinded derivatives, and the user's expressions.  `enable_simd` and `enable_fd_functions` are
left out.  `Verif.FD.Pipeline` models the same statements without common subexpression elimination; the parts that do
not concern expressions are taken from there.
-/
namespace Verif.CodeGen
open Verif.Py Verif.Sympy Verif.Sympy.Expr Verif.CSE Verif.FD Verif.Helpers

inductive KErr
  | gen (e : GenErr)
  | code (e : Err)
  | indexError
  | valueError

def liftGen {α} : Except GenErr α → Except KErr α
  | .ok a => .ok a
  | .error e => .error (.gen e)

def liftCode {α} : Except Err α → Except KErr α
  | .ok a => .ok a
  | .error e => .error (.code e)

mutual
/-- All symbols renamed at the same time: `expr.xreplace(replace_dict)` for a dictionary of symbols (c_codegen.py:924). -/
def mapSym (f : Str → Str) : Expr → Expr
  | .sym n => .sym (f n)
  | .num q => .num q
  | .app h l => .app h (mapSymList f l)
def mapSymList (f : Str → Str) : List Expr → List Expr
  | [] => []
  | e :: l => mapSym f e :: mapSymList f l
end

/-- `sum(fdcoeffs[j] * symbol[j]) * invdxx * ...` (finite_difference.py:1040-1064); `L.canon` stands for SymPy's
automatic evaluation. -/
def fdExpr (terms : List (ℚ × Str)) (facs : List Str) : Expr :=
  .app .mul (.app .add (terms.map fun t => .app .mul [.num t.1, .sym t.2]) :: facs.map .sym)

/-- The prefix of the first part (c_codegen.py:1023, finite_difference.py:1073). -/
def part1 : Str := c% "FDPart1"
/-- c_codegen.py:1131 -/
def part2 : Str := c% "FDPart2"
/-- c_codegen.py:1177 -/
def part3 : Str := c% "FDPart3"

/-- The prototype of an operator: the expression for the gridfunction `FDPROTO`, pre-processed, and its table of
constants (finite_difference.py:1012-1078). -/
noncomputable def protoFD (L : Lib) (order : Nat) (op : Str) : Except KErr (Expr × Dict Str ℚ) :=
  match fdStmt order ((c% "FDPROTO_") ++ op) (c% "FDPROTO") op with
  | .error e => .error (.gen e)
  | .ok (.fd _ terms facs) =>
    match preprocess L.collect L.isFun ⟨part1, false, true, false⟩ L.fuel [L.canon (fdExpr terms facs)] with
    | .ok ([e], T) => .ok (e, T)
    | .ok _ => .error .indexError
    | .error e => .error (.code (.pre e))
  | .ok _ => .error .indexError

/-- `FDPROTO` replaced by the gridfunction in all symbols (c_codegen.py:918-924). -/
def toGf (gf : Str) (n : Str) : Str := if containsSub (c% "FDPROTO") n then replaceAll (c% "FDPROTO") gf n else n

def instantiate (L : Lib) (gf : Str) (e : Expr) : Expr := L.canon (mapSym (toGf gf) e)

/-- The keys of the registry `FDFunctions_dict` after the prototypes are entered (finite_difference.py:1080-1087). -/
def regKeys (reg ops : List Str) : List Str := reg ++ ops.filter (· ∉ reg)

/-- The loop over the registry that collects the constants (finite_difference.py:1089-1093): entry number `i` of the
registry is matched with prototype number `i` of this call. -/
def regTable (reg ops : List Str) (dicts : List (Dict Str ℚ)) : Except KErr (Dict Str ℚ) :=
  (regKeys reg ops).zipIdx.foldlM (fun T p => match dicts[p.2]? with
    | some d => .ok (T.update d)
    | none => .error .indexError) []

/-- The left-hand side of a derivative (finite_difference.py:1026-1037, c_codegen.py:912-916). -/
def fdVar (op v : Str) : Str :=
  let proto := (c% "FDPROTO_") ++ op
  if containsSub (c% "_dupD") proto || containsSub (c% "_ddnD") proto then (c% "UpwindAlgInput") ++ v else v

/-- One derivative: its prototype is looked up and instantiated (c_codegen.py:904-925). -/
def fdEntry (L : Lib) (protos : List (Str × Expr × Dict Str ℚ)) (vbo : Str × Str × Str) : Except KErr Repl :=
  match protos.lookup vbo.2.2 with
  | some r => .ok (fdVar vbo.2.2 vbo.1, instantiate L vbo.2.1 r.1)
  | none => .error .valueError

/-- `UpwindControlVectorU{d} = upwind_control_vec[d]` (c_codegen.py:970-974). -/
def copyEntry (cs : List Str) (d : Nat) : Except KErr Repl :=
  match cs[d]? with
  | some s => .ok ((c% "UpwindControlVectorU") ++ dec d, Expr.sym s)
  | none => .error .indexError

/-- `sorted(zip(FDlhsvarnames, FDexprs))` (c_codegen.py:987-994). -/
def insertRepl (s : Repl) : List Repl → List Repl
  | [] => [s]
  | t :: l => if strLe s.1 t.1 then s :: t :: l else t :: insertRepl s l

def sortByName (l : List Repl) : List Repl := l.foldr insertRepl []

/-- `Upwind * (dup - ddn) + ddn` (c_codegen.py:1090-1115), where `none` stands for the number zero. -/
def blendExpr (u : Option Str) (up dn : Str) : Expr :=
  .app .add [.app .mul [(match u with | some s => .sym s | none => .num 0), .app .add [.sym up, .app .mul [.num (-1), .sym dn]]],
    .sym dn]

/-- The kernel: the five parts in order (c_codegen.py:1016-1185). -/
structure Kernel where
  reads : List Read
  fds : Prog
  algs : List (Str × Str)
  ups : Prog
  main : Prog

/-- Options of one part (c_codegen.py:1021-1032, 1122-1133, 1173-1179).  `golden` is `enable_GoldenKernels`, which turns
pre-processing on (lines 223-226).  The other options of the call do not reach the parts (lines 432-446). -/
def partOpts (pre : Str) (golden : Bool) (T : Dict Str ℚ) : Opts :=
  { cse_varprefix := pre, enable_cse_preprocess := golden, symbol_to_Rational_dict := T }

/-- The first part is left out if nothing is read (c_codegen.py:1012-1073). -/
def firstPart (L : Lib) (golden : Bool) (T : Dict Str ℚ) (reads : List Read) (all : List Repl) : Except KErr Prog :=
  if reads = [] then .ok ⟨[], [], []⟩
  else liftCode (cCodegen L (partOpts part1 golden T) (all.map (·.2)) (all.map (·.1)))

/-- What is computed before any code is emitted: the derivatives with their gridfunctions and operators, the reads, the
prototypes, the table of constants, the derivatives' expressions, the directions of upwinding and the control vector. -/
structure Front where
  vars : List Str
  bases : List Str
  ops : List Str
  reads : List Read
  protos : List (Str × Expr × Dict Str ℚ)
  table : Dict Str ℚ
  fds : List Repl
  dirs : List Nat
  copies : List Repl

/-- c_codegen.py:392-429 and 880-985.  `reg` are the keys of the registry `FDFunctions_dict` at this point: none with
`enable_fd_codegen` (line 360), otherwise those of the last call. -/
noncomputable def front (L : Lib) (reg gfs cps : List Str) (style : Str) (order : Nat) (control : Option (List Str))
    (es : List Expr) : Except KErr Front := do
  let free := es.flatMap L.order
  let vars ← liftGen (liftName (extractDerivs gfs cps free))
  let (bases, ops) ← liftGen (liftName (splitDerivs vars))
  let stencils ← liftGen (ops.mapM fun op => do
    let r ← liftFD (fdcoeffs op order)
    .ok r.2)
  let reads ← liftGen (liftName (readGfs gfs cps style (bases.zip stencils) free))
  -- c_codegen.py:880-931
  let uops := sortedStr (superfastUniq ops)
  let protos ← uops.mapM fun op => do
    let r ← protoFD L order op
    .ok (op, r)
  let table ← regTable reg uops (protos.map fun p => p.2.2)
  let fds ← (vars.zip (bases.zip ops)).mapM (fdEntry L protos)
  -- c_codegen.py:941-985
  let dirs ← liftGen (upwindDirs control ops)
  let copies ← dirs.mapM (copyEntry (control.getD []))
  .ok ⟨vars, bases, ops, reads, protos, table, fds, dirs, copies⟩

/-- The upwinded derivatives and the user's expressions (c_codegen.py:1075-1182). -/
def back (L : Lib) (golden : Bool) (vars ops : List Str) (dirs : List Nat) (es : List Expr) (outs : List Str) :
    Except KErr (Prog × Prog) := do
  -- c_codegen.py:1090-1138
  let blends ← ((vars.zip ops).filter fun vo => vo.2.length = 5 ∧ containsSub (c% "dupD") vo.2 = true).mapM fun vo => do
    let d ← liftGen (upDir vo.2)
    if 3 ≤ d then .error .indexError
    else .ok (vo.1, L.canon (blendExpr (if d ∈ dirs then some ((c% "Upwind") ++ dec d) else none)
      ((c% "UpwindAlgInput") ++ vo.1) ((c% "UpwindAlgInput") ++ toDdn vo.1)))
  let p2 ← liftCode (cCodegen L (partOpts part2 golden []) (blends.map (·.2)) (blends.map (·.1)))
  -- c_codegen.py:1148-1182
  let p3 ← liftCode (cCodegen L (partOpts part3 golden []) es outs)
  .ok (p2, p3)

/-- `Upwind{d} = UPWIND_ALG(UpwindControlVectorU{d})` (c_codegen.py:1087-1088). -/
def algsOf (dirs : List Nat) : List (Str × Str) :=
  dirs.map fun d => ((c% "Upwind") ++ dec d, (c% "UpwindControlVectorU") ++ dec d)

/-- `c_codegen` with `automatically_read_gf_data_from_memory` (c_codegen.py:392-446, 742-1185). -/
noncomputable def kernel (L : Lib) (reg gfs cps : List Str) (style : Str) (order : Nat) (control : Option (List Str))
    (golden : Bool) (es : List Expr) (outs : List Str) : Except KErr Kernel :=
  if outs.length ≠ es.length then .error .valueError
  else do
    let f ← front L reg gfs cps style order control es
    -- c_codegen.py:987-1073
    let p1 ← firstPart L golden f.table f.reads (sortByName (f.fds ++ f.copies))
    let b ← back L golden f.vars f.ops f.dirs es outs
    .ok ⟨f.reads, p1, algsOf f.dirs, b.1, b.2⟩

end Verif.CodeGen
