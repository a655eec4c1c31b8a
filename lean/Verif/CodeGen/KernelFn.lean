import Verif.CodeGen.Kernel

/-!
# Model of `c_codegen` with `enable_fd_functions`
(`nrpy/finite_difference.py`, lines 839-944 and 1080-1094; `nrpy/c_codegen.py`, lines 1033-1067)

Instead of inline expressions the kernel calls one C function for each operator.  A function's parameters and the
arguments of a call are matched by position, so both lists are modelled as the code sorts them.
-/
namespace Verif.CodeGen
open Verif.Py Verif.Sympy Verif.Sympy.Expr Verif.CSE Verif.FD Verif.Helpers

/-- `FDFunction` (finite_difference.py:839-872), without SIMD. -/
structure FDF where
  order : Nat
  op : Str
  table : Dict Str ℚ
  expr : Expr

/-- `c_function_name` (finite_difference.py:866-867). -/
def FDF.cname (f : FDF) : Str := (c% "fd_function_") ++ f.op ++ (c% "_fdorder") ++ dec f.order

/-- The symbols of the expression that are not constants (finite_difference.py:891-892).  `free_symbols` is a set. -/
def FDF.symbols (L : Lib) (f : FDF) : List Str :=
  (L.order f.expr).dedup.filter fun s => containsSub (c% "FDPart1_") s = false

/-- One call `const REAL lhs = fn(args);`. -/
structure Call where
  lhs : Str
  fn : Str
  args : List Str

/-- `c_function_call` (finite_difference.py:874-898).  `FDPROTO` is replaced in the whole text of the call; the model
replaces it in the names the text consists of. -/
def FDF.call (L : Lib) (f : FDF) (gf var : Str) : Call :=
  let v := if containsSub (c% "_dupD") var || containsSub (c% "_ddnD") var then (c% "UpwindAlgInput") ++ var else var
  ⟨replaceAll (c% "FDPROTO") gf v, replaceAll (c% "FDPROTO") gf f.cname,
    (sortedStr (f.symbols L)).map (replaceAll (c% "FDPROTO") gf)⟩

/-- The declarations of the parameters, sorted as text (finite_difference.py:911-918). -/
def FDF.paramDecls (L : Lib) (type : Str) (f : FDF) : List Str :=
  sortedStr ((f.symbols L).map fun s => (c% "const ") ++ type ++ (c% " ") ++ s)

/-- The name a declaration of a parameter declares: what follows the type. -/
def declName (type : Str) (d : Str) : Str := d.drop ((c% "const ") ++ type ++ (c% " ")).length

/-- A C function that returns `FD_result` (finite_difference.py:900-929). -/
structure FFun where
  name : Str
  params : List Str
  body : Prog

def resultName : Str := c% "FD_result"

/-- The registry after the prototypes are entered (finite_difference.py:1080-1087), and after the loop that gives entry
number `i` the expression of prototype number `i` (finite_difference.py:1091-1092). -/
def register (reg : Dict Str FDF) (order : Nat) (protos : List (Str × Expr × Dict Str ℚ)) : Except KErr (Dict Str FDF) :=
  (protos.foldl (fun (d : Dict Str FDF) p => d.set p.1 ⟨order, p.1, p.2.2, p.2.1⟩) reg).zipIdx.mapM fun kv =>
    match protos[kv.2]? with
    | some p => .ok (kv.1.1, { kv.1.2 with expr := p.2.1 })
    | none => .error .indexError

/-- `FDFunctions_dict[op].c_function_call(gf, deriv_var)` (c_codegen.py:1036-1041). -/
def callEntry (L : Lib) (reg : Dict Str FDF) (vbo : Str × Str × Str) : Except KErr Call :=
  match reg.get? vbo.2.2 with
  | some f => .ok (f.call L vbo.2.1 vbo.1)
  | none => .error .valueError

/-- `CFunction_fd_function` with the code for the expression (c_codegen.py:1054-1067). -/
def funEntry (L : Lib) (golden : Bool) (type : Str) (kf : Str × FDF) : Except KErr FFun :=
  match cCodegen L (partOpts part1 golden kf.2.table) [kf.2.expr] [resultName] with
  | .ok b => .ok ⟨kf.2.cname, (kf.2.paramDecls L type).map (declName type), b⟩
  | .error e => .error (.code e)

/-- The text of a call up to the common prefix and the end of the line. -/
def Call.text (c : Call) : Str := c.lhs ++ (c% " = ") ++ c.fn ++ (c% "(") ++ joinWith ',' c.args

def insertCall (s : Call) : List Call → List Call
  | [] => [s]
  | t :: l => if strLe s.text t.text then s :: t :: l else t :: insertCall s l

/-- `sorted(func_call_list)` (c_codegen.py:1042-1043). -/
def sortCalls (l : List Call) : List Call := l.foldr insertCall []

/-- The kernel: reads, calls, the control vector, and the rest as without functions; and the functions. -/
structure FKernel where
  funs : List FFun
  reads : List Read
  calls : List Call
  copies : Prog
  algs : List (Str × Str)
  ups : Prog
  main : Prog

/-- c_codegen.py:1012-1067.  If nothing is read there is no first part. -/
def firstPartF (L : Lib) (golden : Bool) (type : Str) (reg : Dict Str FDF) (reads : List Read) (vbo : List (Str × Str × Str))
    (copies : List Repl) : Except KErr (List FFun × List Call × Prog) :=
  if reads = [] then .ok ([], [], ⟨[], [], []⟩)
  else do
    let calls ← vbo.mapM (callEntry L reg)
    let cp ← liftCode (cCodegen L (partOpts part1 golden []) (copies.map (·.2)) (copies.map (·.1)))
    let funs ← List.mapM (funEntry L golden type) reg
    .ok (funs, sortCalls calls, cp)

/-- `c_codegen` with `enable_fd_functions` (c_codegen.py:392-446, 742-1185).  `reg` is the registry at this point: empty
with `enable_fd_codegen` (line 360). -/
noncomputable def kernelF (L : Lib) (reg : Dict Str FDF) (gfs cps : List Str) (style : Str) (order : Nat) (type : Str)
    (control : Option (List Str)) (golden : Bool) (es : List Expr) (outs : List Str) : Except KErr FKernel :=
  if outs.length ≠ es.length then .error .valueError
  else do
    let f ← front L reg.keys gfs cps style order control es
    let reg' ← register reg order f.protos
    let p1 ← firstPartF L golden type reg' f.reads (f.vars.zip (f.bases.zip f.ops)) f.copies
    let b ← back L golden f.vars f.ops f.dirs es outs
    .ok ⟨p1.1, f.reads, p1.2.1, p1.2.2, algsOf f.dirs, b.1, b.2⟩

end Verif.CodeGen
