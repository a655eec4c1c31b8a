import Verif.FD.Names
import Verif.FD.Coeffs
import Mathlib.Data.Real.Basic

/-!
# From expressions to finite-difference code
(`nrpy/c_codegen.py`, lines 389-441 and 863-1133; `nrpy/finite_difference.py`, lines 380-431 and 947-1094)

The model generates the straight-line program that `c_codegen` emits before the user's expressions are
evaluated: memory reads, finite-difference expressions, and upwinding. Values are real numbers.
Common-subexpression elimination and the rewriting of rational constants inside these expressions are
left out here (they are the subject of C24 and C25), and so is the `enable_fd_functions` variant.
-/
namespace Verif.FD
open Verif.Py Verif.Helpers

inductive GenErr
  | name (e : NameErr)
  | fd (e : FDErr)
  | badOperator
  | badDirection
  | indexError
  deriving DecidableEq, Repr

def liftName {α} : Except NameErr α → Except GenErr α
  | .ok a => .ok a
  | .error e => .error (.name e)

def liftFD {α} : Except FDErr α → Except GenErr α
  | .ok a => .ok a
  | .error e => .error (.fd e)

/-- One generated C declaration `const REAL var = ...`. -/
inductive Stmt
  /-- `in_gfs[IDX4(gf, i0+a, i1+b, i2+c)]` -/
  | read (var gf : Str) (pt : Int × Int × Int)
  /-- `(c1*s1 + c2*s2 + ...) * f1 * f2 * ...` -/
  | fd (var : Str) (terms : List (ℚ × Str)) (facs : List Str)
  /-- `sym` -/
  | copy (var sym : Str)
  /-- `UPWIND_ALG(sym)` -/
  | alg (var sym : Str)
  /-- `u*(up - dn) + dn`, where no `u` stands for the literal zero -/
  | blend (var : Str) (u : Option Str) (up dn : Str)

def Stmt.lhs : Stmt → Str
  | .read v .. | .fd v .. | .copy v _ | .alg v _ | .blend v .. => v

/-- The substrings that mark a derivative (finite_difference.py:411). -/
def looksDeriv (v : Str) : Bool :=
  containsSub (c% "_dD") v || containsSub (c% "_dKOD") v || containsSub (c% "_dupD") v || containsSub (c% "_ddnD") v

/-- `str(var).replace("_dupD", "_ddnD")`. -/
def toDdn (v : Str) : Str := replaceAll (c% "_dupD") (c% "_ddnD") v

/-- `extract_list_of_deriv_var_strings_from_sympyexpr_list` (finite_difference.py:380-431), as called by
`c_codegen` (c_codegen.py:393-398) with `sp.Symbol("unset")`, which is not a `str`, so the `_ddnD`
partners are always added. `sorted(..., key=sp.default_sort_key)` on symbols is the order of the names. -/
def extractDerivs (gfs cps free : List Str) : Except NameErr (List Str) := do
  let kinds ← free.mapM (symKind gfs cps)
  let l := superfastUniq (((free.zip kinds).filter fun vk => vk.2 = .other ∧ looksDeriv vk.1 = true).map (·.1))
  .ok (sortedStr (l ++ (l.filter fun v => containsSub (c% "_dupD") v).map toDdn))

/-- `invdxx[int(c)]` for a list of three symbols. -/
def invdxx (c : Char) : Except GenErr Str :=
  if c.isDigit = false then .error .badDirection
  else if c ∈ ['0', '1', '2'] then .ok ((c% "invdxx") ++ [c])
  else .error .indexError

/-- The grid-spacing factors of an operator (finite_difference.py:1046-1068). -/
def invFactors (op : Str) : Except GenErr (List Str) := do
  let c1 ← liftFD (fromEnd op 1)
  if c1.isDigit = false then .error .badDirection
  else if (c% "dDD").isPrefixOf op then do
    let c2 ← liftFD (fromEnd op 2)
    let a ← invdxx c2
    let b ← invdxx c1
    .ok [a, b]
  else if (c% "dKOD").isPrefixOf op || (c% "dD").isPrefixOf op || (c% "dupD").isPrefixOf op || (c% "ddnD").isPrefixOf op then do
    let b ← invdxx c1
    .ok [b]
  else .error .badOperator

/-- The variable that holds a stencil value in the prototype expression, with `FDPROTO` replaced by the
gridfunction's name (finite_difference.py:1041-1044, c_codegen.py:918-924). -/
def stencilVar (gf : Str) (off : List Int) : Except GenErr Str :=
  match off with
  | a :: b :: c :: _ => do
    let n ← liftName (fdTempName (c% "FDPROTO") a b c)
    .ok (replaceAll (c% "FDPROTO") gf n)
  | _ => .error .indexError

/-- The declaration of one derivative (finite_difference.py:1012-1068, c_codegen.py:904-925): prototype
expression of the operator instantiated for the base gridfunction. -/
noncomputable def fdStmt (order : Nat) (var base op : Str) : Except GenErr Stmt := do
  let r ← liftFD (fdcoeffs op order)
  let terms ← (r.1.zip r.2).mapM fun ct => do
    let n ← stencilVar base ct.2
    .ok (ct.1, n)
  let facs ← invFactors op
  let proto := (c% "FDPROTO_") ++ op
  let upw := containsSub (c% "_dupD") proto || containsSub (c% "_ddnD") proto
  .ok (.fd (if upw then (c% "UpwindAlgInput") ++ var else var) terms facs)

/-- The direction of an upwinded operator (c_codegen.py:954-961): the last character. -/
def upDir (op : Str) : Except GenErr Nat := do
  let c ← liftFD (fromEnd op 1)
  if c.isDigit = false then .error .badDirection else .ok (c.toNat - '0'.toNat)

/-- `upwind_directions` (c_codegen.py:951-965): sorted distinct directions, only if a control vector (a
list) is given. Directions are one-digit numbers, so sorting is a filter over the ten digits. -/
def upwindDirs (control : Option (List Str)) (ops : List Str) : Except GenErr (List Nat) :=
  match control with
  | none => .ok []
  | some _ => do
    let l ← (ops.filter fun op => containsSub (c% "dupD") op).mapM upDir
    .ok ((List.range 10).filter fun d => d ∈ l)

/-- Insertion by the declared variable, for `sorted(zip(FDlhsvarnames, FDexprs))` (c_codegen.py:987-994).
The common prefix `const REAL ` is left out. -/
def insertStmt (s : Stmt) : List Stmt → List Stmt
  | [] => [s]
  | t :: l => if strLe s.lhs t.lhs then s :: t :: l else t :: insertStmt s l

def sortStmts (l : List Stmt) : List Stmt := l.foldr insertStmt []

/-- `UpwindControlVectorU{d} = upwind_control_vec[d]` (c_codegen.py:970-974). -/
def copyStmt (cs : List Str) (d : Nat) : Except GenErr Stmt :=
  match cs[d]? with
  | some s => .ok (Stmt.copy ((c% "UpwindControlVectorU") ++ dec d) s)
  | none => .error .indexError

/-- The whole prefix of the generated kernel. `control` is `upwind_control_vec`: `none` for the default
`sp.Symbol("unset")`, otherwise the list of its components (symbols). -/
noncomputable def genFD (gfs cps : List Str) (style : Str) (order : Nat) (control : Option (List Str))
    (free : List Str) : Except GenErr (List Stmt) := do
  let vars ← liftName (extractDerivs gfs cps free)
  let (bases, ops) ← liftName (splitDerivs vars)
  let stencils ← ops.mapM fun op => do
    let r ← liftFD (fdcoeffs op order)
    .ok r.2
  let reads ← liftName (readGfs gfs cps style (bases.zip stencils) free)
  -- c_codegen.py:880-931
  let fds ← (vars.zip (bases.zip ops)).mapM fun vbo => fdStmt order vbo.1 vbo.2.1 vbo.2.2
  -- c_codegen.py:941-985
  let dirs ← upwindDirs control ops
  let copies ← dirs.mapM (copyStmt (control.getD []))
  -- c_codegen.py:1075-1120
  let algs := dirs.map fun d => Stmt.alg ((c% "Upwind") ++ dec d) ((c% "UpwindControlVectorU") ++ dec d)
  let blends ← ((vars.zip ops).filter fun vo => vo.2.length = 5 ∧ containsSub (c% "dupD") vo.2 = true).mapM fun vo => do
    let d ← upDir vo.2
    if 3 ≤ d then .error .indexError
    else .ok (Stmt.blend vo.1 (if d ∈ dirs then some ((c% "Upwind") ++ dec d) else none)
      ((c% "UpwindAlgInput") ++ vo.1) ((c% "UpwindAlgInput") ++ toDdn vo.1))
  .ok (reads.map (fun r => .read r.var r.gf r.pt) ++
    (if reads = [] then [] else sortStmts (fds ++ copies)) ++ algs ++ blends)

/-! ## Meaning of the generated declarations -/

/-- Values of the C variables in scope. -/
abbrev Env := Str → Option ℝ

/-- Gridfunction values around the current point. -/
abbrev Mem := Str → Int × Int × Int → ℝ

noncomputable def evalSum (env : Env) : List (ℚ × Str) → Option ℝ
  | [] => some 0
  | (c, s) :: l => do
    let x ← env s
    let y ← evalSum env l
    some ((c : ℝ) * x + y)

noncomputable def evalProd (env : Env) : List Str → Option ℝ
  | [] => some 1
  | s :: l => do
    let x ← env s
    let y ← evalProd env l
    some (x * y)

/-- The macro `UPWIND_ALG` (BHaH_defines_h.py:336): `UpwindVecU > 0.0 ? 1.0 : 0.0`. -/
noncomputable def upwindAlg (x : ℝ) : ℝ := by
  classical exact if 0 < x then 1 else 0

/-- The right-hand side; `none` if it mentions a variable that is not in scope. -/
noncomputable def Stmt.eval (mem : Mem) (env : Env) : Stmt → Option ℝ
  | .read _ gf pt => some (mem gf pt)
  | .fd _ terms facs => do
    let x ← evalSum env terms
    let y ← evalProd env facs
    some (x * y)
  | .copy _ s => env s
  | .alg _ s => (env s).map upwindAlg
  | .blend _ u up dn => do
    let a ← env up
    let b ← env dn
    let w ← match u with
      | none => some 0
      | some s => env s
    some (w * (a - b) + b)

/-- Running the declarations in order; `none` if a variable is used before it is declared or declared
twice (the C code would not compile). -/
noncomputable def exec (mem : Mem) : List Stmt → Env → Option Env
  | [], env => some env
  | s :: l, env => do
    let x ← s.eval mem env
    if (env s.lhs).isSome then none
    else exec mem l (fun n => if n = s.lhs then some x else env n)

end Verif.FD
