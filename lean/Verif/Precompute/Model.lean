import Verif.Sympy.Expr
import Verif.Helpers.Functional
import Verif.CurviBC.Model
import Mathlib.Analysis.Calculus.IteratedDeriv.Defs

/-!
# Model of the precomputed reference metric

reference_metric.py:376-629 (hatted quantities in terms of precomputed functions) and BHaH/rfm_precompute.py (the arrays
that hold these functions and the C code that allocates, fills, reads and frees them).  Simplifications: `REAL` is the real
numbers; C integers do not overflow; automatic evaluation by SymPy when an expression is rebuilt is not modelled (it keeps
values); the coordinates named `xx0`, `xx1`, `xx2` and the functions `f0_of_xx0`, ... are identified by name.
-/
namespace Verif.Precompute
open Verif.Py Verif.Sympy Verif.Helpers Verif.CurviBC

/-- `self.xx` (reference_metric.py:92). -/
def xx : Fin 3 → Str
  | 0 => (c% "xx0")
  | 1 => (c% "xx1")
  | 2 => (c% "xx2")

/-- The functions of one coordinate (reference_metric.py:117-121). -/
inductive Fn
  | f0 | f1 | f2 | f3 | f4
deriving DecidableEq

/-- The coordinate that a function depends on. -/
def Fn.dir : Fn → Fin 3
  | .f0 => 0
  | .f1 => 1
  | .f2 => 0
  | .f3 => 2
  | .f4 => 1

/-- The names of the functions. -/
def Fn.name : Fn → Str
  | .f0 => (c% "f0_of_xx0")
  | .f1 => (c% "f1_of_xx1")
  | .f2 => (c% "f2_of_xx0")
  | .f3 => (c% "f3_of_xx2")
  | .f4 => (c% "f4_of_xx1")

/-- `sp.Function("f0_of_xx0_funcform")(xx0)` and so on (lines 117-121). -/
def Fn.call (f : Fn) : Expr := .app (.fn (f.name ++ (c% "_funcform"))) [.sym (xx f.dir)]

/-- `Derivative(f(x), (x, n))`, as SymPy writes the derivatives of such a function. -/
def Fn.der (f : Fn) (n : ℕ) : Expr :=
  .app (.fn (c% "Derivative")) [f.call, .app (.fn (c% "Tuple")) [.sym (xx f.dir), .num n]]

/-! ### `make_replacements` (lines 386-431) -/

/-- `str` of a symbol or of a function applied to a symbol. -/
def strOf : Expr → Str
  | .sym n => n
  | .app (.fn g) [.sym n] => g ++ ['('] ++ n ++ [')']
  | _ => []

/-- `s.split(pat, 1)[0]`. -/
def before (pat : Str) : Str → Str
  | [] => []
  | c :: s => if pat.isPrefixOf (c :: s) then [] else c :: before pat s

/-- The name given to a derivative (lines 408-421, SymPy 1.2 and later). -/
def derName : List Expr → Str
  | [a, .app _ [v, .num q]] =>
    before (c% "_funcform(") (strOf a) ++ (c% "__D") ++ List.replicate (q.num.toNat - 1) 'D' ++
      (List.replicate q.num.toNat ((strOf v).drop 2)).flatten
  | _ => []

mutual
/-- The first `xreplace` (lines 404-422). -/
def replDer : Expr → Expr
  | .sym n => .sym n
  | .num q => .num q
  | .app h l => if h = .fn (c% "Derivative") then .sym (derName l) else .app h (replDerList l)
def replDerList : List Expr → List Expr
  | [] => []
  | e :: l => replDer e :: replDerList l
end

mutual
/-- The second `xreplace` (lines 423-431). -/
def replFun : Expr → Expr
  | .sym n => .sym n
  | .num q => .num q
  | .app h l =>
    match h with
    | .fn g => if containsSub (c% "_funcform") g then .sym (before (c% "_funcform") g) else .app h (replFunList l)
    | _ => .app h (replFunList l)
def replFunList : List Expr → List Expr
  | [] => []
  | e :: l => replFun e :: replFunList l
end

/-- `make_replacements` (lines 386-431). -/
def makeReplacements (e : Expr) : Expr := replFun (replDer e)

/-! ### Values of the functions (lines 526-568) -/

/-- The chain of comparisons with the names (lines 532-543); `none` is `ValueError`. -/
def fnOf (s : Str) : Option Fn :=
  if s = (c% "f0_of_xx0") then some .f0
  else if s = (c% "f1_of_xx1") then some .f1
  else if s = (c% "f2_of_xx0") then some .f2
  else if s = (c% "f3_of_xx2") then some .f3
  else if s = (c% "f4_of_xx1") then some .f4
  else none

/-- `int` of one of the digits; other text is an error. -/
def digit (c : Char) : Option (Fin 3) := if c = '0' then some 0 else if c = '1' then some 1 else if c = '2' then some 2 else none

/-- The directions of differentiation (lines 548-557). -/
def directions (s : Str) : Option (List (Fin 3)) := (s.filter fun c => c ≠ 'd' ∧ c ≠ 'D').mapM digit

/-- The function and the directions that a variable stands for (lines 528-557). -/
def parse (v : Str) : Option (Fn × List (Fin 3)) :=
  let parts := split2 '_' '_' v
  let basename := replaceAll (c% "_funcform") [] (parts.headD [])
  let derivatv := if containsSub (c% "__") v then replaceAll (c% "_funcform") [] (parts.getD 1 []) else []
  (fnOf basename).bind fun f => (directions derivatv).map fun ds => (f, ds)

/-- An expression mentions a coordinate. -/
def mentions (e : Expr) (d : Fin 3) : Bool := decide (xx d ∈ e.free)

/-- An element of `freevars_uniq`, `freevars_uniq_xx_indep`, `freevars_uniq_vals`. -/
structure Entry where
  name : Str
  indep : Expr
  val : Expr

/-- Lines 519-568, for all variables; `base` are the expressions of the coordinate system, `diff` is `sp.diff`. -/
def entries (diff : Expr → Str → Expr) (base : Fn → Expr) (vars : List Str) : Option (List Entry) :=
  vars.mapM fun v => (parse v).map fun (p : Fn × List (Fin 3)) =>
    let e := p.2.foldl (fun e d => diff e (xx d)) (base p.1)
    ⟨v, if mentions e 0 || mentions e 1 || mentions e 2 then .sym v else e, e⟩

/-- `subs` for all variables (lines 571-629). -/
def finish (ts : List Entry) (e : Expr) : Expr := ts.foldl (fun e t => Expr.subst t.name t.indep e) e

/-! ### `ReferenceMetricPrecompute` (BHaH/rfm_precompute.py:31-153) -/

/-- How an array is indexed. -/
inductive Kind
  | one (d : Fin 3)
  | two
deriving DecidableEq

/-- The choice of rfm_precompute.py:92-97, 118-122 and 143-146; `none` is `RuntimeError`. -/
def kind (e : Expr) : Option Kind :=
  if mentions e 0 ∧ ¬ mentions e 1 ∧ ¬ mentions e 2 then some (.one 0)
  else if mentions e 1 ∧ ¬ mentions e 2 ∧ ¬ mentions e 0 then some (.one 1)
  else if mentions e 2 ∧ ¬ mentions e 0 ∧ ¬ mentions e 1 then some (.one 2)
  else if mentions e 0 ∧ mentions e 1 then some .two
  else none

/-- An array of `rfmstruct`. -/
structure Arr where
  name : Str
  kind : Kind
  val : Expr

/-- The loop over the variables (lines 73-153; the sorting of lines 52-64 is left to the claims, which allow every order); `str` is Python's `str`. -/
def arrays (str : Expr → Str) (ts : List Entry) : Option (List Arr) :=
  (ts.filter fun t => containsSub (c% "_of_xx") (str t.indep)).mapM fun t =>
    (kind t.val).map fun k => ⟨str t.indep, k, t.val⟩

/-- `malloc_size` (lines 78-83). -/
def size (N : Fin 3 → ℤ) (a : Arr) : ℤ :=
  (if mentions a.val 0 then N 0 else 1) * (if mentions a.val 1 then N 1 else 1) * (if mentions a.val 2 then N 2 else 1)

/-- `rfm_precompute_malloc`: names and sizes (line 87). -/
def mallocs (N : Fin 3 → ℤ) (as : List Arr) : List (Str × ℤ) := as.map fun a => (a.name, size N a)

/-- `rfm_precompute_free` (lines 88-90). -/
def frees (as : List Arr) : List Str := as.map fun a => a.name

/-- The assignments to an array by `rfm_precompute_defines` (lines 98-103, 123-128): place and value.  `xs` are the arrays of
coordinates, `ρ` the code parameters. -/
noncomputable def writes (I : Expr.Interp ℝ) (N : Fin 3 → ℤ) (xs : Fin 3 → ℤ → ℝ) (ρ : Str → ℝ) (a : Arr) : List (ℤ × ℝ) :=
  match a.kind with
  | .one d => (counter 0 (N d)).map fun i => (i, Expr.eval I (Function.update ρ (xx d) (xs d i)) a.val)
  | .two => (counter 0 (N 1)).flatMap fun i1 => (counter 0 (N 0)).map fun i0 => (i0 + N 0 * i1,
      Expr.eval I (Function.update (Function.update ρ (xx 0) (xs 0 i0)) (xx 1) (xs 1 i1)) a.val)

/-- The contents of the arrays. -/
abbrev Mem := Str → ℤ → ℝ

/-- One assignment. -/
noncomputable def Mem.put (M : Mem) (n : Str) (w : ℤ × ℝ) : Mem :=
  fun m i => if m = n ∧ i = w.1 then w.2 else M m i

/-- `rfm_precompute_defines`. -/
noncomputable def defines (I : Expr.Interp ℝ) (N : Fin 3 → ℤ) (xs : Fin 3 → ℤ → ℝ) (ρ : Str → ℝ) (as : List Arr) (M : Mem) : Mem :=
  as.foldl (fun M a => (writes I N xs ρ a).foldl (fun M w => M.put a.name w) M) M

/-- Where the kernels read (lines 104-106, 129-131). -/
def place (N : Fin 3 → ℤ) (k : Kind) (p : Fin 3 → ℤ) : ℤ :=
  match k with
  | .one d => p d
  | .two => p 0 + N 0 * p 1

/-- The loop in whose body an array is read. -/
def level : Kind → Fin 3
  | .one d => d
  | .two => 0

/-- The reads in the order of execution: `readvr_str[2]`, `readvr_str[1]`, `readvr_str[0]` (BHaH/simple_loop.py:166-170,
184-205). -/
def readOrder (as : List Arr) : List Arr :=
  ([2, 1, 0] : List (Fin 3)).flatMap fun d => as.filter fun a => level a.kind = d

/-- The variables of a kernel at point `p`, after the reads. -/
noncomputable def kernelEnv (N : Fin 3 → ℤ) (as : List Arr) (M : Mem) (p : Fin 3 → ℤ) (ρ : Str → ℝ) : Str → ℝ :=
  (readOrder as).foldl (fun σ a => Function.update σ a.name (M a.name (place N a.kind p))) ρ

/-- With SIMD, the variables in lane `l`: the arrays of direction 0 are read with `ReadSIMD`, the others with `ConstSIMD`
(lines 107-115, 132-140; BHaH/simple_loop.py:160-165). -/
noncomputable def kernelEnvSIMD (N : Fin 3 → ℤ) (as : List Arr) (M : Mem) (p : Fin 3 → ℤ) (l : ℕ) (ρ : Str → ℝ) : Str → ℝ :=
  (readOrder as).foldl (fun σ a => Function.update σ a.name
    (M a.name (if level a.kind = 0 then place N a.kind p + l else place N a.kind p))) ρ

/-- The members of `rfm_struct` for several coordinate systems (lines 164-201). -/
def structMembers (systems : List (List Arr)) : List Str :=
  sortedStr (superfastUniq (systems.flatMap fun as =>
    let l := as.map fun a => (c% "REAL *restrict ") ++ a.name ++ [';']
    l ++ l ++ l))

end Verif.Precompute
