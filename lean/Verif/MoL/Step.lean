import Verif.Py.Str
import Verif.Py.Num
import Verif.CFunction.Model
import Verif.MoL.Butcher

/-!
# Method of Lines (nrpy/infrastructures/BHaH/MoLtimestepping/MoL.py)

Gridfunction buffers, the generated time step, and the malloc/free functions.

The generated C text is represented by its structure: a time step is a list of substeps
(`single_RK_substep_input_symbolic`), a substep is the time offset, the right-hand-side call, the
pointwise update expressions and the post-right-hand-side calls.  Comments, alias declarations and
the `enable_simd` variant (which the source itself marks as "not properly supported") are not
represented.  `post_post_rhs_string` is the default empty string.
-/

namespace Verif.MoL
open Verif.Py

/-- Python exceptions that can end generation. -/
inductive Err where
  | valueError
  | indexError
deriving DecidableEq, Repr

/-- The gridfunction buffers that occur in MoL.py.  `k i` is the buffer of stage `i+1`. -/
inductive Buf where
  | yn
  | runningTotal
  | kOdd
  | kEven
  | k1OrRunning
  | k2OrY
  | nextY
  | k (i : Nat)
  | auxevol
deriving DecidableEq, Repr

/-- The C name of a buffer (MoL.py:95-139, 498-502, 601-649).  The symbols used in expressions are
these names with an `L` appended; `str(el).replace("gfsL", "gfs[i]")` and `.replace("gfsL", "gfs")`
turn them back into the array element or the array. -/
def Buf.name : Buf → Str
  | .yn => c% "y_n_gfs"
  | .runningTotal => c% "y_nplus1_running_total_gfs"
  | .kOdd => c% "k_odd_gfs"
  | .kEven => c% "k_even_gfs"
  | .k1OrRunning => c% "k1_or_y_nplus_a21_k1_or_y_nplus1_running_total_gfs"
  | .k2OrY => c% "k2_or_y_nplus_a32_k2_gfs"
  | .nextY => c% "next_y_input_gfs"
  | .k i => (c% "k") ++ dec (i + 1) ++ (c% "_gfs")
  | .auxevol => c% "auxevol_gfs"

/-! ## Reading the table -/

section
variable {K : Type}

/-- `Butcher[i][j]` for `j ≥ 1`. -/
def cell (t : Table K) (i j : Nat) : Except Err K :=
  match t[i]? with
  | none => .error .indexError
  | some x => match x.tail[j - 1]? with
    | none => .error .indexError
    | some v => .ok v

/-- `Butcher[i][0]` used as `substep_time_offset_dt`: must be a number (MoL.py:273-278).  (The
source accepts SymPy `Rational` and `Mul` and Python `int`; all abscissae in the dictionary are
of these kinds.) -/
def offset (t : Table K) (i : Nat) : Except Err K :=
  match t[i]? with
  | none => .error .indexError
  | some x => match x.head with
    | .num c => .ok c
    | .str _ => .error .valueError

/-- The pairs `(i, j)` visited by `is_diagonal_Butcher` in order (MoL.py:54-63). -/
def diagPairs (L : Nat) : List (Nat × Nat) :=
  (List.range L).flatMap fun i => ((List.range i).filter fun j => j ≠ 0).map fun j => (i, j)

variable [DecidableEq K] [Zero K]

/-- The nested loops of `is_diagonal_Butcher` over the remaining pairs. -/
def diagLoop (t : Table K) : List (Nat × Nat) → Except Err Bool
  | [] => .ok true
  | (i, j) :: l => match cell t i j with
    | .error e => .error e
    | .ok v => if v = 0 then diagLoop t l else .ok false

/-- `is_diagonal_Butcher` (MoL.py:36-66). -/
def isDiagonal (t : Table K) : Except Err Bool := diagLoop t (diagPairs (t.length - 1))

/-- `"RK3" in MoL_method`. -/
def nameHasRK3 (name : Str) : Bool := containsSub (c% "RK3") name

/-! ## Buffers -/

/-- Result of `generate_gridfunction_names`: the non-`y_n` buffers and the two diagnostics
pointers (`None` for the second is printed as the text `None`). -/
structure GfNames where
  nonYn : List Buf
  diag1 : Buf
  diag2 : Option Buf
deriving DecidableEq, Repr

/-- `generate_gridfunction_names` (MoL.py:69-148). -/
def gfNames (name : Str) (t : Table K) : Except Err GfNames := do
  let diag ← isDiagonal t
  if diag && nameHasRK3 name then
    return ⟨[.k1OrRunning, .k2OrY] ++ [.auxevol], .k1OrRunning, some .k2OrY⟩
  else if !diag then
    let numK := t.length - 1
    let l := .nextY :: (List.range numK).map Buf.k
    return ⟨l ++ [.auxevol], .k 0, if Buf.k 1 ∈ l then some (.k 1) else none⟩
  else
    let l := .runningTotal :: (if name ≠ (c% "Euler") then [.kOdd, .kEven] else [])
    return ⟨l ++ [.auxevol], .runningTotal, some .kOdd⟩

end

/-! ## The generated time step -/

/-- SymPy expressions built by the generator; `sym b` is the value of buffer `b` at the grid point,
`dt` is `commondata->dt`. -/
inductive Ex (K : Type) where
  | sym (b : Buf)
  | dt
  | num (v : K)
  | add (x y : Ex K)
  | sub (x y : Ex K)
  | mul (x y : Ex K)
  | div (x y : Ex K)

/-- `single_RK_substep_input_symbolic` (MoL.py:226-365): time offset, right-hand-side input and
output, update assignments `lhs[i] = rhs`, post-right-hand-side targets. -/
structure Substep (K : Type) where
  time : K
  rhsIn : Buf
  rhsOut : Buf
  upd : List (Buf × Ex K)
  post : List Buf

section
variable {K : Type} [DecidableEq K] [Zero K] [One K]

/-- Diagonal RK3 algorithm (MoL.py:495-599). -/
def rk3Diag (t : Table K) : Except Err (List (Substep K)) := do
  let c0 ← offset t 0
  let a11 ← cell t 1 1
  let c1 ← offset t 1
  let b1 ← cell t 3 1
  let b2 ← cell t 3 2
  let a22 ← cell t 2 2
  let c2 ← offset t 2
  let b3 ← cell t 3 3
  return [
    { time := c0, rhsIn := .yn, rhsOut := .k1OrRunning
      upd := [(.k1OrRunning,
        .add (.mul (.mul (.num a11) (.sym .k1OrRunning)) .dt) (.sym .yn))]
      post := [.k1OrRunning] },
    { time := c1, rhsIn := .k1OrRunning, rhsOut := .k2OrY
      upd := [
        (.k1OrRunning,
          .add (.add (.div (.mul (.num b1) (.sub (.sym .k1OrRunning) (.sym .yn))) (.num a11))
            (.sym .yn)) (.mul (.mul (.num b2) (.sym .k2OrY)) .dt)),
        (.k2OrY, .add (.mul (.mul (.num a22) (.sym .k2OrY)) .dt) (.sym .yn))]
      post := [.k2OrY, .k1OrRunning] },
    { time := c2, rhsIn := .k2OrY, rhsOut := .yn
      upd := [(.yn, .add (.sym .k1OrRunning) (.mul (.mul (.num b3) (.sym .yn)) .dt))]
      post := [.yn] }]

/-- `RK_rhs` of the general algorithm: `y_n` plus the nonzero terms (MoL.py:617-624). -/
def generalRhs (t : Table K) (s : Nat) : List Nat → Ex K → Except Err (Ex K)
  | [], acc => .ok acc
  | m :: l, acc => do
    let a ← cell t (s + 1) (m + 1)
    let acc := if a ≠ 0 then
        (if a ≠ 1 then .add acc (.mul (.mul .dt (.sym (.k m))) (.num a))
         else .add acc (.mul .dt (.sym (.k m))))
      else acc
    generalRhs t s l acc

/-- One substep of the general algorithm (MoL.py:603-645). -/
def generalStep (t : Table K) (numSteps s : Nat) : Except Err (Substep K) := do
  let rhs ← generalRhs t s (List.range (s + 1)) (.sym .yn)
  let c ← offset t s
  let lhs := if s = numSteps - 1 then Buf.yn else .nextY
  return { time := c, rhsIn := if s = 0 then .yn else .nextY, rhsOut := .k s
           upd := [(lhs, rhs)], post := [lhs] }

/-- Euler (MoL.py:650-666). -/
def eulerStep (t : Table K) : Except Err (Substep K) := do
  let c ← offset t 0
  return { time := c, rhsIn := .yn, rhsOut := .runningTotal
           upd := [(.yn, .add (.sym .yn) (.mul (.sym .runningTotal) .dt))], post := [.yn] }

/-- One substep of the diagonal algorithm (MoL.py:668-745). -/
def diagStep (t : Table K) (numSteps s : Nat) : Except Err (Substep K) := do
  let rhsIn : Buf := if s = 0 then .yn else if s % 2 = 0 then .kEven else .kOdd
  let rhsOut : Buf := if s = 0 then .kOdd else if s % 2 = 0 then .kOdd else .kEven
  let b ← cell t numSteps (s + 1)
  if s ≠ numSteps - 1 then
    let a ← cell t (s + 1) (s + 1)
    let c ← offset t s
    if s = 0 then
      return { time := c, rhsIn, rhsOut
               upd := [(.runningTotal, .mul (.mul (.sym rhsOut) .dt) (.num b)),
                       (rhsOut, .add (.sym .yn) (.mul (.mul (.sym rhsOut) .dt) (.num a)))]
               post := [rhsOut] }
    else
      let u1 := if b ≠ 0 then
          [(Buf.runningTotal, if b ≠ 1
            then Ex.add (.sym .runningTotal) (.mul (.mul (.sym rhsOut) .dt) (.num b))
            else .add (.sym .runningTotal) (.mul (.sym rhsOut) .dt))]
        else []
      let u2 := if a ≠ 0 then
          [(rhsOut, if a ≠ 1
            then Ex.add (.sym .yn) (.mul (.mul (.sym rhsOut) .dt) (.num a))
            else .add (.sym .yn) (.mul (.sym rhsOut) .dt))]
        else []
      return { time := c, rhsIn, rhsOut, upd := u1 ++ u2, post := [rhsOut] }
  else
    let c ← offset t s
    let u := if b ≠ 0 then
        [(Buf.yn, if b ≠ 1
          then Ex.add (.add (.sym .yn) (.sym .runningTotal)) (.mul (.mul (.sym rhsOut) .dt) (.num b))
          else .add (.add (.sym .yn) (.sym .runningTotal)) (.mul (.sym rhsOut) .dt))]
      else []
    return { time := c, rhsIn, rhsOut, upd := u, post := [.yn] }

/-- The substeps of `MoL_step_forward_in_time` (MoL.py:394-763).  A table whose last row does not
start with `""` is rejected (MoL.py:483-486). -/
def stepProgram (name : Str) (t : Table K) : Except Err (List (Substep K)) := do
  let _ ← gfNames name t
  match t.getLast? with
  | none => .error .indexError
  | some x =>
    if x.head ≠ .str "" then .error .valueError
    else
      let numSteps := t.length - 1
      let diag ← isDiagonal t
      if diag && nameHasRK3 name then rk3Diag t
      else if !diag then (List.range numSteps).mapM (generalStep t numSteps)
      else if name = (c% "Euler") then do return [← eulerStep t]
      else (List.range numSteps).mapM (diagStep t numSteps)

end

/-! ## Running the generated code -/

/-- Contents of the buffers of one grid: one number per gridfunction and grid point (`Pt`). -/
abbrev Mem (K Pt : Type) := Buf → Pt → K

/-- The user's C code, per grid: `rhs g τ in old` is the content of the output buffer after the
right-hand-side call at time `τ` with input `in`, when it held `old` before (the call need not write
every point); `post g v` is the content of a buffer after the post-right-hand-side call. -/
structure User (K Pt : Type) where
  rhs : Nat → K → (Pt → K) → (Pt → K) → (Pt → K)
  post : Nat → (Pt → K) → (Pt → K)

section
variable {K Pt : Type} [Field K]

def Ex.eval (dt : K) (env : Buf → K) : Ex K → K
  | .sym b => env b
  | .dt => dt
  | .num v => v
  | .add x y => x.eval dt env + y.eval dt env
  | .sub x y => x.eval dt env - y.eval dt env
  | .mul x y => x.eval dt env * y.eval dt env
  | .div x y => x.eval dt env / y.eval dt env

def Mem.set (m : Mem K Pt) (b : Buf) (v : Pt → K) : Mem K Pt := Function.update m b v

/-- The update loop: at every point all buffers are read into `const REAL` variables before the
assignments are made (MoL.py:314-350), so the right-hand sides are evaluated in the memory before
the loop. -/
def runUpd (dt : K) (m : Mem K Pt) (upd : List (Buf × Ex K)) : Mem K Pt :=
  upd.foldl (fun m' u => m'.set u.1 fun x => u.2.eval dt fun b => m b x) m

/-- One substep on one grid at time `τ` (MoL.py:279-363). -/
def runSubstep (u : User K Pt) (g : Nat) (τ dt : K) (s : Substep K) (m : Mem K Pt) : Mem K Pt :=
  let m1 := m.set s.rhsOut (u.rhs g τ (m s.rhsIn) (m s.rhsOut))
  let m2 := runUpd dt m1 s.upd
  s.post.foldl (fun m b => m.set b (u.post g (m b))) m2

/-- The C state: `commondata->time`, `commondata->nn` and the buffers of every grid. -/
structure CState (K Pt : Type) where
  time : K
  nn : Nat
  grids : Nat → Mem K Pt

/-- `for(int grid=0; grid<NUMGRIDS; grid++) { commondata->time = time_start + c*dt; … }`. -/
def runGrids (u : User K Pt) (tStart dt : K) (s : Substep K) (numGrids : Nat) (σ : CState K Pt) :
    CState K Pt :=
  (List.range numGrids).foldl (fun σ g =>
    let τ := tStart + s.time * dt
    { σ with time := τ, grids := Function.update σ.grids g (runSubstep u g τ dt s (σ.grids g)) }) σ

/-- `MoL_step_forward_in_time`: all substeps, then `time = (nn+1)*dt; nn++` (MoL.py:446-447,
747-754). -/
def stepForward (u : User K Pt) (dt : K) (prog : List (Substep K)) (numGrids : Nat)
    (σ : CState K Pt) : CState K Pt :=
  let σ' := prog.foldl (fun σ' s => runGrids u σ.time dt s numGrids σ') σ
  { σ' with time := ((σ'.nn : K) + 1) * dt, nn := σ'.nn + 1 }

end

/-! ## malloc and free -/

/-- `MoL_malloc_*` / `MoL_free_memory_*` bodies: buffers in order, each with the flag "only if
`NUM_AUXEVOL_GFS > 0`" (MoL.py:198-207, 807-812). -/
def guarded (l : List Buf) : List (Buf × Bool) := l.map fun b => (b, decide (b = .auxevol))

/-- Live heap blocks, by the pointer field that holds them. -/
abbrev Heap := List Buf

/-- `malloc` statements: a field that already holds a block would leak it. -/
def runMalloc (numAux : Nat) (l : List (Buf × Bool)) (h : Heap) : Option Heap :=
  l.foldlM (fun h p =>
    if p.2 && numAux == 0 then some h
    else if p.1 ∈ h then none else some (p.1 :: h)) h

/-- `free` statements: freeing a field that holds no block is an error. -/
def runFree (numAux : Nat) (l : List (Buf × Bool)) (h : Heap) : Option Heap :=
  l.foldlM (fun h p =>
    if p.2 && numAux == 0 then some h
    else if p.1 ∈ h then some (h.erase p.1) else none) h

end Verif.MoL
