import Mathlib.Analysis.SpecialFunctions.Trigonometric.Basic
import Mathlib.Data.List.Basic

/-!
# TwoPunctures: spectral transforms

Model of the C code in `nrpy/infrastructures/BHaH/general_relativity/TwoPunctures/TP_utilities.py` and of the functions of
`FuncAndJacobian.py` that use it.  `REAL` is `ℝ`; the macros `Pi`, `Pih` and `Piq` (TP_utilities.h:26-28) are `π`, `π/2` and `π/4`.
Work arrays are functions `ℕ → ℝ`, the arrays of the three-dimensional grid are functions `ℤ → ℝ` (C indices are `int`); loops are
folds over the values of the loop variable, in the order of the code.
-/
namespace Verif.TP
open Real

/-- `for (j = 0; j < n; j++) u[j] = c[j];` (TP_utilities.py:305-312, 349-350). -/
def copyBack (u c : ℕ → ℝ) (n : ℕ) : ℕ → ℝ := (List.range n).foldl (fun u j => Function.update u j (c j)) u

/-- `chebft_Zeros` (TP_utilities.py:276-314).  `isignum` is part of the state of the loops.  The work array `c` is zero at first
(in C: uninitialised, and all entries that are read are written before). -/
noncomputable def chebft_Zeros (u : ℕ → ℝ) (n : ℕ) (inv : Bool) : ℕ → ℝ :=
  let Pion := π / n
  let c : ℕ → ℝ :=
    if inv = false then
      let fac := 2.0 / (n : ℝ)
      ((List.range n).foldl (fun (st : (ℕ → ℝ) × ℝ) (j : ℕ) =>
        let sum := (List.range n).foldl (fun (sum : ℝ) (k : ℕ) => sum + u k * cos (Pion * j * (k + 0.5))) 0
        (Function.update st.1 j (fac * sum * st.2), -st.2)) (fun _ => 0, 1)).1
    else
      (List.range n).foldl (fun (c : ℕ → ℝ) (j : ℕ) =>
        let sum := (List.range n).foldl (fun (st : ℝ × ℝ) (k : ℕ) => (st.1 + u k * cos (Pion * (j + 0.5) * k) * st.2, -st.2)) (-0.5 * u 0, 1)
        Function.update c j sum.1) fun _ => 0
  copyBack u c n

/-- `chebft_Extremes` (TP_utilities.py:317-352). -/
noncomputable def chebft_Extremes (u : ℕ → ℝ) (n : ℕ) (inv : Bool) : ℕ → ℝ :=
  let N := n - 1
  let PioN := π / N
  let c : ℕ → ℝ :=
    if inv = false then
      let fac := 2.0 / (N : ℝ)
      let c := ((List.range n).foldl (fun (st : (ℕ → ℝ) × ℝ) (j : ℕ) =>
        let sum := (List.range' 1 (N - 1)).foldl (fun (sum : ℝ) (k : ℕ) => sum + u k * cos (PioN * j * k)) (0.5 * (u 0 + u N * st.2))
        (Function.update st.1 j (fac * sum * st.2), -st.2)) (fun _ => 0, 1)).1
      Function.update c N (0.5 * c N)
    else
      (List.range n).foldl (fun (c : ℕ → ℝ) (j : ℕ) =>
        let sum := (List.range n).foldl (fun (st : ℝ × ℝ) (k : ℕ) => (st.1 + u k * cos (PioN * j * k) * st.2, -st.2)) (-0.5 * u 0, 1)
        Function.update c j sum.1) fun _ => 0
  copyBack u c n

/-- `chder` (TP_utilities.py:354-361): the loop goes down from `n - 2` to `0`. -/
def chder (c cder : ℕ → ℝ) (n : ℕ) : ℕ → ℝ :=
  (List.range (n - 1)).foldl (fun (cder : ℕ → ℝ) (m : ℕ) =>
    let j := n - 2 - m
    Function.update cder j (cder (j + 2) + 2 * (j + 1) * c (j + 1))) (Function.update (Function.update cder n 0) (n - 1) 0)

/-- `chebev` (TP_utilities.py:364-383): the loop goes down from `m - 1` to `1`; the state is `(dj, djp1)`. -/
noncomputable def chebev (a b : ℝ) (c : ℕ → ℝ) (m : ℕ) (x : ℝ) : ℝ :=
  let y := 2 * (x - 0.5 * (b + a)) / (b - a)
  let d := (List.range (m - 1)).foldl (fun (d : ℝ × ℝ) (l : ℕ) =>
    let djp2 := d.2
    let djp1 := d.1
    (2 * y * djp1 - djp2 + c (m - 1 - l), djp1)) (0, 0)
  y * d.1 - d.2 + 0.5 * c 0

/-- `fourft` (TP_utilities.py:386-437).  The entries of `a` and `b` are independent of each other; each is the value of its inner
loop. -/
noncomputable def fourft (u : ℕ → ℝ) (N : ℕ) (inv : Bool) : ℕ → ℝ :=
  let M := N / 2
  let fac := 1 / (M : ℝ)
  let Pi_fac := π * fac
  if inv = false then
    let a : ℕ → ℝ := fun l => (List.range N).foldl (fun (s : ℝ) (k : ℕ) => s + fac * u k * cos (Pi_fac * l * k)) 0
    let b : ℕ → ℝ := fun l => (List.range N).foldl (fun (s : ℝ) (k : ℕ) => s + fac * u k * sin (Pi_fac * l * k)) 0
    (List.range' 1 (M - 1)).foldl (fun (u : ℕ → ℝ) (l : ℕ) => Function.update (Function.update u l (a l)) (l + M) (b l))
      (Function.update (Function.update u 0 (a 0)) M (a M))
  else
    let a : ℕ → ℝ := fun l => u l
    let b : ℕ → ℝ := fun l => u (M + l)
    ((List.range N).foldl (fun (st : (ℕ → ℝ) × ℝ) (k : ℕ) =>
      let s := (List.range' 1 (M - 1)).foldl (fun (s : ℝ) (l : ℕ) => s + (a l * cos (Pi_fac * k * l) + b l * sin (Pi_fac * k * l)))
        (0.5 * (a 0 + a M * st.2))
      (Function.update st.1 k s, -st.2)) (u, 1)).1

/-- `fourder` (TP_utilities.py:440-451). -/
def fourder (u du : ℕ → ℝ) (N : ℕ) : ℕ → ℝ :=
  let M := N / 2
  (List.range' 1 (M - 1)).foldl (fun (du : ℕ → ℝ) (l : ℕ) =>
    Function.update (Function.update du l (u (l + M) * l)) (l + M) (-u l * l)) (Function.update (Function.update du 0 0) M 0)

/-- `fourder2` (TP_utilities.py:454-466). -/
def fourder2 (u d2u : ℕ → ℝ) (N : ℕ) : ℕ → ℝ :=
  let M := N / 2
  (List.range' 1 M).foldl (fun (d2u : ℕ → ℝ) (l : ℕ) =>
    let l2 := (l : ℝ) * l
    let d := Function.update d2u l (-u l * l2)
    if l < M then Function.update d (l + M) (-u (l + M) * l2) else d) (Function.update d2u 0 0)

/-- `fourev` (TP_utilities.py:469-479). -/
noncomputable def fourev (u : ℕ → ℝ) (N : ℕ) (x : ℝ) : ℝ :=
  let M := N / 2
  (List.range' 1 (M - 1)).foldl (fun (s : ℝ) (l : ℕ) => s + (u l * cos (x * l) + u (M + l) * sin (x * l)))
    (0.5 * (u 0 + u M * cos (x * M)))

/-! ## The grid -/

/-- `Index` (FuncAndJacobian.py:53-74). -/
def Index (ivar i j k nvar n1 n2 n3 : ℤ) : ℤ :=
  let i1 := i
  let i1 := if i1 < 0 then -(i1 + 1) else i1
  let i1 := if i1 ≥ n1 then 2 * n1 - (i1 + 1) else i1
  let j1 := j
  let j1 := if j1 < 0 then -(j1 + 1) else j1
  let j1 := if j1 ≥ n2 then 2 * n2 - (j1 + 1) else j1
  let k1 := k
  let k1 := if k1 < 0 then k1 + n3 else k1
  let k1 := if k1 ≥ n3 then k1 - n3 else k1
  ivar + nvar * (i1 + n1 * (j1 + n2 * k1))

/-- `derivs` (TwoPunctures.h:29-31): ten arrays. -/
structure Derivs where
  d0 : ℤ → ℝ
  d1 : ℤ → ℝ
  d2 : ℤ → ℝ
  d3 : ℤ → ℝ
  d11 : ℤ → ℝ
  d12 : ℤ → ℝ
  d13 : ℤ → ℝ
  d22 : ℤ → ℝ
  d23 : ℤ → ℝ
  d33 : ℤ → ℝ

/-- `for (i = 0; i < n; i++) v[indx[i]] = d[i];` (FuncAndJacobian.py:145-149, 173-178, 202-208, one array at a time; the three or four
arrays of a statement are distinct). -/
def writeLine (v : ℤ → ℝ) (indx : ℕ → ℤ) (d : ℕ → ℝ) (n : ℕ) : ℤ → ℝ :=
  (List.range n).foldl (fun (v : ℤ → ℝ) (i : ℕ) => Function.update v (indx i) (d i)) v

/-- The pairs `(x, y)` of two nested loops, `x` outside. -/
def loop2 (nx ny : ℕ) : List (ℕ × ℕ) := (List.range nx).flatMap fun x => (List.range ny).map fun y => (x, y)

/-- The values and the first two derivatives of a line of Chebyshev nodes (FuncAndJacobian.py:140-144): the work arrays `dp` and
`d2p` are zero at first (in C they keep values from the line before, in entries that are not read). -/
noncomputable def chebLine (p : ℕ → ℝ) (n : ℕ) : (ℕ → ℝ) × (ℕ → ℝ) :=
  let p := chebft_Zeros p n false
  let dp := chder p (fun _ => 0) n
  let d2p := chder dp (fun _ => 0) n
  (chebft_Zeros dp n true, chebft_Zeros d2p n true)

/-- The same for a line of Fourier nodes (FuncAndJacobian.py:191-195). -/
noncomputable def fourLine (p : ℕ → ℝ) (n : ℕ) : (ℕ → ℝ) × (ℕ → ℝ) :=
  let p := fourft p n false
  let dp := fourder p (fun _ => 0) n
  let d2p := fourder2 p (fun _ => 0) n
  (fourft dp n true, fourft d2p n true)

/-- The three groups of loops of `Derivatives_AB3` for one value of `ivar` (FuncAndJacobian.py:129-210). -/
noncomputable def derivativesVar (ivar nvar n1 n2 n3 : ℕ) (v : Derivs) : Derivs :=
  let idx (i j k : ℕ) : ℤ := Index ivar i j k nvar n1 n2 n3
  let v := (loop2 n3 n2).foldl (fun (v : Derivs) kj =>
    let indx := fun i => idx i kj.2 kj.1
    let q := chebLine (fun i => v.d0 (indx i)) n1
    { v with d1 := writeLine v.d1 indx q.1 n1, d11 := writeLine v.d11 indx q.2 n1 }) v
  let v := (loop2 n3 n1).foldl (fun (v : Derivs) ki =>
    let indx := fun j => idx ki.2 j ki.1
    let p := chebLine (fun j => v.d0 (indx j)) n2
    let q := chebLine (fun j => v.d1 (indx j)) n2
    { v with d2 := writeLine v.d2 indx p.1 n2, d22 := writeLine v.d22 indx p.2 n2, d12 := writeLine v.d12 indx q.1 n2 }) v
  (loop2 n1 n2).foldl (fun (v : Derivs) ij =>
    let indx := fun k => idx ij.1 ij.2 k
    let p := fourLine (fun k => v.d0 (indx k)) n3
    let q := fourLine (fun k => v.d1 (indx k)) n3
    let r := fourLine (fun k => v.d2 (indx k)) n3
    { v with
      d3 := writeLine v.d3 indx p.1 n3, d33 := writeLine v.d33 indx p.2 n3, d13 := writeLine v.d13 indx q.1 n3,
      d23 := writeLine v.d23 indx r.1 n3 }) v

/-- `Derivatives_AB3` (FuncAndJacobian.py:111-216). -/
noncomputable def Derivatives_AB3 (nvar n1 n2 n3 : ℕ) (v : Derivs) : Derivs :=
  (List.range nvar).foldl (fun v ivar => derivativesVar ivar nvar n1 n2 n3 v) v

/-- `PunctEvalAtArbitPosition` (FuncAndJacobian.py:711-750). -/
noncomputable def PunctEvalAtArbitPosition (v : ℤ → ℝ) (ivar : ℕ) (A B phi : ℝ) (nvar n1 n2 n3 : ℕ) : ℝ :=
  let values2 : ℕ → ℕ → ℝ := fun j k =>
    chebev (-1) 1 (chebft_Zeros (fun i => v (ivar + nvar * (i + n1 * (j + n2 * k)))) n1 false) n1 A
  let values1 : ℕ → ℝ := fun k => chebev (-1) 1 (chebft_Zeros (fun j => values2 j k) n2 false) n2 B
  fourev (fourft values1 n3 false) n3 phi

/-- `PunctEvalAtArbitPositionFast` (FuncAndJacobian.py:893-930). -/
noncomputable def PunctEvalAtArbitPositionFast (v : ℤ → ℝ) (ivar : ℕ) (A B phi : ℝ) (nvar n1 n2 n3 : ℕ) : ℝ :=
  let values2 : ℕ → ℕ → ℝ := fun j k => chebev (-1) 1 (fun i => v (ivar + nvar * (i + n1 * (j + n2 * k)))) n1 A
  let values1 : ℕ → ℝ := fun k => chebev (-1) 1 (fun j => values2 j k) n2 B
  fourev values1 n3 phi

/-- `SpecCoef` (FuncAndJacobian.py:973-1017).  The arrays `values3` and `values4` are functions of their indices. -/
noncomputable def SpecCoef (n1 n2 n3 ivar : ℕ) (v cf : ℤ → ℝ) : ℤ → ℝ :=
  let values3 : ℕ → ℕ → ℕ → ℝ := fun n j k => chebft_Zeros (fun i => v (ivar + (i + n1 * (j + n2 * k)))) n1 false n
  let values4 : ℕ → ℕ → ℕ → ℝ := fun n l k => chebft_Zeros (fun j => values3 n j k) n2 false l
  (loop2 n1 n2).foldl (fun (cf : ℤ → ℝ) ij =>
    writeLine cf (fun k => ivar + (ij.1 + n1 * (ij.2 + n2 * k))) (fourft (fun k => values4 ij.1 ij.2 k) n3 false) n3) cf

end Verif.TP
