import Verif.TP.InterpModel

/-!
# TwoPunctures: the solver

Model of `Newton.py`, of `JFD_times_dv` and `SetMatrix_JFD` in `FuncAndJacobian.py` and of `TP_solve.py`, for `nvar = 1`.  Divisions by zero give `0` here and an
infinity or NaN in C.  The solver of tridiagonal systems, `gsl_linalg_solve_tridiag`, is a parameter `tridiag`: the solution `x` for the dimension, the diagonal, the elements above
it, those below it and the right-hand side.  Output and allocation are left out.
-/
namespace Verif.TP
open Real

/-- The type of `gsl_linalg_solve_tridiag(diag, e, f, b, x)`. -/
abbrev Tridiag := ℕ → (ℕ → ℝ) → (ℕ → ℝ) → (ℕ → ℝ) → (ℕ → ℝ) → ℕ → ℝ

/-- `for (int j = 0; j < n; j++) a[j] = f(j);` with independent iterations (`#pragma omp parallel for`). -/
def fill (n : ℕ) (f a : ℤ → ℝ) : ℤ → ℝ := fun x => if 0 ≤ x ∧ x < n then f x else a x

/-! ## TP_utilities.py -/

/-- `norm2` (TP_utilities.py:494-502). -/
noncomputable def norm2 (v : ℤ → ℝ) (n : ℕ) : ℝ := √((List.range n).foldl (fun (result : ℝ) (i : ℕ) => result + v i * v i) 0)

/-- `scalarproduct` (TP_utilities.py:505-513). -/
noncomputable def scalarproduct (v w : ℤ → ℝ) (n : ℕ) : ℝ := (List.range n).foldl (fun (result : ℝ) (i : ℕ) => result + v i * w i) 0

/-! ## The finite-difference Jacobian -/

/-- The derivatives of `dv` with respect to `(A, B, phi)` from finite differences in `(al, be, phi)` (FuncAndJacobian.py:498-577). -/
noncomputable def fdJet (i j k : ℤ) (n1 n2 n3 : ℕ) (dv : ℤ → ℝ) : Jet :=
  let ha := π / n1
  let al := ha * (i + 0.5)
  let A := -cos al
  let ga := 1 / ha
  let ga2 := ga * ga
  let hb := π / n2
  let be := hb * (j + 0.5)
  let B := -cos be
  let gb := 1 / hb
  let gb2 := gb * gb
  let gagb := ga * gb
  let hp := 2 * π / n3
  let gp := 1 / hp
  let gp2 := gp * gp
  let gagp := ga * gp
  let gbgp := gb * gp
  let sin_al := sin al
  let sin_be := sin be
  let sin_al_i1 := 1 / sin_al
  let sin_be_i1 := 1 / sin_be
  let sin_al_i2 := sin_al_i1 * sin_al_i1
  let sin_be_i2 := sin_be_i1 * sin_be_i1
  let sin_al_i3 := sin_al_i1 * sin_al_i2
  let sin_be_i3 := sin_be_i1 * sin_be_i2
  let cos_al := -A
  let cos_be := -B
  let d (a b c : ℤ) : ℝ := dv (Index 0 (i + a) (j + b) (k + c) 1 n1 n2 n3)
  let dV0 := d 0 0 0
  let dV1 := 0.5 * ga * (d 1 0 0 - d (-1) 0 0)
  let dV2 := 0.5 * gb * (d 0 1 0 - d 0 (-1) 0)
  let dV3 := 0.5 * gp * (d 0 0 1 - d 0 0 (-1))
  let dV11 := ga2 * (d 1 0 0 + d (-1) 0 0 - 2 * d 0 0 0)
  let dV22 := gb2 * (d 0 1 0 + d 0 (-1) 0 - 2 * d 0 0 0)
  let dV33 := gp2 * (d 0 0 1 + d 0 0 (-1) - 2 * d 0 0 0)
  let dV12 := 0.25 * gagb * (d 1 1 0 - d 1 (-1) 0 + d (-1) (-1) 0 - d (-1) 1 0)
  let dV13 := 0.25 * gagp * (d 1 0 1 - d (-1) 0 1 + d (-1) 0 (-1) - d 1 0 (-1))
  let dV23 := 0.25 * gbgp * (d 0 1 1 - d 0 1 (-1) + d 0 (-1) (-1) - d 0 (-1) 1)
  let dV11 := sin_al_i3 * (sin_al * dV11 - cos_al * dV1)
  let dV12 := sin_al_i1 * sin_be_i1 * dV12
  let dV13 := sin_al_i1 * dV13
  let dV22 := sin_be_i3 * (sin_be * dV22 - cos_be * dV2)
  let dV23 := sin_be_i1 * dV23
  let dV1 := sin_al_i1 * dV1
  let dV2 := sin_be_i1 * dV2
  ⟨dV0, dV1, dV2, dV3, dV11, dV12, dV13, dV22, dV23, dV33⟩

/-- `JFD_times_dv` (FuncAndJacobian.py:479-615). -/
noncomputable def JFD_times_dv (par : Par) (i j k : ℤ) (n1 n2 n3 : ℕ) (dv : ℤ → ℝ) (u : Derivs) : ℝ :=
  let k := if k < 0 then k + n3 else k
  let k := if k ≥ n3 then k - n3 else k
  let al := π / n1 * (i + 0.5)
  let A := -cos al
  let be := π / n2 * (j + 0.5)
  let B := -cos be
  let phi := 2 * π / n3 * k
  let Am1 := A - 1
  let dU := timesAm1 Am1 (fdJet i j k n1 n2 n3 dv)
  let U := u.get (Index 0 i j k 1 n1 n2 n3)
  let (x, y, z, dU) := toCartesian par.par_b A B phi dU
  LinEquations par x y z dU U * FAC al be

/-- The arrays `ncols`, `cols` and `JFD` of the sparse matrix. -/
structure Sparse where
  ncols : ℤ → ℕ
  cols : ℤ → ℕ → ℤ
  Matrix : ℤ → ℕ → ℝ

/-- FuncAndJacobian.py:687-694: an element is appended to a row. -/
noncomputable def Sparse.append (S : Sparse) (row column : ℤ) (value : ℝ) : Sparse :=
  let mcol := S.ncols row
  { cols := Function.update S.cols row (Function.update (S.cols row) mcol column)
    Matrix := Function.update S.Matrix row (Function.update (S.Matrix row) mcol value)
    ncols := Function.update S.ncols row (mcol + 1) }

/-- The rows of the three inner loops for a column (FuncAndJacobian.py:661-681). -/
def neighbours (n1 n2 : ℕ) (i j k : ℕ) : List (ℤ × ℤ × ℤ) :=
  let i_0 := max 0 (i - 1)
  let i_1 := min (n1 - 1) (i + 1)
  let j_0 := max 0 (j - 1)
  let j_1 := min (n2 - 1) (j + 1)
  (List.range' i_0 (i_1 + 1 - i_0)).flatMap fun (i1 : ℕ) => (List.range' j_0 (j_1 + 1 - j_0)).flatMap fun (j1 : ℕ) =>
    [((i1 : ℤ), (j1 : ℤ), (k : ℤ) - 1), ((i1 : ℤ), (j1 : ℤ), (k : ℤ)), ((i1 : ℤ), (j1 : ℤ), (k : ℤ) + 1)]

/-- `SetMatrix_JFD` (FuncAndJacobian.py:618-706).  The state of the loops is the matrix and `dv.d0`. -/
noncomputable def SetMatrix_JFD (par : Par) (n1 n2 n3 : ℕ) (u : Derivs) : Sparse :=
  ((loop3 n1 n2 n3).foldl (fun (Sd : Sparse × (ℤ → ℝ)) ijk =>
    let column := Index 0 ijk.1 ijk.2.1 ijk.2.2 1 n1 n2 n3
    let dv := Function.update Sd.2 column 1
    let S := (neighbours n1 n2 ijk.1 ijk.2.1 ijk.2.2).foldl (fun (S : Sparse) q =>
      let values := JFD_times_dv par q.1 q.2.1 q.2.2 n1 n2 n3 dv u
      if values ≠ 0 then S.append (Index 0 q.1 q.2.1 q.2.2 1 n1 n2 n3) column values else S) Sd.1
    (S, Function.update dv column 0)) (⟨fun _ => 0, fun _ _ => 0, fun _ _ => 0⟩, fun _ => 0)).1

/-! ## Newton.py -/

/-- The largest absolute value in a part of the array (Newton.py:70-74). -/
noncomputable def chunkMax (F : ℤ → ℝ) (chunk : List ℕ) : ℝ := chunk.foldl (fun (dmax1 : ℝ) (j : ℕ) => if |F j| > dmax1 then |F j| else dmax1) (-1)

/-- `norm_inf` (Newton.py:66-80).  `chunks` are the indices that the threads of the parallel region treat, in the order in which the threads enter the critical section. -/
noncomputable def norm_inf (F : ℤ → ℝ) (chunks : List (List ℕ)) : ℝ :=
  chunks.foldl (fun (dmax : ℝ) chunk => let dmax1 := chunkMax F chunk; if dmax1 > dmax then dmax1 else dmax) (-1)

/-- `gsl_vector_set(v, i, a)`. -/
def setAt (v : ℕ → ℝ) (i : ℕ) (a : ℝ) : ℕ → ℝ := Function.update v i a

/-- The arrays `diag`, `e`, `f` and `b` of a line. -/
structure Line where
  diag : ℕ → ℝ
  e : ℕ → ℝ
  f : ℕ → ℝ
  b : ℕ → ℝ

/-- The loops that fill `diag`, `e`, `f` and `b` (Newton.py:117-135 and 165-183).  `at' i` is `Index` of the node `i` of the line, for `-1 ≤ i ≤ n`. -/
noncomputable def lineSystem (S : Sparse) (dv rhs : ℤ → ℝ) (n : ℕ) (at' : ℤ → ℤ) : Line :=
  (List.range n).foldl (fun (L : Line) (i : ℕ) =>
    let Ip := at' (i + 1)
    let Ic := at' i
    let Im := at' (i - 1)
    let L := { L with b := setAt L.b i (rhs Ic) }
    (List.range (S.ncols Ic)).foldl (fun (L : Line) m =>
      let col := S.cols Ic m
      if col ≠ Ip ∧ col ≠ Ic ∧ col ≠ Im then { L with b := setAt L.b i (L.b i - S.Matrix Ic m * dv col) }
      else
        let L := if col = Im ∧ i > 0 then { L with f := setAt L.f (i - 1) (S.Matrix Ic m) } else L
        let L := if col = Ic then { L with diag := setAt L.diag i (S.Matrix Ic m) } else L
        if col = Ip ∧ i < n - 1 then { L with e := setAt L.e i (S.Matrix Ic m) } else L) L)
    ⟨fun _ => 0, fun _ => 0, fun _ => 0, fun _ => 0⟩

/-- The body of `LineRelax_al` and `LineRelax_be` (Newton.py:113-141 and 161-189). -/
noncomputable def lineRelax (tridiag : Tridiag) (S : Sparse) (rhs : ℤ → ℝ) (n : ℕ) (at' : ℤ → ℤ) (dv : ℤ → ℝ) : ℤ → ℝ :=
  let L := lineSystem S dv rhs n at'
  let x := tridiag n L.diag L.e L.f L.b
  (List.range n).foldl (fun (dv : ℤ → ℝ) (i : ℕ) => Function.update dv (at' i) (x i)) dv

/-- `LineRelax_al` (Newton.py:103-148). -/
noncomputable def LineRelax_al (tridiag : Tridiag) (n1 n2 n3 : ℕ) (rhs : ℤ → ℝ) (S : Sparse) (j k : ℕ) (dv : ℤ → ℝ) : ℤ → ℝ :=
  lineRelax tridiag S rhs n1 (fun i => Index 0 i j k 1 n1 n2 n3) dv

/-- `LineRelax_be` (Newton.py:151-195). -/
noncomputable def LineRelax_be (tridiag : Tridiag) (n1 n2 n3 : ℕ) (rhs : ℤ → ℝ) (S : Sparse) (i k : ℕ) (dv : ℤ → ℝ) : ℤ → ℝ :=
  lineRelax tridiag S rhs n2 (fun j => Index 0 i j k 1 n1 n2 n3) dv

/-- The values `a, a + 2, …` below `n` of a loop. -/
def stride2 (a n : ℕ) : List ℕ := (List.range n).filter fun i => a ≤ i ∧ i % 2 = a % 2

/-- `relax` (Newton.py:198-233), with `N_PlaneRelax` 1.  `sched` is the order in which the iterations of a parallel loop are executed. -/
noncomputable def relaxSched (sched : List ℕ → List ℕ) (tridiag : Tridiag) (n1 n2 n3 : ℕ) (rhs : ℤ → ℝ) (S : Sparse) (dv : ℤ → ℝ) : ℤ → ℝ :=
  let be (k : ℕ) (l : List ℕ) (dv : ℤ → ℝ) := (sched l).foldl (fun dv i => LineRelax_be tridiag n1 n2 n3 rhs S i k dv) dv
  let al (k : ℕ) (l : List ℕ) (dv : ℤ → ℝ) := (sched l).foldl (fun dv j => LineRelax_al tridiag n1 n2 n3 rhs S j k dv) dv
  let dv := (stride2 0 n3).foldl (fun dv k => al k (stride2 0 n2) (al k (stride2 1 n2) (be k (stride2 1 n1) (be k (stride2 2 n1) dv)))) dv
  (stride2 1 n3).foldl (fun dv k => al k (stride2 0 n2) (al k (stride2 1 n2) (be k (stride2 1 n1) (be k (stride2 0 n1) dv)))) dv

/-- `relax` in the order of the loops. -/
noncomputable def relax := relaxSched id

/-- `NRELAX` sweeps (TwoPunctures.h:26) from zero (Newton.py:362-366, 388-392). -/
noncomputable def precondition (tridiag : Tridiag) (n1 n2 n3 : ℕ) (rhs : ℤ → ℝ) (S : Sparse) (d0 : ℤ → ℝ) : ℤ → ℝ :=
  (List.range 200).foldl (fun dv _ => relax tridiag n1 n2 n3 rhs S dv) (fill (n1 * n2 * n3) (fun _ => 0) d0)

/-- The variables of the iteration of `bicgstab`. -/
structure Bicg where
  dv : Derivs
  ph : Derivs
  sh : Derivs
  r : ℤ → ℝ
  p : ℤ → ℝ
  s : ℤ → ℝ
  t : ℤ → ℝ
  vv : ℤ → ℝ
  alpha : ℝ
  beta : ℝ
  rho : ℝ
  rho1 : ℝ
  omega : ℝ
  normres : ℝ

/-- `rhotol` (Newton.py:294). -/
noncomputable def rhotol : ℝ := 1e-50

/-- `omegatol` (Newton.py:295). -/
noncomputable def omegatol : ℝ := 1e-50

/-- The derivatives of zero. -/
def Derivs.zero : Derivs := ⟨0, 0, 0, 0, 0, 0, 0, 0, 0, 0⟩

/-- The direction vector `p` (Newton.py:349-359). -/
noncomputable def bicgstab_direction (ntotal ii : ℕ) (st : Bicg) : Bicg :=
  if ii = 0 then { st with p := fill ntotal (fun j => st.r j) st.p }
  else
    let beta := st.rho / st.rho1 * (st.alpha / st.omega)
    { st with beta := beta, p := fill ntotal (fun j => st.r j + beta * (st.p j - st.omega * st.vv j)) st.p }

/-- The body of the loop of `bicgstab` (Newton.py:345-413); the second component is true if it ends with `break`. -/
noncomputable def bicgstab_step (tridiag : Tridiag) (par : Par) (n1 n2 n3 : ℕ) (u : Derivs) (S : Sparse) (rt : ℤ → ℝ) (tol : ℝ) (ii : ℕ) (st : Bicg) : Bicg × Bool :=
  let ntotal := n1 * n2 * n3
  let st := { st with rho := scalarproduct rt st.r ntotal }
  if |st.rho| < rhotol then (st, true)
  else
    let st := bicgstab_direction ntotal ii st
    let ph := { st.ph with d0 := precondition tridiag n1 n2 n3 st.p S st.ph.d0 }
    let (ph, vv) := J_times_dv par n1 n2 n3 ph st.vv u
    let alpha := st.rho / scalarproduct rt vv ntotal
    let s := fill ntotal (fun j => st.r j - alpha * vv j) st.s
    let st := { st with ph := ph, vv := vv, alpha := alpha, s := s, normres := norm2 s ntotal }
    if st.normres ≤ tol then ({ st with dv := { st.dv with d0 := fill ntotal (fun j => st.dv.d0 j + alpha * ph.d0 j) st.dv.d0 } }, true)
    else
      let sh := { st.sh with d0 := precondition tridiag n1 n2 n3 s S st.sh.d0 }
      let (sh, t) := J_times_dv par n1 n2 n3 sh st.t u
      let omega := scalarproduct t s ntotal / scalarproduct t t ntotal
      let dv := { st.dv with d0 := fill ntotal (fun j => st.dv.d0 j + (alpha * ph.d0 j + omega * sh.d0 j)) st.dv.d0 }
      let r := fill ntotal (fun j => s j - omega * t j) st.r
      let st := { st with sh := sh, t := t, omega := omega, dv := dv, r := r, normres := norm2 r ntotal }
      if st.normres ≤ tol then (st, true)
      else
        let st := { st with rho1 := st.rho }
        (st, decide (|st.omega| < omegatol))

/-- The loop of `bicgstab`: at most `fuel` further iterations; the last state and the value of `ii`. -/
noncomputable def bicgstab_loop (step : ℕ → Bicg → Bicg × Bool) : ℕ → ℕ → Bicg → Bicg × ℕ
  | 0, ii, st => (st, ii)
  | fuel + 1, ii, st =>
    let (st, done) := step ii st
    if done then (st, ii) else bicgstab_loop step fuel (ii + 1) st

/-- The variables before the loop of `bicgstab` (Newton.py:293-295, 330-336).  The work arrays are zero at first (in C uninitialised). -/
noncomputable def bicgstab_start (par : Par) (n1 n2 n3 : ℕ) (dv : Derivs) (F : ℤ → ℝ) (u : Derivs) : Bicg :=
  let ntotal := n1 * n2 * n3
  let (dv, r) := J_times_dv par n1 n2 n3 dv 0 u
  let r := fill ntotal (fun j => F j - r j) r
  ⟨dv, .zero, .zero, r, 0, 0, 0, 0, 0, 0, 0, 1, 0, norm2 r ntotal⟩

/-- The result of `bicgstab` (Newton.py:435-449). -/
noncomputable def bicgstab_result (itmax : ℕ) (tol : ℝ) (st : Bicg) (ii : ℕ) : ℤ :=
  if st.normres ≤ tol then 0
  else if ii > itmax then -1
  else if |st.rho| < rhotol then -10
  else if |st.omega| < omegatol then -11
  else ii + 1

/-- `bicgstab` (Newton.py:290-450): the array `dv`, `normres` and the result.  The derivatives of `v`, which `F_of_v` writes here, are those that its caller has written already. -/
noncomputable def bicgstab (tridiag : Tridiag) (par : Par) (n1 n2 n3 : ℕ) (v dv : Derivs) (itmax : ℕ) (tol : ℝ) : Derivs × ℝ × ℤ :=
  let (_, F, u) := F_of_v par n1 n2 n3 v 0 .zero
  let S := SetMatrix_JFD par n1 n2 n3 u
  let st := bicgstab_start par n1 n2 n3 dv F u
  let rt := fill (n1 * n2 * n3) (fun j => st.r j) 0
  let (st, ii) := if st.normres > tol then bicgstab_loop (bicgstab_step tridiag par n1 n2 n3 u S rt tol) itmax 0 st else (st, 0)
  (st.dv, st.normres, bicgstab_result itmax tol st ii)

/-- The variables of `TP_Newton`. -/
structure Newton where
  v : Derivs
  dv : Derivs
  F : ℤ → ℝ
  u : Derivs
  dmax : ℝ

/-- `F_of_v(par, …, v, F, u); dmax = norm_inf(F, ntotal);` (Newton.py:474-475, 492-493, 497-498). -/
noncomputable def Newton.residual (par : Par) (n1 n2 n3 : ℕ) (st : Newton) : Newton :=
  let (v, F, u) := F_of_v par n1 n2 n3 st.v st.F st.u
  { st with v := v, F := F, u := u, dmax := norm_inf F [List.range (n1 * n2 * n3)] }

/-- The body of the loop of `TP_Newton` after the evaluation of the residual (Newton.py:477-494). -/
noncomputable def Newton.step (tridiag : Tridiag) (par : Par) (n1 n2 n3 : ℕ) (st : Newton) : Newton :=
  let ntotal := n1 * n2 * n3
  let dv := { st.dv with d0 := fill ntotal (fun _ => 0) st.dv.d0 }
  let (dv, _, _) := bicgstab tridiag par n1 n2 n3 st.v dv 100 (st.dmax * 1e-3)
  let v := { st.v with d0 := fill ntotal (fun j => st.v.d0 j - dv.d0 j) st.v.d0 }
  Newton.residual par n1 n2 n3 { st with dv := dv, v := v }

/-- The loop of `TP_Newton` (Newton.py:472-495): at most `fuel` further iterations; the last state and the value of `it`. -/
noncomputable def Newton.loop (tridiag : Tridiag) (par : Par) (n1 n2 n3 : ℕ) (tol : ℝ) : ℕ → ℕ → Newton → Newton × ℕ
  | 0, it, st => (st, it)
  | fuel + 1, it, st =>
    if st.dmax > tol then
      let st := if it = 0 then st.residual par n1 n2 n3 else st
      Newton.loop tridiag par n1 n2 n3 tol fuel (it + 1) (st.step tridiag par n1 n2 n3)
    else (st, it)

/-- `TP_Newton` (Newton.py:454-518): the array `v`, the last `dmax` and the number of iterations. -/
noncomputable def TP_Newton (tridiag : Tridiag) (par : Par) (n1 n2 n3 : ℕ) (v : Derivs) (tol : ℝ) (itmax : ℕ) : Derivs × ℝ × ℕ :=
  let (st, it) := Newton.loop tridiag par n1 n2 n3 tol itmax 0 ⟨v, .zero, 0, .zero, 1⟩
  let st := if itmax = 0 then st.residual par n1 n2 n3 else st
  (st.v, st.dmax, it)

/-! ## TP_solve.py -/

/-- The members of `ID_persist_struct` with the results that are only printed. -/
structure Results where
  mp_adm : ℝ
  mm_adm : ℝ
  E : ℝ
  J1 : ℝ
  J2 : ℝ
  J3 : ℝ

/-- The masses of the punctures (TP_solve.py:112-113, 147-148). -/
noncomputable def admMasses (p : Persist) (up um : ℝ) : ℝ × ℝ :=
  ((1 + up) * p.mp + p.mp * p.mm / (4 * p.par_b), (1 + um) * p.mm + p.mp * p.mm / (4 * p.par_b))

/-- `up` and `um` (TP_solve.py:108-109, 143-144). -/
noncomputable def atPunctures (p : Persist) : ℝ × ℝ :=
  (PunctIntPolAtArbitPosition p.par_b p.npoints_A p.npoints_B p.npoints_phi p.v.d0 p.par_b 0 0,
    PunctIntPolAtArbitPosition p.par_b p.npoints_A p.npoints_B p.npoints_phi p.v.d0 (-p.par_b) 0 0)

/-- One pass of the loop for the bare masses (TP_solve.py:104-128): the structure and the two errors. -/
noncomputable def bareMassStep (tridiag : Tridiag) (p : Persist) : Persist × ℝ × ℝ :=
  let M_p := p.target_M_plus
  let M_m := p.target_M_minus
  let p := { p with v := (TP_Newton tridiag p.toPar p.npoints_A p.npoints_B p.npoints_phi p.v p.Newton_tol 1).1 }
  let p := { p with v := (F_of_v p.toPar p.npoints_A p.npoints_B p.npoints_phi p.v 0 .zero).1 }
  let (up, um) := atPunctures p
  let (mp_adm, mm_adm) := admMasses p up um
  let mp_adm_err := |M_p - mp_adm|
  let mm_adm_err := |M_m - mm_adm|
  let tmp := -4 * p.par_b * (1 + um + up + um * up) +
    √(16 * p.par_b * M_m * (1 + um) * (1 + up) + (-M_m + M_p + 4 * p.par_b * (1 + um) * (1 + up)) ^ 2)
  let p := { p with mp := (tmp + M_p - M_m) / (2 * (1 + up)), mm := (tmp - M_p + M_m) / (2 * (1 + um)) }
  let p := { p with par_m_plus := p.mp, par_m_minus := p.mm }
  (p, mp_adm_err, mm_adm_err)

/-- The loop for the bare masses (TP_solve.py:102-130), which need not end; `none` if it has not ended after `fuel` passes. -/
noncomputable def bareMassLoop (tridiag : Tridiag) : ℕ → Persist → Option Persist
  | 0, _ => none
  | fuel + 1, p =>
    let (q, mp_adm_err, mm_adm_err) := bareMassStep tridiag p
    if mp_adm_err > q.adm_tol ∨ mm_adm_err > q.adm_tol then bareMassLoop tridiag fuel q else some q

/-- `TP_solve` (TP_solve.py:28-183). -/
noncomputable def TP_solve (tridiag : Tridiag) (fuel : ℕ) (p : Persist) : Option (Persist × Results) :=
  let p := { p with mp := p.par_m_plus, mm := p.par_m_minus, v := Derivs.zero, cf_v := fun _ => 0 }
  let p := if p.give_bare_mass = false then bareMassLoop tridiag fuel p else some p
  p.map fun p =>
    let p := { p with v := (TP_Newton tridiag p.toPar p.npoints_A p.npoints_B p.npoints_phi p.v p.Newton_tol p.Newton_maxit).1 }
    let p := { p with v := (F_of_v p.toPar p.npoints_A p.npoints_B p.npoints_phi p.v 0 .zero).1 }
    let p := { p with cf_v := SpecCoef p.npoints_A p.npoints_B p.npoints_phi 0 p.v.d0 p.cf_v }
    let (up, um) := atPunctures p
    let (mp_adm, mm_adm) := admMasses p up um
    let admMass := p.mp + p.mm - 4 * p.par_b * PunctEvalAtArbitPosition p.v.d0 0 1 0 0 1 p.npoints_A p.npoints_B p.npoints_phi
    let c := p.center_offset
    let Pm := p.par_P_minus
    let Pp := p.par_P_plus
    let Sm := p.par_S_minus
    let Sp := p.par_S_plus
    (p,
      { mp_adm := mp_adm
        mm_adm := mm_adm
        E := admMass
        J1 := -(c 2 * Pm 1) + c 1 * Pm 2 - c 2 * Pp 1 + c 1 * Pp 2 + Sm 0 + Sp 0
        J2 := c 2 * Pm 0 - c 0 * Pm 2 + p.par_b * Pm 2 + c 2 * Pp 0 - c 0 * Pp 2 - p.par_b * Pp 2 + Sm 1 + Sp 1
        J3 := -(c 1 * Pm 0) + c 0 * Pm 1 - p.par_b * Pm 1 - c 1 * Pp 0 + c 0 * Pp 1 + p.par_b * Pp 1 + Sm 2 + Sp 2 })

end Verif.TP
