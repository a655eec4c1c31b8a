import Verif.TP.Model
import Mathlib.Analysis.SpecialFunctions.Arsinh
import Mathlib.Analysis.SpecialFunctions.Artanh
import Mathlib.Analysis.SpecialFunctions.Trigonometric.Arctan
import Mathlib.Analysis.SpecialFunctions.Complex.Arg
import Mathlib.Analysis.SpecialFunctions.Trigonometric.Inverse

/-!
# Model of the coordinates, equations and Jacobian of TwoPunctures

nrpy/infrastructures/BHaH/general_relativity/TwoPunctures/CoordTransf.py, Equations.py and the second part of FuncAndJacobian.py.
Numbers are reals, `gsl_complex` is `ℂ`, `Pih` is `π/2` and `Piq` is `π/4`.  `TP_solve` and `TP_Interp` use `nvar = 1`, the only value for which
`NonLinEquations` and `LinEquations` set all of `values[0..nvar-1]`; the model fixes `nvar = 1` and writes one element of the work arrays
`U`, `dU` as a `Jet`.
-/
namespace Verif.TP
open Real

/-- One element of each of the ten arrays of a `derivs` (TwoPunctures.h:29-31). -/
@[ext] structure Jet where
  d0 : ℝ
  d1 : ℝ
  d2 : ℝ
  d3 : ℝ
  d11 : ℝ
  d12 : ℝ
  d13 : ℝ
  d22 : ℝ
  d23 : ℝ
  d33 : ℝ

/-! ## CoordTransf.py -/

/-- `AB_To_XR` (CoordTransf.py:50-78): `X`, `R` and the new `U`. -/
noncomputable def AB_To_XR (A B : ℝ) (U : Jet) : ℝ × ℝ × Jet :=
  let At := 0.5 * (A + 1)
  let X := 2 * artanh At
  let R := π / 2 + 2 * arctan B
  let A_X := 1 - At * At
  let A_XX := -At * A_X
  let B_R := 0.5 * (1 + B * B)
  let B_RR := B * B_R
  (X, R, {
    d0 := U.d0
    d11 := A_X * A_X * U.d11 + A_XX * U.d1
    d12 := A_X * B_R * U.d12
    d13 := A_X * U.d13
    d22 := B_R * B_R * U.d22 + B_RR * U.d2
    d23 := B_R * U.d23
    d1 := A_X * U.d1
    d2 := B_R * U.d2
    d3 := U.d3
    d33 := U.d33 })

/-- `C_To_c` (CoordTransf.py:81-137): `x`, `r` and the new `U`; `b` is `par.par_b`. -/
noncomputable def C_To_c (b X R : ℝ) (U : Jet) : ℝ × ℝ × Jet :=
  let C : ℂ := ⟨X, R⟩
  let c := Complex.cosh C * b
  let c_C := Complex.sinh C * b
  let c_CC := c
  let C_c := c_C⁻¹
  let C_cc := -(C_c * C_c * (C_c * c_CC))
  let C_c2 := Complex.normSq C_c
  let U_C3 : ℂ := ⟨0.5 * U.d13, -0.5 * U.d23⟩
  let U_c3 := U_C3 * C_c
  let U_C : ℂ := ⟨0.5 * U.d1, -0.5 * U.d2⟩
  let U_c := U_C * C_c
  let U_CC : ℂ := ⟨0.25 * (U.d11 - U.d22), -0.5 * U.d12⟩
  let U_CB := 0.25 * (U.d11 + U.d22)
  let U_cb := U_CB * C_c2
  let U_cc := C_cc * U_C + C_c * C_c * U_CC
  (c.re, c.im, {
    d0 := U.d0
    d13 := 2 * U_c3.re
    d23 := -2 * U_c3.im
    d1 := 2 * U_c.re
    d2 := -2 * U_c.im
    d11 := 2 * (U_cb + U_cc.re)
    d22 := 2 * (U_cb - U_cc.re)
    d12 := -2 * U_cc.im
    d3 := U.d3
    d33 := U.d33 })

/-- `rx3_To_xyz` (CoordTransf.py:140-170): `y`, `z` and the new `U`. -/
noncomputable def rx3_To_xyz (r phi : ℝ) (U : Jet) : ℝ × ℝ × Jet :=
  let sin_phi := sin phi
  let cos_phi := cos phi
  let sin2_phi := sin_phi * sin_phi
  let cos2_phi := cos_phi * cos_phi
  let sin_2phi := 2 * sin_phi * cos_phi
  let cos_2phi := cos2_phi - sin2_phi
  let r_inv := 1 / r
  let r_inv2 := r_inv * r_inv
  let U_x := U.d1
  let U_r := U.d2
  let U_3 := U.d3
  let U_xx := U.d11
  let U_xr := U.d12
  let U_x3 := U.d13
  let U_rr := U.d22
  let U_r3 := U.d23
  let U_33 := U.d33
  (r * cos_phi, r * sin_phi, {
    d0 := U.d0
    d1 := U_x
    d2 := U_r * cos_phi - U_3 * r_inv * sin_phi
    d3 := U_r * sin_phi + U_3 * r_inv * cos_phi
    d11 := U_xx
    d12 := U_xr * cos_phi - U_x3 * r_inv * sin_phi
    d13 := U_xr * sin_phi + U_x3 * r_inv * cos_phi
    d22 := U_rr * cos2_phi + r_inv2 * sin2_phi * (U_33 + r * U_r) + sin_2phi * r_inv2 * (U_3 - r * U_r3)
    d23 := 0.5 * sin_2phi * (U_rr - r_inv * U_r - r_inv2 * U_33) - cos_2phi * r_inv2 * (U_3 - r * U_r3)
    d33 := U_rr * sin2_phi + r_inv2 * cos2_phi * (U_33 + r * U_r) - sin_2phi * r_inv2 * (U_3 - r * U_r3) })

/-- The three calls that the functions of FuncAndJacobian.py make one after the other (lines 333-339, 457-463, 604-610): the Cartesian
position and the Cartesian jet. -/
noncomputable def toCartesian (b A B phi : ℝ) (U : Jet) : ℝ × ℝ × ℝ × Jet :=
  let (X, R, U) := AB_To_XR A B U
  let (x, r, U) := C_To_c b X R U
  let (y, z, U) := rx3_To_xyz r phi U
  (x, y, z, U)

/-! ## Equations.py -/

/-- The members of `ID_persist_struct` that the equations read (ID_persist_struct.py). -/
structure Par where
  par_b : ℝ
  par_m_plus : ℝ
  par_m_minus : ℝ
  par_P_plus : Fin 3 → ℝ
  par_P_minus : Fin 3 → ℝ
  par_S_plus : Fin 3 → ℝ
  par_S_minus : Fin 3 → ℝ
  TP_epsilon : ℝ
  TP_Tiny : ℝ

/-- The common part of `BY_KKofxyz` and `BY_Aijofxyz` (Equations.py:63-96, 114-147): `A_ij` from the squares of the two distances. -/
noncomputable def BY_Aij (par : Par) (x y z r2_plus r2_minus : ℝ) (i j : Fin 3) : ℝ :=
  let r_plus := √r2_plus
  let r_minus := √r2_minus
  let r3_plus := r_plus * r2_plus
  let r3_minus := r_minus * r2_minus
  let n_plus : Fin 3 → ℝ := ![(x - par.par_b) / r_plus, y / r_plus, z / r_plus]
  let n_minus : Fin 3 → ℝ := ![(x + par.par_b) / r_minus, y / r_minus, z / r_minus]
  let np_Pp := 0 + n_plus 0 * par.par_P_plus 0 + n_plus 1 * par.par_P_plus 1 + n_plus 2 * par.par_P_plus 2
  let nm_Pm := 0 + n_minus 0 * par.par_P_minus 0 + n_minus 1 * par.par_P_minus 1 + n_minus 2 * par.par_P_minus 2
  let np_Sp : Fin 3 → ℝ := ![n_plus 1 * par.par_S_plus 2 - n_plus 2 * par.par_S_plus 1, n_plus 2 * par.par_S_plus 0 - n_plus 0 * par.par_S_plus 2,
    n_plus 0 * par.par_S_plus 1 - n_plus 1 * par.par_S_plus 0]
  let nm_Sm : Fin 3 → ℝ := ![n_minus 1 * par.par_S_minus 2 - n_minus 2 * par.par_S_minus 1,
    n_minus 2 * par.par_S_minus 0 - n_minus 0 * par.par_S_minus 2, n_minus 0 * par.par_S_minus 1 - n_minus 1 * par.par_S_minus 0]
  let Aij := 1.5 * (par.par_P_plus i * n_plus j + par.par_P_plus j * n_plus i + np_Pp * n_plus i * n_plus j) / r2_plus +
    1.5 * (par.par_P_minus i * n_minus j + par.par_P_minus j * n_minus i + nm_Pm * n_minus i * n_minus j) / r2_minus -
    3.0 * (np_Sp i * n_plus j + np_Sp j * n_plus i) / r3_plus - 3.0 * (nm_Sm i * n_minus j + nm_Sm j * n_minus i) / r3_minus
  if i = j then Aij - 1.5 * (np_Pp / r2_plus + nm_Pm / r2_minus) else Aij

/-- `BY_KKofxyz` (Equations.py:55-100). -/
noncomputable def BY_KKofxyz (par : Par) (x y z : ℝ) : ℝ :=
  let r2_plus := (x - par.par_b) * (x - par.par_b) + y * y + z * z
  let r2_minus := (x + par.par_b) * (x + par.par_b) + y * y + z * z
  (List.finRange 3).foldl (fun (AijAij : ℝ) i => (List.finRange 3).foldl (fun (AijAij : ℝ) j =>
    let Aij := BY_Aij par x y z r2_plus r2_minus i j
    AijAij + Aij * Aij) AijAij) 0

/-- `BY_Aijofxyz` (Equations.py:102-149). -/
noncomputable def BY_Aijofxyz (par : Par) (x y z : ℝ) (i j : Fin 3) : ℝ :=
  let r2_plus := (x - par.par_b) * (x - par.par_b) + y * y + z * z
  let r2_minus := (x + par.par_b) * (x + par.par_b) + y * y + z * z
  let r2_plus := √(r2_plus ^ 2 + par.TP_epsilon ^ 4)
  let r2_minus := √(r2_minus ^ 2 + par.TP_epsilon ^ 4)
  let r2_plus := if r2_plus < par.TP_Tiny ^ 2 then par.TP_Tiny ^ 2 else r2_plus
  let r2_minus := if r2_minus < par.TP_Tiny ^ 2 then par.TP_Tiny ^ 2 else r2_minus
  BY_Aij par x y z r2_plus r2_minus i j

/-- `NonLinEquations` (Equations.py:154-166). -/
noncomputable def NonLinEquations (par : Par) (rho_adm x y z : ℝ) (U : Jet) : ℝ :=
  let r_plus := √((x - par.par_b) * (x - par.par_b) + y * y + z * z)
  let r_minus := √((x + par.par_b) * (x + par.par_b) + y * y + z * z)
  let psi := 1 + 0.5 * par.par_m_plus / r_plus + 0.5 * par.par_m_minus / r_minus + U.d0
  let psi2 := psi * psi
  let psi4 := psi2 * psi2
  let psi7 := psi * psi2 * psi4
  U.d11 + U.d22 + U.d33 + 0.125 * BY_KKofxyz par x y z / psi7 + 2.0 * π / psi2 / psi * rho_adm

/-- `LinEquations` (Equations.py:171-183). -/
noncomputable def LinEquations (par : Par) (x y z : ℝ) (dU U : Jet) : ℝ :=
  let r_plus := √((x - par.par_b) * (x - par.par_b) + y * y + z * z)
  let r_minus := √((x + par.par_b) * (x + par.par_b) + y * y + z * z)
  let psi := 1 + 0.5 * par.par_m_plus / r_plus + 0.5 * par.par_m_minus / r_minus + U.d0
  let psi2 := psi * psi
  let psi4 := psi2 * psi2
  let psi8 := psi4 * psi4
  dU.d11 + dU.d22 + dU.d33 - 0.875 * BY_KKofxyz par x y z / psi8 * dU.d0

/-! ## FuncAndJacobian.py -/

/-- `FAC` (FuncAndJacobian.py:43). -/
noncomputable def FAC (al be : ℝ) : ℝ := sin al * sin be * sin al * sin be * sin al * sin be

/-- The elements of the ten arrays at an index. -/
def Derivs.get (v : Derivs) (x : ℤ) : Jet :=
  ⟨v.d0 x, v.d1 x, v.d2 x, v.d3 x, v.d11 x, v.d12 x, v.d13 x, v.d22 x, v.d23 x, v.d33 x⟩

/-- Assignments to the elements of the ten arrays at an index (FuncAndJacobian.py:348-357). -/
def Derivs.set (v : Derivs) (x : ℤ) (U : Jet) : Derivs where
  d0 := Function.update v.d0 x U.d0
  d1 := Function.update v.d1 x U.d1
  d2 := Function.update v.d2 x U.d2
  d3 := Function.update v.d3 x U.d3
  d11 := Function.update v.d11 x U.d11
  d12 := Function.update v.d12 x U.d12
  d13 := Function.update v.d13 x U.d13
  d22 := Function.update v.d22 x U.d22
  d23 := Function.update v.d23 x U.d23
  d33 := Function.update v.d33 x U.d33

/-- The derivatives of `U = (A - 1) v` (FuncAndJacobian.py:320-329, 434-443, 579-588). -/
def timesAm1 (Am1 : ℝ) (v : Jet) : Jet where
  d0 := Am1 * v.d0
  d1 := v.d0 + Am1 * v.d1
  d2 := Am1 * v.d2
  d3 := Am1 * v.d3
  d11 := 2 * v.d1 + Am1 * v.d11
  d12 := v.d2 + Am1 * v.d12
  d13 := v.d3 + Am1 * v.d13
  d22 := Am1 * v.d22
  d23 := Am1 * v.d23
  d33 := Am1 * v.d33

/-- The triples `(i, j, k)` of three nested loops, `i` outside. -/
def loop3 (n1 n2 n3 : ℕ) : List (ℕ × ℕ × ℕ) :=
  (List.range n1).flatMap fun i => (List.range n2).flatMap fun j => (List.range n3).map fun k => (i, j, k)

/-- The body of the loops of `F_of_v` (FuncAndJacobian.py:310-357): the values stored in `F` and `u` at one node. -/
noncomputable def F_of_v_point (par : Par) (n1 n2 n3 : ℕ) (v : Derivs) (i j k : ℕ) : ℝ × Jet :=
  let al := π / 2 * (2 * i + 1) / n1
  let A := -cos al
  let be := π / 2 * (2 * j + 1) / n2
  let B := -cos be
  let phi := 2 * π * k / n3
  let Am1 := A - 1
  let U := timesAm1 Am1 (v.get (Index 0 i j k 1 n1 n2 n3))
  let (x, y, z, U) := toCartesian par.par_b A B phi U
  let values := NonLinEquations par 0 x y z U
  (values * FAC al be, U)

/-- `F_of_v` (FuncAndJacobian.py:219-397): the arrays of `v` (whose derivatives it computes), `F` and `u`.  `sources` is zero on the
grid; the output of `res.dat` is left out. -/
noncomputable def F_of_v (par : Par) (n1 n2 n3 : ℕ) (v : Derivs) (F : ℤ → ℝ) (u : Derivs) : Derivs × (ℤ → ℝ) × Derivs :=
  let v := Derivatives_AB3 1 n1 n2 n3 v
  let (F, u) := (loop3 n1 n2 n3).foldl (fun (Fu : (ℤ → ℝ) × Derivs) ijk =>
    let indx := Index 0 ijk.1 ijk.2.1 ijk.2.2 1 n1 n2 n3
    let q := F_of_v_point par n1 n2 n3 v ijk.1 ijk.2.1 ijk.2.2
    (Function.update Fu.1 indx q.1, Fu.2.set indx q.2)) (F, u)
  (v, F, u)

/-- The body of the loops of `J_times_dv` (FuncAndJacobian.py:424-469). -/
noncomputable def J_times_dv_point (par : Par) (n1 n2 n3 : ℕ) (dv u : Derivs) (i j k : ℕ) : ℝ :=
  let al := π / 2 * (2 * i + 1) / n1
  let A := -cos al
  let be := π / 2 * (2 * j + 1) / n2
  let B := -cos be
  let phi := 2 * π * k / n3
  let Am1 := A - 1
  let indx := Index 0 i j k 1 n1 n2 n3
  let dU := timesAm1 Am1 (dv.get indx)
  let U := u.get indx
  let (x, y, z, dU) := toCartesian par.par_b A B phi dU
  let values := LinEquations par x y z dU U
  values * FAC al be

/-- `J_times_dv` (FuncAndJacobian.py:400-476): the arrays of `dv` and `Jdv`.  The iterations of the parallel loop over `i` write different
elements and read none of them. -/
noncomputable def J_times_dv (par : Par) (n1 n2 n3 : ℕ) (dv : Derivs) (Jdv : ℤ → ℝ) (u : Derivs) : Derivs × (ℤ → ℝ) :=
  let dv := Derivatives_AB3 1 n1 n2 n3 dv
  (dv, (loop3 n1 n2 n3).foldl (fun (Jdv : ℤ → ℝ) ijk =>
    Function.update Jdv (Index 0 ijk.1 ijk.2.1 ijk.2.2 1 n1 n2 n3) (J_times_dv_point par n1 n2 n3 dv u ijk.1 ijk.2.1 ijk.2.2)) Jdv)

/-- The first lines of `PunctIntPolAtArbitPosition` and of its variants (FuncAndJacobian.py:806-827, 858-875, 946-963):
`(A, B, phi)` of a Cartesian position.  `atan2(z, y)` is the argument of `y + iz`. -/
noncomputable def toABphi (par_b x y z : ℝ) : ℝ × ℝ × ℝ :=
  let xs := x / par_b
  let ys := y / par_b
  let zs := z / par_b
  let rs2 := ys * ys + zs * zs
  let phi := Complex.arg ⟨y, z⟩
  let phi := if phi < 0 then phi + 2 * π else phi
  let aux1 := 0.5 * (xs * xs + rs2 - 1)
  let aux2 := √(aux1 * aux1 + rs2)
  let X := arsinh √(aux1 + aux2)
  let R := arcsin (min 1 √(-aux1 + aux2))
  let R := if x < 0 then π - R else R
  let A := 2 * tanh (0.5 * X) - 1
  let B := tan (0.5 * R - π / 4)
  (A, B, phi)

/-- `PunctIntPolAtArbitPosition` (FuncAndJacobian.py:852-885) for `ivar = 0`; `v` is `v.d0`. -/
noncomputable def PunctIntPolAtArbitPosition (par_b : ℝ) (n1 n2 n3 : ℕ) (v : ℤ → ℝ) (x y z : ℝ) : ℝ :=
  let (A, B, phi) := toABphi par_b x y z
  (A - 1) * PunctEvalAtArbitPosition v 0 A B phi 1 n1 n2 n3

/-- `PunctIntPolAtArbitPositionFast` (FuncAndJacobian.py:939-970) for `ivar = 0`; `v` is `cf_v.d0`. -/
noncomputable def PunctIntPolAtArbitPositionFast (par_b : ℝ) (n1 n2 n3 : ℕ) (v : ℤ → ℝ) (x y z : ℝ) : ℝ :=
  let (A, B, phi) := toABphi par_b x y z
  (A - 1) * PunctEvalAtArbitPositionFast v 0 A B phi 1 n1 n2 n3

/-- `rint` of C in the default rounding mode: to the nearest integer, halves to the even one. -/
noncomputable def rint (x : ℝ) : ℤ :=
  let n := ⌊x⌋
  if x - n < 1 / 2 then n else if 1 / 2 < x - n then n + 1 else if n % 2 = 0 then n else n + 1

/-- `clamp_pm_one` (FuncAndJacobian.py:786-790). -/
noncomputable def clamp_pm_one (val : ℝ) : ℝ := if val < -1 then -1 else if val > 1 then 1 else val

/-- `calculate_derivs` (FuncAndJacobian.py:753-774). -/
noncomputable def calculate_derivs (i j k : ℤ) (n1 n2 n3 : ℕ) (v : Derivs) : Jet :=
  let al := π / 2 * (2 * i + 1) / n1
  let be := π / 2 * (2 * j + 1) / n2
  let sin_al := sin al
  let sin2_al := sin_al * sin_al
  let cos_al := cos al
  let sin_be := sin be
  let sin2_be := sin_be * sin_be
  let cos_be := cos be
  let x := Index 0 i j k 1 n1 n2 n3
  { d0 := v.d0 x
    d1 := v.d1 x * sin_al
    d2 := v.d2 x * sin_be
    d3 := v.d3 x
    d11 := v.d11 x * sin2_al + v.d1 x * cos_al
    d12 := v.d12 x * sin_al * sin_be
    d13 := v.d13 x * sin_al
    d22 := v.d22 x * sin2_be + v.d2 x * cos_be
    d23 := v.d23 x * sin_be
    d33 := v.d33 x }

/-- `interpol` (FuncAndJacobian.py:777-783). -/
noncomputable def interpol (a b c : ℝ) (v : Jet) : ℝ :=
  v.d0 + a * v.d1 + b * v.d2 + c * v.d3 + 0.5 * a * a * v.d11 + a * b * v.d12 + a * c * v.d13 + 0.5 * b * b * v.d22 + b * c * v.d23 +
    0.5 * c * c * v.d33

/-- `PunctTaylorExpandAtArbitPosition` (FuncAndJacobian.py:795-848) for `ivar = 0`. -/
noncomputable def PunctTaylorExpandAtArbitPosition (par_b : ℝ) (n1 n2 n3 : ℕ) (v : Derivs) (x y z : ℝ) : ℝ :=
  let (A, B, phi) := toABphi par_b x y z
  let A := clamp_pm_one A
  let B := clamp_pm_one B
  let al := π - arccos A
  let be := π - arccos B
  let i := rint (al * n1 / π - 0.5)
  let j := rint (be * n2 / π - 0.5)
  let k := rint (0.5 * phi * n3 / π)
  let a := al - π * (i + 0.5) / n1
  let b := be - π * (j + 0.5) / n2
  let c := phi - 2 * π * k / n3
  let vv := calculate_derivs i j k n1 n2 n3 v
  (A - 1) * interpol a b c vv

end Verif.TP
