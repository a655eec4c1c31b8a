import Verif.TP.EqModel
import Mathlib.Analysis.SpecialFunctions.Pow.Real

/-!
# Model of the initialisation of TwoPunctures and of the interpolation to a point

nrpy/infrastructures/BHaH/general_relativity/TwoPunctures/ID_persist_struct.py and TP_interp.py.  Numbers are reals; division by zero gives 0 in the model and an
infinity or a NaN in the code, and `pow` with a real exponent is the real power.  The members of the structures that none of the modelled functions read are left out.
-/
namespace Verif.TP
open Real

/-- `ID_persist_struct` (ID_persist_struct.py:44-86), without the flags for printing and for sources and without the results that are only printed; the members that the
equations read are in `Par`.  Of `cf_v` only `cf_v.d0` is used. -/
structure Persist extends Par where
  v : Derivs
  cf_v : ℤ → ℝ
  mp : ℝ
  mm : ℝ
  npoints_A : ℕ
  npoints_B : ℕ
  npoints_phi : ℕ
  Newton_maxit : ℕ
  adm_tol : ℝ
  Newton_tol : ℝ
  TP_Extend_Radius : ℝ
  target_M_plus : ℝ
  target_M_minus : ℝ
  center_offset : Fin 3 → ℝ
  initial_lapse_psi_exponent : ℝ
  give_bare_mass : Bool
  swap_xz : Bool
  multiply_old_lapse : Bool
  grid_setup_method : String
  initial_lapse : String

/-- The members of `commondata_struct` that `initialize_ID_persist_struct` reads. -/
structure Commondata where
  TP_npoints_A : ℤ
  TP_npoints_B : ℤ
  TP_npoints_phi : ℤ
  mass_ratio : ℝ
  initial_p_t : ℝ
  initial_p_r : ℝ
  initial_sep : ℝ
  TP_bare_mass_M : ℝ
  TP_bare_mass_m : ℝ
  bbhxy_BH_m_chi : Fin 3 → ℝ
  bbhxy_BH_M_chi : Fin 3 → ℝ

/-- `initialize_ID_persist_struct` (ID_persist_struct.py:108-231).  `NRPyPN` is `NRPyPN_quasicircular_momenta`, which sets `initial_p_t` and `initial_p_r` (their new
values); it is a parameter here.  `par` is the structure before the call.  `mass_M` and `mass_m` of `commondata` become `target_M_plus` and `target_M_minus`. -/
noncomputable def initialize_ID_persist_struct (NRPyPN : Commondata → ℝ × ℝ) (c : Commondata) (par : Persist) : Persist :=
  let n : ℕ × ℕ × ℕ :=
    if c.TP_npoints_A < 0 ∨ c.TP_npoints_B < 0 ∨ c.TP_npoints_phi < 0 then
      if c.mass_ratio ≥ 2.0 then (66, 66, 28) else (48, 48, 20)
    else (c.TP_npoints_A.toNat, c.TP_npoints_B.toNat, c.TP_npoints_phi.toNat)
  let (p_t, p_r) := if c.initial_p_t = -1.0 ∨ c.initial_p_r = -1.0 then NRPyPN c else (c.initial_p_t, c.initial_p_r)
  let q := c.mass_ratio
  let mass_M := q / (1.0 + q)
  let mass_m := 1.0 / (1.0 + q)
  let target_M_plus := mass_M
  let target_M_minus := mass_m
  let give_bare_mass := !decide (c.TP_bare_mass_M < 0 ∨ c.TP_bare_mass_m < 0)
  let par_m_plus := if give_bare_mass then c.TP_bare_mass_M else 0.9 * target_M_plus
  let par_m_minus := if give_bare_mass then c.TP_bare_mass_m else 0.9 * target_M_minus
  let par_b := 0.5 * c.initial_sep
  let grid_dist_from_origin_BH_m := c.initial_sep * target_M_plus
  let grid_dist_from_origin_BH_M := c.initial_sep * target_M_minus
  { par with
    initial_lapse := "psi^n"
    initial_lapse_psi_exponent := -2.0
    Newton_maxit := 5
    Newton_tol := 1.0e-10
    TP_epsilon := 1e-6
    adm_tol := 1.0e-10
    TP_Tiny := 0.0
    TP_Extend_Radius := 0.0
    swap_xz := false
    multiply_old_lapse := false
    grid_setup_method := "evaluation"
    give_bare_mass := give_bare_mass
    npoints_A := n.1
    npoints_B := n.2.1
    npoints_phi := n.2.2
    target_M_plus := target_M_plus
    target_M_minus := target_M_minus
    par_m_plus := par_m_plus
    par_m_minus := par_m_minus
    par_b := par_b
    center_offset := ![-(grid_dist_from_origin_BH_m - grid_dist_from_origin_BH_M) * 0.5, 0, 0]
    par_P_plus := ![-|p_r|, |p_t|, 0]
    par_P_minus := ![|p_r|, -|p_t|, 0]
    par_S_minus := fun ii => c.bbhxy_BH_m_chi ii * target_M_minus * target_M_minus
    par_S_plus := fun ii => c.bbhxy_BH_M_chi ii * target_M_plus * target_M_plus }

/-- `initial_data_struct`: the six components of each of the two symmetric tensors, the lapse, and the shift and its derivative. -/
structure InitialData where
  gammaSphorCartDD00 : ℝ
  gammaSphorCartDD01 : ℝ
  gammaSphorCartDD02 : ℝ
  gammaSphorCartDD11 : ℝ
  gammaSphorCartDD12 : ℝ
  gammaSphorCartDD22 : ℝ
  KSphorCartDD00 : ℝ
  KSphorCartDD01 : ℝ
  KSphorCartDD02 : ℝ
  KSphorCartDD11 : ℝ
  KSphorCartDD12 : ℝ
  KSphorCartDD22 : ℝ
  alpha : ℝ
  betaSphorCartU : Fin 3 → ℝ
  BSphorCartU : Fin 3 → ℝ

/-- `EXTEND` (TP_interp.py:159); `E` is `TP_Extend_Radius`. -/
noncomputable def EXTEND (E M r : ℝ) : ℝ := M * (3 / 8 * r ^ 4 / E ^ 5 - 5 / 4 * r ^ 2 / E ^ 3 + 15 / 8 / E)

/-- The distance with its regularisation (TP_interp.py:138-139, 152-157 and 189-192, 220-223). -/
noncomputable def regularised (par : Par) (r2 : ℝ) : ℝ :=
  let r := √r2
  let r := (r ^ 4 + par.TP_epsilon ^ 4) ^ (0.25 : ℝ)
  if r < par.TP_Tiny then par.TP_Tiny else r

/-- `TP_Interp` (TP_interp.py:47-363).  `none` is `exit(1)`.  `CCTK_EQUALS` compares up to 100 characters of arrays of 100 characters and is equality here.  The first and
second derivatives of `p` (lines 204-213, 236-245), which the code does not use afterwards, are left out; `conformal_state` is 0 and `static_psi` is 1. -/
noncomputable def TP_Interp (ID_persist : Persist) (xCart : Fin 3 → ℝ) : Option InitialData :=
  let par := ID_persist.toPar
  let b := par.par_b
  let mp := ID_persist.mp
  let mm := ID_persist.mm
  let E := ID_persist.TP_Extend_Radius
  let n1 := ID_persist.npoints_A
  let n2 := ID_persist.npoints_B
  let n3 := ID_persist.npoints_phi
  let x_dest := xCart 0 - ID_persist.center_offset 0
  let y_dest := xCart 1 - ID_persist.center_offset 1
  let z_dest := xCart 2 - ID_persist.center_offset 2
  let xx := z_dest
  let yy := x_dest
  let zz := y_dest
  let (xx, zz) := if ID_persist.swap_xz then (zz, xx) else (xx, zz)
  let U? : Option ℝ :=
    if ID_persist.grid_setup_method = "Taylor expansion" then some (PunctTaylorExpandAtArbitPosition b n1 n2 n3 ID_persist.v xx yy zz)
    else if ID_persist.grid_setup_method = "evaluation" then some (PunctIntPolAtArbitPositionFast b n1 n2 n3 ID_persist.cf_v xx yy zz)
    else none
  match U? with
  | none => none
  | some U =>
    let antisymmetric_lapse := ID_persist.initial_lapse = "twopunctures-antisymmetric"
    let averaged_lapse := ID_persist.initial_lapse = "twopunctures-averaged"
    let pmn_lapse := ID_persist.initial_lapse = "psi^n"
    let brownsville_lapse := ID_persist.initial_lapse = "brownsville"
    let alp_out := -1.0e100
    let r_plus := regularised par ((xx - b) ^ 2 + yy ^ 2 + zz ^ 2)
    let r_minus := regularised par ((xx + b) ^ 2 + yy ^ 2 + zz ^ 2)
    let psi1 := 1 + 0.5 * mp / r_plus + 0.5 * mm / r_minus + U
    let psi1 := if r_plus < E then 1 + 0.5 * EXTEND E mp r_plus + 0.5 * mm / r_minus + U else psi1
    let psi1 := if r_minus < E then 1 + 0.5 * EXTEND E mm r_minus + 0.5 * mp / r_plus + U else psi1
    let static_psi := 1
    let Aij := BY_Aijofxyz par xx yy zz
    let old_alp := if ID_persist.multiply_old_lapse then alp_out else 1.0
    let alp_out := if pmn_lapse ∨ brownsville_lapse then
        let p := 1.0
        let rp := regularised par ((xx - b) * (xx - b) + yy * yy + zz * zz)
        let ir := 1.0 / rp
        let ir := if rp < E then EXTEND E 1 rp else ir
        let p := p + 0.5 * mp * ir
        let rp := regularised par ((xx + b) * (xx + b) + yy * yy + zz * zz)
        let ir := 1.0 / rp
        let ir := if rp < E then EXTEND E 1 rp else ir
        let p := p + 0.5 * mm * ir
        let alp_out := if pmn_lapse then p ^ ID_persist.initial_lapse_psi_exponent else alp_out
        if brownsville_lapse then 2.0 / (1.0 + p ^ ID_persist.initial_lapse_psi_exponent) else alp_out
      else alp_out
    let gxx := (psi1 / static_psi) ^ 4
    let gxy := 0
    let gxz := 0
    let gyy := (psi1 / static_psi) ^ 4
    let gyz := 0
    let gzz := (psi1 / static_psi) ^ 4
    let Kxx := Aij 0 0 / psi1 ^ 2
    let Kxy := Aij 0 1 / psi1 ^ 2
    let Kxz := Aij 0 2 / psi1 ^ 2
    let Kyy := Aij 1 1 / psi1 ^ 2
    let Kyz := Aij 1 2 / psi1 ^ 2
    let Kzz := Aij 2 2 / psi1 ^ 2
    let alp_out := if antisymmetric_lapse ∨ averaged_lapse then
        let alp_out := (1.0 - 0.5 * mp / r_plus - 0.5 * mm / r_minus) / (1.0 + 0.5 * mp / r_plus + 0.5 * mm / r_minus)
        let alp_out := if r_plus < E then
          (1.0 - 0.5 * EXTEND E mp r_plus - 0.5 * mm / r_minus) / (1.0 + 0.5 * EXTEND E mp r_plus + 0.5 * mm / r_minus) else alp_out
        let alp_out := if r_minus < E then
          (1.0 - 0.5 * EXTEND E mm r_minus - 0.5 * mp / r_plus) / (1.0 + 0.5 * EXTEND E mp r_minus + 0.5 * mp / r_plus) else alp_out
        if averaged_lapse then 0.5 * (1.0 + alp_out) else alp_out
      else alp_out
    let alp_out := if ID_persist.multiply_old_lapse then alp_out * old_alp else alp_out
    let (gxx, gzz) := if ID_persist.swap_xz then (gzz, gxx) else (gxx, gzz)
    let (gxy, gyz) := if ID_persist.swap_xz then (gyz, gxy) else (gxy, gyz)
    let (Kxx, Kzz) := if ID_persist.swap_xz then (Kzz, Kxx) else (Kxx, Kzz)
    let (Kxy, Kyz) := if ID_persist.swap_xz then (Kyz, Kxy) else (Kxy, Kyz)
    some {
      gammaSphorCartDD22 := gxx
      gammaSphorCartDD02 := gxy
      gammaSphorCartDD12 := gxz
      gammaSphorCartDD00 := gyy
      gammaSphorCartDD01 := gyz
      gammaSphorCartDD11 := gzz
      KSphorCartDD22 := Kxx
      KSphorCartDD02 := Kxy
      KSphorCartDD12 := Kxz
      KSphorCartDD00 := Kyy
      KSphorCartDD01 := Kyz
      KSphorCartDD11 := Kzz
      alpha := alp_out
      betaSphorCartU := ![0, 0, 0]
      BSphorCartU := ![0, 0, 0] }

end Verif.TP
