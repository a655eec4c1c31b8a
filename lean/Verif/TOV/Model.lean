import Verif.BSSN.Geometry
import Mathlib.Analysis.SpecialFunctions.Pow.Real
import Mathlib.Analysis.SpecialFunctions.Trigonometric.Inverse

/-!
# Model of the Tolman-Oppenheimer-Volkoff equations and of TOVola

`nrpy/equations/tov/TOV_equations.py` and the C code in `nrpy/infrastructures/BHaH/general_relativity/TOVola/TOVola_solve.py` (`solve`) and
`TOVola_interp.py` (`interp`).  `REAL` is `ℝ`, `M_PI` is `π`; a value that is not a number is `none` where the code looks for it with
`isnan`.  The stepper of GSL is not modelled: what the driver returns is a parameter.
-/
namespace Verif.TOV
open Verif.RefMetric Verif.BSSN Real

/-! ### The equations -/

section
variable (r_Schw r_iso rho_energy P M : ℝ)

/-- `dP_dr` (TOV_equations.py:33-35). -/
noncomputable def dP_dr : ℝ :=
  -((rho_energy + P) * ((2 * M) / r_Schw + 8 * π * r_Schw * r_Schw * P)) / (r_Schw * 2 * (1 - (2 * M) / r_Schw))

/-- `dnu_dr` (TOV_equations.py:36-38). -/
noncomputable def dnu_dr : ℝ := ((2 * M) / r_Schw + 8 * π * r_Schw * r_Schw * P) / (r_Schw * (1 - (2 * M) / r_Schw))

/-- `dM_dr` (TOV_equations.py:39). -/
noncomputable def dM_dr : ℝ := 4 * π * r_Schw * r_Schw * rho_energy

/-- `dr_iso_dr` (TOV_equations.py:41). -/
noncomputable def dr_iso_dr : ℝ := r_iso / (r_Schw * √(1 - (2 * M) / r_Schw))
end

/-! ### The right-hand side (solve:50-168) -/

/-- The array `y`: pressure, `nu`, mass, isotropic radius (solve:22-25). -/
structure State where
  P : ℝ
  nu : ℝ
  M : ℝ
  riso : ℝ

/-- The parameters of the equation of state (ID_persist_struct.py:15-16). -/
structure Eos where
  K : ℝ
  Gamma : ℝ

/-- `ghl_hybrid_compute_P_cold_and_eps_cold` (solve:57-64): pressure and specific internal energy at a baryon density. -/
noncomputable def cold (e : Eos) (rho_baryon : ℝ) : ℝ × ℝ :=
  let P := e.K * rho_baryon ^ e.Gamma
  (P, P / ((e.Gamma - 1) * rho_baryon))

/-- `TOVola_evaluate_rho_and_eps` (solve:91-104): `(rho_baryon, rho_energy)`.  `none` is `rho_energy = NaN`: `pow` of a negative number is
not a number, and at zero pressure `eps` is `0/0`.  The model assumes `K > 0`. -/
noncomputable def densities (e : Eos) (P : ℝ) : ℝ × Option ℝ :=
  let rho_baryon := (P / e.K) ^ (1 / e.Gamma)
  (rho_baryon, if 0 < P then some (rho_baryon * (1 + (cold e rho_baryon).2)) else none)

/-- The energy density that `TOVola_ODE` uses (solve:131-137). -/
noncomputable def energy (e : Eos) (P : ℝ) : ℝ := (densities e P).2.getD 0

/-- `TOVola_ODE` (solve:123-168). -/
noncomputable def ode (e : Eos) (r_Schw : ℝ) (y : State) : State :=
  if r_Schw = 0 then ⟨0, 0, 0, 1⟩
  else ⟨dP_dr r_Schw (energy e y.P) y.P y.M, dnu_dr r_Schw y.P y.M, dM_dr r_Schw (energy e y.P), dr_iso_dr r_Schw y.riso y.M⟩

/-- `TOVola_get_initial_condition` (solve:178-193): the state and the densities. -/
noncomputable def initialCondition (e : Eos) (rhoC_baryon : ℝ) : State × ℝ × ℝ :=
  let P := e.K * rhoC_baryon ^ e.Gamma
  (⟨P, 0, 0, 0⟩, rhoC_baryon, (P / e.K) ^ (1 / e.Gamma) + P / (e.Gamma - 1))

/-! ### Normalization (solve:290-327) -/

/-- `normalize` (solve:318). -/
noncomputable def normalize (R_surface M_surface r_iso_surface : ℝ) : ℝ :=
  0.5 * (√(R_surface * (R_surface - 2 * M_surface)) + R_surface - M_surface) / r_iso_surface

/-- A point of the normalized arrays (solve:321-325): `r_iso`, `expnu`, `exp4phi`.  `s` is the state at the surface. -/
noncomputable def normalized (R_surface : ℝ) (s : State) (r_Schw : ℝ) (y : State) : ℝ × ℝ × ℝ :=
  let r_iso := y.riso * normalize R_surface s.M s.riso
  (r_iso, exp (y.nu - s.nu + log (1 - 2 * s.M / R_surface)), (r_Schw / r_iso) * (r_Schw / r_iso))

/-! ### The data at a point (interp) -/

/-- The values that `TOVola_TOV_interpolate_1D` returns and `TOVola_interp` uses. -/
structure Values where
  rho_energy : ℝ
  P : ℝ
  expnu : ℝ
  exp4phi : ℝ

/-- `TOVola_TOV_interpolate_1D` outside the star (interp:131-140). -/
noncomputable def exterior (M_star rr_iso : ℝ) : Values :=
  let r_Schw := (rr_iso + M_star) + M_star * M_star / (4 * rr_iso)
  ⟨0, 0, 1 - 2 * M_star / r_Schw, (r_Schw * r_Schw) / (rr_iso * rr_iso)⟩

/-- `initial_data_struct`, in the spherical basis. -/
structure InitialData where
  alpha : ℝ
  betaU : Fin 3 → ℝ
  BU : Fin 3 → ℝ
  gammaDD : Fin 3 → Fin 3 → ℝ
  KDD : Fin 3 → Fin 3 → ℝ
  T4UU : Fin 4 → Fin 4 → ℝ

/-- `TOVola_interp` (interp:148-198).  `v` is `TOVola_TOV_interpolate_1D`.  The struct has the components with `i ≤ j`; here both orders. -/
noncomputable def interp (v : ℝ → Values) (xCart : Vec) : InitialData :=
  let r_iso := √(xCart 0 * xCart 0 + xCart 1 * xCart 1 + xCart 2 * xCart 2)
  let theta := arccos (xCart 2 / r_iso)
  let w := v r_iso
  { alpha := √w.expnu
    betaU := fun _ => 0
    BU := fun _ => 0
    gammaDD := ![![w.exp4phi, 0, 0], ![0, w.exp4phi * r_iso * r_iso, 0], ![0, 0, w.exp4phi * r_iso * r_iso * sin theta * sin theta]]
    KDD := fun _ _ => 0
    T4UU := ![![w.rho_energy / w.expnu, 0, 0, 0], ![0, w.P / w.exp4phi, 0, 0], ![0, 0, w.P / (w.exp4phi * r_iso * r_iso), 0],
      ![0, 0, 0, w.P / (w.exp4phi * r_iso * r_iso * sin theta * sin theta)]] }

end Verif.TOV
