import Verif.RefMetric.Hatted
import Mathlib.Analysis.SpecialFunctions.Trigonometric.Basic
import Mathlib.Analysis.SpecialFunctions.Sqrt

/-!
# Model of the equations of the scalar wave equation
(`nrpy/equations/wave_equation`)
-/
namespace Verif.Wave
open Verif.RefMetric Real

/-- The symbols `vv`, `uu_dD`, `uu_dDD` of the right-hand sides. -/
structure Syms where
  vv : ℝ
  uu_dD : Fin 3 → ℝ
  uu_dDD : Fin 3 → Fin 3 → ℝ

/-- `contractedGammahatU` (WaveEquationCurvilinear_RHSs.py:65-71). -/
noncomputable def contractedGammahatU (s : Vec → Vec) (x : Vec) (k : Fin 3) : ℝ :=
  ∑ i, ∑ j, ghatUU s i j x * GammahatUDD s k i j x

/-- `WaveEquationCurvilinear_RHSs`: `uu_rhs`, `vv_rhs` (WaveEquationCurvilinear_RHSs.py:97-110). -/
noncomputable def curviRhs (wavespeed : ℝ) (s : Vec → Vec) (x : Vec) (g : Syms) : ℝ × ℝ :=
  (g.vv, (∑ i, (-(contractedGammahatU s x i * g.uu_dD i) + ∑ j, ghatUU s i j x * g.uu_dDD i j)) * (wavespeed * wavespeed))

/-- `WaveEquation_RHSs`: `uu_rhs`, `vv_rhs` (WaveEquation_RHSs.py:66-69). -/
noncomputable def cartRhs (wavespeed : ℝ) (g : Syms) : ℝ × ℝ := (g.vv, ∑ i, wavespeed * wavespeed * g.uu_dDD i i)

/-- `PlaneWave`: `uu_exactsoln` (WaveEquation_Solutions_InitialData.py:172-182). -/
noncomputable def planeU (wavespeed : ℝ) (kk : Vec) (time : ℝ) (x : Vec) : ℝ :=
  sin ((∑ i, kk i * x i) / √(kk 0 ^ 2 + kk 1 ^ 2 + kk 2 ^ 2) - wavespeed * time) + 2

/-- `PlaneWave`: `vv_exactsoln` (line 183). -/
noncomputable def planeV (wavespeed : ℝ) (kk : Vec) (time : ℝ) (x : Vec) : ℝ := deriv (fun t => planeU wavespeed kk t x) time

/-- `r` of `SphericalGaussian` (lines 103-106). -/
noncomputable def radius (x : Vec) : ℝ := √(∑ i, x i ^ 2)

/-- `SphericalGaussian`: `uu_exactsoln` (lines 111-118). -/
noncomputable def gaussU (wavespeed sigma time : ℝ) (x : Vec) : ℝ :=
  ((radius x - wavespeed * time) / radius x) * exp (-((radius x - wavespeed * time) ^ 2) / (2 * sigma ^ 2)) +
    ((radius x + wavespeed * time) / radius x) * exp (-((radius x + wavespeed * time) ^ 2) / (2 * sigma ^ 2)) + 2

/-- `SphericalGaussian`: `vv_exactsoln` (line 119). -/
noncomputable def gaussV (wavespeed sigma time : ℝ) (x : Vec) : ℝ := deriv (fun t => gaussU wavespeed sigma t x) time

/-- `SphericalGaussian`: `uu_exactsoln_r0` (lines 124-134). -/
noncomputable def gaussU0 (wavespeed sigma time : ℝ) (x : Vec) : ℝ :=
  deriv (fun rvar : ℝ => (rvar - wavespeed * time) * exp (-((rvar - wavespeed * time) ^ 2) / (2 * sigma ^ 2)) +
    (rvar + wavespeed * time) * exp (-((rvar + wavespeed * time) ^ 2) / (2 * sigma ^ 2))) (radius x) + 2

/-- `SphericalGaussian`: `vv_exactsoln_r0` (line 135). -/
noncomputable def gaussV0 (wavespeed sigma time : ℝ) (x : Vec) : ℝ := deriv (fun t => gaussU0 wavespeed sigma t x) time

end Verif.Wave
