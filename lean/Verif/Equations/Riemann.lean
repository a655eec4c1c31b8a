import Verif.Equations.FourMetric
import Verif.Equations.MinMax

/-!
# Model of equations/grhd/characteristic_speeds.py and of the HLL solver of HLL_fluxes.py

Exact real arithmetic.  `none`: division by zero, or spatial metric not invertible.
-/
namespace Verif.Equations

/-- Coefficients `a`, `b`, `c` (characteristic_speeds.py:40-43). -/
def speedCoeffs (dirn : Fin 3) (g4UU : Fin 4 → Fin 4 → ℝ) (u4U : Fin 4 → ℝ) (cs2 : ℝ) : ℝ × ℝ × ℝ :=
  ((1 - cs2) * u4U 0 ^ 2 - cs2 * g4UU 0 0,
   2 * cs2 * g4UU dirn.succ 0 - 2 * u4U dirn.succ * u4U 0 * (1 - cs2),
   (1 - cs2) * u4U dirn.succ ^ 2 - cs2 * g4UU dirn.succ dirn.succ)

/-- `find_cp_cm` (characteristic_speeds.py:18-64): the pair `(cminus, cplus)`. -/
noncomputable def findCpCm (dirn : Fin 3) (g4UU : Fin 4 → Fin 4 → ℝ) (u4U : Fin 4 → ℝ) (cs2 : ℝ) : Option (ℝ × ℝ) :=
  let (a, b, c) := speedCoeffs dirn g4UU u4U cs2
  let detm := Real.sqrt (maxNoif id (.zero true) (.of (b * b - 4 * a * c)))
  open Classical in
  if a = 0 then none
  else
    let cplusTmp := 1 / 2 * (-b / a + detm / a)
    let cminusTmp := 1 / 2 * -(b / a + detm / a)
    some (minNoif id (.of cplusTmp) (.of cminusTmp), maxNoif id (.of cplusTmp) (.of cminusTmp))

/-- `find_cmax_cmin` (characteristic_speeds.py:67-117): the pair `(cmin, cmax)`.  `z`: whether the literal `0.0`
compares equal to `sp.sympify(0)`. -/
noncomputable def findCmaxCmin (z : Bool) (dirn : Fin 3) (gammaDD : Fin 3 → Fin 3 → ℝ) (betaU : Fin 3 → ℝ) (alpha : ℝ)
    (u4r u4l : Fin 4 → ℝ) (cs2r cs2l : ℝ) : Option (ℝ × ℝ) := do
  let g4UU ← admToG4UU gammaDD betaU alpha none
  let (cmr, cpr) ← findCpCm dirn g4UU u4r cs2r
  let (cml, cpl) ← findCpCm dirn g4UU u4l cs2l
  let cmax := maxNoif id (.zero z) (.of (maxNoif id (.of cpl) (.of cpr)))
  let cmin := -minNoif id (.zero z) (.of (minNoif id (.of cml) (.of cmr)))
  return (cmin, cmax)

/-- `HLL_solver` (HLL_fluxes.py:120-139). -/
noncomputable def hllSolver (cmax cmin Fr Fl Ur Ul : ℝ) : Option ℝ :=
  divR id (cmin * Fr + cmax * Fl - cmin * cmax * (Ur - Ul)) (cmax + cmin)

end Verif.Equations
