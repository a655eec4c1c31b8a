import Verif.IndexedExp.Inverters
import Mathlib.Analysis.Real.Sqrt
import Mathlib.Algebra.BigOperators.Fin

/-!
# Model of equations/general_relativity/g4munu_conversions.py

SymPy expressions are modelled by their real values.  Loops that add to a zero-initialised entry are finite
sums.  `none` = `NonInvertibleMatrixError`.  Not modelled: the BSSN variants (`BSSN_to_g4DD`, `BSSN_to_g4UU`,
`g4DD_to_BSSN`).
-/
namespace Verif.Equations
open Verif.IndexedExp

/-- A 4x4 array from its blocks; index 0 is time. -/
def block4 (a : ℝ) (r c : Fin 3 → ℝ) (m : Fin 3 → Fin 3 → ℝ) : Fin 4 → Fin 4 → ℝ :=
  Fin.cases (Fin.cases a r) fun i => Fin.cases (c i) (m i)

/-- `betaD` (g4munu_conversions.py:36-40). -/
def lower (gammaDD : Fin 3 → Fin 3 → ℝ) (betaU : Fin 3 → ℝ) : Fin 3 → ℝ := fun i => ∑ j, gammaDD i j * betaU j

/-- `ADM_to_g4DD` (g4munu_conversions.py:20-55). -/
def admToG4DD (gammaDD : Fin 3 → Fin 3 → ℝ) (betaU : Fin 3 → ℝ) (alpha : ℝ) : Fin 4 → Fin 4 → ℝ :=
  let betaD := lower gammaDD betaU
  let beta2 := ∑ i, betaU i * betaD i
  block4 (-(alpha ^ 2) + beta2) betaD betaD gammaDD

/-- The last step of `ADM_to_g4UU` (g4munu_conversions.py:101-110). -/
noncomputable def g4UUof (gammaUU : Fin 3 → Fin 3 → ℝ) (betaU : Fin 3 → ℝ) (alpha : ℝ) : Fin 4 → Fin 4 → ℝ :=
  block4 (-1 / alpha ^ 2) (fun i => betaU i / alpha ^ 2) (fun i => betaU i / alpha ^ 2)
    fun i j => gammaUU i j - betaU i * betaU j / alpha ^ 2

/-- `ADM_to_g4UU` (g4munu_conversions.py:82-112). -/
noncomputable def admToG4UU (gammaDD : Fin 3 → Fin 3 → ℝ) (betaU : Fin 3 → ℝ) (alpha : ℝ)
    (gammaUU : Option (Fin 3 → Fin 3 → ℝ)) : Option (Fin 4 → Fin 4 → ℝ) :=
  match gammaUU with
  | some u => some (g4UUof u betaU alpha)
  | none => open Classical in (symmInv3 gammaDD).map fun r => g4UUof r.1 betaU alpha

/-- `g4DD_to_ADM` (g4munu_conversions.py:139-185): spatial metric, lapse squared, shift.  The code returns
the square root of the second component; the model returns the radicand, which may be negative. -/
noncomputable def g4DDToADM (g4DD : Fin 4 → Fin 4 → ℝ) : Option ((Fin 3 → Fin 3 → ℝ) × ℝ × (Fin 3 → ℝ)) :=
  let betaD : Fin 3 → ℝ := fun i => g4DD 0 i.castSucc
  let gammaDD : Fin 3 → Fin 3 → ℝ := fun i j => g4DD i.succ j.succ
  open Classical in
  (symmInv3 gammaDD).map fun r =>
    let betaU : Fin 3 → ℝ := fun i => ∑ j, r.1 i j * betaD j
    let betaSquared := ∑ k, betaU k * betaD k
    (gammaDD, betaSquared - g4DD 0 0, betaU)

end Verif.Equations
