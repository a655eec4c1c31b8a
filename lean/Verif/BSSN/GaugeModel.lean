import Verif.BSSN.RhsModel
import Verif.Py.Str

/-!
# `BSSN_gauge_RHSs.py`

`BSSN_gauge_RHSs` returns SymPy expressions; here an expression is the function from the values of its symbols
(reference metric `R`, gridfunctions `G`, parameter `eta`) to its value, as in `Verif.BSSN.RhsModel`.  The objects
`BSSN_quantities[key]` are cached by `CoordSystem` and `_rfm_precompute`, and one option assigns to the list `BU` of the
cached object.  So the state is the set of keys whose cached `BU` has been overwritten.
-/
namespace Verif.BSSN
open Verif.RefMetric Verif.IndexedExp

/-- The key of a cached object: `CoordSystem` and `enable_rfm_precompute` (BSSN_gauge_RHSs.py:64-66). -/
abbrev Key := Py.Str × Bool

/-- The keys whose cached `BU` is zero (BSSN_gauge_RHSs.py:144, 158). -/
abbrev Cache := List Key

/-- The three returned expressions (BSSN_gauge_RHSs.py:329). -/
structure GaugeRhs where
  alpha_rhs : ℝ
  vet_rhsU : V1
  bet_rhsU : V1

/-- The lapse condition (BSSN_gauge_RHSs.py:89-124). -/
noncomputable def lapseRhs (c : CF) (lapse : Py.Str) : Except String (Rfm → Gfs → ℝ) :=
  if lapse = c% "OnePlusLog" then .ok fun R G => -2 * G.alpha * G.trK + ∑ i, betaU R G i * G.alpha_dupD i
  else if lapse = c% "HarmonicSlicing" then
    match c with
    | .W => .ok fun R G => -3 * (G.cf ^ 4)⁻¹ * cf_rhs R G .W
    | .phi => .ok fun R G => 6 * Real.exp (6 * G.cf) * cf_rhs R G .phi
    | .chi => .error "ValueError"
  else if lapse = c% "Frozen" then .ok fun _ _ => 0
  else if lapse = c% "OnePlusLogAlt" then .ok fun R G => -G.alpha * (1 - G.alpha) * G.trK + ∑ i, betaU R G i * G.alpha_dupD i
  else .error "ValueError"

section
variable (R : Rfm) (G : Gfs) (c : CF) (T4 : Option (Fin 4 → Fin 4 → ℝ)) (eta : ℝ)

/-- The supported shift conditions (BSSN_gauge_RHSs.py:130-138). -/
def shiftOptions : List Py.Str := [c% "Frozen", c% "GammaDriving2ndOrder_NoCovariant", c% "GammaDriving2ndOrder_Covariant",
  c% "GammaDriving2ndOrder_Covariant__Hatted", c% "GammaDriving1stOrder_Covariant",
  c% "GammaDriving1stOrder_Covariant__Hatted", c% "NonAdvectingGammaDriving"]

/-- `BU_dupD` (BSSN_gauge_RHSs.py:173-177, 232-236). -/
def BU_dupD : V2 := fun i j => G.betU_dupD i j * R.ReU i + G.betU i * R.ReUdD i j

/-- `ConnectionUDD` (BSSN_gauge_RHSs.py:196-200, 217-221, 278-282). -/
noncomputable def connection (hatted : Bool) : V3 := if hatted then R.GammahatUDD else GammabarUDD R G

/-- `beta_rhsU` and `B_rhsU` before rescaling (BSSN_gauge_RHSs.py:147-313); `B` is the value of the list `BU` in hand. -/
noncomputable def shiftRhs (shift : Py.Str) (B : V1) : V1 × V1 :=
  let β := betaU R G
  let dβ := betaU_dupD R G
  -- lines 147-149, 155-157
  let r0 : V1 × V1 := (fun _ => 0, fun _ => 0)
  -- lines 160-191
  let r1 : V1 × V1 := if shift = c% "GammaDriving2ndOrder_NoCovariant" then
      (fun i => r0.1 i + B i + ∑ j, β j * dβ i j,
       fun i => r0.2 i + (3 / 4 * (Lambdabar_rhsU R G c T4 i + ∑ j, -β j * LambdabarU_dupD R G i j) - eta * B i) + ∑ j, β j * BU_dupD R G i j)
    else r0
  -- lines 194-267
  let r2 : V1 × V1 := if Py.containsSub (c% "GammaDriving2ndOrder_Covariant") shift then
      let Γ := connection R G (decide (shift = c% "GammaDriving2ndOrder_Covariant__Hatted"))
      (fun i => r1.1 i + ∑ j, β j * dβ i j + ∑ j, ∑ m, β j * Γ i m j * β m + B i,
       fun i => r1.2 i + ∑ j, β j * BU_dupD R G i j + ∑ j, ∑ m, β j * Γ i m j * B m + 3 / 4 * Lambdabar_rhsU R G c T4 i +
        ∑ j, -(3 / 4) * β j * LambdabarU_dupD R G i j + ∑ j, ∑ m, -(3 / 4) * β j * Γ i m j * LambdabarU R G m + -eta * B i)
    else r1
  -- lines 269-298
  let r3 : V1 × V1 := if Py.containsSub (c% "GammaDriving1stOrder_Covariant") shift then
      let Γ := connection R G (decide (shift = c% "GammaDriving1stOrder_Covariant__Hatted"))
      (fun i => r2.1 i + ∑ j, β j * dβ i j + ∑ j, ∑ m, β j * Γ i m j * β m + (3 / 4 * LambdabarU R G i - eta * β i), fun _ => 0)
    else r2
  -- lines 300-313
  if shift = c% "NonAdvectingGammaDriving" then
    (fun i => r3.1 i + B i, fun i => r3.2 i + (3 / 4 * Lambdabar_rhsU R G c T4 i - eta * B i))
  else r3

end

/-- `BSSN_gauge_RHSs` (BSSN_gauge_RHSs.py:32-329) at the value `c` of `EvolvedConformalFactor_cf`: the new state of the
cache, and the expressions or the exception.  `T4` is `none` without `enable_T4munu`. -/
noncomputable def BSSN_gauge_RHSs (c : CF) (key : Key) (lapse shift : Py.Str) (Z : Cache) :
    Cache × Except String (Rfm → Gfs → Option (Fin 4 → Fin 4 → ℝ) → ℝ → GaugeRhs) :=
  match lapseRhs c lapse with
  | .error e => (Z, .error e)
  | .ok a =>
    -- lines 130-141
    if shift ∉ shiftOptions then (Z, .error "ValueError")
    else
      -- lines 155-158
      let Z' := if shift = c% "Frozen" then key :: Z else Z
      (Z', .ok fun R G T4 eta =>
        let B : V1 := if key ∈ Z' then fun _ => 0 else BU R G
        let r := shiftRhs R G c T4 eta shift B
        -- lines 317-321
        ⟨a R G, fun i => r.1 i / R.ReU i, fun i => r.2 i / R.ReU i⟩)

end Verif.BSSN
