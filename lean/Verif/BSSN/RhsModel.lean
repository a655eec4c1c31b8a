import Verif.BSSN.Model
import Verif.Equations.FourMetric
import Mathlib.Analysis.Real.Pi.Bounds

/-!
# Model of T4munu.py, BSSN_constraints.py and BSSN_RHSs.py

Expressions are functions of the values of their symbols at one point, as in `Model.lean`.  The parameter `PI`
(T4munu.py:115-123, 183-191) has its default `3.14159265358979323846264338327950288` replaced by the real number π.  The
registration of gridfunctions and the caching dictionaries are left out.  `T4 = none` stands for
`enable_T4munu=False`.
-/
namespace Verif.BSSN
open Verif.RefMetric Verif.IndexedExp Verif.Equations

/-! ### T4munu.py -/

section T4
variable (gammaDD : V2) (betaU : V1) (alpha : ℝ) (T4UU : Fin 4 → Fin 4 → ℝ)

/-- T4munu.py:39. -/
def n4D : Fin 4 → ℝ := ![-1 * alpha, 0, 0, 0]
/-- T4munu.py:40-45. -/
def gamma4DD : Fin 4 → Fin 4 → ℝ := fun mu nu => admToG4DD gammaDD betaU alpha mu nu + n4D alpha mu * n4D alpha nu
/-- T4munu.py:52-59. -/
def SDD : V2 := fun i j =>
  ∑ mu, ∑ nu, gamma4DD gammaDD betaU alpha i.succ mu * gamma4DD gammaDD betaU alpha j.succ nu * T4UU mu nu
/-- T4munu.py:62-66. -/
def SD : V1 := fun i => ∑ mu, ∑ nu, -gamma4DD gammaDD betaU alpha i.succ mu * n4D alpha nu * T4UU mu nu
/-- T4munu.py:69-73. -/
noncomputable def Strace : ℝ := ∑ i, ∑ j, inv3 gammaDD i j * SDD gammaDD betaU alpha T4UU i j
/-- T4munu.py:76-79. -/
def rho : ℝ := ∑ mu, ∑ nu, n4D alpha mu * n4D alpha nu * T4UU mu nu

end T4

section
variable (R : Rfm) (G : Gfs) (c : CF) (T4UU : Fin 4 → Fin 4 → ℝ)

/-- `T4UU_and_BSSN_to_SDD_SD_S_rho` (T4munu.py:84-97); `BSSN_to_ADM.betaU` is that of BSSN_quantities
(BSSN_to_ADM.py:46). -/
noncomputable def bSDD : V2 := SDD (gammaDD R G c) (betaU R G) G.alpha T4UU
@[inherit_doc bSDD]
noncomputable def bSD : V1 := SD (gammaDD R G c) (betaU R G) G.alpha T4UU
@[inherit_doc bSDD]
noncomputable def bS : ℝ := Strace (gammaDD R G c) (betaU R G) G.alpha T4UU
@[inherit_doc bSDD]
noncomputable def bRho : ℝ := rho G.alpha T4UU

/-- T4munu.py:129. -/
noncomputable def src_trK : ℝ := 4 * Real.pi * G.alpha * (bRho G T4UU + bS R G c T4UU)
/-- T4munu.py:131-145. -/
noncomputable def tracefree_SDD : V2 := fun i j =>
  bSDD R G c T4UU i j + ∑ k, ∑ m, -(1 / 3) * gammabarDD R G i j * gammabarUU R G k m * bSDD R G c T4UU k m
/-- T4munu.py:147-152. -/
noncomputable def src_Abar : V2 := fun i j => -8 * Real.pi * G.alpha * exp_m4phi G c * tracefree_SDD R G c T4UU i j
/-- T4munu.py:154-157. -/
noncomputable def src_Lambdabar : V1 := fun i => ∑ j, -16 * Real.pi * G.alpha * gammabarUU R G i j * bSD R G c T4UU j
/-- T4munu.py:194. -/
noncomputable def src_H : ℝ := -16 * Real.pi * bRho G T4UU
/-- T4munu.py:199-212. -/
noncomputable def src_MU : V1 := fun i => -8 * Real.pi * ∑ j, gammaUU R G c i j * bSD R G c T4UU j

end

section
variable (R : Rfm) (G : Gfs) (c : CF) (T4 : Option (Fin 4 → Fin 4 → ℝ))

/-! ### BSSN_constraints.py -/

/-- BSSN_constraints.py:89-108 (term 3). -/
noncomputable def Hcurv : ℝ := exp_m4phi G c * (∑ i, ∑ j, gammabarUU R G i j * RbarDD R G i j -
  8 * (∑ i, ∑ j, gammabarUU R G i j * phi_dD G c i * phi_dD G c j + ∑ i, ∑ j, gammabarUU R G i j * phi_dBarDD R G c i j))
/-- `H` (BSSN_constraints.py:81-108, 159-171). -/
noncomputable def H : ℝ := 2 / 3 * G.trK ^ 2 + ∑ i, ∑ j, -AbarDD R G i j * AbarUU R G i j + Hcurv R G c +
  match T4 with | none => 0 | some T => src_H G T
/-- BSSN_constraints.py:130-141. -/
noncomputable def AbarDD_dBarD : V3 := fun i j k =>
  AbarDD_dD R G i j k + ∑ l, (-GammabarUDD R G l k i * AbarDD R G l j + -GammabarUDD R G l k j * AbarDD R G i l)
/-- `MU` (BSSN_constraints.py:114-156, 159-173). -/
noncomputable def MU : V1 := fun i =>
  (∑ j, 6 * AbarUU R G i j * phi_dD G c j + ∑ j, -(2 / 3) * gammabarUU R G i j * G.trK_dD j +
    ∑ j, ∑ k, ∑ l, gammabarUU R G i k * gammabarUU R G j l * AbarDD_dBarD R G k l j) * exp_m4phi G c +
  match T4 with | none => 0 | some T => src_MU R G c T i
/-- `Msquared` (BSSN_constraints.py:176-179). -/
noncomputable def Msquared : ℝ := ∑ i, ∑ j, gammabarDD R G i j * MU R G c T4 i * MU R G c T4 j
/-- `mU` (BSSN_constraints.py:182-184). -/
noncomputable def mU : V1 := fun i => MU R G c T4 i / R.ReU i

/-! ### BSSN_RHSs.py -/

/-- BSSN_RHSs.py:99-101. -/
noncomputable def Dbarbetacontraction : ℝ :=
  ∑ k, (betaU_dD R G k k + betaU R G k * detgammabar_dD R k / (2 * detgammabar R))
/-- BSSN_RHSs.py:83-113. -/
noncomputable def gammabar_rhsDD : V2 := fun i j =>
  ∑ k, (betaU R G k * gammabarDD_dupD R G i j k + betaU_dD R G k i * gammabarDD R G k j + betaU_dD R G k j * gammabarDD R G i k) +
  2 / 3 * gammabarDD R G i j * (G.alpha * trAbar R G - Dbarbetacontraction R G) + -2 * G.alpha * AbarDD R G i j
/-- BSSN_RHSs.py:150-159. -/
noncomputable def alpha_dBarDD : V2 := fun i j => G.alpha_dDD i j + ∑ k, -GammabarUDD R G k i j * G.alpha_dD k
/-- BSSN_RHSs.py:162-168. -/
noncomputable def curly : V2 := fun i j =>
  -2 * G.alpha * phi_dBarDD R G c i j + 4 * G.alpha * phi_dD G c i * phi_dD G c j + 2 * G.alpha_dD i * phi_dD G c j +
    2 * G.alpha_dD j * phi_dD G c i - alpha_dBarDD R G i j + G.alpha * RbarDD R G i j
/-- BSSN_RHSs.py:171-174. -/
noncomputable def curlyTrace : ℝ := ∑ i, ∑ j, gammabarUU R G i j * curly R G c i j
/-- BSSN_RHSs.py:121-136, 177-180, 341-344. -/
noncomputable def Abar_rhsDD : V2 := fun i j =>
  ∑ k, (betaU R G k * AbarDD_dupD R G i j k + betaU_dD R G k i * AbarDD R G k j + betaU_dD R G k j * AbarDD R G i k) +
  (-(2 / 3) * AbarDD R G i j * Dbarbetacontraction R G + G.alpha * AbarDD R G i j * G.trK +
    ∑ k, -2 * G.alpha * AbarDD R G i k * AbarUD R G k j) +
  exp_m4phi G c * (curly R G c i j - 1 / 3 * gammabarDD R G i j * curlyTrace R G c) +
  match T4 with | none => 0 | some T => src_Abar R G c T i j
/-- `∂_t φ` (BSSN_RHSs.py:186-188). -/
noncomputable def phi_rhs : ℝ := 1 / 6 * (Dbarbetacontraction R G - G.alpha * G.trK) + ∑ k, betaU R G k * phi_dupD G c k
/-- `cf_rhs` (BSSN_RHSs.py:186-199). -/
noncomputable def cf_rhs : ℝ := match c with
  | .phi => phi_rhs R G .phi
  | .W => phi_rhs R G .W * (-2 * G.cf)
  | .chi => phi_rhs R G .chi * (-4 * G.cf)
/-- `trK_rhs` (BSSN_RHSs.py:207-220, 340). -/
noncomputable def trK_rhs : ℝ :=
  1 / 3 * G.alpha * G.trK * G.trK + ∑ i, betaU R G i * G.trK_dupD i +
  ∑ i, ∑ j, -exp_m4phi G c * gammabarUU R G i j * (alpha_dBarDD R G i j + 2 * G.alpha_dD j * phi_dD G c i) +
  ∑ i, ∑ j, G.alpha * AbarDD R G i j * AbarUU R G i j +
  match T4 with | none => 0 | some T => src_trK R G c T
/-- `LambdabarU_dupD` (BSSN_RHSs.py:233-237). -/
def LambdabarU_dupD : V2 := fun i j => G.lambdaU_dupD i j * R.ReU i + G.lambdaU i * R.ReUdD i j
/-- BSSN_RHSs.py:246-250. -/
def Term2aUDD : V3 := fun i j k => betaU_dDD R G i k j
/-- BSSN_RHSs.py:253-261. -/
def Term2bUDD : V3 := fun i j k => ∑ m, (R.GammahatUDDdD i m k j * betaU R G m + R.GammahatUDD i m k * betaU_dD R G m j +
  R.GammahatUDD i m j * betaU_dD R G m k - R.GammahatUDD m k j * betaU_dD R G i m)
/-- BSSN_RHSs.py:263-270. -/
def Term2cUDD : V3 := fun i j k => ∑ m, ∑ d, (R.GammahatUDD i d j * R.GammahatUDD d m k -
  R.GammahatUDD d k j * R.GammahatUDD i m d) * betaU R G m
/-- BSSN_RHSs.py:290-298. -/
noncomputable def Dbarbetacontraction_dBarD : V1 := fun m => ∑ k, (betaU_dDD R G k k m +
  (betaU_dD R G k m * detgammabar_dD R k + betaU R G k * detgammabar_dDD R k m) / (2 * detgammabar R) -
  betaU R G k * detgammabar_dD R k * detgammabar_dD R m / (2 * detgammabar R * detgammabar R))
/-- `Lambdabar_rhsU` (BSSN_RHSs.py:239-322, 341-342). -/
noncomputable def Lambdabar_rhsU : V1 := fun i =>
  ∑ k, (betaU R G k * LambdabarU_dupD R G i k - betaU_dD R G i k * LambdabarU R G k) +
  ∑ j, ∑ k, gammabarUU R G j k * (Term2aUDD R G i j k + Term2bUDD R G i j k + Term2cUDD R G i j k) +
  2 / 3 * DGammaU R G i * Dbarbetacontraction R G +
  ∑ m, 1 / 3 * gammabarUU R G i m * Dbarbetacontraction_dBarD R G m +
  ∑ j, -2 * AbarUU R G i j * (G.alpha_dD j - 6 * G.alpha * phi_dD G c j) +
  ∑ j, ∑ k, 2 * G.alpha * AbarUU R G j k * DGammaUDD R G i j k +
  ∑ j, -(4 / 3) * G.alpha * gammabarUU R G i j * G.trK_dD j +
  match T4 with | none => 0 | some T => src_Lambdabar R G c T i
/-- BSSN_RHSs.py:349-356. -/
noncomputable def lambda_rhsU : V1 := fun i => Lambdabar_rhsU R G c T4 i / R.ReU i
@[inherit_doc lambda_rhsU]
noncomputable def h_rhsDD : V2 := fun i j => gammabar_rhsDD R G i j / R.ReDD i j
@[inherit_doc lambda_rhsU]
noncomputable def a_rhsDD : V2 := fun i j => Abar_rhsDD R G c T4 i j / R.ReDD i j

end

end Verif.BSSN
