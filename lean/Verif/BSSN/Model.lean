import Verif.RefMetric.Hatted
import Mathlib.Analysis.SpecialFunctions.Log.Basic
import Mathlib.Analysis.SpecialFunctions.Pow.Real
import Mathlib.Algebra.BigOperators.Fin

/-!
# Model of BSSN_quantities.py, ADM_to_BSSN.py and BSSN_to_ADM.py

Every SymPy expression of the three modules becomes a function of the values of the symbols it contains: the
reference-metric quantities (`Rfm`) and the gridfunctions with their finite-difference symbols (`Gfs`) at one point.
A symbol declared with a symmetry (`hDD[i][j]` and `hDD[j][i]` are one symbol) is a family of values with the
hypothesis `Gfs.Symm`.  The registration of gridfunctions and the caching dictionaries (BSSN_quantities.py:572-609) are
left out.
-/
namespace Verif.BSSN
open Verif.RefMetric Verif.IndexedExp

abbrev V1 := Fin 3 → ℝ
abbrev V2 := Fin 3 → V1
abbrev V3 := Fin 3 → V2
abbrev V4 := Fin 3 → V3

/-- The attributes of `rfm` used (reference_metric.py:249-376), at one point. -/
structure Rfm where
  ghatDD : V2
  ghatDDdD : V3
  ghatDDdDD : V4
  ReU : V1
  ReUdD : V2
  ReUdDD : V3
  ReDD : V2
  ReDDdD : V3
  ReDDdDD : V4
  detgammahat : ℝ
  detgammahatdD : V1
  detgammahatdDD : V2
  GammahatUDD : V3
  GammahatUDDdD : V4

/-- `refmetric.reference_metric[CoordSystem]` at the point `x`, for the scale factors `s`. -/
noncomputable def rfmAt (s : Vec → Vec) (x : Vec) : Rfm where
  ghatDD i j := RefMetric.ghatDD s i j x
  ghatDDdD i j k := RefMetric.ghatDDdD s i j k x
  ghatDDdDD i j k l := RefMetric.ghatDDdDD s i j k l x
  ReU i := RefMetric.ReU s i x
  ReUdD i j := RefMetric.ReUdD s i j x
  ReUdDD i j k := RefMetric.ReUdDD s i j k x
  ReDD i j := RefMetric.ReDD s i j x
  ReDDdD i j k := RefMetric.ReDDdD s i j k x
  ReDDdDD i j k l := RefMetric.ReDDdDD s i j k l x
  detgammahat := RefMetric.detgammahat s x
  detgammahatdD i := RefMetric.detgammahatdD s i x
  detgammahatdDD i j := RefMetric.detgammahatdDD s i j x
  GammahatUDD i j k := RefMetric.GammahatUDD s i j k x
  GammahatUDDdD i j k l := RefMetric.GammahatUDDdD s i j k l x

/-- The gridfunctions (BSSN_quantities.py:51-83) and the finite-difference symbols built on them (`_dD`, `_dDD`:
centred; `_dupD`: upwinded), at one point. -/
structure Gfs where
  hDD : V2
  hDD_dD : V3
  hDD_dupD : V3
  hDD_dDD : V4
  aDD : V2
  aDD_dD : V3
  aDD_dupD : V3
  lambdaU : V1
  lambdaU_dD : V2
  lambdaU_dupD : V2
  vetU : V1
  vetU_dD : V2
  vetU_dupD : V2
  vetU_dDD : V3
  betU : V1
  betU_dupD : V2
  trK : ℝ
  trK_dD : V1
  trK_dupD : V1
  cf : ℝ
  cf_dD : V1
  cf_dupD : V1
  cf_dDD : V2
  alpha : ℝ
  alpha_dD : V1
  alpha_dupD : V1
  alpha_dDD : V2

/-- The declared symmetries (`sym01`, `sym01_sym23`, `sym12`): the two index orders name one symbol. -/
structure Gfs.Symm (G : Gfs) : Prop where
  hDD : ∀ i j, G.hDD i j = G.hDD j i
  hDD_dD : ∀ i j k, G.hDD_dD i j k = G.hDD_dD j i k
  hDD_dupD : ∀ i j k, G.hDD_dupD i j k = G.hDD_dupD j i k
  hDD_dDD : ∀ i j k l, G.hDD_dDD i j k l = G.hDD_dDD j i k l ∧ G.hDD_dDD i j k l = G.hDD_dDD i j l k
  aDD : ∀ i j, G.aDD i j = G.aDD j i
  aDD_dD : ∀ i j k, G.aDD_dD i j k = G.aDD_dD j i k
  aDD_dupD : ∀ i j k, G.aDD_dupD i j k = G.aDD_dupD j i k
  vetU_dDD : ∀ i j k, G.vetU_dDD i j k = G.vetU_dDD i k j
  cf_dDD : ∀ i j, G.cf_dDD i j = G.cf_dDD j i
  alpha_dDD : ∀ i j, G.alpha_dDD i j = G.alpha_dDD j i

/-- The values of the parameter `EvolvedConformalFactor_cf` that are supported. -/
inductive CF | phi | W | chi
  deriving DecidableEq

/-- The tests on the parameters `detgbarOverdetghat_equals_one` and `EvolvedConformalFactor_cf`
(BSSN_quantities.py:179-182, 543-546). -/
def checkParams (detOne : Bool) (cf : String) : Except String CF :=
  if detOne = false then .error "ValueError"
  else if cf = "phi" then .ok .phi
  else if cf = "W" then .ok .W
  else if cf = "chi" then .ok .chi
  else .error "ValueError"

/-- Entry of the inverse computed by `ixp.symm_matrix_inverter3x3`.  SymPy divides symbolically, so that the value of
the expression at a point with zero determinant is undefined; here it is 0, and the theorems exclude that case. -/
noncomputable def inv3 (a : V2) : V2 := fun i j => symmInv3Num a i j / symmInv3Det a

section Quantities
variable (R : Rfm) (G : Gfs)

/-- BSSN_quantities.py:99-102. -/
def gammabarDD : V2 := fun i j => G.hDD i j * R.ReDD i j + R.ghatDD i j
/-- BSSN_quantities.py:99-104. -/
def AbarDD : V2 := fun i j => G.aDD i j * R.ReDD i j
/-- BSSN_quantities.py:110-111. -/
def LambdabarU : V1 := fun i => G.lambdaU i * R.ReU i
/-- BSSN_quantities.py:110-112. -/
def betaU : V1 := fun i => G.vetU i * R.ReU i
/-- BSSN_quantities.py:110-113. -/
def BU : V1 := fun i => G.betU i * R.ReU i
/-- BSSN_quantities.py:124. -/
noncomputable def gammabarUU : V2 := inv3 (gammabarDD R G)
/-- BSSN_quantities.py:132-136. -/
def gammabarDD_dD : V3 := fun i j k => R.ghatDDdD i j k + G.hDD_dD i j k * R.ReDD i j + G.hDD i j * R.ReDDdD i j k
/-- BSSN_quantities.py:138-140. -/
def gammabarDD_dupD : V3 := fun i j k => R.ghatDDdD i j k + G.hDD_dupD i j k * R.ReDD i j + G.hDD i j * R.ReDDdD i j k
/-- BSSN_quantities.py:147-159. -/
def gammabarDD_dDD : V4 := fun i j k l =>
  R.ghatDDdDD i j k l + G.hDD_dDD i j k l * R.ReDD i j + (G.hDD_dD i j k * R.ReDDdD i j l + G.hDD_dD i j l * R.ReDDdD i j k) +
    G.hDD i j * R.ReDDdDD i j k l
/-- BSSN_quantities.py:162-169. -/
noncomputable def GammabarUDD : V3 := fun i k l =>
  ∑ m, 1 / 2 * gammabarUU R G i m * (gammabarDD_dD R G m k l + gammabarDD_dD R G m l k - gammabarDD_dD R G k l m)
/-- BSSN_quantities.py:175, 191 (`detgbarOverdetghat = 1`). -/
def detgammabar : ℝ := R.detgammahat
/-- BSSN_quantities.py:176, 193-198. -/
def detgammabar_dD : V1 := fun i => R.detgammahatdD i
/-- BSSN_quantities.py:177, 200-208. -/
def detgammabar_dDD : V2 := fun i j => R.detgammahatdDD i j
/-- BSSN_quantities.py:216-226. -/
noncomputable def AbarUU : V2 := fun i j => ∑ k, ∑ l, gammabarUU R G i k * gammabarUU R G j l * AbarDD R G k l
/-- BSSN_quantities.py:229-234. -/
noncomputable def AbarUD : V2 := fun i j => ∑ k, gammabarUU R G i k * AbarDD R G k j
/-- BSSN_quantities.py:237-241. -/
noncomputable def trAbar : ℝ := ∑ k, ∑ j, gammabarUU R G k j * AbarDD R G j k
/-- BSSN_quantities.py:251-254. -/
def AbarDD_dupD : V3 := fun i j k => R.ReDDdD i j k * G.aDD i j + R.ReDD i j * G.aDD_dupD i j k
/-- BSSN_quantities.py:255-258. -/
def AbarDD_dD : V3 := fun i j k => R.ReDDdD i j k * G.aDD i j + R.ReDD i j * G.aDD_dD i j k
/-- BSSN_quantities.py:265-268. -/
def epsDD : V2 := fun i j => G.hDD i j * R.ReDD i j
/-- BSSN_quantities.py:272-279. -/
def epsDD_dD : V3 := fun i j k => G.hDD_dD i j k * R.ReDD i j + G.hDD i j * R.ReDDdD i j k
/-- BSSN_quantities.py:283-293. -/
def epsDD_dDD : V4 := fun i j k l =>
  G.hDD_dDD i j k l * R.ReDD i j + G.hDD_dD i j k * R.ReDDdD i j l + G.hDD_dD i j l * R.ReDDdD i j k +
    G.hDD i j * R.ReDDdDD i j k l
/-- BSSN_quantities.py:299-308. -/
def gammabarDD_dHatD : V3 := fun i j l =>
  epsDD_dD R G i j l + ∑ m, (-R.GammahatUDD m i l * epsDD R G m j - R.GammahatUDD m j l * epsDD R G i m)
/-- BSSN_quantities.py:316-328. -/
def gammabarDD_dHatD_dD : V4 := fun i j l k =>
  epsDD_dDD R G i j l k + ∑ m, (-R.GammahatUDDdD m i l k * epsDD R G m j - R.GammahatUDD m i l * epsDD_dD R G m j k -
    R.GammahatUDDdD m j l k * epsDD R G i m - R.GammahatUDD m j l * epsDD_dD R G i m k)
/-- BSSN_quantities.py:335-349. -/
def gammabarDD_dHatDD : V4 := fun i j l k =>
  gammabarDD_dHatD_dD R G i j l k + ∑ m, (-R.GammahatUDD m l k * gammabarDD_dHatD R G i j m -
    R.GammahatUDD m i k * gammabarDD_dHatD R G m j l - R.GammahatUDD m j k * gammabarDD_dHatD R G i m l)
/-- BSSN_quantities.py:353-362. -/
def LambarU_dHatD : V2 := fun k j =>
  (G.lambdaU_dD k j * R.ReU k + G.lambdaU k * R.ReUdD k j) + ∑ m, R.GammahatUDD k m j * G.lambdaU m * R.ReU m
/-- BSSN_quantities.py:369-375. -/
noncomputable def DGammaUDD : V3 := fun i j k => GammabarUDD R G i j k - R.GammahatUDD i j k
/-- BSSN_quantities.py:378-382. -/
noncomputable def DGammaU : V1 := fun i => ∑ j, ∑ k, gammabarUU R G j k * DGammaUDD R G i j k
/-- BSSN_quantities.py:389-396. -/
noncomputable def DGammaDDD : V3 := fun i j k => ∑ m, gammabarDD R G i m * DGammaUDD R G m j k
/-- BSSN_quantities.py:401-452.  With `enable_RbarDD_gridfunctions` the symbol of a gridfunction stands in its place,
which the generated code fills with this expression. -/
noncomputable def RbarDD : V2 := fun i j =>
  ∑ k, ∑ l, -(1 / 2) * gammabarUU R G k l * gammabarDD_dHatDD R G i j l k +
  ∑ k, 1 / 2 * (gammabarDD R G k i * LambarU_dHatD R G k j + gammabarDD R G k j * LambarU_dHatD R G k i) +
  ∑ k, 1 / 2 * DGammaU R G k * (DGammaDDD R G i j k + DGammaDDD R G j i k) +
  ∑ k, ∑ l, ∑ m, gammabarUU R G k l * (DGammaUDD R G m k i * DGammaDDD R G j m l +
    DGammaUDD R G m k j * DGammaDDD R G i m l + DGammaUDD R G m i k * DGammaDDD R G m j l)
/-- BSSN_quantities.py:470-474. -/
def betaU_dD : V2 := fun i j => G.vetU_dD i j * R.ReU i + G.vetU i * R.ReUdD i j
/-- BSSN_quantities.py:475-477. -/
def betaU_dupD : V2 := fun i j => G.vetU_dupD i j * R.ReU i + G.vetU i * R.ReUdD i j
/-- BSSN_quantities.py:478-485. -/
def betaU_dDD : V3 := fun i j k =>
  G.vetU_dDD i j k * R.ReU i + G.vetU_dD i j * R.ReUdD i k + G.vetU_dD i k * R.ReUdD i j + G.vetU i * R.ReUdDD i j k

variable (c : CF)

/-- BSSN_quantities.py:505, 517, 533. -/
noncomputable def phi_dD : V1 := fun i => match c with
  | .phi => G.cf_dD i
  | .W => -G.cf_dD i / (2 * G.cf)
  | .chi => -G.cf_dD i / (4 * G.cf)
/-- BSSN_quantities.py:506, 518, 534. -/
noncomputable def phi_dupD : V1 := fun i => match c with
  | .phi => G.cf_dupD i
  | .W => -G.cf_dupD i / (2 * G.cf)
  | .chi => -G.cf_dupD i / (4 * G.cf)
/-- BSSN_quantities.py:508, 522-524, 538-540. -/
noncomputable def phi_dDD : V2 := fun i j => match c with
  | .phi => G.cf_dDD i j
  | .W => (-G.cf_dDD i j + G.cf_dD i * G.cf_dD j / G.cf) / (2 * G.cf)
  | .chi => (-G.cf_dDD i j + G.cf_dD i * G.cf_dD j / G.cf) / (4 * G.cf)
/-- BSSN_quantities.py:509, 525, 541. -/
noncomputable def exp_m4phi : ℝ := match c with
  | .phi => Real.exp (-4 * G.cf)
  | .W => G.cf * G.cf
  | .chi => G.cf
/-- BSSN_quantities.py:551-557 (`phi_dBarD` is `phi_dD`). -/
noncomputable def phi_dBarDD : V2 := fun i j => phi_dDD G c i j + ∑ k, -GammabarUDD R G k i j * phi_dD G c k

end Quantities

/-! ### BSSN_to_ADM.py -/

section ToADM
variable (R : Rfm) (G : Gfs) (c : CF)

/-- BSSN_to_ADM.py:52-62. -/
noncomputable def exp4phi : ℝ := match c with
  | .phi => Real.exp (4 * G.cf)
  | .chi => 1 / G.cf
  | .W => 1 / G.cf ^ 2
/-- BSSN_to_ADM.py:64-66. -/
noncomputable def gammaDD : V2 := fun i j => exp4phi G c * gammabarDD R G i j
/-- BSSN_to_ADM.py:73-93. -/
noncomputable def phidD : V1 := fun i => match c with
  | .phi => G.cf_dD i
  | .chi => -(1 / 4) * exp4phi G c * G.cf_dD i
  | .W => -(1 / 2) * (1 / G.cf) * G.cf_dD i
/-- BSSN_to_ADM.py:73-93. -/
noncomputable def phidDD : V2 := fun i j => match c with
  | .phi => G.cf_dDD i j
  | .chi => 1 / 4 * (exp4phi G c ^ 2 * G.cf_dD i * G.cf_dD j - exp4phi G c * G.cf_dDD i j)
  | .W => 1 / 2 * (exp4phi G c * G.cf_dD i * G.cf_dD j - 1 / G.cf * G.cf_dDD i j)
/-- BSSN_to_ADM.py:99-102. -/
noncomputable def exp4phidD : V1 := fun i => 4 * exp4phi G c * phidD G c i
/-- BSSN_to_ADM.py:103-106. -/
noncomputable def exp4phidDD : V2 := fun i j =>
  16 * exp4phi G c * phidD G c i * phidD G c j + 4 * exp4phi G c * phidDD G c i j
/-- BSSN_to_ADM.py:112-118. -/
noncomputable def gammaDDdD : V3 := fun i j k =>
  exp4phidD G c k * gammabarDD R G i j + exp4phi G c * gammabarDD_dD R G i j k
/-- BSSN_to_ADM.py:119-125. -/
noncomputable def gammaDDdDD : V4 := fun i j k l =>
  exp4phidDD G c k l * gammabarDD R G i j + exp4phidD G c k * gammabarDD_dD R G i j l +
    exp4phidD G c l * gammabarDD_dD R G i j k + exp4phi G c * gammabarDD_dDD R G i j k l
/-- BSSN_to_ADM.py:128. -/
noncomputable def gammaUU : V2 := inv3 (gammaDD R G c)
/-- BSSN_to_ADM.py:128. -/
noncomputable def detgamma : ℝ := symmInv3Det (gammaDD R G c)
/-- BSSN_to_ADM.py:131-145. -/
noncomputable def GammaUDD : V3 := fun i j k =>
  ∑ l, 1 / 2 * gammaUU R G c i l * (gammaDDdD R G c l j k + gammaDDdD R G c l k j - gammaDDdD R G c j k l)
/-- BSSN_to_ADM.py:150-157. -/
noncomputable def KDD : V2 := fun i j => exp4phi G c * AbarDD R G i j + 1 / 3 * gammaDD R G c i j * G.trK
/-- BSSN_to_ADM.py:159-172. -/
noncomputable def KDDdD : V3 := fun i j k =>
  exp4phidD G c k * AbarDD R G i j + exp4phi G c * AbarDD_dD R G i j k +
    1 / 3 * (gammaDDdD R G c i j k * G.trK + gammaDD R G c i j * G.trK_dD k)

end ToADM

/-! ### ADM_to_BSSN.py -/

/-- The ADM variables at one point. -/
structure Adm where
  gammaDD : V2
  KDD : V2
  betaU : V1
  BU : V1

namespace FromADM
variable (R : Rfm) (A : Adm) (c : CF)

/-- `gammaUU`, `gammaDET` (ADM_to_BSSN.py:78). -/
noncomputable def gammaUU : V2 := inv3 A.gammaDD
@[inherit_doc gammaUU]
noncomputable def gammaDET : ℝ := symmInv3Det A.gammaDD
/-- ADM_to_BSSN.py:81-85. -/
noncomputable def gammabarDD : V2 := fun i j => (R.detgammahat / gammaDET A) ^ (1 / 3 : ℝ) * A.gammaDD i j
/-- ADM_to_BSSN.py:86-88. -/
noncomputable def hDD : V2 := fun i j => (gammabarDD R A i j - R.ghatDD i j) / R.ReDD i j
/-- ADM_to_BSSN.py:89. -/
noncomputable def gammabarDET : ℝ := symmInv3Det (gammabarDD R A)
/-- ADM_to_BSSN.py:91-110. -/
noncomputable def cf : ℝ := match c with
  | .phi => 1 / 12 * Real.log (gammaDET A / gammabarDET R A)
  | .chi => (gammaDET A / gammabarDET R A) ^ (-(1 / 3) : ℝ)
  | .W => (gammaDET A / gammabarDET R A) ^ (-(1 / 6) : ℝ)
/-- ADM_to_BSSN.py:121-124. -/
noncomputable def trK : ℝ := ∑ i, ∑ j, gammaUU A i j * A.KDD i j
/-- ADM_to_BSSN.py:126-132. -/
noncomputable def AbarDD : V2 := fun i j =>
  (R.detgammahat / gammaDET A) ^ (1 / 3 : ℝ) * (A.KDD i j - 1 / 3 * A.gammaDD i j * trK A)
/-- ADM_to_BSSN.py:132. -/
noncomputable def aDD : V2 := fun i j => AbarDD R A i j / R.ReDD i j
/-- ADM_to_BSSN.py:141-144. -/
noncomputable def vetU : V1 := fun i => A.betaU i / R.ReU i
/-- ADM_to_BSSN.py:141-145. -/
noncomputable def betU : V1 := fun i => A.BU i / R.ReU i

/-- The test on the parameter (ADM_to_BSSN.py:93-109): the same three names; BSSN_to_ADM.py:52-62 has it too. -/
def checkCf (cf : String) : Except String CF :=
  if cf = "phi" then .ok .phi
  else if cf = "chi" then .ok .chi
  else if cf = "W" then .ok .W
  else .error "ValueError"

end FromADM

end Verif.BSSN
