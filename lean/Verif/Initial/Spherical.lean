import Verif.BSSN.Model
import Verif.BSSN.Geometry
import Verif.RefMetric.Coords

/-!
# Model of the initial data given in spherical coordinates
(`nrpy/equations/general_relativity/InitialData_Spherical.py`)

The coordinates `r`, `th`, `ph` of a point `x` are `x 0`, `x 1`, `x 2`.
-/
namespace Verif.Initial
open Verif.RefMetric Verif.BSSN Real

/-! ### UIUCBlackHole (lines 88-158) -/

namespace UIUCModel
variable (M chi : ℝ)

/-- Line 100. -/
def a : ℝ := M * chi
/-- Line 104. -/
noncomputable def rp : ℝ := M + √(M ^ 2 - a M chi ^ 2)
/-- Line 106. -/
noncomputable def rm : ℝ := M - √(M ^ 2 - a M chi ^ 2)
/-- Line 111. -/
noncomputable def rBL (r : ℝ) : ℝ := r * (1 + rp M chi / (4 * r)) ^ 2
/-- Line 115. -/
noncomputable def SIG (r th : ℝ) : ℝ := rBL M chi r ^ 2 + a M chi ^ 2 * cos th ^ 2
/-- Line 118. -/
noncomputable def DEL (r : ℝ) : ℝ := rBL M chi r ^ 2 - 2 * M * rBL M chi r + a M chi ^ 2
/-- Line 121. -/
noncomputable def AA (r th : ℝ) : ℝ := (rBL M chi r ^ 2 + a M chi ^ 2) ^ 2 - DEL M chi r * a M chi ^ 2 * sin th ^ 2

/-- `gammaDD` (lines 124-133). -/
noncomputable def gammaDD : T2 := fun i j x => match i, j with
  | 0, 0 => SIG M chi (x 0) (x 1) * (x 0 + rp M chi / 4) ^ 2 / (x 0 ^ 3 * (rBL M chi (x 0) - rm M chi))
  | 1, 1 => SIG M chi (x 0) (x 1)
  | 2, 2 => AA M chi (x 0) (x 1) / SIG M chi (x 0) (x 1) * sin (x 1) ^ 2
  | _, _ => 0

/-- `KDD[0][2]` (lines 145-147). -/
noncomputable def Krp : Scal := fun x =>
  M * a M chi * sin (x 1) ^ 2 / (SIG M chi (x 0) (x 1) * √(AA M chi (x 0) (x 1) * SIG M chi (x 0) (x 1))) *
    (3 * rBL M chi (x 0) ^ 4 + 2 * a M chi ^ 2 * rBL M chi (x 0) ^ 2 - a M chi ^ 4 -
      a M chi ^ 2 * (rBL M chi (x 0) ^ 2 - a M chi ^ 2) * sin (x 1) ^ 2) *
    (1 + rp M chi / (4 * x 0)) * 1 / √(x 0 * (rBL M chi (x 0) - rm M chi))

/-- `KDD[1][2]` (lines 155-156). -/
noncomputable def Ktp : Scal := fun x =>
  -(2 * a M chi ^ 3 * M * rBL M chi (x 0) * cos (x 1) * sin (x 1) ^ 3 /
      (SIG M chi (x 0) (x 1) * √(AA M chi (x 0) (x 1) * SIG M chi (x 0) (x 1)))) *
    (x 0 - rp M chi / 4) * √((rBL M chi (x 0) - rm M chi) / x 0)

/-- `KDD` (lines 138-156). -/
noncomputable def KDD : T2 := fun i j x => match i, j with
  | 0, 2 => Krp M chi x
  | 2, 0 => Krp M chi x
  | 1, 2 => Ktp M chi x
  | 2, 1 => Ktp M chi x
  | _, _ => 0

end UIUCModel

/-! ### StaticTrumpet (lines 160-214) -/

namespace TrumpetModel
variable (M : ℝ)

/-- Line 175. -/
noncomputable def psi0 (r : ℝ) : ℝ := √(1 + M / r)

/-- `gammaDD` (lines 182-185). -/
noncomputable def gammaDD : T2 := fun i j x => match i, j with
  | 0, 0 => psi0 M (x 0) ^ 4
  | 1, 1 => psi0 M (x 0) ^ 4 * x 0 ^ 2
  | 2, 2 => psi0 M (x 0) ^ 4 * x 0 ^ 2 * sin (x 1) ^ 2
  | _, _ => 0

/-- `KDD` (lines 192-200). -/
noncomputable def KDD : T2 := fun i j x => match i, j with
  | 0, 0 => -M / x 0 ^ 2
  | 1, 1 => M
  | 2, 2 => M * sin (x 1) ^ 2
  | _, _ => 0

/-- `alpha` (line 206). -/
noncomputable def alpha : Scal := fun x => x 0 / (x 0 + M)

/-- `betaU` (lines 208-210). -/
noncomputable def betaU : T1 := fun i x => match i with
  | 0 => M * x 0 / (x 0 + M) ^ 2
  | _ => 0

end TrumpetModel

/-! ### OffsetKerrSchild (lines 216-303) -/

namespace KSModel
variable (M a r0 : ℝ)

/-- Lines 230, 233. -/
noncomputable def rho2 : Scal := fun x => (x 0 + r0) * (x 0 + r0) + a * a * cos (x 1) ^ 2

/-- Line 236. -/
noncomputable def alpha : Scal := fun x => 1 / √(1 + 2 * M * (x 0 + r0) / rho2 a r0 x)

/-- Lines 239-241. -/
noncomputable def betaU : T1 := fun i x => match i with
  | 0 => alpha M a r0 x * alpha M a r0 x * 2 * M * (x 0 + r0) / rho2 a r0 x
  | _ => 0

/-- Line 253. -/
noncomputable def grr : Scal := fun x => 1 + 2 * M * (x 0 + r0) / rho2 a r0 x

/-- `gammaDD` (lines 250-262). -/
noncomputable def gammaDD : T2 := fun i j x => match i, j with
  | 0, 0 => grr M a r0 x
  | 0, 2 => -a * grr M a r0 x * sin (x 1) ^ 2
  | 2, 0 => -a * grr M a r0 x * sin (x 1) ^ 2
  | 1, 1 => rho2 a r0 x
  | 2, 2 => ((x 0 + r0) * (x 0 + r0) + a * a + 2 * M * (x 0 + r0) * a * a * sin (x 1) ^ 2 / rho2 a r0 x) * sin (x 1) ^ 2
  | _, _ => 0

/-- Line 266. -/
noncomputable def A : Scal := fun x => a * a * cos (2 * x 1) + a * a + 2 * (x 0 + r0) * (x 0 + r0)

/-- Line 269. -/
noncomputable def B : Scal := fun x => A a r0 x + 4 * M * (x 0 + r0)

/-- Line 272. -/
noncomputable def D : Scal := fun x => √(2 * M * (x 0 + r0) / (a * a * cos (x 1) ^ 2 + (x 0 + r0) * (x 0 + r0)) + 1)

/-- `KDD[0][0]` (line 283). -/
noncomputable def Krr : Scal := fun x =>
  D M a r0 x * (A a r0 x + 2 * M * (x 0 + r0)) / (A a r0 x * A a r0 x * B M a r0 x) *
    (4 * M * (a * a * cos (2 * x 1) + a * a - 2 * (x 0 + r0) * (x 0 + r0)))

/-- `KDD[0][1]` (line 286). -/
noncomputable def Krt : Scal := fun x =>
  D M a r0 x / (A a r0 x * B M a r0 x) * (8 * a * a * M * (x 0 + r0) * sin (x 1) * cos (x 1))

/-- `KDD[0][2]` (line 289). -/
noncomputable def Krp : Scal := fun x =>
  D M a r0 x / (A a r0 x * A a r0 x) * (-2 * a * M * sin (x 1) ^ 2 * (a * a * cos (2 * x 1) + a * a - 2 * (x 0 + r0) * (x 0 + r0)))

/-- `KDD[1][1]` (line 292). -/
noncomputable def Ktt : Scal := fun x => D M a r0 x / B M a r0 x * (4 * M * (x 0 + r0) * (x 0 + r0))

/-- `KDD[1][2]` (line 295). -/
noncomputable def Ktp : Scal := fun x =>
  D M a r0 x / (A a r0 x * B M a r0 x) * (-8 * a ^ 3 * M * (x 0 + r0) * sin (x 1) ^ 3 * cos (x 1))

/-- `KDD[2][2]` (lines 299-301). -/
noncomputable def Kpp : Scal := fun x =>
  D M a r0 x / (A a r0 x * A a r0 x * B M a r0 x) * (2 * M * (x 0 + r0) * sin (x 1) ^ 2 * (a ^ 4 * ((x 0 + r0) - M) * cos (4 * x 1) +
    a ^ 4 * (M + 3 * (x 0 + r0)) + 4 * a * a * (x 0 + r0) * (x 0 + r0) * (2 * (x 0 + r0) - M) +
    4 * a * a * (x 0 + r0) * cos (2 * x 1) * (a * a + (x 0 + r0) * (M + 2 * (x 0 + r0))) + 8 * (x 0 + r0) ^ 5))

/-- `KDD` (lines 278-301). -/
noncomputable def KDD : T2 := fun i j x => match i, j with
  | 0, 0 => Krr M a r0 x
  | 0, 1 => Krt M a r0 x
  | 1, 0 => Krt M a r0 x
  | 0, 2 => Krp M a r0 x
  | 2, 0 => Krp M a r0 x
  | 1, 1 => Ktt M a r0 x
  | 1, 2 => Ktp M a r0 x
  | 2, 1 => Ktp M a r0 x
  | 2, 2 => Kpp M a r0 x

end KSModel

/-! ### `__init__` (lines 25-85) -/

/-- The attributes of the object. -/
structure IDSpherical where
  gammaDD : T2
  KDD : T2
  alpha : Scal
  betaU : T1
  BU : T1

/-- The lapse of the standard gauge (lines 60-85): `ADM_to_BSSN` with `compute_cf_only=True`, in `"Spherical"` coordinates. -/
noncomputable def standardLapse (c : CF) (γ K : T2) : Scal := fun x =>
  let R := rfmAt (RefMetric.spherical 1).scale x
  let A : Adm := ⟨fun i j => γ i j x, fun i j => K i j x, fun _ => 0, fun _ => 0⟩
  match c with
  | .phi => exp (-2 * FromADM.cf R A .phi)
  | .chi => √(FromADM.cf R A .chi)
  | .W => FromADM.cf R A .W

/-- The parameters (lines 94, 166, 223). -/
structure SphParams where
  M : ℝ
  chi : ℝ
  a : ℝ
  r0 : ℝ

/-- The choice of the data (lines 36-58): the data and whether they come with a lapse and a shift. -/
noncomputable def sphericalData (p : SphParams) (IDtype : String) : Except String (IDSpherical × Bool) :=
  if IDtype = "UIUCBlackHole" then
    .ok (⟨UIUCModel.gammaDD p.M p.chi, UIUCModel.KDD p.M p.chi, fun _ => 0, fun _ _ => 0, fun _ _ => 0⟩, false)
  else if IDtype = "StaticTrumpet" then
    .ok (⟨TrumpetModel.gammaDD p.M, TrumpetModel.KDD p.M, TrumpetModel.alpha p.M, TrumpetModel.betaU p.M, fun _ _ => 0⟩, true)
  else if IDtype = "OffsetKerrSchild" then
    .ok (⟨KSModel.gammaDD p.M p.a p.r0, KSModel.KDD p.M p.a p.r0, KSModel.alpha p.M p.a p.r0, KSModel.betaU p.M p.a p.r0, fun _ _ => 0⟩,
      true)
  else .error "ValueError"

/-- `InitialData_Spherical(IDtype, override_gauge_with_standard)` (lines 25-85); `cf` is the parameter
`EvolvedConformalFactor_cf`, which is looked at only when the standard gauge is set. -/
noncomputable def initialDataSpherical (p : SphParams) (cf IDtype : String) (override : Bool) : Except String IDSpherical := do
  let (d, gauge) ← sphericalData p IDtype
  if !gauge || override then
    let c ← FromADM.checkCf cf
    return { d with alpha := standardLapse c d.gammaDD d.KDD, betaU := fun _ _ => 0, BU := fun _ _ => 0 }
  else return d

end Verif.Initial
