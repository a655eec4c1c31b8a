import Verif.Py.Str
import Mathlib.Analysis.SpecialFunctions.Arsinh
import Mathlib.Analysis.SpecialFunctions.Complex.Arg
import Mathlib.Analysis.SpecialFunctions.Trigonometric.Inverse
import Mathlib.Analysis.SpecialFunctions.Trigonometric.Deriv
import Mathlib.Analysis.SpecialFunctions.Sqrt
import Mathlib.Analysis.Calculus.Deriv.Basic
import Mathlib.Data.Fin.VecNotation
import Mathlib.Data.Sign.Basic

/-!
# Model of the coordinate systems of reference_metric.py

Symbols are real numbers; `sp.diff` is the derivative, `sp.atan2(y, x)` the argument of `x + iy`.  The code parameters
`PI` and `SQRT1_2`, decimal numbers of 30 and more digits in the generated code (lines 1442-1472), are the exact numbers
here.
-/
namespace Verif.RefMetric
open Verif.Py Real

/-- A triple of symbols such as `xx` or `(Cartx, Carty, Cartz)`. -/
abbrev Vec := Fin 3 → ℝ

/-- The attributes of a `ReferenceMetric` object set by the coordinate system (lines 75-107, 131-180).  `ofCart` is
`none` where `Cart_to_xx` is left at zero. -/
structure Coords where
  xxmin : Vec
  xxmax : Vec
  toCart : Vec → Vec
  ofCart : Option (Vec → Vec)
  sph : Vec → Vec
  scale : Vec → Vec
  unit : Vec → Fin 3 → Vec
  scaleFunc : Vec → Vec

/-- `sp.atan2`. -/
noncomputable def atan2 (y x : ℝ) : ℝ := Complex.arg ⟨x, y⟩

/-- `Sinhv1` (lines 631-644). -/
noncomputable def sinhv1 (x ampl w : ℝ) : ℝ := ampl * (exp (x / w) - exp (-x / w)) / (exp (1 / w) - exp (-1 / w))

/-- `Sinhv2` for the even number `n` at the end of the name (lines 646-684). -/
noncomputable def sinhv2 (n : ℕ) (x ampl w slope : ℝ) : ℝ :=
  (ampl - slope) * x ^ n * (exp (x / w) - exp (-x / w)) / (exp (1 / w) - exp (-1 / w)) + slope * x

/-! ### Cartesian-like (lines 686-797) -/

/-- `Cartesian` (lines 688-727, 793-797). -/
noncomputable def cartesian (lo hi : Vec) : Coords where
  xxmin := lo
  xxmax := hi
  toCart x := ![x 0, x 1, x 2]
  ofCart := some fun p => ![p 0, p 1, p 2]
  sph x := ![√(x 0 ^ 2 + x 1 ^ 2 + x 2 ^ 2), arccos (x 2 / √(x 0 ^ 2 + x 1 ^ 2 + x 2 ^ 2)), atan2 (x 1) (x 0)]
  scale _ := ![1, 1, 1]
  unit _ := ![![1, 0, 0], ![0, 1, 0], ![0, 0, 1]]
  scaleFunc _ := ![1, 1, 1]

/-- `SinhCartesian` (lines 729-797); `ampl` is `AMPLXYZ`, `w` is `SINHWXYZ`. -/
noncomputable def sinhCartesian (ampl w : ℝ) : Coords where
  xxmin := ![-1, -1, -1]
  xxmax := ![1, 1, 1]
  toCart x := ![sinhv1 (x 0) ampl w, sinhv1 (x 1) ampl w, sinhv1 (x 2) ampl w]
  ofCart := some fun p =>
    ![w * arsinh (p 0 * sinh (1 / w) / ampl), w * arsinh (p 1 * sinh (1 / w) / ampl),
      w * arsinh (p 2 * sinh (1 / w) / ampl)]
  sph x :=
    let c : Vec := ![sinhv1 (x 0) ampl w, sinhv1 (x 1) ampl w, sinhv1 (x 2) ampl w]
    ![√(c 0 ^ 2 + c 1 ^ 2 + c 2 ^ 2), arccos (c 2 / √(c 0 ^ 2 + c 1 ^ 2 + c 2 ^ 2)), atan2 (c 1) (c 0)]
  scale x := ![deriv (fun t => sinhv1 t ampl w) (x 0), deriv (fun t => sinhv1 t ampl w) (x 1),
    deriv (fun t => sinhv1 t ampl w) (x 2)]
  unit _ := ![![1, 0, 0], ![0, 1, 0], ![0, 0, 1]]
  scaleFunc x :=
    let f0 := fun t => deriv (fun t => sinhv1 t ampl w) t
    let f1 := fun t => deriv (fun t => sinhv1 t ampl w) t
    let f3 := fun t => deriv (fun t => sinhv1 t ampl w) t
    ![f0 (x 0), f1 (x 1), f3 (x 2)]

/-! ### Wedges (lines 799-930) -/

/-- Attributes common to both wedges (lines 807-848). -/
noncomputable def wedge (ampl w rmin : ℝ) (toCart : Vec → Vec) (ofCart : Vec → Vec) (unit : Vec → Fin 3 → Vec) :
    Coords where
  xxmin := ![w * arsinh (rmin * sinh (1 / w) / ampl), 1 / 4 * π, -π * (1 / 4)]
  xxmax := ![w * arsinh (ampl * sinh (1 / w) / ampl), 3 / 4 * π, π * (1 / 4)]
  toCart := toCart
  ofCart := some ofCart
  sph x := ![sinhv1 (x 0) ampl w, x 1, x 2]
  scale x := ![deriv (fun t => sinhv1 t ampl w) (x 0), sinhv1 (x 0) ampl w, sinhv1 (x 0) ampl w * sin (x 1)]
  unit := unit
  scaleFunc x :=
    let f0 := fun t => sinhv1 t ampl w
    let f1 := fun t => sin t
    ![deriv f0 (x 0), f0 (x 0), f0 (x 0) * f1 (x 1)]

/-- `r_ito_Cart` (line 850), `rCart` (line 1009) and `rSph` (line 1148). -/
noncomputable def radius (p : Vec) : ℝ := √(p 0 ^ 2 + p 1 ^ 2 + p 2 ^ 2)

/-- `UWedgeHSinhSph` (lines 851-891). -/
noncomputable def upperWedge (ampl w rmin : ℝ) : Coords :=
  wedge ampl w rmin
    (fun x =>
      let r := sinhv1 (x 0) ampl w
      ![-r * cos (x 1), r * sin (x 1) * sin (x 2), r * sin (x 1) * cos (x 2)])
    (fun p => ![w * arsinh (radius p * sinh (1 / w) / ampl), arccos (-p 0 / radius p), atan2 (p 1) (p 2)])
    (fun x => ![![-cos (x 1), sin (x 1) * sin (x 2), sin (x 1) * cos (x 2)],
      ![sin (x 1), cos (x 1) * sin (x 2), cos (x 1) * cos (x 2)], ![0, cos (x 2), -sin (x 2)]])

/-- `LWedgeHSinhSph` (lines 892-930). -/
noncomputable def lowerWedge (ampl w rmin : ℝ) : Coords :=
  wedge ampl w rmin
    (fun x =>
      let r := sinhv1 (x 0) ampl w
      ![r * cos (x 1), r * sin (x 1) * sin (x 2), -r * sin (x 1) * cos (x 2)])
    (fun p => ![w * arsinh (radius p * sinh (1 / w) / ampl), arccos (p 0 / radius p), atan2 (p 1) (-p 2)])
    (fun x => ![![cos (x 1), sin (x 1) * sin (x 2), -sin (x 1) * cos (x 2)],
      ![-sin (x 1), cos (x 1) * sin (x 2), -cos (x 1) * cos (x 2)], ![0, cos (x 2), sin (x 2)]])

/-! ### Spherical-like (lines 932-1094) -/

/-- Attributes common to all spherical-like systems (lines 1058-1094); `r` is the radius as a function of `xx0`. -/
noncomputable def sphericalLike (r : ℝ → ℝ) (lo hi : Vec) (ofCart : Option (Vec → Vec)) : Coords where
  xxmin := lo
  xxmax := hi
  toCart x := ![r (x 0) * sin (x 1) * cos (x 2), r (x 0) * sin (x 1) * sin (x 2), r (x 0) * cos (x 1)]
  ofCart := ofCart
  sph x := ![r (x 0), x 1, x 2]
  scale x := ![deriv r (x 0), r (x 0), r (x 0) * sin (x 1)]
  unit x := ![![sin (x 1) * cos (x 2), sin (x 1) * sin (x 2), cos (x 1)],
    ![cos (x 1) * cos (x 2), cos (x 1) * sin (x 2), -sin (x 1)], ![-sin (x 2), cos (x 2), 0]]
  scaleFunc x :=
    let f1 := fun t => sin t
    ![deriv r (x 0), r (x 0), r (x 0) * f1 (x 1)]

/-- `Spherical` (lines 940-959). -/
noncomputable def spherical (rmax : ℝ) : Coords :=
  sphericalLike (fun t => t) ![0, 0, -π] ![rmax, π, π]
    (some fun p => ![radius p, arccos (p 2 / radius p), atan2 (p 1) (p 0)])

/-- `Cart_to_xx` of the `SinhSpherical` systems (lines 1009-1012). -/
noncomputable def ofCartSinhSph (ampl w : ℝ) (p : Vec) : Vec :=
  ![w * arsinh (radius p * sinh (1 / w) / ampl), arccos (p 2 / radius p), atan2 (p 1) (p 0)]

/-- `SinhSpherical` (lines 960-1012). -/
noncomputable def sinhSpherical (ampl w : ℝ) : Coords :=
  sphericalLike (fun t => sinhv1 t ampl w) ![0, 0, -π] ![1, π, π] (some (ofCartSinhSph ampl w))

/-- `HoleySinhSpherical` (lines 987-990). -/
noncomputable def holeySinhSpherical (ampl w rmin : ℝ) : Coords :=
  sphericalLike (fun t => sinhv1 t ampl w) ![w * arsinh (rmin * sinh (1 / w) / ampl), 0, -π]
    ![w * arsinh (ampl * sinh (1 / w) / ampl), π, π] (some (ofCartSinhSph ampl w))

/-- `RingHoleySinhSpherical` (lines 991-994). -/
noncomputable def ringHoleySinhSpherical (ampl w rmin : ℝ) : Coords :=
  sphericalLike (fun t => sinhv1 t ampl w) ![w * arsinh (rmin * sinh (1 / w) / ampl), 1 / 4 * π, -π]
    ![w * arsinh (ampl * sinh (1 / w) / ampl), 3 / 4 * π, π] (some (ofCartSinhSph ampl w))

/-- `SinhSphericalv2n<n>` (lines 1019-1053): no `Cart_to_xx`. -/
noncomputable def sinhSphericalv2 (n : ℕ) (ampl w slope : ℝ) : Coords :=
  sphericalLike (fun t => sinhv2 n t ampl w slope) ![0, 0, -π] ![1, π, π] none

/-! ### Prolate spheroidal (lines 1096-1287) -/

/-- The square root inside both components of `Cart_to_xx` (lines 1165-1170, 1182-1187). -/
noncomputable def innerRoot (b : ℝ) (p : Vec) : ℝ :=
  √(b ^ 4 + 2 * b ^ 2 * radius p ^ 2 + radius p ^ 4 - 4 * b ^ 2 * radius p ^ 2 * cos (arccos (p 2 / radius p)) ^ 2)

/-- `Cart_to_xx` of both systems (lines 1148-1194, 1197-1243): the two branches of the source are the same text. -/
noncomputable def ofCartSymTP (b : ℝ) (p : Vec) : Vec :=
  ![√(-b ^ 2 + radius p ^ 2 + innerRoot b p) * (1 / √2),
    arccos (SignType.sign (p 2) * (√(1 + radius p ^ 2 / b ^ 2 - innerRoot b p / b ^ 2) * (1 / √2))),
    atan2 (p 1) (p 0)]

/-- Attributes common to both systems (lines 1132-1145, 1249-1287); `aa` is `AA` as a function of `xx0`. -/
noncomputable def symTPLike (aa : ℝ → ℝ) (b : ℝ) (hi : Vec) : Coords where
  xxmin := ![0, 0, -π]
  xxmax := hi
  toCart x := ![aa (x 0) * sin (x 1) * cos (x 2), aa (x 0) * sin (x 1) * sin (x 2), √(aa (x 0) ^ 2 + b ^ 2) * cos (x 1)]
  ofCart := some (ofCartSymTP b)
  sph x :=
    let rho := aa (x 0) * sin (x 1)
    let z := √(aa (x 0) ^ 2 + b ^ 2) * cos (x 1)
    ![√(rho ^ 2 + z ^ 2), arccos (z / √(rho ^ 2 + z ^ 2)), x 2]
  scale x :=
    let var1 := √(aa (x 0) ^ 2 + (b * sin (x 1)) ^ 2)
    let var2 := √(aa (x 0) ^ 2 + b ^ 2)
    ![deriv aa (x 0) * var1 / var2, var1, aa (x 0) * sin (x 1)]
  unit x :=
    let var1 := √(aa (x 0) ^ 2 + (b * sin (x 1)) ^ 2)
    let var2 := √(aa (x 0) ^ 2 + b ^ 2)
    ![![sin (x 1) * cos (x 2) * var2 / var1, sin (x 1) * sin (x 2) * var2 / var1, aa (x 0) * cos (x 1) / var1],
      ![aa (x 0) * cos (x 1) * cos (x 2) / var1, aa (x 0) * cos (x 1) * sin (x 2) / var1, -sin (x 1) * var2 / var1],
      ![-sin (x 2), cos (x 2), 0]]
  scaleFunc x :=
    let f0 := aa
    let f1 := fun t => sin t
    let f2 := fun t => √(aa t ^ 2 + b ^ 2)
    let f4 := fun t => b * sin t
    let var1 := √(f0 (x 0) ^ 2 + f4 (x 1) ^ 2)
    ![deriv f0 (x 0) * var1 / f2 (x 0), var1, f0 (x 0) * f1 (x 1)]

/-- `SymTP`. -/
noncomputable def symTP (amax b : ℝ) : Coords := symTPLike (fun t => t) b ![amax, π, π]

/-- `SinhSymTP` (lines 1126-1130). -/
noncomputable def sinhSymTP (amax w b : ℝ) : Coords := symTPLike (fun t => sinhv1 t amax w) b ![1, π, π]

/-! ### Cylindrical-like (lines 1289-1440) -/

/-- Attributes common to all cylindrical-like systems (lines 1412-1440). -/
noncomputable def cylindricalLike (rho z : ℝ → ℝ) (lo hi : Vec) (ofCart : Option (Vec → Vec)) : Coords where
  xxmin := lo
  xxmax := hi
  toCart x := ![rho (x 0) * cos (x 1), rho (x 0) * sin (x 1), z (x 2)]
  ofCart := ofCart
  sph x := ![√(rho (x 0) ^ 2 + z (x 2) ^ 2), arccos (z (x 2) / √(rho (x 0) ^ 2 + z (x 2) ^ 2)), x 1]
  scale x := ![deriv rho (x 0), rho (x 0), deriv z (x 2)]
  unit x := ![![cos (x 1), sin (x 1), 0], ![-sin (x 1), cos (x 1), 0], ![0, 0, 1]]
  scaleFunc x :=
    let f3 := fun t => deriv z t
    ![deriv rho (x 0), rho (x 0), f3 (x 2)]

/-- `Cylindrical` (lines 1300-1323). -/
noncomputable def cylindrical (rhomax zmin zmax : ℝ) : Coords :=
  cylindricalLike (fun t => t) (fun t => t) ![0, -π, zmin] ![rhomax, π, zmax]
    (some fun p => ![√(p 0 ^ 2 + p 1 ^ 2), atan2 (p 1) (p 0), p 2])

/-- `SinhCylindrical` (lines 1325-1360). -/
noncomputable def sinhCylindrical (ampl wr amplz wz : ℝ) : Coords :=
  cylindricalLike (fun t => sinhv1 t ampl wr) (fun t => sinhv1 t amplz wz) ![0, -π, -1] ![1, π, 1]
    (some fun p => ![wr * arsinh (√(p 0 ^ 2 + p 1 ^ 2) * sinh (1 / wr) / ampl), atan2 (p 1) (p 0),
      wz * arsinh (p 2 * sinh (1 / wz) / amplz)])

/-- `SinhCylindricalv2n<n>` (lines 1369-1406): no `Cart_to_xx`. -/
noncomputable def sinhCylindricalv2 (n : ℕ) (ampl wr slope amplz wz slopez : ℝ) : Coords :=
  cylindricalLike (fun t => sinhv2 n t ampl wr slope) (fun t => sinhv2 n t amplz wz slopez) ![0, -π, -1] ![1, π, 1] none

/-! ### Choice by name -/

/-- Values of the code parameters of all systems. -/
structure CoordParams where
  lo : Vec
  hi : Vec
  rmax : ℝ
  ampl : ℝ
  w : ℝ
  rmin : ℝ
  slope : ℝ
  amax : ℝ
  b : ℝ
  waa : ℝ
  rhomax : ℝ
  zmin : ℝ
  zmax : ℝ
  amplz : ℝ
  wz : ℝ
  slopez : ℝ

/-- What the constructor does with a name: an error, nothing set (all coordinate functions stay zero), or a system. -/
inductive Choice
  | valueError
  | unset
  | sys (c : Coords)

/-- What follows the first occurrence of `pat` (`str.find`, lines 661-664, 670). -/
def afterSub (pat : Str) : Str → Option Str
  | [] => if pat = [] then some [] else none
  | c :: s => if pat.isPrefixOf (c :: s) then some ((c :: s).drop pat.length) else afterSub pat s

/-- `int` of a string of digits (line 674). -/
def digitsVal (s : Str) : ℕ := s.foldl (fun a c => 10 * a + (c.toNat - '0'.toNat)) 0

/-- The number after `v2n` (lines 661-678): `none` raises `ValueError`.  Only ASCII digits are considered. -/
def powerN (name : Str) : Option ℕ :=
  match afterSub (c% "v2n") name with
  | some suffix =>
    if (c% "Sinh").isPrefixOf name ∧ suffix ≠ [] ∧ suffix.all Char.isDigit ∧ digitsVal suffix % 2 = 0 then
      some (digitsVal suffix)
    else none
  | none => none

/-- `cartesian_like` (lines 688, 729): no error for other names. -/
noncomputable def cartesianChoice (P : CoordParams) (name : Str) : Choice :=
  if name = (c% "Cartesian") then .sys (cartesian P.lo P.hi)
  else if name = (c% "SinhCartesian") then .sys (sinhCartesian P.ampl P.w)
  else .unset

/-- `spherical_like` (lines 940-1057). -/
noncomputable def sphericalChoice (P : CoordParams) (name : Str) : Choice :=
  if name = (c% "Spherical") then .sys (spherical P.rmax)
  else if (c% "SinhSpherical").isSuffixOf name then
    if containsSub (c% "HoleySinhSpherical") name then
      if name = (c% "HoleySinhSpherical") then .sys (holeySinhSpherical P.ampl P.w P.rmin)
      else if name = (c% "RingHoleySinhSpherical") then .sys (ringHoleySinhSpherical P.ampl P.w P.rmin)
      else .valueError
    else .sys (sinhSpherical P.ampl P.w)
  else if (c% "SinhSphericalv2n").isPrefixOf name then
    match powerN name with
    | some n => .sys (sinhSphericalv2 n P.ampl P.w P.slope)
    | none => .valueError
  else .valueError

/-- `spherical_wedge_like` (lines 851, 892): no error for other names. -/
noncomputable def wedgeChoice (P : CoordParams) (name : Str) : Choice :=
  if name = (c% "UWedgeHSinhSph") then .sys (upperWedge P.ampl P.w P.rmin)
  else if name = (c% "LWedgeHSinhSph") then .sys (lowerWedge P.ampl P.w P.rmin)
  else .unset

/-- `prolate_spheroidal_like` (lines 1147, 1196, 1244). -/
noncomputable def symTPChoice (P : CoordParams) (name : Str) : Choice :=
  if name = (c% "SymTP") then .sys (symTP P.amax P.b)
  else if name = (c% "SinhSymTP") then .sys (sinhSymTP P.amax P.waa P.b)
  else .valueError

/-- `cylindrical_like` (lines 1300-1410). -/
noncomputable def cylindricalChoice (P : CoordParams) (name : Str) : Choice :=
  if name = (c% "Cylindrical") then .sys (cylindrical P.rhomax P.zmin P.zmax)
  else if name = (c% "SinhCylindrical") then .sys (sinhCylindrical P.ampl P.w P.amplz P.wz)
  else if (c% "SinhCylindricalv2").isPrefixOf name then
    match powerN name with
    | some n => .sys (sinhCylindricalv2 n P.ampl P.w P.slope P.amplz P.wz P.slopez)
    | none => .valueError
  else .valueError

/-- The dispatch on the name (lines 185-203). -/
noncomputable def choose (P : CoordParams) (name : Str) : Choice :=
  if containsSub (c% "Cartesian") name then cartesianChoice P name
  else if containsSub (c% "Spherical") name then sphericalChoice P name
  else if containsSub (c% "Wedge") name then wedgeChoice P name
  else if containsSub (c% "SymTP") name then symTPChoice P name
  else if containsSub (c% "Cylindrical") name then cylindricalChoice P name
  else .valueError

end Verif.RefMetric
