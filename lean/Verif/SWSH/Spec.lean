import Mathlib.Analysis.SpecialFunctions.Complex.Log
import Mathlib.Analysis.SpecialFunctions.Trigonometric.Deriv
import Mathlib.Analysis.SpecialFunctions.Integrals.Basic

/-!
# What spin-weighted spherical harmonics are

The operators on functions of the two angles, as in Goldberg et al., J. Math. Phys. 8, 2155 (1967); nothing here refers to the model.
-/
namespace Verif.SWSH.Spec
open Complex MeasureTheory

/-- A function on the sphere. -/
abbrev Fun := ℝ → ℝ → ℂ

/-- The derivative in the polar angle. -/
noncomputable def dTheta (η : Fun) : Fun := fun θ φ => deriv (fun u => η u φ) θ
/-- The derivative in the azimuth. -/
noncomputable def dPhi (η : Fun) : Fun := fun θ φ => deriv (fun u => η θ u) φ

/-- `ð` on functions of spin weight `s`: `-(sin θ)^s (∂_θ + i / sin θ ∂_φ) ((sin θ)^{-s} η)`, written out. -/
noncomputable def eth (s : ℤ) (η : Fun) : Fun := fun θ φ =>
  -(dTheta η θ φ + I / Real.sin θ * dPhi η θ φ - s * (Real.cos θ / Real.sin θ) * η θ φ)
/-- The conjugate operator. -/
noncomputable def ethBar (s : ℤ) (η : Fun) : Fun := fun θ φ =>
  -(dTheta η θ φ - I / Real.sin θ * dPhi η θ φ + s * (Real.cos θ / Real.sin θ) * η θ φ)

/-- The component of the angular momentum about the axis, `-i ∂_φ`. -/
noncomputable def Lz (η : Fun) : Fun := fun θ φ => -I * dPhi η θ φ
/-- The operator that raises the order, on functions of spin weight `s`. -/
noncomputable def Lplus (s : ℤ) (η : Fun) : Fun := fun θ φ =>
  exp (I * φ) * (dTheta η θ φ + I * (Real.cos θ / Real.sin θ) * dPhi η θ φ - s / Real.sin θ * η θ φ)
/-- The operator that lowers the order, on functions of spin weight `s`. -/
noncomputable def Lminus (s : ℤ) (η : Fun) : Fun := fun θ φ =>
  exp (-(I * φ)) * (-dTheta η θ φ + I * (Real.cos θ / Real.sin θ) * dPhi η θ φ - s / Real.sin θ * η θ φ)

/-- The Laplacian of the unit sphere. -/
noncomputable def laplacian (η : Fun) : Fun := fun θ φ =>
  1 / Real.sin θ * dTheta (fun u v => Real.sin u * dTheta η u v) θ φ + 1 / (Real.sin θ : ℂ) ^ 2 * dPhi (dPhi η) θ φ

/-- The inner product of two functions on the sphere. -/
noncomputable def inner (η ζ : Fun) : ℂ :=
  ∫ φ in (0 : ℝ)..(2 * Real.pi), ∫ θ in (0 : ℝ)..Real.pi, Real.sin θ * ((starRingEnd ℂ) (η θ φ) * ζ θ φ)

end Verif.SWSH.Spec
