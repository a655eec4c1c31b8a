import Verif.BSSN.Geometry
import Verif.RefMetric.Hatted

/-!
# Specification: surfaces and their expansion

Textbook definitions only.
-/
namespace Verif.Horizon
open Verif.RefMetric Verif.BSSN

/-- `r - h(θ, φ)`, which vanishes on the surface `r = h(θ, φ)`. -/
def level (h : ℝ → ℝ → ℝ) : Scal := fun x => x 0 - h (x 1) (x 2)

/-- The length of the gradient, `√(γ^{ij} ∂_i f ∂_j f)`. -/
noncomputable def gradLength (γ : T2) (f : Scal) : Scal := fun x =>
  Real.sqrt (∑ i, ∑ j, inverse γ i j x * pd i f x * pd j f x)

/-- The unit normal of the surfaces of constant `f`, `s^i = γ^{ij} ∂_j f / |∇f|`. -/
noncomputable def unitNormal (γ : T2) (f : Scal) : T1 := fun i x => (∑ j, inverse γ i j x * pd j f x) / gradLength γ f x

/-- The divergence `D_i v^i = ∂_i v^i + Γ^i_{ik} v^k`. -/
noncomputable def divU (γ : T2) (v : T1) : Scal := fun x => ∑ i, (pd i (v i) x + ∑ k, christoffel γ i i k x * v k x)

/-- The expansion of the outgoing light rays of the surface of constant `f` through a point,
`Θ = D_i s^i - γ^{ij} K_{ij} + s^i s^j K_{ij}`. -/
noncomputable def expansion (γ K : T2) (f : Scal) : Scal := fun x =>
  divU γ (unitNormal γ f) x - trace γ K x + ∑ i, ∑ j, unitNormal γ f i x * unitNormal γ f j x * K i j x

end Verif.Horizon
