import Verif.RefMetric.Hatted
import Mathlib.LinearAlgebra.Matrix.NonsingularInverse
import Mathlib.Algebra.BigOperators.Fin

/-!
# Specification: Riemannian geometry in coordinates, and the ADM equations

Textbook definitions only: fields are functions of the three coordinates, derivatives are partial derivatives.  Nothing
here refers to the model of the code.
-/
namespace Verif.BSSN
open Verif.RefMetric

abbrev Scal := Vec → ℝ
abbrev T1 := Fin 3 → Scal
abbrev T2 := Fin 3 → T1
abbrev T3 := Fin 3 → T2

/-- The inverse `g^{ij}` of a metric. -/
noncomputable def inverse (g : T2) : T2 := fun i j x => (Matrix.of fun a b => g a b x)⁻¹ i j

/-- The Christoffel symbols `Γ^i_{jk} = ½ g^{im} (∂_j g_{mk} + ∂_k g_{mj} - ∂_m g_{jk})`. -/
noncomputable def christoffel (g : T2) : T3 := fun i j k x =>
  ∑ m, 1 / 2 * inverse g i m x * (pd j (g m k) x + pd k (g m j) x - pd m (g j k) x)

/-- The curvature of a connection, `R^i_{jkl} = ∂_k Γ^i_{lj} - ∂_l Γ^i_{kj} + Γ^i_{km} Γ^m_{lj} - Γ^i_{lm} Γ^m_{kj}`. -/
noncomputable def riemannOf (Γ : T3) (i j k l : Fin 3) : Scal := fun x =>
  pd k (Γ i l j) x - pd l (Γ i k j) x + ∑ m, (Γ i k m x * Γ m l j x - Γ i l m x * Γ m k j x)

/-- `R_{jl} = R^k_{jkl}`. -/
noncomputable def ricciOf (Γ : T3) : T2 := fun j l x => ∑ k, riemannOf Γ k j k l x

/-- The Ricci tensor of a metric. -/
noncomputable def ricci (g : T2) : T2 := ricciOf (christoffel g)

/-- The scalar curvature. -/
noncomputable def scalarCurvature (g : T2) : Scal := fun x => ∑ i, ∑ j, inverse g i j x * ricci g i j x

/-- The second covariant derivative `D_i D_j f` of a scalar. -/
noncomputable def hessian (g : T2) (f : Scal) : T2 := fun i j x => pd i (pd j f) x - ∑ k, christoffel g k i j x * pd k f x

/-- The divergence `D_j T^{ij}`. -/
noncomputable def divergence (g : T2) (T : T2) : T1 := fun i x =>
  ∑ j, (pd j (T i j) x + ∑ m, (christoffel g i j m x * T m j x + christoffel g j j m x * T i m x))

/-- The Lie derivative of a tensor with two lower indices along a vector field. -/
noncomputable def lieDD (β : T1) (T : T2) : T2 := fun i j x =>
  ∑ k, (β k x * pd k (T i j) x + T k j x * pd i (β k) x + T i k x * pd j (β k) x)

/-- `T^{ij}` from `T_{ij}`. -/
noncomputable def raise2 (g T : T2) : T2 := fun i j x => ∑ k, ∑ l, inverse g i k x * inverse g j l x * T k l x

/-- `g^{ij} T_{ij}`. -/
noncomputable def trace (g T : T2) : Scal := fun x => ∑ i, ∑ j, inverse g i j x * T i j x

/-! ### The ADM equations -/

/-- The matter fields seen by the normal observers: `ρ`, `S_i`, `S_{ij}`. -/
structure Matter where
  rho : Scal
  S : T1
  SS : T2

def Matter.vacuum : Matter := ⟨fun _ => 0, fun _ _ => 0, fun _ _ _ => 0⟩

/-- The matter fields of the stress-energy tensor `T^{μν}` (index 0 is time): with the normal `n_μ = (-α, 0, 0, 0)` and the
projection `γ_{iμ} T^{μν} = γ_{ij} (β^j T^{0ν} + T^{jν})`, these are `ρ = n_μ n_ν T^{μν}`, `S_i = -γ_{iμ} n_ν T^{μν}` and
`S_{ij} = γ_{iμ} γ_{jν} T^{μν}`. -/
noncomputable def matterOf (γ : T2) (α : Scal) (β : T1) (T : Fin 4 → Fin 4 → Scal) : Matter where
  rho x := α x ^ 2 * T 0 0 x
  S i x := α x * ∑ j : Fin 3, γ i j x * (β j x * T 0 0 x + T j.succ 0 x)
  SS i j x := ∑ k : Fin 3, ∑ l : Fin 3, γ i k x * γ j l x *
    (β k x * β l x * T 0 0 x + β k x * T 0 l.succ x + β l x * T k.succ 0 x + T k.succ l.succ x)

/-- `R + K² - K_{ij} K^{ij} - 16 π ρ`. -/
noncomputable def hamiltonian (γ K : T2) (m : Matter) : Scal := fun x =>
  scalarCurvature γ x + trace γ K x ^ 2 - ∑ i, ∑ j, K i j x * raise2 γ K i j x - 16 * Real.pi * m.rho x

/-- `D_j (K^{ij} - γ^{ij} K) - 8 π S^i`. -/
noncomputable def momentum (γ K : T2) (m : Matter) : T1 := fun i x =>
  divergence γ (fun a b y => raise2 γ K a b y - inverse γ a b y * trace γ K y) i x -
    8 * Real.pi * ∑ j, inverse γ i j x * m.S j x

/-- `∂_t γ_{ij} = -2 α K_{ij} + (L_β γ)_{ij}`. -/
noncomputable def admGammaRhs (γ K : T2) (α : Scal) (β : T1) : T2 := fun i j x =>
  -2 * α x * K i j x + lieDD β γ i j x

/-- `∂_t K_{ij} = -D_i D_j α + α (R_{ij} + K K_{ij} - 2 K_{ik} K^k_j) + (L_β K)_{ij}
- 8 π α (S_{ij} - ½ γ_{ij} (S - ρ))`. -/
noncomputable def admKRhs (γ K : T2) (α : Scal) (β : T1) (m : Matter) : T2 := fun i j x =>
  -hessian γ α i j x +
  α x * (ricci γ i j x + trace γ K x * K i j x - 2 * ∑ k, ∑ l, K i k x * inverse γ k l x * K l j x) +
  lieDD β K i j x -
  8 * Real.pi * α x * (m.SS i j x - 1 / 2 * γ i j x * (trace γ m.SS x - m.rho x))

end Verif.BSSN
