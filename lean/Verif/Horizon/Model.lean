import Verif.BSSN.Model

/-!
# Model of equations/general_relativity/bhahaha/ExpansionFunctionTheta.py

The SymPy expressions become functions of the values of the symbols they contain.  The file supports spherical coordinates
only; the variant with precomputed reference metric has the same expressions with `f0_of_xx0` for the radius and is left out.
-/
namespace Verif.Horizon
open Verif.RefMetric Verif.IndexedExp Verif.BSSN

/-- The gridfunction symbols (ExpansionFunctionTheta.py:100-102, 119, 129, 135-138, 154, 274-275).  `hh` is only used by the
final substitution.  `partial_D_hDD k i j` stands for `h_{ij,k}`. -/
structure Syms where
  hh : ℝ
  hh_dD : V1
  hh_dDD : V2
  hDD : V2
  partial_D_hDD : V3
  WW : ℝ
  partial_D_WW : V1
  aDD : V2
  trK : ℝ

section
variable (R : Rfm) (G : Syms)

/-- ExpansionFunctionTheta.py:105. -/
def F_dD : V1 := ![1, -G.hh_dD 1, -G.hh_dD 2]
/-- ExpansionFunctionTheta.py:106-113. -/
def F_dDD : V2 := ![![0, 0, 0], ![0, -G.hh_dDD 1 1, -G.hh_dDD 1 2], ![0, -G.hh_dDD 1 2, -G.hh_dDD 2 2]]
/-- ExpansionFunctionTheta.py:118-124. -/
def gammabarDD : V2 := fun i j => G.hDD i j * R.ReDD i j + R.ghatDD i j
/-- ExpansionFunctionTheta.py:128-132. -/
noncomputable def gammaDD : V2 := fun i j => 1 / G.WW ^ 2 * gammabarDD R G i j
/-- ExpansionFunctionTheta.py:133-148. -/
def gammabarDDdD : V3 := fun i j k =>
  R.ghatDDdD i j k + G.partial_D_hDD k i j * R.ReDD i j + G.hDD i j * R.ReDDdD i j k
/-- ExpansionFunctionTheta.py:153-161. -/
noncomputable def gammaDDdD : V3 := fun i j k =>
  -2 / G.WW ^ 3 * gammabarDD R G i j * G.partial_D_WW k + gammabarDDdD R G i j k / G.WW ^ 2
/-- ExpansionFunctionTheta.py:165. -/
noncomputable def gammaUU : V2 := inv3 (gammaDD R G)
/-- ExpansionFunctionTheta.py:165. -/
noncomputable def detgamma : ℝ := symmInv3Det (gammaDD R G)
/-- ExpansionFunctionTheta.py:166-172. -/
noncomputable def detgamma_dD : V1 := fun k => ∑ j, ∑ i, detgamma R G * gammaUU R G i j * gammaDDdD R G i j k
/-- ExpansionFunctionTheta.py:176-186. -/
noncomputable def gammaUUdD : V3 := fun i j k => ∑ m, ∑ n, -gammaUU R G i m * gammaUU R G j n * gammaDDdD R G m n k
/-- ExpansionFunctionTheta.py:191-194. -/
noncomputable def unnormalized_sU : V1 := fun i => ∑ j, gammaUU R G i j * F_dD G j
/-- ExpansionFunctionTheta.py:197-201. -/
noncomputable def lambda_squared : ℝ := ∑ i, ∑ j, gammaUU R G i j * F_dD G i * F_dD G j
/-- ExpansionFunctionTheta.py:202. -/
noncomputable def lamb : ℝ := Real.sqrt (lambda_squared R G)
/-- ExpansionFunctionTheta.py:205-207. -/
noncomputable def sU : V1 := fun i => unnormalized_sU R G i / lamb R G
/-- ExpansionFunctionTheta.py:212-228. -/
noncomputable def lamb_dD : V1 := fun i =>
  (∑ k, ∑ m, F_dD G k * F_dD G m * gammaUUdD R G k m i + ∑ k, ∑ m, 2 * gammaUU R G k m * F_dD G m * F_dDD G i k) *
    (1 / (2 * lamb R G))
/-- ExpansionFunctionTheta.py:233-246. -/
noncomputable def partial_i_si_parenthetical_term : ℝ :=
  (∑ i, ∑ j, F_dD G j * gammaUUdD R G i j i + ∑ i, ∑ j, gammaUU R G i j * F_dDD G i j) / lamb R G
/-- ExpansionFunctionTheta.py:248-258. -/
noncomputable def partial_i_si_term_after_parenthetical : ℝ :=
  (∑ i, ∑ j, lamb_dD R G i * gammaUU R G i j * F_dD G j) / (-lamb R G * lamb R G)
/-- ExpansionFunctionTheta.py:261-263. -/
noncomputable def partial_i_si : ℝ := partial_i_si_parenthetical_term R G + partial_i_si_term_after_parenthetical R G
/-- ExpansionFunctionTheta.py:267-271. -/
noncomputable def covariant_divergence_of_s_i : ℝ :=
  (∑ i, sU R G i * detgamma_dD R G i) * (1 / (2 * detgamma R G)) + partial_i_si R G
/-- ExpansionFunctionTheta.py:276-280. -/
def AbarDD : V2 := fun i j => G.aDD i j * R.ReDD i j
/-- ExpansionFunctionTheta.py:281-288. -/
noncomputable def KDD : V2 := fun i j => 1 / G.WW ^ 2 * AbarDD R G i j + 1 / 3 * gammaDD R G i j * G.trK
/-- ExpansionFunctionTheta.py:292-298. -/
noncomputable def thetaExpr : ℝ :=
  covariant_divergence_of_s_i R G - G.trK + ∑ i, ∑ j, sU R G i * sU R G j * KDD R G i j

end

/-- `ExpansionFunctionThetaClass(CoordSystem).Theta` (ExpansionFunctionTheta.py:39-68, 300) at the coordinates `x`: only
`"Spherical"` is accepted; the reference-metric expressions, functions of `xx`, have `hh` substituted for `xx[0]`. -/
noncomputable def theta (P : CoordParams) (CoordSystem : Py.Str) (G : Syms) (x : Vec) : Except String ℝ :=
  if CoordSystem = (c% "Spherical") then
    match choose P CoordSystem with
    | .sys C => .ok (thetaExpr (rfmAt C.scale (Function.update x 0 G.hh)) G)
    | _ => .error "ValueError"
  else .error "ValueError"

end Verif.Horizon
