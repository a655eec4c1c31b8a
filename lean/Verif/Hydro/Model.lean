import Verif.BSSN.Model
import Verif.Equations.FourMetric

/-!
# Model of GRHD_equations.py (`nrpy/equations/grhd/`)

As in `Verif.BSSN.Model`, an expression becomes a function of the values of its symbols at one point.  `sp.together` keeps the value of
an expression and is left out.
-/
namespace Verif.Hydro
open Verif.RefMetric Verif.IndexedExp Verif.BSSN Verif.Equations

abbrev W1 := Fin 4 → ℝ
abbrev W2 := Fin 4 → Fin 4 → ℝ

/-- The hydrodynamical symbols (GRHD_equations.py:70-73). -/
structure Hyd where
  rescaledvU : V1
  u4Ut : ℝ
  rhob : ℝ
  P : ℝ
  h : ℝ
  Ye : ℝ

section
variable (R : Rfm) (G : Gfs) (c : CF) (H : Hyd)

/-- GRHD_equations.py:75, 78-79. -/
noncomputable def VU : V1 := fun i => H.rescaledvU i * R.ReU i
/-- GRHD_equations.py:76-80. -/
noncomputable def u4U : W1 := Fin.cons H.u4Ut fun i => VU R H i * H.u4Ut
/-- GRHD_equations.py:93; the exponents are floating-point numbers, here real ones. -/
noncomputable def e6phi : ℝ := (exp_m4phi G c ^ (0.5 : ℝ)) ^ (-3.0 : ℝ)

/-- `g4UU` (GRHD_equations.py:146-153, g4munu_conversions.py:82-112), with the inverse of the metric from `symm_matrix_inverter3x3`. -/
noncomputable def g4UU : W2 := g4UUof (inv3 (gammaDD R G c)) (betaU R G) G.alpha
/-- `g4DD` (GRHD_equations.py:182-190). -/
noncomputable def g4DD : W2 := admToG4DD (gammaDD R G c) (betaU R G) G.alpha

/-- GRHD_equations.py:155-161. -/
noncomputable def T4UU : W2 := fun mu nu => H.rhob * H.h * u4U R H mu * u4U R H nu + H.P * g4UU R G c mu nu
/-- GRHD_equations.py:163-174. -/
noncomputable def rescaledT4UU : W2 :=
  Fin.cons (Fin.cons (T4UU R G c H 0 0) fun j => T4UU R G c H 0 j.succ / R.ReU j) fun i =>
    Fin.cons (T4UU R G c H 0 i.succ / R.ReU i) fun j => T4UU R G c H i.succ j.succ / (R.ReU i * R.ReU j)
/-- GRHD_equations.py:192-198. -/
noncomputable def T4UD : W2 := fun mu nu => ∑ delta, T4UU R G c H mu delta * g4DD R G c delta nu
/-- GRHD_equations.py:200-213. -/
noncomputable def rescaledT4UD : W2 :=
  Fin.cons (Fin.cons (T4UD R G c H 0 0) fun j => T4UD R G c H 0 j.succ * R.ReU j) fun i =>
    Fin.cons (T4UD R G c H i.succ 0 / R.ReU i) fun j => T4UD R G c H i.succ j.succ * (R.ReU j / R.ReU i)

/-- GRHD_equations.py:228. -/
noncomputable def rho_star : ℝ := G.alpha * e6phi G c * H.rhob * u4U R H 0
/-- GRHD_equations.py:239. -/
noncomputable def Ye_star : ℝ := H.Ye * G.alpha * e6phi G c * H.rhob * u4U R H 0
/-- GRHD_equations.py:248. -/
noncomputable def tau_tilde : ℝ := G.alpha ^ 2 * e6phi G c * T4UU R G c H 0 0 - rho_star R G c H
/-- GRHD_equations.py:256-258. -/
noncomputable def S_tildeD : V1 := fun i => G.alpha * e6phi G c * T4UD R G c H 0 i.succ
/-- GRHD_equations.py:260-262. -/
noncomputable def rescaledS_tildeD : V1 := fun i => G.alpha * e6phi G c * rescaledT4UD R G c H 0 i.succ

/-- GRHD_equations.py:270-272. -/
noncomputable def VU_from_u4U : V1 := fun j => u4U R H j.succ / u4U R H 0
/-- GRHD_equations.py:279-282. -/
noncomputable def rho_star_fluxU : V1 := fun j => rho_star R G c H * VU R H j
/-- GRHD_equations.py:283-285. -/
noncomputable def rescaled_rho_star_fluxU : V1 := fun j => rho_star_fluxU R G c H j / R.ReU j
/-- GRHD_equations.py:292-295. -/
noncomputable def Ye_star_fluxU : V1 := fun j => Ye_star R G c H * VU R H j
/-- GRHD_equations.py:296-298. -/
noncomputable def rescaled_Ye_star_fluxU : V1 := fun j => Ye_star_fluxU R G c H j / R.ReU j
/-- GRHD_equations.py:308-313. -/
noncomputable def tau_tilde_fluxU : V1 := fun j => G.alpha ^ 2 * e6phi G c * T4UU R G c H 0 j.succ - rho_star R G c H * VU R H j
/-- GRHD_equations.py:314-317. -/
noncomputable def rescaled_tau_tilde_fluxU : V1 := fun j =>
  G.alpha ^ 2 * e6phi G c * rescaledT4UU R G c H 0 j.succ - rho_star R G c H * VU R H j / R.ReU j
/-- GRHD_equations.py:325-329; indices `j`, `i`. -/
noncomputable def S_tilde_fluxUD : V2 := fun j i => G.alpha * e6phi G c * T4UD R G c H j.succ i.succ
/-- GRHD_equations.py:330-332. -/
noncomputable def rescaled_S_tilde_fluxUD : V2 := fun j i => G.alpha * e6phi G c * rescaledT4UD R G c H j.succ i.succ

/-- GRHD_equations.py:343-358. -/
noncomputable def tau_source_term : ℝ :=
  ((∑ i, ∑ j, (T4UU R G c H 0 0 * betaU R G i * betaU R G j + 2 * T4UU R G c H 0 i.succ * betaU R G j + T4UU R G c H i.succ j.succ) *
      KDD R G c i j) +
    ∑ i, -(T4UU R G c H 0 0 * betaU R G i + T4UU R G c H 0 i.succ) * G.alpha_dD i) * (G.alpha * e6phi G c)

/-- GRHD_equations.py:362-375. -/
noncomputable def rho_star_connection_term : ℝ := ∑ i, ∑ j, R.GammahatUDD i i j * rho_star_fluxU R G c H j
@[inherit_doc rho_star_connection_term]
noncomputable def Ye_star_connection_term : ℝ := ∑ i, ∑ j, R.GammahatUDD i i j * Ye_star_fluxU R G c H j
@[inherit_doc rho_star_connection_term]
noncomputable def tau_connection_term : ℝ := ∑ i, ∑ j, R.GammahatUDD i i j * tau_tilde_fluxU R G c H j
/-- GRHD_equations.py:379-386. -/
noncomputable def S_tilde_connection_termsD : V1 := fun i => ∑ j, ∑ l,
  (R.GammahatUDD j j l * S_tilde_fluxUD R G c H l i - R.GammahatUDD l j i * S_tilde_fluxUD R G c H j l)

/-- GRHD_equations.py:403-415; indices `i`, `j`, `k`. -/
noncomputable def covhatdD_gammaDD : V3 := fun i j k =>
  (exp_m4phi G c)⁻¹ * (4 * gammabarDD R G j k * phi_dD G c i + gammabarDD_dD R G j k i) -
    ∑ l, (exp_m4phi G c)⁻¹ * (R.GammahatUDD l i j * gammabarDD R G l k + R.GammahatUDD l i k * gammabarDD R G j l)

/-- GRHD_equations.py:417-438. -/
noncomputable def S_tilde_source_termD : V1 := fun i => G.alpha * e6phi G c * (
  -(T4UU R G c H 0 0 * G.alpha * G.alpha_dD i) +
  (∑ j, (T4UD R G c H 0 j.succ * betaU_dD R G j i + ∑ k, T4UD R G c H 0 j.succ * R.GammahatUDD j i k * betaU R G k)) +
  ∑ j, ∑ k, 1 / 2 * covhatdD_gammaDD R G c i j k *
    (T4UU R G c H 0 0 * betaU R G j * betaU R G k + 2 * T4UU R G c H 0 j.succ * betaU R G k + T4UU R G c H j.succ k.succ))

end
end Verif.Hydro
