import Verif.Wave.Model
import Verif.BSSN.Fields
import Verif.IndexedExp.LeviCivita

/-!
# Model of the puncture initial data
(`nrpy/equations/nrpyelliptic`, `nrpy/equations/general_relativity/InitialData_Cartesian.py`)
-/
namespace Verif.Initial
open Verif.RefMetric Verif.BSSN Verif.IndexedExp Real

/-! ### ConformallyFlat_RHSs.py -/

/-- The symbols of the right-hand sides. -/
structure Syms where
  uu : ℝ
  vv : ℝ
  uu_dD : Fin 3 → ℝ
  uu_dDD : Fin 3 → Fin 3 → ℝ
  variable_wavespeed : ℝ
  psi_background : ℝ
  ADD_times_AUU : ℝ

/-- `residual` (ConformallyFlat_RHSs.py:46-53, 110-124). -/
noncomputable def residual (s : Vec → Vec) (x : Vec) (g : Syms) : ℝ :=
  (∑ i, (-((∑ a, ∑ b, ghatUU s a b x * GammahatUDD s i a b x) * g.uu_dD i) + ∑ j, ghatUU s i j x * g.uu_dDD i j)) +
    1 / 8 * g.ADD_times_AUU * (g.psi_background + g.uu) ^ (-7 : ℤ)

/-- `uu_rhs` (line 105). -/
def uu_rhs (eta_damping : ℝ) (g : Syms) : ℝ := g.vv - eta_damping * g.uu

/-- `vv_rhs` (line 127). -/
noncomputable def vv_rhs (s : Vec → Vec) (x : Vec) (g : Syms) : ℝ :=
  residual s x g * (g.variable_wavespeed * g.variable_wavespeed)

/-! ### ConformallyFlat_SourceTerms.py -/

/-- The parameters of the two punctures (CommonParams.py:24-54). -/
structure Punctures where
  bare_mass_0 : ℝ
  bare_mass_1 : ℝ
  zPunc : ℝ
  P0U : Vec
  P1U : Vec
  S0U : Vec
  S1U : Vec

/-- The position relative to the first puncture, `x0U` (ConformallyFlat_SourceTerms.py:47-50). -/
def x0U (p : Punctures) (x : Vec) : Vec := ![x 0, x 1, x 2 - p.zPunc]

/-- `x1U` (lines 48-51). -/
def x1U (p : Punctures) (x : Vec) : Vec := ![x 0, x 1, x 2 + p.zPunc]

/-- `r` (lines 162-165, 296-299). -/
noncomputable def norm3 (xU : Vec) : ℝ := √(∑ i, xU i ^ 2)

/-- `psi_background_cartesian` (lines 265-310). -/
noncomputable def psi_background (p : Punctures) (x : Vec) : ℝ :=
  1 + p.bare_mass_0 / (2 * norm3 (x0U p x)) + p.bare_mass_1 / (2 * norm3 (x1U p x))

/-- `dot` (lines 113-128). -/
def dot (a b : Vec) : ℝ := ∑ i, a i * b i

/-- `cross` (lines 130-148). -/
def cross (a b : Vec) : Vec := fun i => ∑ j, ∑ k, (leviCivita i j k : ℝ) * a j * b k

/-- `VU_cart_single_puncture` (lines 150-174). -/
noncomputable def VU_single (xU PU SU : Vec) : Vec := fun i =>
  -7 / 4 * PU i / norm3 xU + -1 / 4 * dot xU PU * xU i / norm3 xU ^ 3 + cross xU SU i / norm3 xU ^ 3

/-- `VU_cart_two_punctures` (lines 89-185), as a field. -/
noncomputable def VU (p : Punctures) : T1 := fun i x =>
  VU_single (x0U p x) p.P0U p.S0U i + VU_single (x1U p x) p.P1U p.S1U i

/-- The inner function `kronecker_delta` of `ADD_conf_cartesian` (lines 219-229): zero for equal indices. -/
def kronecker_delta (i j : Fin 3) : ℝ := if i = j then 0 else 1

/-- `V_cart_div` (lines 213-216). -/
noncomputable def V_div (V : T1) : Scal := fun x => ∑ i, pd i (V i) x

/-- `ADD_conf_cartesian` (lines 188-240). -/
noncomputable def ADD_conf (V : T1) : T2 := fun i j x =>
  pd j (V i) x + pd i (V j) x - 2 / 3 * kronecker_delta i j * V_div V x

/-- `ADD_times_AUU_conf_cartesian` (lines 243-262). -/
def ADD_times_AUU (A : T2) : Scal := fun x => ∑ i, ∑ j, A i j x * A i j x

/-- `compute_psi_background_and_ADD_times_AUU`, in Cartesian coordinates (lines 28-69; `replace_cart_coord_by_xx` then puts the
map `xx_to_Cart` in for the Cartesian coordinates, which is composition). -/
noncomputable def sourceTerms (p : Punctures) (x : Vec) : ℝ × ℝ := (psi_background p x, ADD_times_AUU (ADD_conf (VU p)) x)

/-! ### InitialData_Cartesian.py -/

/-- The parameters of `BrillLindquist` (InitialData_Cartesian.py:84-91). -/
structure Holes where
  BH1_posn : Vec
  BH1_mass : ℝ
  BH2_posn : Vec
  BH2_mass : ℝ

/-- `psi` (lines 95-98). -/
noncomputable def bl_psi (h : Holes) (x : Vec) : ℝ :=
  1 + h.BH1_mass / (2 * √((x 0 - h.BH1_posn 0) ^ 2 + (x 1 - h.BH1_posn 1) ^ 2 + (x 2 - h.BH1_posn 2) ^ 2)) +
    h.BH2_mass / (2 * √((x 0 - h.BH2_posn 0) ^ 2 + (x 1 - h.BH2_posn 1) ^ 2 + (x 2 - h.BH2_posn 2) ^ 2))

/-- `gammaDD` (lines 101-104). -/
noncomputable def bl_gammaDD (h : Holes) : T2 := fun i j x => if i = j then bl_psi h x ^ 4 else 0

/-- `KDD` (line 102). -/
def bl_KDD : T2 := fun _ _ _ => 0

/-- The reference metric of `"Cartesian"`. -/
noncomputable def cartRfm (x : Vec) : Rfm := rfmAt (fun _ _ => 1) x

/-- The ADM variables of the initial data at a point: no shift (lines 49-52). -/
noncomputable def bl_adm (h : Holes) (x : Vec) : Adm := ⟨fun i j => bl_gammaDD h i j x, fun i j => bl_KDD i j x, fun _ => 0, fun _ => 0⟩

/-- `alpha` (lines 53-72). -/
noncomputable def bl_alpha (c : CF) (h : Holes) (x : Vec) : ℝ := match c with
  | .phi => exp (-2 * FromADM.cf (cartRfm x) (bl_adm h x) .phi)
  | .chi => √(FromADM.cf (cartRfm x) (bl_adm h x) .chi)
  | .W => FromADM.cf (cartRfm x) (bl_adm h x) .W

end Verif.Initial
