import Verif.BSSN.Model
import Verif.IndexedExp.LeviCivita

/-!
# Model of psi4.py and psi4_tetrads.py (`nrpy/equations/general_relativity/`)

As in `Verif.BSSN.Model`, an expression becomes a function of the values of its symbols at one point.  `cached_simplify` and `doit` keep
the value of an expression and are left out.
-/
namespace Verif.BSSN
open Verif.RefMetric Verif.IndexedExp

abbrev W1 := Fin 4 → ℝ

/-! ### psi4.py -/

/-- The symbols of the expression (psi4.py:64-65, 79, 94, 109, 139): the ADM variables, and the derivatives, which are declared as
variables of their own. -/
structure Psi4In where
  gammaDD : V2
  gammaUU : V2
  KDD : V2
  gammaDDdDD : V4
  GammaUDD : V3
  KDDdD : V3

/-- Symbols declared with a symmetry: `gammaDDdDD` with `sym01_sym23` (psi4.py:64) is one symbol for each sorted pair of indices; its
value is the expression of the list `metric_derivs_expr_list` for the sorted indices (psi4.py:309-317), and so for `GammaUDD`
(psi4.py:65, 319-326) and `KDDdD` (psi4.py:109, 328-335). -/
noncomputable def psi4In (R : Rfm) (G : Gfs) (c : CF) : Psi4In where
  gammaDD := gammaDD R G c
  gammaUU := gammaUU R G c
  KDD := KDD R G c
  gammaDDdDD i j k l := gammaDDdDD R G c (min i j) (max i j) (min k l) (max k l)
  GammaUDD i j k := GammaUDD R G c i (min j k) (max j k)
  KDDdD i j k := KDDdD R G c (min i j) (max i j) k

namespace Psi4In
variable (I : Psi4In)

/-- psi4.py:66-89. -/
noncomputable def RDDDD : V4 := fun i k l m =>
  1 / 2 * (I.gammaDDdDD i m k l + I.gammaDDdDD k l i m - I.gammaDDdDD i l k m - I.gammaDDdDD k m i l) +
    ∑ n, ∑ p, I.gammaDD n p * (I.GammaUDD n k l * I.GammaUDD p i m - I.GammaUDD n k m * I.GammaUDD p i l)

/-- psi4.py:93-104. -/
noncomputable def rank4term1DDDD : V4 := fun i j k l => I.RDDDD i j k l + I.KDD i k * I.KDD l j - I.KDD i l * I.KDD k j

/-- psi4.py:108-132. -/
noncomputable def rank3term2DDD : V3 := fun j k l =>
  (1 / 2 * (I.KDDdD j k l - I.KDDdD j l k) + ∑ p, 1 / 2 * (I.GammaUDD p j k * I.KDD l p - I.GammaUDD p j l * I.KDD k p)) * -8

/-- psi4.py:138-144. -/
noncomputable def RDD : V2 := fun j l => ∑ i, ∑ m, I.gammaUU i m * I.RDDDD i j m l
/-- psi4.py:147-151. -/
noncomputable def KUD : V2 := fun p l => ∑ i, I.gammaUU p i * I.KDD i l
/-- psi4.py:154-157. -/
noncomputable def trK : ℝ := ∑ i, ∑ j, I.gammaUU i j * I.KDD i j
/-- psi4.py:161-170. -/
noncomputable def rank2term3DD : V2 := fun j l => (I.RDD j l + I.trK * I.KDD j l + ∑ p, -I.KDD j p * I.KUD p l) * 4

/-- `tetrad_product__Real_psi4` (psi4.py:176-189). -/
def tetradRe (n Mre Mim : W1) (mu nu eta delta : Fin 4) : ℝ :=
  n mu * Mre nu * n eta * Mre delta - n mu * Mim nu * n eta * Mim delta

/-- `tetrad_product__Imag_psi4` (psi4.py:191-204). -/
def tetradIm (n Mre Mim : W1) (mu nu eta delta : Fin 4) : ℝ :=
  -n mu * Mre nu * n eta * Mim delta - n mu * Mim nu * n eta * Mre delta

/-- The three pieces (psi4.py:207-288), for either of the two products; index `i + 1` is `i.succ`. -/
noncomputable def pieces (T : Fin 4 → Fin 4 → Fin 4 → Fin 4 → ℝ) : ℝ :=
  (∑ i, ∑ j, ∑ k, ∑ l, I.rank4term1DDDD i j k l * T i.succ j.succ k.succ l.succ) +
  (∑ j, ∑ k, ∑ l, I.rank3term2DDD j k l * (1 / 2) * (T 0 j.succ k.succ l.succ - T j.succ 0 k.succ l.succ)) +
  ∑ j, ∑ l, I.rank2term3DD j l *
    (1 / 4 * (T 0 j.succ 0 l.succ - T j.succ 0 0 l.succ - T 0 j.succ l.succ 0 + T j.succ 0 l.succ 0))

/-- `psi4_re` (psi4.py:207-288). -/
noncomputable def psi4_re (n mre mim : W1) : ℝ := I.pieces (tetradRe n mre mim)
/-- `psi4_im` (psi4.py:207-288). -/
noncomputable def psi4_im (n mre mim : W1) : ℝ := I.pieces (tetradIm n mre mim)

end Psi4In

/-! ### The variables that carry the derivatives from one C function to the other -/

/-- One variable: its name, and the array and place where it is kept (psi4.py:306-335). -/
structure DerivVar where
  arr : String
  idx : List (Fin 3)
  place : Nat
  deriving DecidableEq, Repr

/-- `metric_derivs_varname_list` and `metric_derivs_varname_arr_list` (psi4.py:306-335). -/
def derivVars : List DerivVar :=
  ((List.finRange 3).flatMap fun i => ((List.finRange 3).filter (i ≤ ·)).flatMap fun j => (List.finRange 3).flatMap fun k =>
    ((List.finRange 3).filter (k ≤ ·)).map fun l => ⟨"gammaDDdDD", [i, j, k, l], l + 3 * (k + 3 * (j + 3 * i))⟩) ++
  ((List.finRange 3).flatMap fun i => (List.finRange 3).flatMap fun j => ((List.finRange 3).filter (j ≤ ·)).map fun k =>
    ⟨"GammaUDD", [i, j, k], k + 3 * (j + 3 * i)⟩) ++
  ((List.finRange 3).flatMap fun i => ((List.finRange 3).filter (i ≤ ·)).flatMap fun j => (List.finRange 3).map fun k =>
    ⟨"KDDdD", [i, j, k], k + 3 * (j + 3 * i)⟩)

/-- What `psi4_metric_deriv_quantities` leaves in the arrays: it assigns each expression to its place, in the order of the list
(psi4_C_codegen_library.py:158-166). -/
def packDerivs (val : DerivVar → ℝ) (mem : String → Nat → ℝ) : String → Nat → ℝ :=
  derivVars.foldl (fun m v a p => if a = v.arr ∧ p = v.place then val v else m a p) mem

/-- The assignments `metric_deriv_unpack_arrays` (psi4.py:343-347): each variable is read from its place. -/
def unpackDerivs (mem : String → Nat → ℝ) (v : DerivVar) : ℝ := mem v.arr v.place

/-! ### psi4_tetrads.py -/

/-- What the tetrad is built from: `rfm.xx_to_Cart`, `rfm.Jac_dUrfm_dDCartUD`, and the ADM variables (psi4_tetrads.py:49-79). -/
structure TetradIn where
  cart : V1
  jac : V2
  gammaDD : V2
  gammaUU : V2
  detgamma : ℝ

/-- The values at the point `x` (psi4_tetrads.py:54-79).  `gammaUU` and `detgamma` are computed by `symm_matrix_inverter3x3`
(BSSN_to_ADM.py:128), `Jac_dUrfm_dDCartUD` by `generic_matrix_inverter3x3` from the derivatives of `xx_to_Cart`
(reference_metric.py:207-224). -/
noncomputable def tetradIn (C : Coords) (x : Vec) (R : Rfm) (G : Gfs) (c : CF) : TetradIn where
  cart := C.toCart x
  jac i j := genInv3Num (fun i j => pd j (fun y => C.toCart y i) x) i j / genInv3Det (fun i j => pd j (fun y => C.toCart y i) x)
  gammaDD := gammaDD R G c
  gammaUU := gammaUU R G c
  detgamma := symmInv3Det (gammaDD R G c)

namespace TetradIn
variable (I : TetradIn)

/-- psi4_tetrads.py:82, 95-100. -/
noncomputable def v1U : V1 := fun i => ∑ j, I.jac i j * ![-I.cart 1, I.cart 0, 0] j
/-- psi4_tetrads.py:83, 95-100. -/
noncomputable def v2U : V1 := fun i => ∑ j, I.jac i j * ![I.cart 0, I.cart 1, I.cart 2] j
/-- psi4_tetrads.py:103-115. -/
noncomputable def v3U : V1 := fun a =>
  ∑ b, ∑ c, ∑ d, Real.sqrt I.detgamma * I.gammaUU a d * (leviCivita d b c : ℝ) * I.v1U b * I.v2U c

/-- `update_omega` (psi4_tetrads.py:140-156): `γ_ab v^a w^b`. -/
noncomputable def omega (v w : V1) : ℝ := ∑ a, ∑ b, v a * w b * I.gammaDD a b

/-- psi4_tetrads.py:162-165. -/
noncomputable def e1U : V1 := fun a => I.v1U a / Real.sqrt (I.omega I.v1U I.v1U)
/-- psi4_tetrads.py:168-171. -/
noncomputable def e2U' : V1 := fun a => I.v2U a - I.omega I.e1U I.v2U * I.e1U a
/-- psi4_tetrads.py:172-175. -/
noncomputable def e2U : V1 := fun a => I.e2U' a / Real.sqrt (I.omega I.e2U' I.e2U')
/-- psi4_tetrads.py:178-182. -/
noncomputable def e3U' : V1 := fun a => I.v3U a - I.omega I.e1U I.v3U * I.e1U a - I.omega I.e2U I.v3U * I.e2U a
/-- psi4_tetrads.py:184-187. -/
noncomputable def e3U : V1 := fun a => I.e3U' a / Real.sqrt (I.omega I.e3U' I.e3U')

/-- psi4_tetrads.py:190-199. -/
noncomputable def r4U : W1 := Fin.cons 0 I.e2U
/-- psi4_tetrads.py:190-199. -/
noncomputable def theta4U : W1 := Fin.cons 0 I.e3U
/-- psi4_tetrads.py:190-199. -/
noncomputable def phi4U : W1 := Fin.cons 0 I.e1U

end TetradIn

/-- The four vectors. -/
structure Tetrad where
  l4U : W1
  n4U : W1
  mre4U : W1
  mim4U : W1

/-- `u4U` (psi4_tetrads.py:201-213); the argument is the pair `α`, `β^i` of BSSN_quantities if `use_metric_to_construct_unit_normal`. -/
noncomputable def unitNormal : Option (ℝ × V1) → W1
  | some (alpha, betaU) => Fin.cons (1 / alpha) fun i => -betaU i / alpha
  | none => ![1, 0, 0, 0]

/-- psi4_tetrads.py:215-236; `M_SQRT1_2` of `math.h` is `1/√2`. -/
noncomputable def TetradIn.tetrad (I : TetradIn) (normal : Option (ℝ × V1)) : Tetrad where
  l4U mu := 1 / Real.sqrt 2 * (unitNormal normal mu + I.r4U mu)
  n4U mu := 1 / Real.sqrt 2 * (unitNormal normal mu - I.r4U mu)
  mre4U mu := 1 / Real.sqrt 2 * I.theta4U mu
  mim4U mu := 1 / Real.sqrt 2 * I.phi4U mu

/-- `Psi4Tetrads(..., tetrad=...)` (psi4_tetrads.py:41-47). -/
noncomputable def psi4Tetrads (I : TetradIn) (tetrad : String) (normal : Option (ℝ × V1)) : Except String Tetrad :=
  if tetrad ≠ "quasiKinnersley" then .error "ValueError" else .ok (I.tetrad normal)

end Verif.BSSN
