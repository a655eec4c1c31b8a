import Verif.Reader.Model
import Verif.CurviBC.PartnerClaims
import Verif.BSSN.RoundTrip
import Verif.Equations.JacobiansProps

/-!
# C102, at one point: specification and lemmas
-/
namespace Verif.Reader
open Verif.Py Verif.RefMetric Verif.BSSN Verif.Equations Verif.CurviBC Verif.IndexedExp Real

/-! ### Specification: tensor fields on space and their components -/

/-- A spacelike slice with lapse, shift, its time derivative `B` and stress-energy tensor, by Cartesian components. -/
structure Slice where
  alpha : Vec → ℝ
  gamma : Vec → V2
  K : Vec → V2
  beta : Vec → V1
  B : Vec → V1
  T : Vec → Fin 4 → Fin 4 → ℝ

/-- Covariant components in the coordinates `c` at `x` of the tensor with Cartesian components `C`. -/
noncomputable def compDD (c : Coords) (x : Vec) (C : V2) : V2 := fun i j =>
  ∑ a, ∑ b, C a b * pd i (fun y => c.toCart y a) x * pd j (fun y => c.toCart y b) x

/-- `v` are the components in the coordinates `c` at `x` of the vector with Cartesian components `V`. -/
def IsVec (c : Coords) (x : Vec) (v V : V1) : Prop := ∀ a, V a = ∑ i, v i * pd i (fun y => c.toCart y a) x

/-- Derivatives of `(t, Cartesian coordinates)` by `(t, coordinates)`. -/
noncomputable def jac4D (c : Coords) (x : Vec) (mu nu : Fin 4) : ℝ :=
  Fin.cases (Fin.cases 1 (fun _ => 0) nu) (fun a => Fin.cases 0 (fun i => pd i (fun y => c.toCart y a) x) nu) mu

/-- The same for contravariant tensors of rank two in spacetime. -/
def IsT4 (c : Coords) (x : Vec) (t T : Fin 4 → Fin 4 → ℝ) : Prop :=
  ∀ mu nu, T mu nu = ∑ d, ∑ s, t d s * jac4D c x mu d * jac4D c x nu s

/-- The initial data are the components, in the coordinates `c` at `x`, of the slice at the point `p` of space. -/
structure Represents (c : Coords) (x : Vec) (S : Slice) (p : Vec) (d : IDData) : Prop where
  alpha : d.alpha = S.alpha p
  gamma : d.adm.gammaDD = compDD c x (S.gamma p)
  K : d.adm.KDD = compDD c x (S.K p)
  beta : IsVec c x d.adm.betaU (S.beta p)
  B : IsVec c x d.adm.BU (S.B p)
  T : IsT4 c x d.T4UU (S.T p)

/-- The metric is a metric, the extrinsic curvature symmetric. -/
structure Slice.Valid (S : Slice) (p : Vec) : Prop where
  gamma_symm : ∀ i j, S.gamma p i j = S.gamma p j i
  K_symm : ∀ i j, S.K p i j = S.K p j i
  det : 0 < (Matrix.of (S.gamma p)).det

/-- Determinant of the metric in Cartesian coordinates. -/
noncomputable def Slice.det (S : Slice) (p : Vec) : ℝ := (Matrix.of (S.gamma p)).det
/-- Trace of the extrinsic curvature. -/
noncomputable def Slice.trK (S : Slice) (p : Vec) : ℝ := ∑ i, ∑ j, (Matrix.of (S.gamma p))⁻¹ i j * S.K p i j
/-- The conformal metric, of unit determinant, less the flat metric. -/
noncomputable def Slice.eps (S : Slice) (p : Vec) : V2 := fun i j =>
  S.det p ^ (-(1 / 3) : ℝ) * S.gamma p i j - if i = j then 1 else 0
/-- The conformal trace-free part of the extrinsic curvature. -/
noncomputable def Slice.Abar (S : Slice) (p : Vec) : V2 := fun i j =>
  S.det p ^ (-(1 / 3) : ℝ) * (S.K p i j - 1 / 3 * S.gamma p i j * S.trK p)
/-- The evolved conformal factor. -/
noncomputable def Slice.cf (S : Slice) (c : CF) (p : Vec) : ℝ := match c with
  | .phi => 1 / 12 * Real.log (S.det p)
  | .chi => S.det p ^ (-(1 / 3) : ℝ)
  | .W => S.det p ^ (-(1 / 6) : ℝ)

/-- The field whose component, in the orthonormal basis of the grid's coordinates, a gridfunction stands for; `origin` is
the place of the grid's origin in space. -/
noncomputable def Slice.comp (S : Slice) (c : CF) (origin : Vec) : Var → Comp
  | .alpha => .scalar fun y => S.alpha (y + origin)
  | .cf => .scalar fun y => S.cf c (y + origin)
  | .trK => .scalar fun y => S.trK (y + origin)
  | .vetU i => .vector (fun y => S.beta (y + origin)) i
  | .betU i => .vector (fun y => S.B (y + origin)) i
  | .hDD i j => .tensor (fun y => S.eps (y + origin)) i j
  | .aDD i j => .tensor (fun y => S.Abar (y + origin)) i j
  | .lambdaU i => .vector (fun _ _ => 0) i

/-! ### The Jacobians -/

theorem jacobian_eq {c : Coords} {x : Vec} (hb : IsBasis c x) (a i : Fin 3) :
    jacobian c x a i = c.scale x i * c.unit x i a := (hb.deriv a i).deriv

theorem left_inv {c : Coords} {x : Vec} (hb : IsBasis c x) (hs : ∀ i, c.scale x i ≠ 0) :
    (Matrix.of fun i a => c.unit x i a / c.scale x i) * Matrix.of (jacobian c x) = 1 := by
  ext i j
  rw [Matrix.mul_apply]
  simp only [Matrix.of_apply, jacobian_eq hb]
  have e : ∑ k, c.unit x i k / c.scale x i * (c.scale x j * c.unit x j k) =
      c.scale x j / c.scale x i * ∑ k, c.unit x i k * c.unit x j k := by
    rw [Finset.mul_sum]; exact Finset.sum_congr rfl fun k _ => by ring
  rw [e, hb.orthonormal, Matrix.one_apply]
  split
  · next h => subst h; rw [mul_one, div_self (hs i)]
  · rw [mul_zero]

theorem det_jacobian {c : Coords} {x : Vec} (hb : IsBasis c x) (hs : ∀ i, c.scale x i ≠ 0) :
    (Matrix.of (jacobian c x)).det ≠ 0 := by
  intro h
  have := congrArg Matrix.det (left_inv hb hs)
  rw [Matrix.det_mul, h, mul_zero, Matrix.det_one] at this
  exact zero_ne_one this

theorem jac_pair {c : Coords} {x : Vec} (hb : IsBasis c x) (hs : ∀ i, c.scale x i ≠ 0) :
    ∃ J, jacPair (jacobian c x) = some J ∧ J.toCart = jacobian c x ∧ ∀ i a, J.toRfm i a = c.unit x i a / c.scale x i := by
  obtain ⟨J, h1, h2, h3, h4⟩ := jacPair_spec _ (det_jacobian hb hs)
  refine ⟨J, h1, h2, fun i a => ?_⟩
  have : Matrix.of J.toRfm = Matrix.of fun i a => c.unit x i a / c.scale x i := by
    have k := left_inv hb hs
    rw [h2] at h3
    calc Matrix.of J.toRfm = ((Matrix.of fun i a => c.unit x i a / c.scale x i) * Matrix.of (jacobian c x)) *
          Matrix.of J.toRfm := by rw [k, Matrix.one_mul]
      _ = _ := by rw [Matrix.mul_assoc, h3, Matrix.mul_one]
  exact congrFun (congrFun this i) a

/-! ### From the data to Cartesian components -/

theorem compDD_eq (c : Coords) (x : Vec) (C : V2) (J : JacPair) (h : J.toCart = jacobian c x) :
    compDD c x C = tensDDToRfm J C := by
  funext i j
  unfold compDD tensDDToRfm
  rw [h]
  exact Finset.sum_congr rfl fun a _ => Finset.sum_congr rfl fun b _ => by unfold jacobian; ring

theorem isVec_iff (c : Coords) (x : Vec) (v V : V1) (J : JacPair) (h : J.toCart = jacobian c x) :
    IsVec c x v V ↔ vecUToCart J v = V := by
  unfold IsVec vecUToCart
  rw [h, funext_iff]
  refine forall_congr' fun a => ⟨fun k => ?_, fun k => ?_⟩
  · rw [k]; exact Finset.sum_congr rfl fun i _ => by unfold jacobian; ring
  · rw [← k]; exact Finset.sum_congr rfl fun i _ => by unfold jacobian; ring

theorem jac4D_eq (c : Coords) (x : Vec) (mu nu : Fin 4) : jac4D c x mu nu = jac4 (jacobian c x) mu nu := by
  unfold jac4D jac4 block4
  refine Fin.cases ?_ (fun a => ?_) mu <;> refine Fin.cases ?_ (fun i => ?_) nu <;> rfl

theorem isT4_iff (c : Coords) (x : Vec) (t T : Fin 4 → Fin 4 → ℝ) (J : JacPair) (h : J.toCart = jacobian c x) :
    IsT4 c x t T ↔ tens4ToCart J t = T := by
  unfold IsT4 tens4ToCart
  rw [h]
  constructor
  · intro k
    funext mu nu
    rw [k]
    exact Finset.sum_congr rfl fun d _ => Finset.sum_congr rfl fun s _ => by rw [jac4D_eq, jac4D_eq]; ring
  · intro k mu nu
    rw [← k]
    exact Finset.sum_congr rfl fun d _ => Finset.sum_congr rfl fun s _ => by rw [jac4D_eq, jac4D_eq]; ring

/-- The Cartesian components of a slice at a point, as the converter holds them. -/
def Slice.data (S : Slice) (p : Vec) : IDData := ⟨S.alpha p, ⟨S.gamma p, S.K p, S.beta p, S.B p⟩, S.T p⟩

theorem admToCart_eq {name : Str} {c : Coords} {p x : Vec} (hx : sourceXx name c p = some x) (hb : IsBasis c x)
    (hs : ∀ i, c.scale x i ≠ 0) {S : Slice} {d : IDData} (hd : Represents c x S p d) :
    admToCart name c p d = some (S.data p) := by
  obtain ⟨J, h1, h2, -, -, -, -, -, htt, -⟩ := C51_roundtrip _ (det_jacobian hb hs)
  unfold admToCart
  rw [hx, Option.bind_some, h1, Option.map_some]
  congr 1
  unfold Slice.data
  rw [hd.alpha, hd.gamma, hd.K, compDD_eq c x _ J h2, compDD_eq c x _ J h2, htt, htt,
    (isVec_iff c x _ _ J h2).1 hd.beta, (isVec_iff c x _ _ J h2).1 hd.B, (isT4_iff c x _ _ J h2).1 hd.T]

/-! ### BSSN variables with Cartesian components -/

theorem cart_det : cartRfm.detgammahat = 1 := by
  simp [cartRfm, rfmAt, RefMetric.detgammahat, RefMetric.ghatDD, cartesian, symmInv3Det]

section
variable {S : Slice} {p : Vec} (hS : S.Valid p)
include hS

theorem gammaDET_eq : FromADM.gammaDET (S.data p).adm = S.det p := det_eq hS.gamma_symm

theorem inv3_matrix : ∀ i j, inv3 (S.gamma p) i j = (Matrix.of (S.gamma p))⁻¹ i j := fun i j => by
  rw [inv3_eq hS.gamma_symm]

theorem trK_eq : FromADM.trK (S.data p).adm = S.trK p := by
  unfold FromADM.trK FromADM.gammaUU Slice.trK
  exact Finset.sum_congr rfl fun i _ => Finset.sum_congr rfl fun j _ => by
    rw [show (S.data p).adm.gammaDD = S.gamma p from rfl, inv3_matrix hS]; rfl

theorem conf_eq : (cartRfm.detgammahat / FromADM.gammaDET (S.data p).adm) ^ (1 / 3 : ℝ) = S.det p ^ (-(1 / 3) : ℝ) := by
  have hd : 0 ≤ S.det p := hS.det.le
  rw [cart_det, gammaDET_eq hS, one_div, Real.inv_rpow hd, Real.rpow_neg hd]

theorem gammabar_eq (i j : Fin 3) : FromADM.gammabarDD cartRfm (S.data p).adm i j = S.eps p i j + if i = j then 1 else 0 := by
  unfold FromADM.gammabarDD Slice.eps
  rw [conf_eq hS, sub_add_cancel]
  rfl

theorem Abar_eq (i j : Fin 3) : FromADM.AbarDD cartRfm (S.data p).adm i j = S.Abar p i j := by
  unfold FromADM.AbarDD Slice.Abar
  rw [conf_eq hS, trK_eq hS]
  rfl

theorem gammabarDET_eq : FromADM.gammabarDET cartRfm (S.data p).adm = 1 := by
  show symmInv3Det (fun i j => _ * (S.data p).adm.gammaDD i j) = _
  rw [det_scale, cart_det, third_pow (div_nonneg zero_le_one (by rw [gammaDET_eq hS]; exact hS.det.le))]
  show 1 / FromADM.gammaDET (S.data p).adm * FromADM.gammaDET (S.data p).adm = 1
  rw [gammaDET_eq hS]
  exact one_div_mul_cancel hS.det.ne'

theorem cf_eq (c : CF) : FromADM.cf cartRfm (S.data p).adm c = S.cf c p := by
  cases c <;> simp only [FromADM.cf, Slice.cf, gammabarDET_eq hS, gammaDET_eq hS, div_one]

end

/-! ### Rescaled variables -/

theorem vet_eq {c : Coords} {x : Vec} {J : JacPair} (hs : ∀ i, c.scale x i ≠ 0)
    (hJ : ∀ i a, J.toRfm i a = c.unit x i a / c.scale x i) (V : V1) (i : Fin 3) :
    vecUToRfm J V i / (rfmAt c.scale x).ReU i = ∑ a, V a * c.unit x i a := by
  show (∑ l, J.toRfm i l * V l) / (1 / c.scale x i) = _
  have := hs i
  rw [div_div_eq_mul_div, div_one, Finset.sum_mul]
  refine Finset.sum_congr rfl fun a _ => ?_
  rw [hJ]
  field_simp

theorem toRfm_units {c : Coords} {x : Vec} {J : JacPair} (hb : IsBasis c x) (h2 : J.toCart = jacobian c x) (T : V2)
    (i j : Fin 3) : tensDDToRfm J T i j = c.scale x i * c.scale x j * ∑ a, ∑ b, T a b * c.unit x i a * c.unit x j b := by
  unfold tensDDToRfm
  rw [h2]
  simp only [Finset.mul_sum, jacobian_eq hb]
  exact Finset.sum_congr rfl fun a _ => Finset.sum_congr rfl fun b _ => by ring

theorem tens_eq {c : Coords} {x : Vec} {J : JacPair} (hb : IsBasis c x) (hs : ∀ i, c.scale x i ≠ 0)
    (h2 : J.toCart = jacobian c x) (T : V2) (i j : Fin 3) :
    tensDDToRfm J T i j / (rfmAt c.scale x).ReDD i j = ∑ a, ∑ b, T a b * c.unit x i a * c.unit x j b := by
  rw [toRfm_units hb h2]
  exact mul_div_cancel_left₀ _ (mul_ne_zero (hs i) (hs j))

theorem delta_units {c : Coords} {x : Vec} (hb : IsBasis c x) (i j : Fin 3) :
    ∑ a, ∑ b, (if a = b then (1 : ℝ) else 0) * c.unit x i a * c.unit x j b = if i = j then 1 else 0 := by
  rw [← hb.orthonormal i j]
  refine Finset.sum_congr rfl fun a _ => ?_
  simp [Finset.sum_ite_eq, ite_mul]

theorem ghat_units (c : Coords) (x : Vec) (i j : Fin 3) :
    (rfmAt c.scale x).ghatDD i j = c.scale x i * c.scale x j * if i = j then 1 else 0 := by
  show (if i = j then c.scale x i ^ 2 else 0) = _
  split
  · next h => subst h; ring
  · ring

/-- Everything that is stored for a grid point. -/
structure Stored (c : Coords) (cf : CF) (origin x : Vec) (S : Slice) (r : Rescaled) : Prop where
  values : ∀ v, r.get v = (S.comp cf origin v).value c x
  T : IsT4 c x r.T4UU (S.T (c.toCart x + origin))

theorem rescale_eq {c : Coords} {cf : CF} {x origin : Vec} (hb : IsBasis c x) (hs : ∀ i, c.scale x i ≠ 0) {S : Slice}
    (hS : S.Valid (c.toCart x + origin)) :
    ∃ r, rescale c x (toBssnCart cf (S.data (c.toCart x + origin))) = some r ∧ Stored c cf origin x S r := by
  obtain ⟨J, h1, h2, h3⟩ := jac_pair hb hs
  obtain ⟨J', k1, -, -, -, -, -, -, -, -, k4⟩ := C51_roundtrip _ (det_jacobian hb hs)
  rw [h1] at k1
  cases k1
  unfold rescale
  rw [h1, Option.map_some]
  refine ⟨_, rfl, fun v => ?_, ?_⟩
  · cases v with
    | alpha => rfl
    | cf => exact cf_eq hS cf
    | trK => exact trK_eq hS
    | vetU i => exact vet_eq hs h3 _ i
    | betU i => exact vet_eq hs h3 _ i
    | hDD i j =>
      show (tensDDToRfm J (FromADM.gammabarDD cartRfm (S.data (c.toCart x + origin)).adm) i j - _) / _ = _
      rw [sub_div, tens_eq hb hs h2, ghat_units]
      show _ - c.scale x i * c.scale x j * _ / (c.scale x i * c.scale x j) = ∑ a, ∑ b, _ * _ * _
      rw [mul_div_cancel_left₀ _ (mul_ne_zero (hs i) (hs j)), ← delta_units hb i j, ← Finset.sum_sub_distrib]
      refine Finset.sum_congr rfl fun a _ => ?_
      rw [← Finset.sum_sub_distrib]
      refine Finset.sum_congr rfl fun b _ => ?_
      rw [gammabar_eq hS]
      ring
    | aDD i j =>
      show tensDDToRfm J (FromADM.AbarDD cartRfm (S.data (c.toCart x + origin)).adm) i j / _ = ∑ a, ∑ b, _ * _ * _
      rw [tens_eq hb hs h2]
      exact Finset.sum_congr rfl fun a _ => Finset.sum_congr rfl fun b _ => by rw [Abar_eq hS]
    | lambdaU i =>
      show (0 : ℝ) = ∑ a, 0 * _
      simp
  · exact (isT4_iff c x _ _ J h2).2 (k4 _)

end Verif.Reader
