import Verif.Reader.Pointwise
import Verif.Reader.Regular

/-!
# C102: what the initial data reader stores
-/
namespace Verif.Reader
open Verif.Py Verif.RefMetric Verif.BSSN Verif.Equations Verif.CurviBC Real

/-! ### The Cartesian systems, where the coordinates are not computed -/

theorem cartesian_at {P : CoordParams} {name : Str} {c : Coords} (h : choose P name = .sys c) (hn : name = (c% "Cartesian")) :
    (∀ x, c.scale x = c.scale 0) ∧ ∀ x, c.unit x = c.unit 0 := by
  subst hn
  have e : choose P (c% "Cartesian") = .sys (cartesian P.lo P.hi) := rfl
  rw [e] at h
  cases h
  exact ⟨fun _ => rfl, fun _ => rfl⟩

theorem basis_of {P : CoordParams} (hP : ValidParams P) {name : Str} {c : Coords} (h : choose P name = .sys c) {x : Vec}
    (hs : ∀ i, c.scale x i ≠ 0) : IsBasis c x := C60_basis hP.b.ne' h x (hs 1)

theorem jacobian_cart {P : CoordParams} (hP : ValidParams P) {name : Str} {c : Coords} (h : choose P name = .sys c)
    (hn : name = (c% "Cartesian")) {x : Vec} (hs : ∀ i, c.scale x i ≠ 0) : jacobian c x = jacobian c 0 := by
  obtain ⟨h1, h2⟩ := cartesian_at h hn
  funext a i
  rw [jacobian_eq (basis_of hP h hs), jacobian_eq (basis_of hP h fun i => by rw [← h1 x]; exact hs i), h1 x, h2 x]

/-! ### One point -/

/-- `ID_function` returns at the place `p` of space the components of the slice in the coordinates it is registered
with, and these are regular there. -/
def HasData (S : Setup) (T : Slice) (p : Vec) : Prop :=
  ∃ x, Regular S.idName x ∧ S.idSys.toCart x = p ∧ Represents S.idSys x T p (S.ID p)

/-- The coordinate systems of the grid and of the initial data are those the names stand for, and have a correct
`Cart_to_xx`. -/
structure Setup.Good (P : CoordParams) (S : Setup) : Prop where
  sys : choose P S.name = .sys S.sys
  inv : S.sys.ofCart.isSome
  tp : S.name ≠ (c% "SinhSymTP")
  idSys : choose P S.idName = .sys S.idSys
  idInv : S.idSys.ofCart.isSome
  idTp : S.idName ≠ (c% "SinhSymTP")

theorem represents_cart {c : Coords} {x y : Vec} (e : jacobian c x = jacobian c y) {T : Slice} {p : Vec} {d : IDData}
    (hd : Represents c x T p d) : Represents c y T p d := by
  have e' : ∀ a i, pd i (fun y => c.toCart y a) x = pd i (fun y => c.toCart y a) y := fun a i => congrFun (congrFun e a) i
  have ec : ∀ C, compDD c x C = compDD c y C := fun C => by unfold compDD; simp only [e']
  have ev : ∀ v V, IsVec c x v V ↔ IsVec c y v V := fun v V => by unfold IsVec; simp only [e']
  have et : ∀ v V, IsT4 c x v V ↔ IsT4 c y v V := fun v V => by unfold IsT4 jac4D; simp only [e']
  exact ⟨hd.alpha, hd.gamma.trans (ec _), hd.K.trans (ec _), (ev _ _).1 hd.beta, (ev _ _).1 hd.B, (et _ _).1 hd.T⟩

theorem rescale_cart {c : Coords} {x y : Vec} (e : jacobian c x = jacobian c y) (es : c.scale x = c.scale y) (b : BssnCart) :
    rescale c x b = rescale c y b := by
  unfold rescale
  rw [e]
  have e1 : (rfmAt c.scale x).ReU = (rfmAt c.scale y).ReU := by funext i; show 1 / c.scale x i = 1 / c.scale y i; rw [es]
  have e2 : (rfmAt c.scale x).ReDD = (rfmAt c.scale y).ReDD := by
    funext i j; show c.scale x i * c.scale x j = c.scale y i * c.scale y j; rw [es]
  have e3 : (rfmAt c.scale x).ghatDD = (rfmAt c.scale y).ghatDD := by funext i j; rw [ghat_units, ghat_units, es]
  simp only [e1, e2, e3]

section
variable {P : CoordParams} (hP : ValidParams P) {S : Setup} (hS : S.Good P)
include hP hS

/-- `ADM_SphorCart_to_Cart` gives the Cartesian components of the slice. -/
theorem admToCart_of {T : Slice} {p : Vec} (hd : HasData S T p) :
    admToCart S.idName S.idSys p (S.ID p) = some (T.data p) := by
  obtain ⟨x, hx, rfl, hr⟩ := hd
  have hs := regular_scale hP hS.idSys hx hS.idInv
  have hb := basis_of hP hS.idSys hs
  by_cases hn : S.idName = (c% "Cartesian")
  · have e := cartesian_at hS.idSys hn
    have hs0 : ∀ i, S.idSys.scale 0 i ≠ 0 := fun i => by rw [← e.1 x]; exact hs i
    refine admToCart_eq (x := 0) (by unfold sourceXx; rw [if_pos hn]) (basis_of hP hS.idSys hs0) hs0 ?_
    exact represents_cart (jacobian_cart hP hS.idSys hn hs) hr
  · obtain ⟨g, hg⟩ := Option.isSome_iff_exists.1 hS.idInv
    refine admToCart_eq (x := x) ?_ hb hs hr
    unfold sourceXx
    rw [if_neg hn, hg, Option.map_some, regular_inv hP hS.idSys hS.idTp hx hg]

/-- The whole conversion at a regular point. -/
theorem C102_values {T : Slice} {x : Vec} (hx : Regular S.name x) (hd : HasData S T (S.sys.toCart x + S.origin))
    (hT : T.Valid (S.sys.toCart x + S.origin)) : ∃ r, convert S x = some r ∧ Stored S.sys S.cf S.origin x T r := by
  have hs := regular_scale hP hS.sys hx hS.inv
  have hb := basis_of hP hS.sys hs
  have ex : xxToCart S.sys S.origin x = S.sys.toCart x + S.origin := rfl
  unfold convert
  simp only [ex, admToCart_of hP hS hd, Option.bind_some]
  obtain ⟨r, h1, h2⟩ := rescale_eq (cf := S.cf) hb hs hT
  refine ⟨r, ?_, h2⟩
  unfold toRescaled gridXx
  by_cases hn : S.name = (c% "Cartesian")
  · rw [if_pos hn, Option.bind_some, ← h1]
    exact (rescale_cart (jacobian_cart hP hS.sys hn hs) ((cartesian_at hS.sys hn).1 x) _).symm
  · obtain ⟨g, hg⟩ := Option.isSome_iff_exists.1 hS.inv
    have e : (fun i => (S.sys.toCart x + S.origin) i - S.origin i) = S.sys.toCart x := by
      funext i; simp
    rw [if_neg hn, hg, Option.map_some, Option.bind_some, e, regular_inv hP hS.sys hS.tp hx hg]
    exact h1

end

/-! ### What the values stand for -/

/-- The symbols of the BSSN equations have the values of the gridfunctions at the point `x`. -/
structure Holds (c : Coords) (w : CF) (origin x : Vec) (T : Slice) (G : Gfs) : Prop where
  alpha : G.alpha = (T.comp w origin .alpha).value c x
  cf : G.cf = (T.comp w origin .cf).value c x
  trK : G.trK = (T.comp w origin .trK).value c x
  vetU : ∀ i, G.vetU i = (T.comp w origin (.vetU i)).value c x
  betU : ∀ i, G.betU i = (T.comp w origin (.betU i)).value c x
  hDD : ∀ i j, G.hDD i j = (T.comp w origin (.hDD i j)).value c x
  aDD : ∀ i j, G.aDD i j = (T.comp w origin (.aDD i j)).value c x

theorem complete {c : Coords} {x : Vec} (hb : IsBasis c x) (a b : Fin 3) :
    ∑ i, c.unit x i a * c.unit x i b = if a = b then 1 else 0 := by
  have h : Matrix.of (c.unit x) * (Matrix.of (c.unit x)).transpose = 1 := by
    ext i j
    rw [Matrix.mul_apply, Matrix.one_apply, ← hb.orthonormal i j]
    rfl
  have h' := mul_eq_one_comm.1 h
  have := congrFun (congrFun h' a) b
  rw [Matrix.mul_apply, Matrix.one_apply] at this
  exact this

theorem vec_back {c : Coords} {x : Vec} (hb : IsBasis c x) (hs : ∀ i, c.scale x i ≠ 0) {v V : V1} {w : V1}
    (hw : ∀ i, w i = ∑ a, V a * c.unit x i a) (hv : ∀ i, v i = w i * (rfmAt c.scale x).ReU i) : IsVec c x v V := by
  intro a
  have e : ∀ i, v i * pd i (fun y => c.toCart y a) x = ∑ b, V b * (c.unit x i b * c.unit x i a) := fun i => by
    have k : pd i (fun y => c.toCart y a) x = c.scale x i * c.unit x i a := jacobian_eq hb a i
    have r : (rfmAt c.scale x).ReU i = 1 / c.scale x i := rfl
    have := hs i
    rw [k, hv, hw, r, show (∑ a, V a * c.unit x i a) * (1 / c.scale x i) * (c.scale x i * c.unit x i a) =
      (∑ a, V a * c.unit x i a) * c.unit x i a by field_simp, Finset.sum_mul]
    exact Finset.sum_congr rfl fun b _ => by ring
  simp only [e]
  rw [Finset.sum_comm]
  simp only [← Finset.mul_sum, complete hb]
  simp

theorem compDD_units {c : Coords} {x : Vec} (hb : IsBasis c x) (C : V2) (i j : Fin 3) :
    compDD c x C i j = c.scale x i * c.scale x j * ∑ a, ∑ b, C a b * c.unit x i a * c.unit x j b := by
  unfold compDD
  have k : ∀ a i, pd i (fun y => c.toCart y a) x = c.scale x i * c.unit x i a := fun a i => jacobian_eq hb a i
  simp only [k, Finset.mul_sum]
  exact Finset.sum_congr rfl fun a _ => Finset.sum_congr rfl fun b _ => by ring

/-- The values decode, by the formulas of the BSSN equations, to the components of the slice in the coordinates of the
grid: `BSSN_to_ADM` gives the metric and the extrinsic curvature, and the shift and its time derivative are as
given. -/
theorem C102_represents {P : CoordParams} (hP : ValidParams P) {name : Str} {c : Coords} (h : choose P name = .sys c) {x : Vec}
    (hs : ∀ i, c.scale x i ≠ 0) {cf : CF} {origin : Vec} {T : Slice} (hT : T.Valid (c.toCart x + origin)) {G : Gfs}
    (hG : Holds c cf origin x T G) :
    G.alpha = T.alpha (c.toCart x + origin) ∧
    gammaDD (rfmAt c.scale x) G cf = compDD c x (T.gamma (c.toCart x + origin)) ∧
    KDD (rfmAt c.scale x) G cf = compDD c x (T.K (c.toCart x + origin)) ∧
    IsVec c x (betaU (rfmAt c.scale x) G) (T.beta (c.toCart x + origin)) ∧
    IsVec c x (BU (rfmAt c.scale x) G) (T.B (c.toCart x + origin)) := by
  have hb := basis_of hP h hs
  set p := c.toCart x + origin with hp
  have hd : 0 < T.det p := hT.det
  have hphi : exp4phi G cf = T.det p ^ (1 / 3 : ℝ) := by
    refine exp4phi_of_cf hd cf ?_
    rw [hG.cf]
    show T.cf cf p = _
    cases cf <;> rfl
  have hpq : T.det p ^ (1 / 3 : ℝ) * T.det p ^ (-(1 / 3) : ℝ) = 1 := by
    rw [← Real.rpow_add hd]; norm_num
  have hgb : ∀ i j, gammabarDD (rfmAt c.scale x) G i j = T.det p ^ (-(1 / 3) : ℝ) * compDD c x (T.gamma p) i j := by
    intro i j
    show G.hDD i j * (rfmAt c.scale x).ReDD i j + (rfmAt c.scale x).ghatDD i j = _
    rw [hG.hDD, ghat_units, compDD_units hb, ← delta_units hb i j]
    show (∑ a, ∑ b, T.eps p a b * c.unit x i a * c.unit x j b) * (c.scale x i * c.scale x j) + _ = _
    have : ∀ a b : Fin 3, T.eps p a b * c.unit x i a * c.unit x j b = T.det p ^ (-(1 / 3) : ℝ) *
        (T.gamma p a b * c.unit x i a * c.unit x j b) - (if a = b then (1 : ℝ) else 0) * c.unit x i a * c.unit x j b := by
      intro a b
      unfold Slice.eps
      ring
    simp only [this, Finset.sum_sub_distrib, ← Finset.mul_sum]
    ring
  have hgam : gammaDD (rfmAt c.scale x) G cf = compDD c x (T.gamma p) := by
    funext i j
    unfold gammaDD
    rw [hphi, hgb, ← mul_assoc, hpq, one_mul]
  refine ⟨hG.alpha, hgam, ?_, vec_back hb hs (w := G.vetU) hG.vetU fun i => rfl, vec_back hb hs (w := G.betU) hG.betU fun i => rfl⟩
  funext i j
  unfold KDD
  rw [hgam, hphi, hG.trK]
  show _ * (G.aDD i j * (rfmAt c.scale x).ReDD i j) + 1 / 3 * _ * T.trK p = _
  rw [hG.aDD, compDD_units hb, compDD_units hb]
  show _ * ((∑ a, ∑ b, T.Abar p a b * c.unit x i a * c.unit x j b) * (c.scale x i * c.scale x j)) + _ = _
  have : ∀ a b : Fin 3, T.Abar p a b * c.unit x i a * c.unit x j b = T.det p ^ (-(1 / 3) : ℝ) *
      (T.K p a b * c.unit x i a * c.unit x j b - 1 / 3 * T.trK p * (T.gamma p a b * c.unit x i a * c.unit x j b)) := by
    intro a b
    unfold Slice.Abar
    ring
  simp only [this, Finset.sum_sub_distrib, ← Finset.mul_sum]
  linear_combination (c.scale x i * c.scale x j) * ((∑ a, ∑ b, T.K p a b * c.unit x i a * c.unit x j b) -
    1 / 3 * T.trK p * ∑ a, ∑ b, T.gamma p a b * c.unit x i a * c.unit x j b) * hpq

/-! ### The registered functions for exact initial data -/

/-- Exact initial data given by expressions in spherical coordinates: the function registered serves every place off
the axis. -/
theorem C102_exact_spherical {P : CoordParams} (hP : ValidParams P) {e : Vec → IDData} {f : Vec → IDData}
    (hf : exactID P (c% "Spherical") e = some f) {S : Setup} (h1 : S.idName = (c% "Spherical"))
    (h2 : S.idSys = spherical P.rmax) (h3 : S.ID = f) {T : Slice}
    (he : ∀ x, Regular (c% "Spherical") x → Represents (spherical P.rmax) x T ((spherical P.rmax).toCart x) (e x)) {p : Vec}
    (hp : p 0 ≠ 0 ∨ p 1 ≠ 0) : HasData S T p := by
  have hf' : f = fun q => e ![radius q, arccos (q 2 / radius q), atan2 (q 1) (q 0)] := by
    have : exactID P (c% "Spherical") e = some fun q => e ![radius q, arccos (q 2 / radius q), atan2 (q 1) (q 0)] := rfl
    rw [this] at hf
    exact (Option.some.inj hf).symm
  have hp0 : p ≠ 0 := by rintro rfl; simp at hp
  have inv := (C59_round_trip_partial hP (choose_spherical P) (by decide) rfl).2 p hp0
  have hxy : 0 < p 0 ^ 2 + p 1 ^ 2 := by rcases hp with h | h <;> positivity
  have hr : 0 < radius p := sqrt_pos.2 (by nlinarith [sq_nonneg (p 2)])
  have hrr : radius p ^ 2 = p 0 ^ 2 + p 1 ^ 2 + p 2 ^ 2 := sq_sqrt (by positivity)
  have hlt : |p 2| < radius p := abs_lt_of_sq_lt_sq (by rw [hrr]; linarith) hr.le
  rw [abs_lt] at hlt
  have hreg : Regular (c% "Spherical") ![radius p, arccos (p 2 / radius p), atan2 (p 1) (p 0)] := by
    refine ⟨hr, ⟨?_, ?_⟩, Complex.neg_pi_lt_arg _, Complex.arg_le_pi _⟩
    · exact arccos_pos.2 ((div_lt_one hr).2 hlt.2)
    · refine lt_of_le_of_ne (arccos_le_pi _) fun t => ?_
      have := arccos_eq_pi.1 t
      rw [div_le_iff₀ hr] at this
      linarith [hlt.1]
  have key := he _ hreg
  refine ⟨_, by rw [h1]; exact hreg, by rw [h2]; exact inv, ?_⟩
  rw [h2, h3, hf']
  have inv' : (spherical P.rmax).toCart ![radius p, arccos (p 2 / radius p), atan2 (p 1) (p 0)] = p := inv
  rw [inv'] at key
  exact key

/-- Exact initial data given by expressions in Cartesian coordinates: the function registered serves every place. -/
theorem C102_exact_cartesian {P : CoordParams} {e : Vec → IDData} {f : Vec → IDData}
    (hf : exactID P (c% "Cartesian") e = some f) {S : Setup} (h1 : S.idName = (c% "Cartesian"))
    (h2 : S.idSys = cartesian P.lo P.hi) (h3 : S.ID = f) {T : Slice}
    (he : ∀ x, Represents (cartesian P.lo P.hi) x T x (e x)) (p : Vec) : HasData S T p := by
  have hf' : f = fun q => e ![q 0, q 1, q 2] := by
    have : exactID P (c% "Cartesian") e = some fun q => e ![q 0, q 1, q 2] := rfl
    rw [this] at hf
    exact (Option.some.inj hf).symm
  refine ⟨p, by rw [h1]; trivial, by rw [h2]; exact vec3_ext rfl rfl rfl, ?_⟩
  rw [h2, h3, hf']
  show Represents _ p T p (e ![p 0, p 1, p 2])
  rw [vec_eta]
  exact he p

/-- No other system can be asked for. -/
theorem C102_exact_refused (P : CoordParams) {n : Str} (h1 : n ≠ (c% "Spherical")) (h2 : n ≠ (c% "Cartesian"))
    (e : Vec → IDData) : exactID P n e = none := by
  simp [exactID, h1, h2]

end Verif.Reader
