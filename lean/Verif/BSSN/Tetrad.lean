import Verif.BSSN.Psi4
import Verif.Equations.FourMetric
import Mathlib.Analysis.Matrix.PosDef

/-!
# C86: the tetrad of psi4
-/
namespace Verif.BSSN
open Verif.RefMetric Verif.IndexedExp

/-! ## Specification -/

/-- The product of two vectors. -/
def prod {n : ℕ} (g : Fin n → Fin n → ℝ) (v w : Fin n → ℝ) : ℝ := ∑ a, ∑ b, g a b * v a * w b

/-- `r, θ, φ` is the right-handed orthonormal frame built from the direction `∂_φ` of the rotations about the `z` axis, and then from the
radial direction; `J` turns components into Cartesian components, `X` is the point. -/
structure SphericalFrame (γ : Fin 3 → Fin 3 → ℝ) (J : Fin 3 → Fin 3 → ℝ) (X r θ φ : Fin 3 → ℝ) : Prop where
  rr : prod γ r r = 1
  tt : prod γ θ θ = 1
  pp : prod γ φ φ = 1
  rt : prod γ r θ = 0
  rp : prod γ r φ = 0
  tp : prod γ θ φ = 0
  rotation : ∃ s : ℝ, 0 < s ∧ ∀ i, ∑ k, J i k * φ k = s * ![-X 1, X 0, 0] i
  radial : ∃ s t : ℝ, 0 < s ∧ ∀ i, ∑ k, J i k * r k = s * X i + t * ![-X 1, X 0, 0] i
  right : 0 < (Matrix.of ![r, θ, φ]).det

/-- `l, n, m = mre + i mim` is a null tetrad of the metric `g`. -/
structure NullTetrad (g : Fin 4 → Fin 4 → ℝ) (T : Tetrad) : Prop where
  ll : prod g T.l4U T.l4U = 0
  nn : prod g T.n4U T.n4U = 0
  ln : prod g T.l4U T.n4U = -1
  lm : prod g T.l4U T.mre4U = 0 ∧ prod g T.l4U T.mim4U = 0
  nm : prod g T.n4U T.mre4U = 0 ∧ prod g T.n4U T.mim4U = 0
  mm : prod g T.mre4U T.mre4U - prod g T.mim4U T.mim4U = 0 ∧ prod g T.mre4U T.mim4U = 0
  mmbar : prod g T.mre4U T.mre4U + prod g T.mim4U T.mim4U = 1

/-- The metric in the basis made of the unit normal of the slice and the coordinate vectors. -/
def normalMetric (γ : Fin 3 → Fin 3 → ℝ) : Fin 4 → Fin 4 → ℝ := Fin.cons (Fin.cons (-1) fun _ => 0) fun i => Fin.cons 0 (γ i)

/-- The metric in the coordinate basis: `ds² = -α² dt² + γ_ij (dx^i + β^i dt) (dx^j + β^j dt)`. -/
def coordMetric (γ : Fin 3 → Fin 3 → ℝ) (α : ℝ) (β : Fin 3 → ℝ) : Fin 4 → Fin 4 → ℝ :=
  Fin.cons (Fin.cons (-α ^ 2 + prod γ β β) fun j => ∑ i, γ i j * β i) fun i => Fin.cons (∑ j, γ i j * β j) (γ i)

/-! ## The frame -/

section
variable {I : TetradIn} {J : V2} (hs : ∀ i j, I.gammaDD i j = I.gammaDD j i) (hp : ∀ v : V1, v ≠ 0 → 0 < prod I.gammaDD v v)
  (hd : 0 < I.detgamma) (hu : ∀ i j, ∑ k, I.gammaDD i k * I.gammaUU k j = if i = j then 1 else 0)
  (hJ : ∀ i j, ∑ k, J i k * I.jac k j = if i = j then 1 else 0) (hX : I.cart 0 ≠ 0 ∨ I.cart 1 ≠ 0)

theorem omega_eq (v w : V1) : I.omega v w = prod I.gammaDD v w := by
  simp only [TetradIn.omega, prod, Fin.sum_univ_three]
  ring

include hs in
theorem prod_comm3 (v w : V1) : prod I.gammaDD v w = prod I.gammaDD w v := by
  simp only [prod, Fin.sum_univ_three]
  rw [hs 1 0, hs 2 0, hs 2 1]
  ring

theorem prod_div (v w : V1) (c : ℝ) : prod I.gammaDD v (fun a => w a / c) = prod I.gammaDD v w / c := by
  simp only [prod, Fin.sum_univ_three]
  ring

theorem prod_sub (v w z : V1) (c : ℝ) : prod I.gammaDD v (fun a => w a - c * z a) = prod I.gammaDD v w - c * prod I.gammaDD v z := by
  simp only [prod, Fin.sum_univ_three]
  ring

include hJ in
theorem toCart (w : V1) (i : Fin 3) : ∑ k, J i k * ∑ j, I.jac k j * w j = w i := by
  calc ∑ k, J i k * ∑ j, I.jac k j * w j = ∑ j, (∑ k, J i k * I.jac k j) * w j := by simp only [Fin.sum_univ_three]; ring
    _ = w i := by simp [hJ]

include hJ in
theorem toCart_v1 (i : Fin 3) : ∑ k, J i k * I.v1U k = ![-I.cart 1, I.cart 0, 0] i := toCart hJ _ i

include hJ in
theorem toCart_v2 (i : Fin 3) : ∑ k, J i k * I.v2U k = I.cart i := by
  rw [show I.v2U = fun k => ∑ j, I.jac k j * ![I.cart 0, I.cart 1, I.cart 2] j from rfl, toCart hJ]
  fin_cases i <;> rfl

include hJ hX in
theorem indep {a b : ℝ} (h : ∀ k, a * I.v1U k + b * I.v2U k = 0) : a = 0 ∧ b = 0 := by
  have e : ∀ i, a * ![-I.cart 1, I.cart 0, 0] i + b * I.cart i = 0 := fun i => by
    rw [← toCart_v1 hJ, ← toCart_v2 hJ]
    have : ∑ k, J i k * (a * I.v1U k + b * I.v2U k) = 0 := by simp [h]
    simp only [Fin.sum_univ_three] at this ⊢
    linear_combination this
  have e0 := e 0
  have e1 := e 1
  simp at e0 e1
  have n : 0 < I.cart 0 ^ 2 + I.cart 1 ^ 2 := by
    rcases hX with h | h
    · positivity
    · positivity
  constructor
  · have : a * (I.cart 0 ^ 2 + I.cart 1 ^ 2) = 0 := by linear_combination I.cart 0 * e1 - I.cart 1 * e0
    exact (mul_eq_zero.1 this).resolve_right n.ne'
  · have : b * (I.cart 0 ^ 2 + I.cart 1 ^ 2) = 0 := by linear_combination I.cart 0 * e0 + I.cart 1 * e1
    exact (mul_eq_zero.1 this).resolve_right n.ne'

include hJ hX in
theorem v1_ne : I.v1U ≠ 0 := fun h => one_ne_zero (indep hJ hX (a := 1) (b := 0) fun k => by simp [h]).1

/-- `v1 × v2`. -/
def cross (v w : V1) : V1 := ![v 1 * w 2 - v 2 * w 1, v 2 * w 0 - v 0 * w 2, v 0 * w 1 - v 1 * w 0]

include hJ hX in
theorem cross_ne : cross I.v1U I.v2U ≠ 0 := by
  intro h
  have c0 : I.v1U 1 * I.v2U 2 - I.v1U 2 * I.v2U 1 = 0 := congrFun h 0
  have c1 : I.v1U 2 * I.v2U 0 - I.v1U 0 * I.v2U 2 = 0 := congrFun h 1
  have c2 : I.v1U 0 * I.v2U 1 - I.v1U 1 * I.v2U 0 = 0 := congrFun h 2
  have e := indep hJ hX (a := -∑ i, I.v1U i * I.v2U i) (b := ∑ i, I.v1U i * I.v1U i) fun k => by
    simp only [Fin.sum_univ_three]
    fin_cases k
    · simp
      linear_combination I.v1U 2 * c1 - I.v1U 1 * c2
    · simp
      linear_combination I.v1U 0 * c2 - I.v1U 2 * c0
    · simp
      linear_combination I.v1U 1 * c0 - I.v1U 0 * c1
  have s := e.2
  simp only [Fin.sum_univ_three] at s
  refine v1_ne hJ hX (funext fun k => ?_)
  have z0 : I.v1U 0 = 0 := by nlinarith [mul_self_nonneg (I.v1U 0), mul_self_nonneg (I.v1U 1), mul_self_nonneg (I.v1U 2)]
  have z1 : I.v1U 1 = 0 := by nlinarith [mul_self_nonneg (I.v1U 0), mul_self_nonneg (I.v1U 1), mul_self_nonneg (I.v1U 2)]
  have z2 : I.v1U 2 = 0 := by nlinarith [mul_self_nonneg (I.v1U 0), mul_self_nonneg (I.v1U 1), mul_self_nonneg (I.v1U 2)]
  fin_cases k <;> assumption

include hu in
theorem prod_v3 (w : V1) (hs : ∀ i j, I.gammaDD i j = I.gammaDD j i) :
    prod I.gammaDD w I.v3U = Real.sqrt I.detgamma * ∑ a, w a * cross I.v1U I.v2U a := by
  have e : ∀ a, I.v3U a = Real.sqrt I.detgamma * ∑ d, I.gammaUU a d * cross I.v1U I.v2U d := fun a => by
    simp only [TetradIn.v3U, leviCivita, cross, Fin.sum_univ_three]
    simp
    ring
  calc prod I.gammaDD w I.v3U = Real.sqrt I.detgamma * ∑ a, ∑ d, w a * (∑ k, I.gammaDD a k * I.gammaUU k d) * cross I.v1U I.v2U d := by
        simp only [prod, e, Fin.sum_univ_three]
        ring
    _ = _ := by simp [hu]

include hs hp hd hu hJ hX in
theorem frame : SphericalFrame I.gammaDD J I.cart I.e2U I.e3U I.e1U := by
  have n1 : 0 < prod I.gammaDD I.v1U I.v1U := hp _ (v1_ne hJ hX)
  set N1 := Real.sqrt (prod I.gammaDD I.v1U I.v1U) with hN1
  have p1 : 0 < N1 := Real.sqrt_pos.2 n1
  have q1 : N1 ^ 2 = prod I.gammaDD I.v1U I.v1U := Real.sq_sqrt n1.le
  have e1 : I.e1U = fun a => I.v1U a / N1 := by funext a; simp only [TetradIn.e1U, omega_eq, hN1]
  have b11 : prod I.gammaDD I.e1U I.e1U = 1 := by
    rw [e1, prod_div, prod_comm3 hs, prod_div, ← q1]
    field_simp
  set k := prod I.gammaDD I.e1U I.v2U with hk
  have e2' : I.e2U' = fun a => I.v2U a - k * I.e1U a := by funext a; simp only [TetradIn.e2U', omega_eq, hk]
  have b12' : prod I.gammaDD I.e1U I.e2U' = 0 := by rw [e2', prod_sub, b11, hk]; ring
  have ne2 : I.e2U' ≠ 0 := fun h => one_ne_zero (indep hJ hX (a := -k / N1) (b := 1) fun j => by
    have := congrFun h j
    simp only [e2', e1, Pi.zero_apply] at this
    linear_combination this).2
  have n2 : 0 < prod I.gammaDD I.e2U' I.e2U' := hp _ ne2
  set N2 := Real.sqrt (prod I.gammaDD I.e2U' I.e2U') with hN2
  have p2 : 0 < N2 := Real.sqrt_pos.2 n2
  have q2 : N2 ^ 2 = prod I.gammaDD I.e2U' I.e2U' := Real.sq_sqrt n2.le
  have e2 : I.e2U = fun a => I.e2U' a / N2 := by funext a; simp only [TetradIn.e2U, omega_eq, hN2]
  have b22 : prod I.gammaDD I.e2U I.e2U = 1 := by
    rw [e2, prod_div, prod_comm3 hs, prod_div, ← q2]
    field_simp
  have b12 : prod I.gammaDD I.e1U I.e2U = 0 := by rw [e2, prod_div, b12', zero_div]
  have o1 : ∑ a, I.v1U a * cross I.v1U I.v2U a = 0 := by simp [cross, Fin.sum_univ_three]; ring
  have o2 : ∑ a, I.v2U a * cross I.v1U I.v2U a = 0 := by simp [cross, Fin.sum_univ_three]; ring
  have b13' : prod I.gammaDD I.e1U I.v3U = 0 := by
    rw [prod_v3 hu _ hs, e1]
    have : ∑ a, I.v1U a / N1 * cross I.v1U I.v2U a = (∑ a, I.v1U a * cross I.v1U I.v2U a) / N1 := by
      simp only [Fin.sum_univ_three]; ring
    rw [this, o1]; simp
  have b23' : prod I.gammaDD I.e2U I.v3U = 0 := by
    rw [prod_v3 hu _ hs, e2, e2', e1]
    have : ∑ a, (I.v2U a - k * (I.v1U a / N1)) / N2 * cross I.v1U I.v2U a =
        (∑ a, I.v2U a * cross I.v1U I.v2U a) / N2 - k / N1 / N2 * ∑ a, I.v1U a * cross I.v1U I.v2U a := by
      simp only [Fin.sum_univ_three]; ring
    rw [this, o1, o2]; simp
  have e3' : I.e3U' = I.v3U := by
    funext a
    simp only [TetradIn.e3U', omega_eq, b13', b23']
    ring
  have pd' : 0 < Real.sqrt I.detgamma := Real.sqrt_pos.2 hd
  have cc : 0 < ∑ a, cross I.v1U I.v2U a * cross I.v1U I.v2U a := by
    have := cross_ne hJ hX
    obtain ⟨j, hj⟩ := Function.ne_iff.1 this
    exact Finset.sum_pos' (fun i _ => mul_self_nonneg _) ⟨j, Finset.mem_univ _, mul_self_pos.2 hj⟩
  have v3 : I.v3U ≠ 0 := fun h => by
    have := prod_v3 hu (cross I.v1U I.v2U) hs
    rw [h] at this
    have : 0 = Real.sqrt I.detgamma * ∑ a, cross I.v1U I.v2U a * cross I.v1U I.v2U a := by rw [← this]; simp [prod]
    exact absurd this (mul_pos pd' cc).ne
  have n3 : 0 < prod I.gammaDD I.v3U I.v3U := hp _ v3
  set N3 := Real.sqrt (prod I.gammaDD I.v3U I.v3U) with hN3
  have p3 : 0 < N3 := Real.sqrt_pos.2 n3
  have q3 : N3 ^ 2 = prod I.gammaDD I.v3U I.v3U := Real.sq_sqrt n3.le
  have e3 : I.e3U = fun a => I.v3U a / N3 := by funext a; simp only [TetradIn.e3U, omega_eq, e3', hN3]
  refine ⟨b22, ?_, b11, ?_, ?_, ?_, ⟨1 / N1, by positivity, fun i => ?_⟩, ⟨1 / N2, -(k / N1 / N2), by positivity, fun i => ?_⟩, ?_⟩
  · rw [e3, prod_div, prod_comm3 hs, prod_div, ← q3]
    field_simp
  · rw [e3, prod_div, b23', zero_div]
  · rw [prod_comm3 hs, b12]
  · rw [prod_comm3 hs, e3, prod_div, b13', zero_div]
  · rw [← toCart_v1 hJ, e1]
    simp only [Fin.sum_univ_three]; ring
  · rw [← toCart_v1 hJ, ← toCart_v2 hJ, e2, e2', e1]
    simp only [Fin.sum_univ_three]; ring
  · have h1 := prod_v3 hu I.v3U hs
    have : Real.sqrt I.detgamma * (Matrix.of ![I.e2U, I.e3U, I.e1U]).det = prod I.gammaDD I.v3U I.v3U / (N1 * N2 * N3) := by
      rw [h1, e3, e2, e2', e1, Matrix.det_fin_three]
      simp [cross, Fin.sum_univ_three]
      field_simp
      ring
    have pos : 0 < Real.sqrt I.detgamma * (Matrix.of ![I.e2U, I.e3U, I.e1U]).det := by rw [this]; positivity
    exact (mul_pos_iff_of_pos_left pd').1 pos

end

/-! ## Null tetrads -/

section
variable {g : Fin 4 → Fin 4 → ℝ}

theorem sqrt2 : (1 / Real.sqrt 2) * (1 / Real.sqrt 2) = 1 / 2 := by
  rw [div_mul_div_comm, Real.mul_self_sqrt (by norm_num)]; norm_num

theorem prod_add_left (c : ℝ) (v w z : W1) : prod g (fun a => c * (v a + w a)) z = c * (prod g v z + prod g w z) := by
  simp only [prod, Fin.sum_univ_four]; ring
theorem prod_sub_left (c : ℝ) (v w z : W1) : prod g (fun a => c * (v a - w a)) z = c * (prod g v z - prod g w z) := by
  simp only [prod, Fin.sum_univ_four]; ring
theorem prod_mul_left (c : ℝ) (v z : W1) : prod g (fun a => c * v a) z = c * prod g v z := by
  simp only [prod, Fin.sum_univ_four]; ring
theorem prod_add_right (c : ℝ) (v w z : W1) : prod g z (fun a => c * (v a + w a)) = c * (prod g z v + prod g z w) := by
  simp only [prod, Fin.sum_univ_four]; ring
theorem prod_sub_right (c : ℝ) (v w z : W1) : prod g z (fun a => c * (v a - w a)) = c * (prod g z v - prod g z w) := by
  simp only [prod, Fin.sum_univ_four]; ring
theorem prod_mul_right (c : ℝ) (v z : W1) : prod g z (fun a => c * v a) = c * prod g z v := by
  simp only [prod, Fin.sum_univ_four]; ring

variable {I : TetradIn} {J : V2} (h : SphericalFrame I.gammaDD J I.cart I.e2U I.e3U I.e1U)

theorem prod_space (hg : ∀ i j : Fin 3, g i.succ j.succ = I.gammaDD i j) (v w : V1) :
    prod g (Fin.cons 0 v : W1) (Fin.cons 0 w : W1) = prod I.gammaDD v w := by
  simp [prod, Fin.sum_univ_succ (n := 3), hg]

include h in
theorem null (normal : Option (ℝ × V1)) (hg : ∀ i j : Fin 3, g i.succ j.succ = I.gammaDD i j) (hs : ∀ i j, I.gammaDD i j = I.gammaDD j i)
    (uu : prod g (unitNormal normal) (unitNormal normal) = -1) (uv : ∀ v : V1, prod g (unitNormal normal) (Fin.cons 0 v : W1) = 0)
    (vu : ∀ v : V1, prod g (Fin.cons 0 v : W1) (unitNormal normal) = 0) : NullTetrad g (I.tetrad normal) := by
  have q := sqrt2
  obtain ⟨rr, tt, pp, rt, rp, tp, -⟩ := h
  rw [← prod_space hg] at rr tt pp rt rp tp
  have tr : prod g (Fin.cons 0 I.e3U : W1) (Fin.cons 0 I.e2U : W1) = 0 := by rw [prod_space hg, prod_comm3 hs, ← prod_space hg, rt]
  have pr : prod g (Fin.cons 0 I.e1U : W1) (Fin.cons 0 I.e2U : W1) = 0 := by rw [prod_space hg, prod_comm3 hs, ← prod_space hg, rp]
  refine ⟨?_, ?_, ?_, ⟨?_, ?_⟩, ⟨?_, ?_⟩, ⟨?_, ?_⟩, ?_⟩ <;>
    simp only [TetradIn.tetrad, TetradIn.r4U, TetradIn.theta4U, TetradIn.phi4U, prod_add_left, prod_sub_left, prod_mul_left,
      prod_add_right, prod_sub_right, prod_mul_right, uu, uv, vu, rr, tt, pp, rt, rp, tp, tr, pr] <;>
    linarith

include h in
theorem null_normal (hs : ∀ i j, I.gammaDD i j = I.gammaDD j i) : NullTetrad (normalMetric I.gammaDD) (I.tetrad none) := by
  refine null h none (fun i j => rfl) hs ?_ (fun v => ?_) fun v => ?_ <;>
    simp only [prod, unitNormal, normalMetric, Fin.sum_univ_succ (n := 3), Matrix.cons_val_succ, Matrix.cons_val_zero, Fin.cons_zero,
      Fin.cons_succ] <;>
    simp [Fin.sum_univ_three]

include h in
theorem null_coord (hs : ∀ i j, I.gammaDD i j = I.gammaDD j i) {α : ℝ} (hα : α ≠ 0) (β : V1) :
    NullTetrad (coordMetric I.gammaDD α β) (I.tetrad (some (α, β))) := by
  have s1 := hs 1 0
  have s2 := hs 2 0
  have s3 := hs 2 1
  refine null h (some (α, β)) (fun i j => rfl) hs ?_ (fun v => ?_) fun v => ?_
  · simp only [prod, unitNormal, coordMetric, Fin.sum_univ_succ (n := 3), Fin.cons_zero, Fin.cons_succ]
    simp only [Fin.sum_univ_three, s1, s2, s3]
    field_simp
    ring
  · simp only [prod, unitNormal, coordMetric, Fin.sum_univ_succ (n := 3), Fin.cons_zero, Fin.cons_succ]
    simp only [Fin.sum_univ_three, s1, s2, s3]
    field_simp
    ring
  · simp only [prod, unitNormal, coordMetric, Fin.sum_univ_succ (n := 3), Fin.cons_zero, Fin.cons_succ]
    simp only [Fin.sum_univ_three, s1, s2, s3]
    field_simp
    ring
end

/-! ## The code -/

section
variable {P : CoordParams} {name : Py.Str} {C : Coords} {Ω : Dom} {F : Fields} {c : CF}

theorem jac_det (hb : P.b ≠ 0) (hC : choose P name = .sys C) {x : Vec} (hr : ∀ i, C.scale x i ≠ 0) :
    genInv3Det (fun i j => pd j (fun y => C.toCart y i) x) ≠ 0 := by
  intro h
  let J : Matrix (Fin 3) (Fin 3) ℝ := Matrix.of fun i j => pd j (fun y => C.toCart y i) x
  have hJ : J.det = 0 := by
    rw [← h, Matrix.det_fin_three]
    simp only [J, Matrix.of_apply, genInv3Det]
    ring
  have e : J.transpose * J = Matrix.diagonal fun i => C.scale x i ^ 2 := by
    ext i j
    rw [Matrix.mul_apply, Matrix.diagonal_apply]
    exact (C60_flat hb hC x i j).symm
  have e2 := congrArg Matrix.det e
  rw [Matrix.det_mul, hJ, mul_zero, Matrix.det_diagonal] at e2
  exact Finset.prod_ne_zero_iff.2 (fun i _ => pow_ne_zero 2 (hr i)) e2.symm

theorem jac_inverse (hb : P.b ≠ 0) (hC : choose P name = .sys C) {x : Vec} (hr : ∀ i, C.scale x i ≠ 0) (i j : Fin 3) :
    ∑ k, pd k (fun y => C.toCart y i) x * (genInv3Num (fun i j => pd j (fun y => C.toCart y i) x) k j /
      genInv3Det (fun i j => pd j (fun y => C.toCart y i) x)) = if i = j then 1 else 0 := by
  have h := jac_det hb hC hr
  have e : ∀ i k, pd k (fun y => C.toCart y i) x = (fun i j => pd j (fun y => C.toCart y i) x) i k := fun _ _ => rfl
  conv_lhs => 
    enter [2, k, 1]
    rw [e i k]
  generalize (fun i j => pd j (fun y => C.toCart y i) x) = J at h ⊢
  have : ∑ k, J i k * genInv3Num J k j = if i = j then genInv3Det J else 0 := by
    fin_cases i <;> fin_cases j <;> simp [Fin.sum_univ_three, genInv3Num, genInv3Det] <;> ring
  calc _ = (∑ k, J i k * genInv3Num J k j) / genInv3Det J := by simp only [Fin.sum_univ_three]; ring
    _ = _ := by
      rw [this]
      split_ifs
      · exact div_self h
      · exact zero_div _

/-- The metric at `x` is positive definite. -/
def Riemannian (γ : T2) (x : Vec) : Prop := ∀ v : Vec, v ≠ 0 → 0 < prod (fun i j => γ i j x) v v

theorem frame_at (S : Setting P name C Ω F c) {x : Vec} (hx : x ∈ Ω) (hp : Riemannian (gammaF C.scale F c) x)
    (hX : C.toCart x 0 ≠ 0 ∨ C.toCart x 1 ≠ 0) :
    SphericalFrame (fun i j => gammaF C.scale F c i j x) (fun i j => pd j (fun y => C.toCart y i) x) (C.toCart x)
      (tetradIn C x (rfmAt C.scale x) (gfsAt F x) c).e2U (tetradIn C x (rfmAt C.scale x) (gfsAt F x) c).e3U
      (tetradIn C x (rfmAt C.scale x) (gfsAt F x) c).e1U := by
  have hs : ∀ i j, gammaF C.scale F c i j x = gammaF C.scale F c j i x := fun i j => S.metric.symm i j x hx
  have hd : symmInv3Det (fun i j => gammaF C.scale F c i j x) = (Matrix.of fun i j => gammaF C.scale F c i j x).det := by
    simp only [symmInv3Det, Matrix.det_fin_three, Matrix.of_apply]
    rw [hs 1 0, hs 2 0, hs 2 1]
    ring
  refine frame (I := tetradIn C x (rfmAt C.scale x) (gfsAt F x) c) hs hp ?_ (fun i j => ?_) (jac_inverse S.hb S.known (S.regular x hx)) hX
  · show 0 < symmInv3Det (fun i j => gammaF C.scale F c i j x)
    rw [hd]
    refine Matrix.PosDef.det_pos (Matrix.PosDef.of_dotProduct_mulVec_pos (Matrix.ext fun i j => by simpa using hs j i) fun v hv => ?_)
    have := hp v hv
    simp only [prod, Fin.sum_univ_three] at this
    simp only [star_trivial, dotProduct, Matrix.mulVec, Matrix.of_apply, Fin.sum_univ_three]
    linarith
  · have e : ∀ k, gammaUU (rfmAt C.scale x) (gfsAt F x) c k j = inverse (gammaF C.scale F c) k j x := fun k => (C71_connections S hx k j 0).2.1
    show ∑ k, gammaF C.scale F c i k x * gammaUU (rfmAt C.scale x) (gfsAt F x) c k j = _
    simp only [e]
    exact S.metric.mul_inverse hx i j

end

end Verif.BSSN
