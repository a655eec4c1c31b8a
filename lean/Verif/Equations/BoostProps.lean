import Verif.Equations.Boost
import Mathlib.Tactic.FieldSimp
import Mathlib.Tactic.LinearCombination
import Mathlib.Tactic.FinCases
import Mathlib.LinearAlgebra.Matrix.Notation

/-!
# C47: Lorentz boosts
-/
namespace Verif.Equations
open Matrix

/-! ## Specification -/

/-- The Minkowski metric. -/
def eta (mu nu : Fin 4) : ℝ := if mu = nu then (if mu = 0 then -1 else 1) else 0

/-- Minkowski product of two vectors. -/
def mink (x y : Fin 4 → ℝ) : ℝ := -(x 0 * y 0) + ∑ i : Fin 3, x i.succ * y i.succ

/-! ## The matrix -/

/-- The symmetric matrix with Lorentz factor `g` and `k = (g - 1) / v²`. -/
def bmat (v : Fin 3 → ℝ) (g k : ℝ) : Fin 4 → Fin 4 → ℝ :=
  block4 g (fun i => -g * v i) (fun i => -g * v i) fun i j => k * v i * v j + if i = j then 1 else 0

theorem lorentzMatrix_eq (v : Fin 3 → ℝ) (h0 : boostV2 v ≠ 0) (h1 : boostV2 v < 1) :
    lorentzMatrix v = some (bmat v (boostGamma v) ((boostGamma v - 1) / boostV2 v)) := by
  unfold lorentzMatrix
  rw [if_neg (not_or.2 ⟨h0, by linarith⟩)]
  congr 1
  funext mu nu
  unfold copyUpper boostUpper bmat block4
  refine Fin.cases ?_ (fun i => ?_) mu <;> refine Fin.cases ?_ (fun j => ?_) nu <;>
    simp only [Fin.cases_zero, Fin.cases_succ]
  · simp
  · simp
  · simp
  · simp only [Fin.succ_lt_succ_iff]
    by_cases h : j < i
    · rw [if_pos h, if_pos h.le, if_neg h.ne, if_neg h.ne']
      ring
    · rw [if_neg h, if_pos (not_lt.1 h)]
      ring

theorem gamma_sq (v : Fin 3 → ℝ) (h1 : boostV2 v < 1) : boostGamma v ^ 2 * (1 - boostV2 v) = 1 := by
  unfold boostGamma
  have hpos : 0 < 1 - boostV2 v := by linarith
  rw [div_pow, one_pow, Real.sq_sqrt hpos.le]
  field_simp

theorem boostV2_neg (v : Fin 3 → ℝ) : boostV2 (fun k => -(v k)) = boostV2 v := by
  unfold boostV2
  simp

theorem gamma_neg (v : Fin 3 → ℝ) : boostGamma (fun k => -(v k)) = boostGamma v := by
  unfold boostGamma
  rw [boostV2_neg]

/-- The matrix preserves the Minkowski product. -/
theorem bmat_mink (v : Fin 3 → ℝ) (g k : ℝ) (hk : k * boostV2 v = g - 1) (hg : g ^ 2 * (1 - boostV2 v) = 1)
    (h0 : boostV2 v ≠ 0) (x y : Fin 4 → ℝ) :
    mink (fun mu => ∑ nu, bmat v g k mu nu * x nu) (fun mu => ∑ nu, bmat v g k mu nu * y nu) = mink x y := by
  have hk2 : k ^ 2 * boostV2 v + 2 * k - g ^ 2 = 0 := by
    apply mul_left_cancel₀ h0
    linear_combination (k * boostV2 v + g + 1) * hk + hg
  unfold mink
  simp only [Fin.sum_univ_succ (n := 3), bmat, block4, Fin.cases_zero, Fin.cases_succ]
  unfold boostV2 at *
  simp only [Fin.sum_univ_three] at *
  simp only [show (0 : Fin 3) ≠ 1 by decide, show (0 : Fin 3) ≠ 2 by decide, show (1 : Fin 3) ≠ 0 by decide,
    show (1 : Fin 3) ≠ 2 by decide, show (2 : Fin 3) ≠ 0 by decide, show (2 : Fin 3) ≠ 1 by decide, if_true, if_false,
    add_zero]
  generalize v 0 = a at *
  generalize v 1 = b at *
  generalize v 2 = c at *
  generalize x (Fin.succ 0) = x1
  generalize x (Fin.succ 1) = x2
  generalize x (Fin.succ 2) = x3
  generalize y (Fin.succ 0) = y1
  generalize y (Fin.succ 1) = y2
  generalize y (Fin.succ 2) = y3
  generalize x 0 = x0
  generalize y 0 = y0
  linear_combination (-(x0 * y0)) * hg + (a * x1 + b * x2 + c * x3) * (a * y1 + b * y2 + c * y3) * hk2 -
    g * (x0 * (a * y1 + b * y2 + c * y3) + y0 * (a * x1 + b * x2 + c * x3)) * hk

/-- The matrix for the opposite velocity is the inverse. -/
theorem bmat_inv (v : Fin 3 → ℝ) (g k : ℝ) (hk : k * boostV2 v = g - 1) (hg : g ^ 2 * (1 - boostV2 v) = 1)
    (h0 : boostV2 v ≠ 0) :
    Matrix.of (bmat (fun i => -(v i)) g k) * Matrix.of (bmat v g k) = 1 := by
  have hk2 : k ^ 2 * boostV2 v + 2 * k - g ^ 2 = 0 := by
    apply mul_left_cancel₀ h0
    linear_combination (k * boostV2 v + g + 1) * hk + hg
  ext mu nu
  rw [Matrix.mul_apply, Fin.sum_univ_succ]
  simp only [Matrix.of_apply, bmat, block4]
  have hsum : ∀ f : Fin 3 → ℝ, ∀ j : Fin 3, ∑ x, f x * (k * v x * v j + if x = j then 1 else 0) =
      k * v j * (∑ x, f x * v x) + f j := by
    intro f j
    simp only [mul_add, Finset.sum_add_distrib, Finset.mul_sum]
    congr 1
    · exact Finset.sum_congr rfl fun x _ => by ring
    · simp
  have hvv : ∑ x, v x * v x = boostV2 v := by
    unfold boostV2
    exact Finset.sum_congr rfl fun x _ => by ring
  refine Fin.cases ?_ (fun i => ?_) mu <;> refine Fin.cases ?_ (fun j => ?_) nu <;>
    simp only [Fin.cases_zero, Fin.cases_succ]
  · have : ∑ x, -g * -v x * (-g * v x) = -g ^ 2 * boostV2 v := by
      rw [← hvv, Finset.mul_sum]
      exact Finset.sum_congr rfl fun x _ => by ring
    rw [this, Matrix.one_apply_eq]
    linear_combination hg
  · rw [hsum]
    have : ∑ x, -g * -v x * v x = g * boostV2 v := by
      rw [← hvv, Finset.mul_sum]
      exact Finset.sum_congr rfl fun x _ => by ring
    rw [this, Matrix.one_apply_ne (Fin.succ_ne_zero j).symm]
    linear_combination g * v j * hk
  · have : ∑ x, (k * -v i * -v x + if i = x then 1 else 0) * (-g * v x) = -g * (k * v i * boostV2 v + v i) := by
      rw [← hvv]
      simp only [add_mul, Finset.sum_add_distrib, Finset.mul_sum, mul_add]
      congr 1
      · exact Finset.sum_congr rfl fun x _ => by ring
      · simp
    rw [this, Matrix.one_apply_ne (Fin.succ_ne_zero i)]
    linear_combination -g * v i * hk
  · rw [hsum]
    have : ∑ x, (k * -v i * -v x + if i = x then 1 else 0) * v x = k * v i * boostV2 v + v i := by
      rw [← hvv]
      simp only [add_mul, Finset.sum_add_distrib, Finset.mul_sum]
      congr 1
      · exact Finset.sum_congr rfl fun x _ => by ring
      · simp
    rw [this, Matrix.one_apply]
    simp only [Fin.succ_inj]
    linear_combination (v i * v j) * hk2

/-! ## The property -/

/-- For `0 < |v| < 1` the object exists. -/
theorem mkBoost_some (v : Fin 3 → ℝ) (h0 : boostV2 v ≠ 0) (h1 : boostV2 v < 1) :
    mkBoost v = some ⟨bmat v (boostGamma v) ((boostGamma v - 1) / boostV2 v),
      bmat (fun k => -(v k)) (boostGamma v) ((boostGamma v - 1) / boostV2 v)⟩ := by
  unfold mkBoost
  rw [lorentzMatrix_eq v h0 h1, lorentzMatrix_eq _ (by rwa [boostV2_neg]) (by rwa [boostV2_neg]), gamma_neg,
    boostV2_neg]
  rfl

/-- **C47**: for every velocity with `0 < |v| < 1` the boost exists, preserves the Minkowski product of all
pairs of vectors, and the stored inverse matrix is its inverse on both sides. -/
theorem C47_boost (v : Fin 3 → ℝ) (h0 : 0 < ∑ i, v i ^ 2) (h1 : ∑ i, v i ^ 2 < 1) :
    ∃ B, mkBoost v = some B ∧ (∀ x y, mink (B.vectorU x) (B.vectorU y) = mink x y) ∧
      Matrix.of B.inv * Matrix.of B.mat = 1 ∧ Matrix.of B.mat * Matrix.of B.inv = 1 := by
  have hne : boostV2 v ≠ 0 := h0.ne'
  refine ⟨_, mkBoost_some v hne h1, ?_, ?_, ?_⟩
  · intro x y
    exact bmat_mink v _ _ (div_mul_cancel₀ _ hne) (gamma_sq v h1) hne x y
  · exact bmat_inv v _ _ (div_mul_cancel₀ _ hne) (gamma_sq v h1) hne
  · have h := bmat_inv (fun k => -(v k)) (boostGamma v) ((boostGamma v - 1) / boostV2 v)
      (by rw [boostV2_neg]; exact div_mul_cancel₀ _ hne) (by rw [boostV2_neg]; exact gamma_sq v h1)
      (by rwa [boostV2_neg])
    simpa only [neg_neg] using h

/-- **C47** (rest frame): a particle that moves with velocity `v` is at rest after the boost, with energy its mass. -/
theorem C47_rest (v : Fin 3 → ℝ) (h0 : 0 < ∑ i, v i ^ 2) (h1 : ∑ i, v i ^ 2 < 1) (B : BoostObj)
    (hB : mkBoost v = some B) :
    B.vectorU (fun mu => 1 / Real.sqrt (1 - ∑ i, v i ^ 2) * (Fin.cons 1 v : Fin 4 → ℝ) mu) =
      (Fin.cons 1 (fun _ => 0) : Fin 4 → ℝ) := by
  have hne : boostV2 v ≠ 0 := h0.ne'
  rw [mkBoost_some v hne h1] at hB
  cases hB
  have hg := gamma_sq v h1
  have hk : (boostGamma v - 1) / boostV2 v * boostV2 v = boostGamma v - 1 := div_mul_cancel₀ _ hne
  have eg : 1 / Real.sqrt (1 - ∑ i, v i ^ 2) = boostGamma v := rfl
  rw [eg]
  generalize boostGamma v = g at *
  generalize (g - 1) / boostV2 v = k at *
  have hvv : ∑ x, v x * v x = boostV2 v := by
    unfold boostV2
    exact Finset.sum_congr rfl fun x _ => by ring
  funext mu
  unfold BoostObj.vectorU
  simp only [bmat, block4, Fin.sum_univ_succ (n := 3)]
  refine Fin.cases ?_ (fun i => ?_) mu <;> simp only [Fin.cases_zero, Fin.cases_succ, Fin.cons_zero, Fin.cons_succ]
  · have : ∑ i, -g * v i * (g * v i) = -g ^ 2 * boostV2 v := by
      rw [← hvv, Finset.mul_sum]
      exact Finset.sum_congr rfl fun x _ => by ring
    rw [this]
    linear_combination hg
  · have : ∑ x, (k * v i * v x + if i = x then 1 else 0) * (g * v x) = g * (k * v i * boostV2 v + v i) := by
      rw [← hvv]
      simp only [add_mul, Finset.sum_add_distrib, Finset.mul_sum, mul_add]
      congr 1
      · exact Finset.sum_congr rfl fun x _ => by ring
      · simp
    rw [this]
    linear_combination g * v i * hk

/-- **C47** (round trip): `inverse_boost_vectorU` undoes `boost_vectorU` and conversely. -/
theorem C47_roundtrip (v : Fin 3 → ℝ) (h0 : 0 < ∑ i, v i ^ 2) (h1 : ∑ i, v i ^ 2 < 1) (B : BoostObj)
    (hB : mkBoost v = some B) (x : Fin 4 → ℝ) :
    B.invVectorU (B.vectorU x) = x ∧ B.vectorU (B.invVectorU x) = x := by
  obtain ⟨B', hB', -, h2, h3⟩ := C47_boost v h0 h1
  rw [hB] at hB'
  cases hB'
  constructor
  · have : (Matrix.of B.inv).mulVec ((Matrix.of B.mat).mulVec x) = x := by
      rw [Matrix.mulVec_mulVec, h2, Matrix.one_mulVec]
    exact this
  · have : (Matrix.of B.mat).mulVec ((Matrix.of B.inv).mulVec x) = x := by
      rw [Matrix.mulVec_mulVec, h3, Matrix.one_mulVec]
    exact this

/-- **C47** (tensors): contractions of boosted covectors and covariant tensors of rank 2, 3 and 4 with boosted
vectors are those of the originals. -/
theorem C47_contractions (v : Fin 3 → ℝ) (h0 : 0 < ∑ i, v i ^ 2) (h1 : ∑ i, v i ^ 2 < 1) (B : BoostObj)
    (hB : mkBoost v = some B) (x y z t : Fin 4 → ℝ) :
    (∀ w, ∑ a, B.vectorD w a * B.vectorU x a = ∑ a, w a * x a) ∧
    (∀ T, ∑ a, ∑ b, B.tensorDD T a b * B.vectorU x a * B.vectorU y b = ∑ a, ∑ b, T a b * x a * y b) ∧
    (∀ T, ∑ a, ∑ b, ∑ c, B.tensorDDD T a b c * B.vectorU x a * B.vectorU y b * B.vectorU z c =
      ∑ a, ∑ b, ∑ c, T a b c * x a * y b * z c) ∧
    (∀ T, ∑ a, ∑ b, ∑ c, ∑ d,
        B.tensorDDDD T a b c d * B.vectorU x a * B.vectorU y b * B.vectorU z c * B.vectorU t d =
      ∑ a, ∑ b, ∑ c, ∑ d, T a b c d * x a * y b * z c * t d) := by
  have hrt := C47_roundtrip v h0 h1 B hB
  -- contraction of one index
  have one : ∀ (w x : Fin 4 → ℝ), ∑ a, (∑ n, B.inv n a * w n) * B.vectorU x a = ∑ a, w a * x a := by
    intro w x
    have e := (hrt x).1
    calc ∑ a, (∑ n, B.inv n a * w n) * B.vectorU x a = ∑ a, ∑ n, w n * (B.inv n a * B.vectorU x a) := by
          refine Finset.sum_congr rfl fun a _ => ?_
          rw [Finset.sum_mul]
          exact Finset.sum_congr rfl fun n _ => by ring
      _ = ∑ n, w n * ∑ a, B.inv n a * B.vectorU x a := by
          rw [Finset.sum_comm]
          exact Finset.sum_congr rfl fun n _ => (Finset.mul_sum ..).symm
      _ = ∑ n, w n * x n := by
          refine Finset.sum_congr rfl fun n _ => ?_
          rw [← congrFun e n]
          rfl
  have two : ∀ (T : Fin 4 → Fin 4 → ℝ) (x y : Fin 4 → ℝ),
      ∑ a, ∑ b, B.tensorDD T a b * B.vectorU x a * B.vectorU y b = ∑ a, ∑ b, T a b * x a * y b := by
    intro T x y
    have e : ∀ a, ∑ b, B.tensorDD T a b * B.vectorU x a * B.vectorU y b =
        (∑ n, B.inv n a * ∑ b, T n b * y b) * B.vectorU x a := by
      intro a
      have : ∑ b, B.tensorDD T a b * B.vectorU x a * B.vectorU y b =
          (∑ b, (∑ n, B.inv n b * ∑ m, B.inv m a * T m n) * B.vectorU y b) * B.vectorU x a := by
        rw [Finset.sum_mul]
        refine Finset.sum_congr rfl fun b _ => ?_
        have : B.tensorDD T a b = ∑ n, B.inv n b * ∑ m, B.inv m a * T m n := by
          unfold BoostObj.tensorDD
          rw [Finset.sum_comm]
          refine Finset.sum_congr rfl fun n _ => ?_
          rw [Finset.mul_sum]
          exact Finset.sum_congr rfl fun m _ => by ring
        rw [this]
        ring
      rw [this, one]
      congr 1
      calc ∑ n, (∑ m, B.inv m a * T m n) * y n = ∑ n, ∑ m, B.inv m a * (T m n * y n) := by
            refine Finset.sum_congr rfl fun n _ => ?_
            rw [Finset.sum_mul]
            exact Finset.sum_congr rfl fun m _ => by ring
        _ = _ := by
            rw [Finset.sum_comm]
            exact Finset.sum_congr rfl fun n _ => (Finset.mul_sum ..).symm
    simp only [e]
    rw [one]
    refine Finset.sum_congr rfl fun a _ => ?_
    rw [Finset.sum_mul]
    exact Finset.sum_congr rfl fun b _ => by ring
  have three : ∀ (T : Fin 4 → Fin 4 → Fin 4 → ℝ) (x y z : Fin 4 → ℝ),
      ∑ a, ∑ b, ∑ c, B.tensorDDD T a b c * B.vectorU x a * B.vectorU y b * B.vectorU z c =
        ∑ a, ∑ b, ∑ c, T a b c * x a * y b * z c := by
    intro T x y z
    have e : ∀ a, ∑ b, ∑ c, B.tensorDDD T a b c * B.vectorU x a * B.vectorU y b * B.vectorU z c =
        (∑ n, B.inv n a * ∑ b, ∑ c, T n b c * y b * z c) * B.vectorU x a := by
      intro a
      have h := two (fun b c => ∑ n, B.inv n a * T n b c) y z
      calc ∑ b, ∑ c, B.tensorDDD T a b c * B.vectorU x a * B.vectorU y b * B.vectorU z c =
          (∑ b, ∑ c, B.tensorDD (fun b c => ∑ n, B.inv n a * T n b c) b c * B.vectorU y b * B.vectorU z c) *
            B.vectorU x a := by
            rw [Finset.sum_mul]
            refine Finset.sum_congr rfl fun b _ => ?_
            rw [Finset.sum_mul]
            refine Finset.sum_congr rfl fun c _ => ?_
            have : B.tensorDDD T a b c = B.tensorDD (fun b c => ∑ n, B.inv n a * T n b c) b c := by
              unfold BoostObj.tensorDDD BoostObj.tensorDD
              rw [Finset.sum_comm]
              refine Finset.sum_congr rfl fun n2 _ => ?_
              rw [Finset.sum_comm]
              refine Finset.sum_congr rfl fun n3 _ => ?_
              rw [Finset.mul_sum]
              exact Finset.sum_congr rfl fun n1 _ => by ring
            rw [this]
            ring
        _ = (∑ b, ∑ c, (∑ n, B.inv n a * T n b c) * y b * z c) * B.vectorU x a := by rw [h]
        _ = _ := by
            congr 1
            simp only [Finset.mul_sum, Finset.sum_mul]
            rw [Finset.sum_congr rfl fun b _ => Finset.sum_comm, Finset.sum_comm]
            refine Finset.sum_congr rfl fun n _ => Finset.sum_congr rfl fun b _ => Finset.sum_congr rfl fun c _ => ?_
            ring
    simp only [e]
    rw [one]
    refine Finset.sum_congr rfl fun a _ => ?_
    rw [Finset.sum_mul]
    refine Finset.sum_congr rfl fun b _ => ?_
    rw [Finset.sum_mul]
    exact Finset.sum_congr rfl fun c _ => by ring
  refine ⟨fun w => one w x, fun T => two T x y, fun T => three T x y z, fun T => ?_⟩
  have e : ∀ a, ∑ b, ∑ c, ∑ d,
      B.tensorDDDD T a b c d * B.vectorU x a * B.vectorU y b * B.vectorU z c * B.vectorU t d =
      (∑ n, B.inv n a * ∑ b, ∑ c, ∑ d, T n b c d * y b * z c * t d) * B.vectorU x a := by
    intro a
    have h := three (fun b c d => ∑ n, B.inv n a * T n b c d) y z t
    calc _ = (∑ b, ∑ c, ∑ d, B.tensorDDD (fun b c d => ∑ n, B.inv n a * T n b c d) b c d * B.vectorU y b *
          B.vectorU z c * B.vectorU t d) * B.vectorU x a := by
          rw [Finset.sum_mul]
          refine Finset.sum_congr rfl fun b _ => ?_
          rw [Finset.sum_mul]
          refine Finset.sum_congr rfl fun c _ => ?_
          rw [Finset.sum_mul]
          refine Finset.sum_congr rfl fun d _ => ?_
          have : B.tensorDDDD T a b c d = B.tensorDDD (fun b c d => ∑ n, B.inv n a * T n b c d) b c d := by
            unfold BoostObj.tensorDDDD BoostObj.tensorDDD
            rw [Finset.sum_comm]
            refine Finset.sum_congr rfl fun n2 _ => ?_
            rw [Finset.sum_comm]
            refine Finset.sum_congr rfl fun n3 _ => ?_
            rw [Finset.sum_comm]
            refine Finset.sum_congr rfl fun n4 _ => ?_
            rw [Finset.mul_sum]
            exact Finset.sum_congr rfl fun n1 _ => by ring
          rw [this]
          ring
      _ = (∑ b, ∑ c, ∑ d, (∑ n, B.inv n a * T n b c d) * y b * z c * t d) * B.vectorU x a := by rw [h]
      _ = _ := by
          congr 1
          simp only [Finset.mul_sum, Finset.sum_mul]
          rw [Finset.sum_congr rfl fun b _ => Finset.sum_congr rfl fun c _ => Finset.sum_comm,
            Finset.sum_congr rfl fun b _ => Finset.sum_comm, Finset.sum_comm]
          refine Finset.sum_congr rfl fun n _ => Finset.sum_congr rfl fun b _ => Finset.sum_congr rfl fun c _ =>
            Finset.sum_congr rfl fun d _ => ?_
          ring
  simp only [e]
  rw [one]
  refine Finset.sum_congr rfl fun a _ => ?_
  rw [Finset.sum_mul]
  refine Finset.sum_congr rfl fun b _ => ?_
  rw [Finset.sum_mul]
  refine Finset.sum_congr rfl fun c _ => ?_
  rw [Finset.sum_mul]
  exact Finset.sum_congr rfl fun d _ => by ring

/-- **C47** (metric as a tensor): `boost_tensorDD` maps the Minkowski metric to itself. -/
theorem C47_metric (v : Fin 3 → ℝ) (h0 : 0 < ∑ i, v i ^ 2) (h1 : ∑ i, v i ^ 2 < 1) (B : BoostObj)
    (hB : mkBoost v = some B) : B.tensorDD eta = eta := by
  have hne : boostV2 v ≠ 0 := h0.ne'
  rw [mkBoost_some v hne h1] at hB
  cases hB
  funext a b
  have h := bmat_mink (fun k => -(v k)) (boostGamma v) ((boostGamma v - 1) / boostV2 v)
      (by rw [boostV2_neg]; exact div_mul_cancel₀ _ hne) (by rw [boostV2_neg]; exact gamma_sq v h1)
      (by rwa [boostV2_neg]) (Pi.single a 1) (Pi.single b 1)
  have e : ∀ x y : Fin 4 → ℝ, mink x y = ∑ i, ∑ j, x i * y j * eta i j := by
    intro x y
    unfold mink eta
    simp [Fin.sum_univ_succ]
  rw [e, e] at h
  unfold BoostObj.tensorDD
  simpa [Pi.single_apply] using h

/-- **C47** (limit of the code): for zero velocity the entries are `0/0` and there is no boost, although the
identity is one. -/
theorem C47_zero : mkBoost (fun _ => 0) = none := by
  unfold mkBoost lorentzMatrix
  rw [if_pos (Or.inl (by simp [boostV2]))]
  rfl

/-- A velocity in the range. -/
example : 0 < ∑ i : Fin 3, (![3/5, 0, 1/2] : Fin 3 → ℝ) i ^ 2 ∧ ∑ i : Fin 3, (![3/5, 0, 1/2] : Fin 3 → ℝ) i ^ 2 < 1 := by
  simp [Fin.sum_univ_three]
  norm_num

end Verif.Equations
