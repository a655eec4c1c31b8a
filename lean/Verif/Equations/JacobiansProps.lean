import Verif.Equations.Jacobians
import Verif.IndexedExp.InvertersProps
import Mathlib.Tactic.FinCases

/-!
# C51: basis transforms are mutually inverse
-/
namespace Verif.Equations
open Matrix Verif.IndexedExp

/-! ## Lemmas -/

theorem jacPair_spec (jac : Arr3) (hd : (Matrix.of jac).det ≠ 0) :
    ∃ J, jacPair jac = some J ∧ J.toCart = jac ∧ Matrix.of J.toCart * Matrix.of J.toRfm = 1 ∧
      Matrix.of J.toRfm * Matrix.of J.toCart = 1 := by
  classical
  have h := C14_generic3 (Matrix.of jac)
  rcases hr : genInv3 (Matrix.of jac : Fin 3 → Fin 3 → ℝ) with _ | ⟨u, d⟩
  · exact absurd (h.1.1 hr) hd
  · obtain ⟨-, h1, h2⟩ := h.2 u d hr
    refine ⟨⟨jac, u⟩, ?_, rfl, h1, h2⟩
    unfold jacPair
    have : (open Classical in genInv3 jac) = some (u, d) := by rw [← hr]; rfl
    rw [this]
    rfl

theorem two_sided {n : Nat} (A T : Fin n → Fin n → ℝ) :
    (Matrix.of fun i j => ∑ l, ∑ m, A i l * A j m * T l m) = Matrix.of A * Matrix.of T * (Matrix.of A)ᵀ := by
  ext i j
  rw [Matrix.mul_apply]
  simp only [Matrix.mul_apply, Matrix.of_apply, Matrix.transpose_apply, Finset.sum_mul]
  rw [Finset.sum_comm]
  exact Finset.sum_congr rfl fun m _ => Finset.sum_congr rfl fun l _ => by ring

theorem two_sided_inv {n : Nat} (A B T : Fin n → Fin n → ℝ) (h : Matrix.of A * Matrix.of B = 1) :
    (fun i j => ∑ l, ∑ m, A i l * A j m * ∑ l', ∑ m', B l l' * B m m' * T l' m') = T := by
  have e1 := two_sided B T
  have e2 := two_sided A fun i j => ∑ l, ∑ m, B i l * B j m * T l m
  rw [e1] at e2
  have h' : (Matrix.of B)ᵀ * (Matrix.of A)ᵀ = 1 := by rw [← Matrix.transpose_mul, h, Matrix.transpose_one]
  have e3 : Matrix.of A * (Matrix.of B * Matrix.of T * (Matrix.of B)ᵀ) * (Matrix.of A)ᵀ = Matrix.of T := by
    rw [Matrix.mul_assoc, Matrix.mul_assoc, Matrix.mul_assoc, h', Matrix.mul_one, ← Matrix.mul_assoc, h,
      Matrix.one_mul]
  rw [e3] at e2
  exact Matrix.of.injective e2

theorem one_sided_inv {n : Nat} (A B : Fin n → Fin n → ℝ) (v : Fin n → ℝ) (h : Matrix.of A * Matrix.of B = 1) :
    (fun i => ∑ l, A i l * ∑ m, B l m * v m) = v := by
  have : (Matrix.of A).mulVec ((Matrix.of B).mulVec v) = v := by
    rw [Matrix.mulVec_mulVec, h, Matrix.one_mulVec]
  exact this

theorem tr_mul {n : Nat} (A B : Fin n → Fin n → ℝ) (h : Matrix.of A * Matrix.of B = 1) :
    (Matrix.of fun i j => B j i) * (Matrix.of fun i j => A j i) = 1 := by
  have : (Matrix.of A * Matrix.of B)ᵀ = 1 := by rw [h, Matrix.transpose_one]
  rw [Matrix.transpose_mul] at this
  exact this

theorem jac4_mul (A B : Arr3) (h : Matrix.of A * Matrix.of B = 1) :
    Matrix.of (jac4 A) * Matrix.of (jac4 B) = 1 := by
  ext mu nu
  rw [Matrix.mul_apply, Fin.sum_univ_succ]
  simp only [Matrix.of_apply, jac4, block4]
  refine Fin.cases ?_ (fun i => ?_) mu <;> refine Fin.cases ?_ (fun j => ?_) nu <;>
    simp only [Fin.cases_zero, Fin.cases_succ]
  · simp
  · simp [Matrix.one_apply_ne (Fin.succ_ne_zero j).symm]
  · simp
  · have := congrFun (congrFun h i) j
    rw [Matrix.mul_apply] at this
    simp only [Matrix.of_apply] at this
    rw [zero_mul, zero_add, this, Matrix.one_apply, Matrix.one_apply]
    simp only [Fin.succ_inj]

/-! ## The property -/

/-- **C51** (round trips): wherever the determinant of the Jacobian does not vanish the pair exists, its members
are inverse to each other, and all transforms from one basis to the other and back give the original. -/
theorem C51_roundtrip (jac : Arr3) (hd : (Matrix.of jac).det ≠ 0) :
    ∃ J, jacPair jac = some J ∧ J.toCart = jac ∧
      (∀ v, vecUToRfm J (vecUToCart J v) = v) ∧ (∀ v, vecUToCart J (vecUToRfm J v) = v) ∧
      (∀ v, vecDToRfm J (vecDToCart J v) = v) ∧ (∀ v, vecDToCart J (vecDToRfm J v) = v) ∧
      (∀ T, tensDDToRfm J (tensDDToCart J T) = T) ∧ (∀ T, tensDDToCart J (tensDDToRfm J T) = T) ∧
      (∀ T, tens4ToRfm J (tens4ToCart J T) = T) ∧ (∀ T, tens4ToCart J (tens4ToRfm J T) = T) := by
  obtain ⟨J, h0, h1, h2, h3⟩ := jacPair_spec jac hd
  refine ⟨J, h0, h1, fun v => one_sided_inv _ _ v h3, fun v => one_sided_inv _ _ v h2,
    fun v => one_sided_inv (fun i j => J.toCart j i) (fun i j => J.toRfm j i) v (tr_mul _ _ h3),
    fun v => one_sided_inv (fun i j => J.toRfm j i) (fun i j => J.toCart j i) v (tr_mul _ _ h2),
    fun T => two_sided_inv (fun i j => J.toCart j i) (fun i j => J.toRfm j i) T (tr_mul _ _ h3),
    fun T => two_sided_inv (fun i j => J.toRfm j i) (fun i j => J.toCart j i) T (tr_mul _ _ h2),
    fun T => two_sided_inv _ _ T (jac4_mul _ _ h3), fun T => two_sided_inv _ _ T (jac4_mul _ _ h2)⟩

/-- **C51** (vectors): a displacement in reference-metric coordinates is transformed by the chain rule. -/
theorem C51_direction (jac : Arr3) (hd : (Matrix.of jac).det ≠ 0) (J : JacPair) (hJ : jacPair jac = some J)
    (v : Fin 3 → ℝ) (i : Fin 3) : vecUToCart J v i = ∑ j, jac i j * v j := by
  obtain ⟨J', h0, h1, -⟩ := jacPair_spec jac hd
  rw [hJ] at h0
  cases h0
  rw [← h1]
  rfl

/-- **C51** (scalars): contractions do not depend on the basis: covector with vector, and covariant tensor with two
vectors. -/
theorem C51_contractions (jac : Arr3) (hd : (Matrix.of jac).det ≠ 0) (J : JacPair) (hJ : jacPair jac = some J)
    (v w : Fin 3 → ℝ) :
    (∀ q, ∑ i, vecDToCart J q i * vecUToCart J v i = ∑ i, q i * v i) ∧
    (∀ T, ∑ i, ∑ j, tensDDToCart J T i j * vecUToCart J v i * vecUToCart J w j = ∑ i, ∑ j, T i j * v i * w j) := by
  obtain ⟨J', h0, -, h2, h3⟩ := jacPair_spec jac hd
  rw [hJ] at h0
  cases h0
  have hv : ∀ v, vecUToRfm J (vecUToCart J v) = v := fun v => one_sided_inv _ _ v h3
  have one : ∀ q x : Fin 3 → ℝ, ∑ i, (∑ l, J.toRfm l i * q l) * x i = ∑ l, q l * vecUToRfm J x l := by
    intro q x
    unfold vecUToRfm
    simp only [Finset.sum_mul, Finset.mul_sum]
    rw [Finset.sum_comm]
    exact Finset.sum_congr rfl fun l _ => Finset.sum_congr rfl fun i _ => by ring
  refine ⟨fun q => ?_, fun T => ?_⟩
  · have := one q (vecUToCart J v)
    rw [hv] at this
    exact this
  · have e : ∀ i, ∑ j, tensDDToCart J T i j * vecUToCart J v i * vecUToCart J w j =
        (∑ l, J.toRfm l i * ∑ m, T l m * w m) * vecUToCart J v i := by
      intro i
      have h := one (fun m => ∑ l, J.toRfm l i * T l m) (vecUToCart J w)
      rw [hv] at h
      calc _ = (∑ j, (∑ m, J.toRfm m j * ∑ l, J.toRfm l i * T l m) * vecUToCart J w j) * vecUToCart J v i := by
            rw [Finset.sum_mul]
            refine Finset.sum_congr rfl fun j _ => ?_
            have : tensDDToCart J T i j = ∑ m, J.toRfm m j * ∑ l, J.toRfm l i * T l m := by
              unfold tensDDToCart
              rw [Finset.sum_comm]
              refine Finset.sum_congr rfl fun m _ => ?_
              rw [Finset.mul_sum]
              exact Finset.sum_congr rfl fun l _ => by ring
            rw [this]
            ring
        _ = _ := by
            rw [h]
            congr 1
            simp only [Finset.sum_mul, Finset.mul_sum]
            rw [Finset.sum_comm]
            exact Finset.sum_congr rfl fun l _ => Finset.sum_congr rfl fun m _ => by ring
    simp only [e]
    rw [one, hv]
    refine Finset.sum_congr rfl fun i _ => ?_
    rw [Finset.sum_mul]
    exact Finset.sum_congr rfl fun j _ => by ring

/-- **C51** (four-tensors): the outer product of two four-vectors is transformed to the outer product of the
transformed vectors, whose time components are unchanged and whose space components are transformed as vectors. -/
theorem C51_outer (jac : Arr3) (hd : (Matrix.of jac).det ≠ 0) (J : JacPair) (hJ : jacPair jac = some J)
    (t s : ℝ) (v w : Fin 3 → ℝ) :
    tens4ToCart J (fun mu nu => (Fin.cons t v : Fin 4 → ℝ) mu * (Fin.cons s w : Fin 4 → ℝ) nu) =
      fun mu nu => (Fin.cons t fun i => ∑ j, jac i j * v j : Fin 4 → ℝ) mu *
        (Fin.cons s fun i => ∑ j, jac i j * w j : Fin 4 → ℝ) nu := by
  obtain ⟨J', h0, h1, -⟩ := jacPair_spec jac hd
  rw [hJ] at h0
  cases h0
  have e : ∀ (t : ℝ) (v : Fin 3 → ℝ) mu, ∑ d, jac4 J.toCart mu d * (Fin.cons t v : Fin 4 → ℝ) d =
      (Fin.cons t fun i => ∑ j, jac i j * v j : Fin 4 → ℝ) mu := by
    intro t v mu
    rw [Fin.sum_univ_succ, ← h1]
    refine Fin.cases ?_ (fun i => ?_) mu <;> simp [jac4, block4]
  funext mu nu
  rw [← e, ← e, Finset.sum_mul_sum]
  exact Finset.sum_congr rfl fun d _ => Finset.sum_congr rfl fun s _ => by ring

/-- A Jacobian that is neither diagonal nor symmetric. -/
example : (Matrix.of (![![1, 2, 0], ![0, 1, 3], ![1, 0, 1]] : Arr3)).det ≠ 0 := by
  rw [Matrix.det_fin_three]
  simp
  norm_num

end Verif.Equations
