import Verif.Equations.Rotation
import Mathlib.Tactic.FieldSimp
import Mathlib.Tactic.LinearCombination
import Mathlib.Data.Fin.VecNotation
import Mathlib.Data.Matrix.Mul
import Mathlib.LinearAlgebra.Matrix.Notation
import Mathlib.Algebra.BigOperators.Fin

/-!
# C48: quaternion rotation is a rotation
-/
namespace Verif.Equations
open Matrix

/-! ## Specification -/

/-- Vectors of three numbers as lists, and matrices as lists of rows. -/
def toL (v : Fin 3 → ℝ) : List ℝ := [v 0, v 1, v 2]
def toLL (M : Fin 3 → Fin 3 → ℝ) : List (List ℝ) := [toL (M 0), toL (M 1), toL (M 2)]

def dot3 (x y : Fin 3 → ℝ) : ℝ := x 0 * y 0 + x 1 * y 1 + x 2 * y 2

def cross3 (x y : Fin 3 → ℝ) : Fin 3 → ℝ :=
  ![x 1 * y 2 - x 2 * y 1, x 2 * y 0 - x 0 * y 2, x 0 * y 1 - x 1 * y 0]

/-- Rodrigues' formula: rotation about the unit vector `n` by the angle `t` (right-hand rule). -/
noncomputable def rodrigues (n : Fin 3 → ℝ) (t : ℝ) (v : Fin 3 → ℝ) : Fin 3 → ℝ := fun i =>
  Real.cos t * v i + Real.sin t * cross3 n v i + (1 - Real.cos t) * dot3 n v * n i

/-- The unit vector along `x`. -/
noncomputable def unit3 (x : Fin 3 → ℝ) : Fin 3 → ℝ := fun i => x i / Real.sqrt (dot3 x x)

/-! ## Computation -/

theorem dot_pos (x : Fin 3 → ℝ) (h : x ≠ 0) : 0 < dot3 x x := by
  by_contra hc
  unfold dot3 at hc
  apply h
  have h0 := mul_self_nonneg (x 0)
  have h1 := mul_self_nonneg (x 1)
  have h2 := mul_self_nonneg (x 2)
  funext i
  fin_cases i
  · exact mul_self_eq_zero.1 (show x 0 * x 0 = 0 by linarith)
  · exact mul_self_eq_zero.1 (show x 1 * x 1 = 0 by linarith)
  · exact mul_self_eq_zero.1 (show x 2 * x 2 = 0 by linarith)

theorem unit_unit (x : Fin 3 → ℝ) (h : x ≠ 0) : dot3 (unit3 x) (unit3 x) = 1 := by
  have hp := dot_pos x h
  have hs : Real.sqrt (dot3 x x) * Real.sqrt (dot3 x x) = dot3 x x := Real.mul_self_sqrt hp.le
  have hne : Real.sqrt (dot3 x x) ≠ 0 := (Real.sqrt_pos.2 hp).ne'
  have : dot3 (unit3 x) (unit3 x) = dot3 x x / (Real.sqrt (dot3 x x) * Real.sqrt (dot3 x x)) := by
    simp only [unit3, dot3]
    field_simp
  rw [this, hs, div_self hp.ne']

theorem half_cos (t : ℝ) : Real.cos t = Real.cos (t * (1 / 2)) ^ 2 - Real.sin (t * (1 / 2)) ^ 2 := by
  conv_lhs => rw [show t = 2 * (t * (1 / 2)) by ring]
  rw [Real.cos_two_mul]
  linear_combination Real.sin_sq_add_cos_sq (t * (1 / 2))

theorem half_sin (t : ℝ) : Real.sin t = 2 * Real.sin (t * (1 / 2)) * Real.cos (t * (1 / 2)) := by
  conv_lhs => rw [show t = 2 * (t * (1 / 2)) by ring]
  rw [Real.sin_two_mul]

/-- The rotation quaternion. -/
noncomputable def rotQuat (x : Fin 3 → ℝ) (t : ℝ) : Quat :=
  ⟨Real.cos (t * (1 / 2)), unit3 x 0 * Real.sin (t * (1 / 2)), unit3 x 1 * Real.sin (t * (1 / 2)),
    unit3 x 2 * Real.sin (t * (1 / 2))⟩

theorem fromAxisAngle_eq (x : Fin 3 → ℝ) (h : x ≠ 0) (t : ℝ) : fromAxisAngle (toL x) t = .ok (rotQuat x t) := by
  have e : x 0 ^ 2 + x 1 ^ 2 + x 2 ^ 2 = dot3 x x := by unfold dot3; ring
  unfold fromAxisAngle toL
  simp only [e]
  rw [if_neg (Real.sqrt_pos.2 (dot_pos x h)).ne']
  rfl

theorem quat_sandwich (x : Fin 3 → ℝ) (h : x ≠ 0) (t : ℝ) (v : Fin 3 → ℝ) :
    (rotQuat x t).mul ((pureQuat v).mul (rotQuat x t).conj) =
      ⟨0, rodrigues (unit3 x) t v 0, rodrigues (unit3 x) t v 1, rodrigues (unit3 x) t v 2⟩ := by
  have hu := unit_unit x h
  have hcs := Real.sin_sq_add_cos_sq (t * (1 / 2))
  unfold rodrigues cross3
  rw [half_cos t, half_sin t]
  unfold rotQuat pureQuat Quat.mul Quat.conj
  unfold dot3 at *
  simp only [Quat.mk.injEq, Matrix.cons_val_zero, Matrix.cons_val_one, Matrix.cons_val]
  generalize Real.cos (t * (1 / 2)) = c at *
  generalize Real.sin (t * (1 / 2)) = s at *
  generalize unit3 x 0 = n0 at *
  generalize unit3 x 1 = n1 at *
  generalize unit3 x 2 = n2 at *
  refine ⟨by ring, ?_, ?_, ?_⟩
  · linear_combination (-(s ^ 2 * v 0)) * hu + n0 * (n0 * v 0 + n1 * v 1 + n2 * v 2) * hcs
  · linear_combination (-(s ^ 2 * v 1)) * hu + n1 * (n0 * v 0 + n1 * v 1 + n2 * v 2) * hcs
  · linear_combination (-(s ^ 2 * v 2)) * hu + n2 * (n0 * v 0 + n1 * v 1 + n2 * v 2) * hcs

theorem quat_assoc (p q r : Quat) : (p.mul q).mul r = p.mul (q.mul r) := by
  unfold Quat.mul
  simp only [Quat.mk.injEq]
  refine ⟨?_, ?_, ?_, ?_⟩ <;> ring

/-! ## The property -/

/-- **C48** (vectors): `rotate` of a vector about a nonzero axis is Rodrigues' rotation about the normalised axis. -/
theorem C48_vector (x v : Fin 3 → ℝ) (t : ℝ) (h : x ≠ 0) :
    rotate (.vec (toL v)) (toL x) t = .ok (.vec (toL (rodrigues (unit3 x) t v))) := by
  unfold rotate
  rw [fromAxisAngle_eq x h]
  have e : (fun k : Fin 3 => rotEntry (toL v) k.val) = v := by
    funext k
    fin_cases k <;> rfl
  have hs := quat_sandwich x h t v
  simp only [bind, Except.bind, pure, Except.pure]
  show (if (toL v).length ≠ 3 then _ else _) = _
  rw [if_neg (by simp [toL]), e, quat_assoc, hs]
  rfl

/-- Rodrigues' rotation as a matrix. -/
noncomputable def rotMat (n : Fin 3 → ℝ) (t : ℝ) : Matrix (Fin 3) (Fin 3) ℝ :=
  Matrix.of fun i j => rodrigues n t (Pi.single j 1) i

theorem rotMat_mulVec (n : Fin 3 → ℝ) (t : ℝ) (v : Fin 3 → ℝ) : (rotMat n t).mulVec v = rodrigues n t v := by
  funext i
  rw [Matrix.mulVec, dotProduct, Fin.sum_univ_three]
  unfold rotMat rodrigues cross3 dot3
  fin_cases i <;> simp <;> ring

/-- **C48** (matrices): `rotate` of a matrix is `R M Rᵀ`, with `R` the matrix of the rotation of vectors. -/
theorem C48_matrix (x : Fin 3 → ℝ) (M : Matrix (Fin 3) (Fin 3) ℝ) (t : ℝ) (h : x ≠ 0) :
    rotate (.mat (toLL M)) (toL x) t = .ok (.mat (toLL (rotMat (unit3 x) t * M * (rotMat (unit3 x) t)ᵀ))) := by
  unfold rotate
  rw [fromAxisAngle_eq x h]
  simp only [bind, Except.bind, pure, Except.pure]
  rw [if_neg (by simp [toLL]), if_pos ⟨rfl, by simp [toLL, toL]⟩]
  have hc : ∀ i : Fin 3, rotCol (toLL M) i.val = fun k => M k i := by
    intro i
    funext k
    fin_cases i <;> fin_cases k <;> rfl
  have hcols : (mulList (rotQuat x t) ((List.range 3).map fun i => pureQuat (rotCol (toLL M) i))).map Quat.im =
      toLL fun i => (rotMat (unit3 x) t).mulVec fun k => M k i := by
    have h0 := hc 0
    have h1 := hc 1
    have h2 := hc 2
    simp only [Fin.val_zero, Fin.val_one, Fin.val_two] at h0 h1 h2
    simp only [mulList, List.range_succ, List.range_zero, List.nil_append, List.cons_append, List.map_cons,
      List.map_nil, h0, h1, h2, quat_sandwich x h, rotMat_mulVec]
    rfl
  have hm1 : ((List.range 3).map fun r => ((mulList (rotQuat x t)
      ((List.range 3).map fun i => pureQuat (rotCol (toLL M) i))).map Quat.im).map fun c => rotEntry c r) =
      toLL (rotMat (unit3 x) t * M) := by
    rw [hcols]
    rfl
  rw [hm1]
  have hr : ∀ i : Fin 3, ∀ N : Matrix (Fin 3) (Fin 3) ℝ, rotRow (toLL N) i.val = N i := by
    intro i N
    funext k
    fin_cases i <;> fin_cases k <;> rfl
  have hrow : ∀ i, rodrigues (unit3 x) t ((rotMat (unit3 x) t * M) i) =
      (rotMat (unit3 x) t * M * (rotMat (unit3 x) t)ᵀ) i := by
    intro i
    rw [← rotMat_mulVec]
    funext j
    rw [Matrix.mul_apply, Matrix.mulVec, dotProduct]
    exact Finset.sum_congr rfl fun k _ => mul_comm _ _
  have h0 := hr 0
  have h1 := hr 1
  have h2 := hr 2
  simp only [Fin.val_zero, Fin.val_one, Fin.val_two] at h0 h1 h2
  simp only [mulList, List.range_succ, List.range_zero, List.nil_append, List.cons_append, List.map_cons,
      List.map_nil, h0, h1, h2, quat_sandwich x h, hrow]
  rfl

/-- Inner products, orientation and axis for a unit vector. -/
theorem rodrigues_dot (n : Fin 3 → ℝ) (t : ℝ) (hn : dot3 n n = 1) (v w : Fin 3 → ℝ) :
    dot3 (rodrigues n t v) (rodrigues n t w) = dot3 v w := by
  have hcs := Real.sin_sq_add_cos_sq t
  unfold rodrigues cross3
  unfold dot3 at *
  simp only [Matrix.cons_val_zero, Matrix.cons_val_one, Matrix.cons_val]
  generalize Real.cos t = c at *
  generalize Real.sin t = s at *
  linear_combination (s ^ 2 * (v 0 * w 0 + v 1 * w 1 + v 2 * w 2) +
    (1 - c) ^ 2 * (n 0 * v 0 + n 1 * v 1 + n 2 * v 2) * (n 0 * w 0 + n 1 * w 1 + n 2 * w 2)) * hn +
    ((v 0 * w 0 + v 1 * w 1 + v 2 * w 2) - (n 0 * v 0 + n 1 * v 1 + n 2 * v 2) * (n 0 * w 0 + n 1 * w 1 + n 2 * w 2)) * hcs

/-- **C48** (inner products): rotated vectors have the inner product of the originals. -/
theorem C48_inner (x v w : Fin 3 → ℝ) (t : ℝ) (h : x ≠ 0) :
    ∃ v' w', rotate (.vec (toL v)) (toL x) t = .ok (.vec (toL v')) ∧
      rotate (.vec (toL w)) (toL x) t = .ok (.vec (toL w')) ∧ dot3 v' w' = dot3 v w :=
  ⟨_, _, C48_vector x v t h, C48_vector x w t h, rodrigues_dot _ _ (unit_unit x h) _ _⟩

/-- The determinant of three vectors is kept by the formula. -/
theorem rodrigues_cross (n : Fin 3 → ℝ) (t : ℝ) (hn : dot3 n n = 1) (v w : Fin 3 → ℝ) :
    cross3 (rodrigues n t v) (rodrigues n t w) = rodrigues n t (cross3 v w) := by
  have hcs := Real.sin_sq_add_cos_sq t
  unfold rodrigues cross3
  unfold dot3 at *
  simp only [Matrix.cons_val_zero, Matrix.cons_val_one, Matrix.cons_val]
  generalize Real.cos t = c at *
  generalize Real.sin t = s at *
  funext i
  fin_cases i
  · simp
    linear_combination (s * (1 - c) * (n 1 * (v 0 * w 1 - v 1 * w 0) - n 2 * (v 2 * w 0 - v 0 * w 2)) +
      c * (1 - c) * (v 1 * w 2 - v 2 * w 1)) * hn + (n 0 * (v 1 * w 2 - v 2 * w 1) + n 1 * (v 2 * w 0 - v 0 * w 2) +
        n 2 * (v 0 * w 1 - v 1 * w 0)) * n 0 * hcs
  · simp
    linear_combination (s * (1 - c) * (n 2 * (v 1 * w 2 - v 2 * w 1) - n 0 * (v 0 * w 1 - v 1 * w 0)) +
      c * (1 - c) * (v 2 * w 0 - v 0 * w 2)) * hn + (n 0 * (v 1 * w 2 - v 2 * w 1) + n 1 * (v 2 * w 0 - v 0 * w 2) +
        n 2 * (v 0 * w 1 - v 1 * w 0)) * n 1 * hcs
  · simp
    linear_combination (s * (1 - c) * (n 0 * (v 2 * w 0 - v 0 * w 2) - n 1 * (v 1 * w 2 - v 2 * w 1)) +
      c * (1 - c) * (v 0 * w 1 - v 1 * w 0)) * hn + (n 0 * (v 1 * w 2 - v 2 * w 1) + n 1 * (v 2 * w 0 - v 0 * w 2) +
        n 2 * (v 0 * w 1 - v 1 * w 0)) * n 2 * hcs

/-- **C48** (axis): the axis is fixed. -/
theorem C48_axis (x : Fin 3 → ℝ) (t : ℝ) (h : x ≠ 0) :
    rotate (.vec (toL x)) (toL x) t = .ok (.vec (toL x)) := by
  rw [C48_vector x x t h]
  have hp := dot_pos x h
  have hne : Real.sqrt (dot3 x x) ≠ 0 := (Real.sqrt_pos.2 hp).ne'
  have hs : Real.sqrt (dot3 x x) * Real.sqrt (dot3 x x) = dot3 x x := Real.mul_self_sqrt hp.le
  have h1 : ∀ i, dot3 (unit3 x) x * unit3 x i = x i := by
    intro i
    have : dot3 (unit3 x) x * unit3 x i = dot3 x x * x i / (Real.sqrt (dot3 x x) * Real.sqrt (dot3 x x)) := by
      simp only [unit3, dot3]
      field_simp
    rw [this, hs]
    field_simp
  have h2 : ∀ i, cross3 (unit3 x) x i = 0 := by
    intro i
    unfold cross3 unit3
    fin_cases i <;> simp <;> ring
  have : rodrigues (unit3 x) t x = x := by
    funext i
    unfold rodrigues
    rw [h2, mul_assoc, h1]
    ring
  rw [this]

/-- Composition for a unit vector. -/
theorem rodrigues_add (n : Fin 3 → ℝ) (t u : ℝ) (hn : dot3 n n = 1) (v : Fin 3 → ℝ) :
    rodrigues n t (rodrigues n u v) = rodrigues n (t + u) v := by
  unfold rodrigues
  rw [Real.cos_add, Real.sin_add]
  unfold cross3
  unfold dot3 at *
  generalize Real.cos t = c at *
  generalize Real.sin t = s at *
  generalize Real.cos u = c' at *
  generalize Real.sin u = s' at *
  funext i
  fin_cases i <;> simp
  · linear_combination (-(s * s' * v 0) + (1 - c) * (1 - c') * (n 0 * v 0 + n 1 * v 1 + n 2 * v 2) * n 0) * hn
  · linear_combination (-(s * s' * v 1) + (1 - c) * (1 - c') * (n 0 * v 0 + n 1 * v 1 + n 2 * v 2) * n 1) * hn
  · linear_combination (-(s * s' * v 2) + (1 - c) * (1 - c') * (n 0 * v 0 + n 1 * v 1 + n 2 * v 2) * n 2) * hn

/-- **C48** (composition): two rotations about the same axis are one rotation by the sum of the angles; in
particular the opposite angle undoes a rotation. -/
theorem C48_compose (x v : Fin 3 → ℝ) (t u : ℝ) (h : x ≠ 0) :
    (rotate (.vec (toL v)) (toL x) u).bind (fun r => rotate r (toL x) t) =
      rotate (.vec (toL v)) (toL x) (t + u) ∧
    (rotate (.vec (toL v)) (toL x) u).bind (fun r => rotate r (toL x) (-u)) = .ok (.vec (toL v)) := by
  constructor
  · rw [C48_vector x v u h, C48_vector x v _ h]
    simp only [Except.bind]
    rw [C48_vector x _ t h, rodrigues_add _ _ _ (unit_unit x h)]
  · rw [C48_vector x v u h]
    simp only [Except.bind]
    rw [C48_vector x _ _ h, rodrigues_add _ _ _ (unit_unit x h)]
    have : rodrigues (unit3 x) (-u + u) v = v := by
      funext i
      unfold rodrigues
      simp
    rw [this]

/-- **C48** (orientation): the rotated cross product is the cross product of the rotated vectors. -/
theorem C48_orientation (x v w : Fin 3 → ℝ) (t : ℝ) (h : x ≠ 0) :
    ∃ v' w', rotate (.vec (toL v)) (toL x) t = .ok (.vec (toL v')) ∧
      rotate (.vec (toL w)) (toL x) t = .ok (.vec (toL w')) ∧
      rotate (.vec (toL (cross3 v w))) (toL x) t = .ok (.vec (toL (cross3 v' w'))) := by
  refine ⟨_, _, C48_vector x v t h, C48_vector x w t h, ?_⟩
  rw [C48_vector x _ t h, rodrigues_cross _ _ (unit_unit x h)]

/-- **C48** (symmetry): a symmetric matrix stays symmetric. -/
theorem C48_symmetric (x : Fin 3 → ℝ) (M : Matrix (Fin 3) (Fin 3) ℝ) (t : ℝ) (h : x ≠ 0) (hM : Mᵀ = M) :
    ∃ M' : Matrix (Fin 3) (Fin 3) ℝ, rotate (.mat (toLL M)) (toL x) t = .ok (.mat (toLL M')) ∧ M'ᵀ = M' := by
  refine ⟨_, C48_matrix x M t h, ?_⟩
  rw [Matrix.transpose_mul, Matrix.transpose_mul, Matrix.transpose_transpose, hM, Matrix.mul_assoc]

/-- **C48** (bad arguments): a zero axis gives no number; vectors and matrices of other sizes are refused. -/
theorem C48_errors (x : Fin 3 → ℝ) (t : ℝ) (h : x ≠ 0) :
    (∀ T, rotate T (toL 0) t = .error .notANumber) ∧
    (∀ l : List ℝ, l.length ≠ 3 → ∃ e, rotate (.vec l) (toL x) t = .error e) ∧
    (∀ rows : List (List ℝ), (rows.length ≠ 3 ∨ ∃ r ∈ rows, r.length ≠ 3) →
      ∃ e, rotate (.mat rows) (toL x) t = .error e) := by
  refine ⟨fun T => ?_, fun l hl => ?_, fun rows hr => ?_⟩
  · unfold rotate fromAxisAngle toL
    simp [bind, Except.bind]
  · unfold rotate
    rw [fromAxisAngle_eq x h]
    match l with
    | [] => exact ⟨_, rfl⟩
    | a :: l =>
      simp only [bind, Except.bind]
      rw [if_pos hl]
      exact ⟨_, rfl⟩
  · unfold rotate
    rw [fromAxisAngle_eq x h]
    simp only [bind, Except.bind]
    split
    · exact ⟨_, rfl⟩
    · rw [if_neg]
      · exact ⟨_, rfl⟩
      · rintro ⟨h1, h2⟩
        rcases hr with h3 | ⟨r, h3, h4⟩
        · exact h3 h1
        · exact h4 (h2 r h3)

/-- An axis that is not normalised. -/
example : (![1, -2, 3] : Fin 3 → ℝ) ≠ 0 := by
  intro h
  have := congrFun h 0
  simp at this

end Verif.Equations
