import Verif.IndexedExp.Inverters
import Mathlib.LinearAlgebra.Matrix.Determinant.Basic
import Mathlib.LinearAlgebra.Matrix.Symmetric
import Mathlib.Tactic.Ring
import Mathlib.Tactic.FinCases
import Mathlib.Tactic.FieldSimp
import Mathlib.Tactic.LinearCombination
import Mathlib.Tactic.NormNum

/-!
# Property C14: matrix inverters return the two-sided inverse and the determinant
-/
namespace Verif.IndexedExp
open Matrix

variable {K : Type} [Field K]

/-- The outcome a caller relies on: an error exactly for determinant zero, otherwise the inverse matrix
and the determinant of `A`. -/
def InverterSpec {n : Nat} (A : Matrix (Fin n) (Fin n) K)
    (result : Option ((Fin n → Fin n → K) × K)) : Prop :=
  (result = none ↔ A.det = 0) ∧
  ∀ inv d, result = some (inv, d) →
    d = A.det ∧ A * (Matrix.of inv) = 1 ∧ (Matrix.of inv) * A = 1

/-- From "adjugate" numerators to the specification. -/
theorem spec_of_num {n : Nat} [DecidableEq K] (A : Matrix (Fin n) (Fin n) K) (d : K)
    (num : Fin n → Fin n → K) (hd : d = A.det)
    (h : A * (Matrix.of num) = d • (1 : Matrix (Fin n) (Fin n) K)) :
    InverterSpec A (if d = 0 then none else some (fun i j => num i j / d, d)) := by
  constructor
  · rw [← hd]; split <;> simp_all
  · intro inv d' he
    split at he
    · cases he
    · rename_i hne
      simp only [Option.some.injEq, Prod.mk.injEq] at he
      obtain ⟨rfl, rfl⟩ := he
      have h1 : A * (Matrix.of fun i j => num i j / d) = 1 := by
        have : (Matrix.of fun i j => num i j / d) = d⁻¹ • (Matrix.of num) := by
          ext i j; simp [div_eq_inv_mul]
        rw [this, Matrix.mul_smul, h, smul_smul, inv_mul_cancel₀ hne, one_smul]
      exact ⟨hd, h1, mul_eq_one_comm.1 h1⟩

theorem det4 (A : Matrix (Fin 4) (Fin 4) K) : A.det =
    A 0 0 * (A 1 1 * (A 2 2 * A 3 3 - A 2 3 * A 3 2) - A 1 2 * (A 2 1 * A 3 3 - A 2 3 * A 3 1)
      + A 1 3 * (A 2 1 * A 3 2 - A 2 2 * A 3 1))
    - A 0 1 * (A 1 0 * (A 2 2 * A 3 3 - A 2 3 * A 3 2) - A 1 2 * (A 2 0 * A 3 3 - A 2 3 * A 3 0)
      + A 1 3 * (A 2 0 * A 3 2 - A 2 2 * A 3 0))
    + A 0 2 * (A 1 0 * (A 2 1 * A 3 3 - A 2 3 * A 3 1) - A 1 1 * (A 2 0 * A 3 3 - A 2 3 * A 3 0)
      + A 1 3 * (A 2 0 * A 3 1 - A 2 1 * A 3 0))
    - A 0 3 * (A 1 0 * (A 2 1 * A 3 2 - A 2 2 * A 3 1) - A 1 1 * (A 2 0 * A 3 2 - A 2 2 * A 3 0)
      + A 1 2 * (A 2 0 * A 3 1 - A 2 1 * A 3 0)) := by
  rw [Matrix.det_succ_row_zero]
  simp only [Fin.sum_univ_four, Matrix.det_fin_three, Matrix.submatrix_apply]
  simp [Fin.succAbove, show (1 : Fin 3).castSucc = (1 : Fin 4) from rfl,
    show (2 : Fin 3).castSucc = (2 : Fin 4) from rfl, show (2 : Fin 3).succ = (3 : Fin 4) from rfl]
  ring

/-- **C14**, general 2x2 matrices. -/
theorem C14_generic2 [DecidableEq K] (A : Matrix (Fin 2) (Fin 2) K) :
    InverterSpec A (genInv2 A) := by
  apply spec_of_num
  · simp [genInv2Det, Matrix.det_fin_two]
  · ext i j
    fin_cases i <;> fin_cases j <;>
      simp [Matrix.mul_apply, Fin.sum_univ_two, genInv2Num, genInv2Det] <;> ring

/-- **C14**, general 3x3 matrices. -/
theorem C14_generic3 [DecidableEq K] (A : Matrix (Fin 3) (Fin 3) K) :
    InverterSpec A (genInv3 A) := by
  apply spec_of_num
  · simp only [genInv3Det, Matrix.det_fin_three]; ring
  · ext i j
    fin_cases i <;> fin_cases j <;>
      simp [Matrix.mul_apply, Fin.sum_univ_three, genInv3Num, genInv3Det] <;> ring

/-- **C14**, general 4x4 matrices. -/
theorem C14_generic4 [DecidableEq K] (A : Matrix (Fin 4) (Fin 4) K) :
    InverterSpec A (genInv4 A) := by
  apply spec_of_num
  · simp only [genInv4Det, det4]; ring
  · ext i j
    fin_cases i <;> fin_cases j <;>
      simp [Matrix.mul_apply, Fin.sum_univ_four, genInv4Num, genInv4Det] <;> ring

/-- **C14**, symmetric 2x2 matrices. -/
theorem C14_symm2 [DecidableEq K] (A : Matrix (Fin 2) (Fin 2) K) (hA : A.IsSymm) :
    InverterSpec A (symmInv2 A) := by
  have h10 : A 1 0 = A 0 1 := hA.apply 0 1
  apply spec_of_num
  · simp only [symmInv2Det, Matrix.det_fin_two, h10]; ring
  · ext i j
    fin_cases i <;> fin_cases j <;>
      simp [Matrix.mul_apply, Fin.sum_univ_two, symmInv2Num, symmInv2Det, h10] <;> ring

/-- **C14**, symmetric 3x3 matrices. -/
theorem C14_symm3 [DecidableEq K] (A : Matrix (Fin 3) (Fin 3) K) (hA : A.IsSymm) :
    InverterSpec A (symmInv3 A) := by
  have h10 : A 1 0 = A 0 1 := hA.apply 0 1
  have h20 : A 2 0 = A 0 2 := hA.apply 0 2
  have h21 : A 2 1 = A 1 2 := hA.apply 1 2
  apply spec_of_num
  · simp only [symmInv3Det, Matrix.det_fin_three, h10, h20, h21]; ring
  · ext i j
    fin_cases i <;> fin_cases j <;>
      simp [Matrix.mul_apply, Fin.sum_univ_three, symmInv3Num, symmInv3Det, h10, h20, h21] <;> ring

/-- **C14**, symmetric 4x4 matrices. -/
theorem C14_symm4 [DecidableEq K] (A : Matrix (Fin 4) (Fin 4) K) (hA : A.IsSymm) :
    InverterSpec A (symmInv4 A) := by
  have h10 : A 1 0 = A 0 1 := hA.apply 0 1
  have h20 : A 2 0 = A 0 2 := hA.apply 0 2
  have h21 : A 2 1 = A 1 2 := hA.apply 1 2
  have h30 : A 3 0 = A 0 3 := hA.apply 0 3
  have h31 : A 3 1 = A 1 3 := hA.apply 1 3
  have h32 : A 3 2 = A 2 3 := hA.apply 2 3
  apply spec_of_num
  · simp only [symmInv4Det, det4, h10, h20, h21, h30, h31, h32]; ring
  · ext i j
    fin_cases i <;> fin_cases j <;>
      simp [Matrix.mul_apply, Fin.sum_univ_four, symmInv4Num, symmInv4Det, h10, h20, h21, h30,
        h31, h32] <;> ring

/-- **C14**: the symmetric inverters read only the upper triangle (and so, for any input, return the
inverse of the matrix obtained by reflecting the upper triangle). -/
theorem C14_symm_reads_upper_triangle [DecidableEq K] :
    (∀ A B : Fin 2 → Fin 2 → K, (∀ i j, i ≤ j → A i j = B i j) → symmInv2 A = symmInv2 B) ∧
    (∀ A B : Fin 3 → Fin 3 → K, (∀ i j, i ≤ j → A i j = B i j) → symmInv3 A = symmInv3 B) ∧
    (∀ A B : Fin 4 → Fin 4 → K, (∀ i j, i ≤ j → A i j = B i j) → symmInv4 A = symmInv4 B) := by
  refine ⟨fun A B h => ?_, fun A B h => ?_, fun A B h => ?_⟩
  · have e : ∀ i j, i ≤ j → A i j = B i j := h
    have h1 : symmInv2Det A = symmInv2Det B ∧ symmInv2Num A = symmInv2Num B := by
      simp only [symmInv2Det, symmInv2Num, e 0 0 (by decide), e 0 1 (by decide),
      e 1 1 (by decide), and_self]
    simp only [symmInv2, h1.1, h1.2]
  · have e : ∀ i j, i ≤ j → A i j = B i j := h
    have h1 : symmInv3Det A = symmInv3Det B ∧ symmInv3Num A = symmInv3Num B := by
      simp only [symmInv3Det, symmInv3Num, e 0 0 (by decide), e 0 1 (by decide),
      e 0 2 (by decide), e 1 1 (by decide), e 1 2 (by decide), e 2 2 (by decide), and_self]
    simp only [symmInv3, h1.1, h1.2]
  · have e : ∀ i j, i ≤ j → A i j = B i j := h
    have h1 : symmInv4Det A = symmInv4Det B ∧ symmInv4Num A = symmInv4Num B := by
      simp only [symmInv4Det, symmInv4Num, e 0 0 (by decide), e 0 1 (by decide),
      e 0 2 (by decide), e 0 3 (by decide), e 1 1 (by decide), e 1 2 (by decide), e 1 3 (by decide),
      e 2 2 (by decide), e 2 3 (by decide), e 3 3 (by decide), and_self]
    simp only [symmInv4, h1.1, h1.2]

/-- Non-vacuity: a symmetric matrix with nonzero determinant, and its inverse. -/
example : (!![2, 1; 1, 1] : Matrix (Fin 2) (Fin 2) ℚ).IsSymm ∧
    (symmInv2 (!![2, 1; 1, 1] : Matrix (Fin 2) (Fin 2) ℚ)).isSome ∧
    (symmInv3 (1 : Matrix (Fin 3) (Fin 3) ℚ)).isSome ∧
    (symmInv4 (1 : Matrix (Fin 4) (Fin 4) ℚ)).isSome ∧
    (genInv4 (1 : Matrix (Fin 4) (Fin 4) ℚ)).isSome := by
  refine ⟨?_, ?_, ?_, ?_, ?_⟩
  · ext i j; fin_cases i <;> fin_cases j <;> rfl
  · simp [symmInv2, symmInv2Det]; norm_num
  · simp [symmInv3, symmInv3Det]
  · simp [symmInv4, symmInv4Det]
  · simp [genInv4, genInv4Det]

end Verif.IndexedExp
