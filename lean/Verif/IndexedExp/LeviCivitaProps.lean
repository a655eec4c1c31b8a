import Verif.IndexedExp.LeviCivita
import Mathlib.GroupTheory.Perm.Sign
import Mathlib.GroupTheory.Perm.Fin
import Mathlib.LinearAlgebra.Matrix.Determinant.Basic
import Mathlib.Data.Fin.VecNotation
import Mathlib.Tactic.FinCases
import Mathlib.Tactic.FieldSimp
import Mathlib.Tactic.Ring

/-!
# Property C15: the Levi-Civita symbol and tensors
-/
namespace Verif.IndexedExp

/-- **C15**: on the image of a permutation the symbol is the sign of the permutation. -/
theorem C15_symbol_of_permutation (σ : Equiv.Perm (Fin 3)) :
    leviCivita (σ 0) (σ 1) (σ 2) = ((Equiv.Perm.sign σ : ℤ) : ℚ) := by
  revert σ
  decide +kernel

/-- **C15**: the symbol vanishes on repeated indices. -/
theorem C15_symbol_repeated (i j k : Fin 3) (h : i = j ∨ j = k ∨ i = k) : leviCivita i j k = 0 := by
  rcases h with rfl | rfl | rfl <;> simp [leviCivita]

theorem leviCivita_table (i j k : Fin 3) : leviCivita i j k =
    ![![![0,0,0],![0,0,1],![0,-1,0]], ![![0,0,-1],![0,0,0],![1,0,0]], ![![0,1,0],![-1,0,0],![0,0,0]]] i j k := by
  fin_cases i <;> fin_cases j <;> fin_cases k <;> norm_num [leviCivita]

/-- Kronecker delta. -/
def kd {K : Type*} [Field K] (a b : Fin 3) : K := if a = b then 1 else 0

/-- Generalized Kronecker delta `δ^{ijk}_{lmn}`, as the determinant of the matrix of deltas. -/
def gdelta {K : Type*} [Field K] (i j k l m n : Fin 3) : K :=
  kd i l * (kd j m * kd k n - kd j n * kd k m) - kd i m * (kd j l * kd k n - kd j n * kd k l)
    + kd i n * (kd j l * kd k m - kd j m * kd k l)

variable {K : Type*} [Field K] [CharZero K]

theorem symbol_product (i j k l m n : Fin 3) :
    leviCivita i j k * leviCivita l m n = gdelta i j k l m n := by
  revert i j k l m n
  decide +kernel

/-- **C15**: for a nonzero volume factor the upper and lower tensors contract to the generalized
Kronecker delta, whatever the factor. -/
theorem C15_contraction (s : K) (hs : s ≠ 0) (i j k l m n : Fin 3) :
    leviCivitaUUU s i j k * leviCivitaDDD s l m n = gdelta i j k l m n := by
  have h := congrArg (fun q : ℚ => (q : K)) (symbol_product i j k l m n)
  have h1 : ((gdelta i j k l m n : ℚ) : K) = gdelta i j k l m n := by
    have hk : ∀ a b, ((kd a b : ℚ) : K) = kd a b := by intro a b; unfold kd; split <;> simp
    simp only [gdelta]; push_cast; simp only [hk]
  simp only [Rat.cast_mul] at h
  rw [h1] at h
  rw [← h]
  unfold leviCivitaUUU leviCivitaDDD
  field_simp

/-- **C15**: the lower tensor is the volume form: evaluated on the three columns of any matrix it gives
the determinant times the volume factor. -/
theorem C15_determinant (s : K) (A : Matrix (Fin 3) (Fin 3) K) :
    ∑ i, ∑ j, ∑ k, leviCivitaDDD s i j k * A i 0 * A j 1 * A k 2 = s * A.det := by
  rw [Matrix.det_fin_three]
  simp only [leviCivitaDDD, Fin.sum_univ_three, leviCivita_table]
  simp
  ring

/-- **C15**: the tensors are totally antisymmetric. -/
theorem C15_antisymmetric (s : K) (i j k : Fin 3) :
    leviCivitaDDD s j i k = - leviCivitaDDD s i j k ∧ leviCivitaDDD s i k j = - leviCivitaDDD s i j k ∧
    leviCivitaUUU s j i k = - leviCivitaUUU s i j k ∧ leviCivitaUUU s i k j = - leviCivitaUUU s i j k := by
  have h1 : leviCivita j i k = - leviCivita i j k := by unfold leviCivita; ring
  have h2 : leviCivita i k j = - leviCivita i j k := by unfold leviCivita; ring
  simp only [leviCivitaDDD, leviCivitaUUU, h1, h2, Rat.cast_neg, neg_mul, neg_div, and_self]

/-- Non-vacuity. -/
example : (2 : ℚ) ≠ 0 := by norm_num
example : leviCivitaUUU (2 : ℚ) 0 1 2 = 1/2 := by norm_num [leviCivitaUUU, leviCivita]

end Verif.IndexedExp
