import Verif.FD.Coeffs
import Mathlib.LinearAlgebra.Vandermonde
import Mathlib.Algebra.Polynomial.Taylor
import Mathlib.Algebra.Polynomial.HasseDeriv
import Mathlib.Algebra.BigOperators.Fin
import Mathlib.Tactic.Ring
import Mathlib.Tactic.FieldSimp
import Mathlib.Tactic.LinearCombination
import Mathlib.Tactic.Linarith

/-!
# Lemmas on the finite-difference matrix
-/
namespace Verif.FD
open Verif.Py Polynomial

theorem fdMatrix_apply (w : Nat) (s : Int) (i j : Fin w) : fdMatrix w s i j = node w s j.val ^ i.val := by
  unfold fdMatrix
  split
  · rename_i h; rw [h, pow_zero]
  · split
    · rename_i h1 h2; rw [h2, zero_pow h1]
    · rfl

theorem fdMatrix_eq (w : Nat) (s : Int) :
    fdMatrix w s = (Matrix.vandermonde (fun j : Fin w => node w s j.val)).transpose := by
  ext i j
  rw [fdMatrix_apply, Matrix.transpose_apply, Matrix.vandermonde_apply]

theorem node_inj (w : Nat) (s : Int) : Function.Injective (fun j : Fin w => node w s j.val) := by
  intro a b h
  simp only [node] at h
  have : (a.val : ℚ) = b.val := by linarith
  exact Fin.ext (by exact_mod_cast this)

theorem fdMatrix_det (w : Nat) (s : Int) : (fdMatrix w s).det ≠ 0 := by
  rw [fdMatrix_eq, Matrix.det_transpose, Matrix.det_vandermonde_ne_zero_iff]
  exact node_inj w s

theorem fdMatrix_mul_minv (w : Nat) (s : Int) : fdMatrix w s * minv w s = 1 := by
  unfold minv
  exact Matrix.mul_nonsing_inv _ (isUnit_iff_ne_zero.2 (fdMatrix_det w s))

/-- Moments of a column of the inverse. -/
theorem moment (w : Nat) (s : Int) (k row : Fin w) :
    ∑ j : Fin w, node w s j.val ^ k.val * minv w s j row = if k = row then 1 else 0 := by
  have h := congrFun (congrFun (fdMatrix_mul_minv w s) k) row
  rw [Matrix.mul_apply, Matrix.one_apply] at h
  simpa only [fdMatrix_apply] using h

/-- A vector with the right moments is the column. -/
theorem minv_unique (w : Nat) (s : Int) (row : Fin w) (v : Fin w → ℚ)
    (hv : ∀ k : Fin w, ∑ j : Fin w, node w s j.val ^ k.val * v j = if k = row then 1 else 0) (j : Fin w) :
    v j = minv w s j row := by
  have h0 : ∀ k : Fin w, ∑ j : Fin w, (v j - minv w s j row) * (node w s j.val) ^ (k : Nat) = 0 := by
    intro k
    have e : ∀ j : Fin w, (v j - minv w s j row) * (node w s j.val) ^ (k : Nat) =
        node w s j.val ^ k.val * v j - node w s j.val ^ k.val * minv w s j row := by intro j; ring
    rw [Finset.sum_congr rfl (fun j _ => e j), Finset.sum_sub_distrib, hv k, moment w s k row, sub_self]
  have := Matrix.eq_zero_of_forall_pow_sum_mul_pow_eq_zero (f := fun j : Fin w => node w s j.val)
    (v := fun j => v j - minv w s j row) (node_inj w s) (fun k => h0 k)
  have hj := congrFun this j
  simp only [Pi.zero_apply] at hj
  linarith

section
variable {K : Type*} [Field K] [CharZero K]

/-- Exactness of a column of the inverse on polynomials of degree below the width. -/
theorem exact_poly (w : Nat) (s : Int) (row : Fin w) (P : K[X]) (hP : P.natDegree < w) (x h : K) :
    ∑ j : Fin w, ((((Nat.factorial row.val : ℚ) * minv w s j row : ℚ)) : K) *
      P.eval (x + ((node w s j.val : ℚ) : K) * h) =
      h ^ row.val * ((⇑derivative)^[row.val] P).eval x := by
  have hT : (taylor x P).natDegree < w := by rwa [natDegree_taylor]
  have hev : ∀ t : K, P.eval (x + t) = ∑ k : Fin w, (taylor x P).coeff k.val * t ^ k.val := by
    intro t
    have : P.eval (x + t) = (taylor x P).eval t := by rw [taylor_eval, add_comm]
    rw [this, eval_eq_sum_range' hT, Finset.sum_range]
  simp only [hev, Finset.mul_sum]
  rw [Finset.sum_comm]
  have hk : ∀ k : Fin w, ∑ j : Fin w, ((((Nat.factorial row.val : ℚ) * minv w s j row : ℚ)) : K) *
      ((taylor x P).coeff k.val * (((node w s j.val : ℚ) : K) * h) ^ k.val) =
      if k = row then (Nat.factorial row.val : K) * (taylor x P).coeff row.val * h ^ row.val else 0 := by
    intro k
    have hm := congrArg (fun q : ℚ => (q : K)) (moment w s k row)
    simp only [Rat.cast_sum, Rat.cast_mul, Rat.cast_pow] at hm
    have : ∀ j : Fin w, ((((Nat.factorial row.val : ℚ) * minv w s j row : ℚ)) : K) *
      ((taylor x P).coeff k.val * (((node w s j.val : ℚ) : K) * h) ^ k.val) =
      ((Nat.factorial row.val : K) * (taylor x P).coeff k.val * h ^ k.val) *
        (((node w s j.val : ℚ) : K) ^ k.val * ((minv w s j row : ℚ) : K)) := by
      intro j; push_cast; ring
    rw [Finset.sum_congr rfl (fun j _ => this j), ← Finset.mul_sum, hm]
    split
    · rename_i hkr; subst hkr; simp
    · simp
  rw [Finset.sum_congr rfl (fun k _ => hk k), Finset.sum_ite_eq' Finset.univ row]
  simp only [Finset.mem_univ, if_true]
  rw [taylor_coeff]
  have hd := congrFun (factorial_smul_hasseDeriv (R := K) row.val) P
  rw [← hd, LinearMap.smul_apply, eval_smul, nsmul_eq_mul]
  ring

end

/-- In a first-derivative stencil containing the point itself, every coefficient at another point is
nonzero. -/
theorem first_coeff_ne_zero (w : Nat) (s : Int) (row : Fin w) (hrow : row.val = 1) (j0 j : Fin w)
    (h0 : node w s j0.val = 0) (hj : node w s j.val ≠ 0) : minv w s j row ≠ 0 := by
  intro hz
  classical
  -- polynomial X * ∏ (X - x_k) over k ≠ j0, j
  let S := (Finset.univ.erase j0).erase j
  let Q : ℚ[X] := ∏ k ∈ S, (X - C (node w s k.val))
  let P : ℚ[X] := X * Q
  have hjj0 : j ≠ j0 := by rintro rfl; exact hj h0
  have hcard : S.card + 2 = w := by
    have h1 : j ∈ Finset.univ.erase j0 := Finset.mem_erase.2 ⟨hjj0, Finset.mem_univ _⟩
    rw [Finset.card_erase_of_mem h1, Finset.card_erase_of_mem (Finset.mem_univ _), Finset.card_univ,
      Fintype.card_fin]
    have : 2 ≤ w := by
      have := row.isLt; omega
    omega
  have hQdeg : Q.natDegree = S.card := by
    rw [natDegree_prod_of_monic _ _ (fun k _ => monic_X_sub_C _)]
    simp
  have hPdeg : P.natDegree < w := by
    have : P.natDegree ≤ 1 + Q.natDegree := le_trans natDegree_mul_le (by simp)
    omega
  have hex := exact_poly (K := ℚ) w s row P hPdeg 0 1
  have hderiv : ((⇑derivative)^[row.val] P).eval 0 = Q.eval 0 := by
    rw [hrow]; simp [P]
  rw [hderiv] at hex
  have hQ0 : Q.eval 0 ≠ 0 := by
    simp only [Q, eval_prod, eval_sub, eval_X, eval_C, zero_sub]
    rw [Finset.prod_ne_zero_iff]
    intro k hk
    have hk0 : k ≠ j0 := by
      intro he; subst he
      simp [S] at hk
    intro hn
    apply hk0
    apply node_inj w s
    change node w s k.val = node w s j0.val
    rw [h0]; linarith
  have hsum : ∑ i : Fin w, ((((Nat.factorial row.val : ℚ) * minv w s i row : ℚ)) : ℚ) *
      P.eval (0 + ((node w s i.val : ℚ) : ℚ) * 1) = 0 := by
    apply Finset.sum_eq_zero
    intro i _
    by_cases hij : i = j
    · subst hij; rw [hz]; simp
    · by_cases hi0 : i = j0
      · subst hi0; simp [P, h0]
      · have : Q.eval (node w s i.val) = 0 := by
          simp only [Q, eval_prod]
          apply Finset.prod_eq_zero (i := i)
          · simp [S, hij, hi0]
          · simp
        simp [P, this]
  simp only [Rat.cast_id] at hex hsum
  rw [hsum] at hex
  simp at hex
  exact hQ0 hex.symm

end Verif.FD
