import Verif.MoL.AdamsBashforth
import Mathlib.LinearAlgebra.Lagrange
import Mathlib.Algebra.Polynomial.Derivative
import Mathlib.Algebra.BigOperators.Intervals
import Mathlib.Tactic.Ring
import Mathlib.Tactic.Linarith
import Mathlib.Tactic.FieldSimp

/-!
# C39: Adams–Bashforth coefficients have the requested order
-/

open Finset Polynomial

namespace Verif.MoL.AB

/-! ## Specification -/

/-- The multistep formula `y_{n+1} = y_n + h Σ_j w_j f(t_n - j h)` with weights `w` is exact for
every solution `y` that is a polynomial of degree at most `d`, over every field of characteristic
zero, for every time and step. -/
def ExactUpTo (w : List ℚ) (d : Nat) : Prop :=
  ∀ (K : Type) [Field K] [CharZero K] (y : K[X]), y.natDegree ≤ d → ∀ t h : K,
    y.eval (t + h) = y.eval t +
      h * ∑ j ∈ range w.length, ((w.getD j 0 : ℚ) : K) * (derivative y).eval (t - j * h)

/-! ## Coefficient lists are polynomials -/

section
variable {K : Type} [Field K] [CharZero K]

noncomputable def toPoly (K : Type) [Field K] [CharZero K] : List ℚ → K[X]
  | [] => 0
  | c :: p => C (c : K) + X * toPoly K p

theorem toPoly_addP : ∀ p q : List ℚ, toPoly K (addP p q) = toPoly K p + toPoly K q
  | [], q => by simp [addP, toPoly]
  | a :: p, [] => by simp [addP, toPoly]
  | a :: p, b :: q => by
    simp only [addP, toPoly, toPoly_addP p q, Rat.cast_add, C_add]; ring

theorem toPoly_map (r : ℚ) (p : List ℚ) :
    toPoly K (p.map fun c => r * c) = C (r : K) * toPoly K p := by
  induction p with
  | nil => simp [toPoly]
  | cons c p ih => simp only [List.map_cons, toPoly, ih, Rat.cast_mul, C_mul]; ring

theorem toPoly_mulLin (i : Nat) (p : List ℚ) :
    toPoly K (mulLin i p) = (X + C (i : K)) * toPoly K p := by
  simp only [mulLin, toPoly_addP, toPoly_map, toPoly, Rat.cast_natCast, Rat.cast_zero, C_0]; ring

theorem toPoly_foldl (l : List Nat) (p : List ℚ) :
    toPoly K (l.foldl (fun p i => mulLin i p) p)
      = (l.map fun i : Nat => (X + C (i : K))).prod * toPoly K p := by
  induction l generalizing p with
  | nil => simp
  | cons i l ih => rw [List.foldl_cons, ih, toPoly_mulLin, List.map_cons, List.prod_cons]; ring

theorem toPoly_lagrange (n j : Nat) :
    toPoly K (lagrangeExpr n j) = ∏ i ∈ (range n).erase j, (X + C (i : K)) := by
  have h1 : toPoly K [1] = 1 := by simp [toPoly]
  rw [lagrangeExpr, toPoly_foldl, h1, mul_one]
  have : (range n).erase j = ((List.range n).filter fun i => i != j).toFinset := by
    ext i; simp [and_comm]
  rw [this, List.prod_toFinset _ (List.Nodup.filter _ List.nodup_range)]

/-- `∫₀¹`. -/
noncomputable def I (p : K[X]) : K := p.sum fun k c => c / ((k : K) + 1)

theorem I_add (p q : K[X]) : I (p + q) = I p + I q :=
  sum_add_index p q _ (by simp) (by intro k a b; ring)

theorem I_C_mul (c : K) (p : K[X]) : I (C c * p) = c * I p := by
  unfold I
  rw [C_mul', sum_smul_index _ _ _ (by simp), Polynomial.sum, Polynomial.sum, mul_sum]
  exact sum_congr rfl fun k _ => by ring

theorem I_zero : I (0 : K[X]) = 0 := by simp [I]

theorem I_sum {ι : Type*} (s : Finset ι) (f : ι → K[X]) : I (∑ i ∈ s, f i) = ∑ i ∈ s, I (f i) := by
  classical
  induction s using Finset.induction_on with
  | empty => simp [I_zero]
  | insert a s ha ih => rw [sum_insert ha, sum_insert ha, I_add, ih]

theorem I_monomial (k : Nat) (c : K) : I (monomial k c) = c / ((k : K) + 1) := by
  unfold I; rw [sum_monomial_index _ _ (by simp)]

theorem I_toPoly (m : Nat) (p : List ℚ) :
    I (X ^ m * toPoly K p) = ((integFrom m p : ℚ) : K) := by
  induction p generalizing m with
  | nil => simp [toPoly, integFrom, I_zero]
  | cons c p ih =>
    have e : X ^ m * (C (c : K) + X * toPoly K p)
        = monomial m (c : K) + X ^ (m + 1) * toPoly K p := by
      rw [← C_mul_X_pow_eq_monomial]; ring
    rw [toPoly, e, I_add, ih, I_monomial, integFrom]
    push_cast; ring

theorem I_integ (p : List ℚ) : I (toPoly K p) = ((integ p : ℚ) : K) := by
  have := I_toPoly (K := K) 0 p
  rwa [pow_zero, one_mul] at this

/-- Fundamental theorem of calculus for polynomials. -/
theorem I_derivative (p : K[X]) : I (derivative p) = p.eval 1 - p.eval 0 := by
  induction p using Polynomial.induction_on' with
  | add p q hp hq => rw [derivative_add, I_add, hp, hq]; simp only [eval_add]; ring
  | monomial n a =>
    rw [derivative_monomial, I_monomial]
    cases n with
    | zero => simp
    | succ n =>
      have : ((n : K) + 1) ≠ 0 := by exact_mod_cast Nat.succ_ne_zero n
      simp only [eval_monomial, Nat.add_sub_cancel]
      push_cast
      field_simp
      simp

theorem prod_nodes (n j : Nat) (h : j < n) :
    ∏ i ∈ (range n).erase j, ((i : K) - j) = (-1) ^ j * (j.factorial * (n - j - 1).factorial) := by
  induction n, h using Nat.le_induction with
  | base =>
    have e : (range (j + 1)).erase j = range j := by
      rw [range_add_one, erase_insert (by simp)]
    have e2 : ∏ i ∈ range j, ((i : K) - j) = (-1) ^ j * j.factorial := by
      rw [← prod_range_reflect, ← prod_range_add_one_eq_factorial]
      push_cast
      have : ((-1 : K)) ^ j = ∏ _i ∈ range j, (-1 : K) := by simp
      rw [this, ← prod_mul_distrib]
      refine prod_congr rfl fun i hi => ?_
      have := mem_range.1 hi
      rw [Nat.sub_sub, Nat.cast_sub (by omega)]
      push_cast
      ring
    rw [e, e2]
    simp
  | succ n hn ih =>
    have hjn : j < n := hn
    have e : (range (n + 1)).erase j = insert n ((range n).erase j) := by
      rw [range_add_one, erase_insert_of_ne (by omega)]
    rw [e, prod_insert (by simp), ih]
    obtain ⟨m, rfl⟩ : ∃ m, n = j + 1 + m := ⟨n - j - 1, by omega⟩
    have a1 : j + 1 + m + 1 - j - 1 = m + 1 := by omega
    have a2 : j + 1 + m - j - 1 = m := by omega
    rw [a1, a2, Nat.factorial_succ]
    push_cast
    ring

/-- The Adams–Bashforth weights integrate every polynomial of degree `< n`. -/
theorem integrates (n : Nat) (P : K[X]) (hP : P.degree < n) :
    I P = ∑ j ∈ range n, ((coeff n j : ℚ) : K) * P.eval (-(j : K)) := by
  have hinj : Set.InjOn (fun i : Nat => -(i : K)) (range n) := by
    intro a _ b _ h
    simpa using h
  have := Lagrange.eq_interpolate hinj (f := P) (by simpa using hP)
  conv_lhs => rw [this, Lagrange.interpolate_apply]
  rw [I_sum]
  refine sum_congr rfl fun j hj => ?_
  have hb : Lagrange.basis (range n) (fun i : Nat => -(i : K)) j
      = C ((-1) ^ j / ((j.factorial : K) * ((n - j - 1).factorial : K)))
        * toPoly K (lagrangeExpr n j) := by
    rw [toPoly_lagrange, Lagrange.basis]
    have : ∀ i ∈ (range n).erase j,
        Lagrange.basisDivisor (-(j : K)) (-(i : K)) = C (((i : K) - j)⁻¹) * (X + C (i : K)) := by
      intro i _
      rw [Lagrange.basisDivisor]
      congr 2
      · rw [show -(j : K) - -(i : K) = (i : K) - j by ring]
      · simp
    rw [prod_congr rfl this, prod_mul_distrib, ← map_prod, prod_inv_distrib,
      prod_nodes n j (mem_range.1 hj)]
    congr 2
    rw [mul_inv, ← inv_pow, div_eq_mul_inv]
    norm_num
  rw [I_C_mul, hb, I_C_mul, I_integ, coeff]
  push_cast
  ring

end

/-! ## The matrix -/

theorem modify_append_last {α : Type*} (T : List α) (x : α) (f : α → α) (n : Nat)
    (h : n = T.length) : (T ++ [x]).modify n f = T ++ [f x] := by
  subst h
  induction T with
  | nil => rfl
  | cons a T ih => simp [ih]

/-- Row `n` of the intended matrix. -/
def rowOf (n : Nat) : List ℚ := (List.range n).map (coeff n)

theorem inner_loop (n : Nat) (T : List (List ℚ)) (row : List ℚ) (hT : T.length = n - 1)
    (hn : 0 < n) (hrow : row.length = n) (k : Nat) (hk : k ≤ n) :
    (List.range k).foldl (store n) (T ++ [row])
      = T ++ [(List.range k).map (coeff n) ++ row.drop k] := by
  induction k with
  | zero => simp
  | succ k ih =>
    rw [List.range_succ, List.foldl_append, ih (by omega), List.foldl_cons, List.foldl_nil, store]
    have hl : ¬ (T ++ [(List.range k).map (coeff n) ++ row.drop k]).length < n := by
      simp; omega
    simp only [hl, if_false]
    rw [modify_append_last _ _ _ _ (by omega)]
    congr 2
    have hlen : ¬ ((List.range k).map (coeff n) ++ row.drop k).length < k + 1 := by
      simp; omega
    rw [if_neg hlen, List.map_append, List.set_append_right _ _ (by simp)]
    simp only [List.length_map, List.length_range, Nat.sub_self, List.map_cons, List.map_nil,
      List.append_assoc]
    rw [List.drop_eq_getElem_cons (by omega : k < row.length)]
    rfl

theorem outer_loop (m : Nat) (hm : 2 ≤ m) :
    ((List.range m).map (· + 1)).foldl
      (fun T n => (List.range n).foldl (store n) T) [[0, 0], [0, 0]]
      = [coeff 1 0, 0] :: ((List.range m).map fun n => rowOf (n + 1)).tail := by
  induction m, hm using Nat.le_induction with
  | base =>
    have e1 : (List.range 1).foldl (store 1) [[0, 0], [0, 0]] = [[coeff 1 0, 0], [0, 0]] := rfl
    have e2 : (List.range 2).foldl (store 2) [[coeff 1 0, 0], [0, 0]]
        = [[coeff 1 0, 0], rowOf 2] := rfl
    show (List.range 2).foldl (store 2) ((List.range 1).foldl (store 1) [[0, 0], [0, 0]]) = _
    rw [e1, e2]
    rfl
  | succ m hm ih =>
    rw [List.range_succ, List.map_append, List.foldl_append, ih, List.map_cons, List.map_nil,
      List.foldl_cons, List.foldl_nil]
    set T := [coeff 1 0, 0] :: ((List.range m).map fun n => rowOf (n + 1)).tail with hT
    have hTl : T.length = m := by simp [hT]; omega
    have e : (List.range (m + 1)).foldl (store (m + 1)) T
        = (List.range (m + 1)).foldl (store (m + 1)) (T ++ [List.replicate (m + 1) 0]) := by
      rw [List.range_succ_eq_map, List.foldl_cons, List.foldl_cons]
      congr 1
      rw [store, store]
      have h1 : T.length < m + 1 := by omega
      have h2 : ¬ (T ++ [List.replicate (m + 1) (0 : ℚ)]).length < m + 1 := by simp [hTl]
      simp only [h1, h2, if_true, if_false]
    rw [e, inner_loop (m + 1) T _ (by omega) (by omega) (by simp) (m + 1) le_rfl]
    have : ((List.range m).map fun n => rowOf (n + 1)) ≠ [] := by simp; omega
    rw [List.map_append, List.tail_append_of_ne_nil this, ← List.cons_append, ← hT]
    congr 2
    simp [rowOf]

theorem coeff_one : coeff 1 0 = 1 := by decide +kernel

theorem table_eq (order : Nat) (h : 2 ≤ order) :
    table order = (List.range order).map fun n => rowOf (n + 1) := by
  rw [table, outer_loop order h, List.set_cons_zero]
  obtain ⟨m, rfl⟩ : ∃ m, order = m + 1 := ⟨order - 1, by omega⟩
  rw [List.range_succ_eq_map, List.map_cons, List.tail_cons]
  congr 1
  show [1] = [coeff (0 + 1) 0]
  rw [coeff_one]

theorem rowOf_exact (n : Nat) : ExactUpTo (rowOf n) n := by
  intro K _ _ y hy t h
  have hl : (rowOf n).length = n := by simp [rowOf]
  set R : K[X] := y.comp (C h * X + C t) with hR
  have hd : derivative R = C h * (derivative y).comp (C h * X + C t) := by
    rw [hR, derivative_comp]; simp
  have hdeg : (derivative R).degree < n := by
    rcases Nat.eq_zero_or_pos n with rfl | hn
    · have : derivative y = 0 := by
        rw [natDegree_eq_zero.1 (Nat.le_zero.1 hy) |>.choose_spec.symm]; simp
      rw [hd, this]; simp
    · rcases eq_or_ne (derivative R) 0 with h0 | h0
      · rw [h0, degree_zero]; exact WithBot.bot_lt_coe n
      · rw [degree_eq_natDegree h0]
        have h1 : R.natDegree ≤ n := by
          rw [hR]
          refine natDegree_comp_le.trans ?_
          have : (C h * X + C t : K[X]).natDegree ≤ 1 := natDegree_linear_le
          nlinarith
        have h2 := natDegree_derivative_le R
        have : (derivative R).natDegree < n := by omega
        exact_mod_cast this
  have hI := integrates n (derivative R) hdeg
  rw [I_derivative] at hI
  have e1 : R.eval 1 = y.eval (t + h) := by
    rw [hR, eval_comp]; congr 1; simp; ring
  have e0 : R.eval 0 = y.eval t := by rw [hR, eval_comp]; congr 1; simp
  rw [e1, e0] at hI
  rw [hl, mul_sum]
  rw [sub_eq_iff_eq_add'] at hI
  rw [hI]
  congr 1
  refine sum_congr rfl fun j hj => ?_
  have : (rowOf n).getD j 0 = coeff n j := by
    have hj' := mem_range.1 hj
    simp [rowOf, hj']
  rw [this, hd, eval_mul, eval_C, eval_comp]
  have e : eval (-(j : K)) (C h * X + C t) = t - j * h := by simp; ring
  rw [e]
  ring

/-- **C39.**  For every requested order `n ≥ 2` the generated table has exactly `n` rows, row `m`
(counting from zero) has `m + 1` weights, and it is exact for all solutions that are polynomials
of degree at most `m + 1` (equivalently: it integrates every polynomial right-hand side of degree
at most `m`); in particular the last row has the requested order. -/
theorem C39_adams_bashforth_partial (order : Nat) (h : 2 ≤ order) :
    (table order).length = order ∧
    ∀ m < order, ∃ w, (table order)[m]? = some w ∧ w.length = m + 1 ∧ ExactUpTo w (m + 1) := by
  rw [table_eq order h]
  refine ⟨by simp, fun m hm => ⟨rowOf (m + 1), by simp [hm], by simp [rowOf], rowOf_exact _⟩⟩

/-- The coefficients in the docstring example, orders 1 to 5. -/
example : table 5 = [[1], [3/2, -1/2], [23/12, -4/3, 5/12], [55/24, -59/24, 37/24, -3/8],
    [1901/720, -1387/360, 109/30, -637/360, 251/720]] := by decide +kernel

/-- **C39 fails for order 1.**  The table requested with order 1 has a spurious second row
`[0, 0]`, so its last row is not an order-1 (or even consistent) method. -/
theorem C39_order_one_extra_row :
    table 1 = [[1], [0, 0]] ∧ (table 1).length ≠ 1 ∧ ¬ ExactUpTo [0, 0] 1 := by
  refine ⟨by decide +kernel, by decide +kernel, fun h => ?_⟩
  have := h ℚ X (by simp) 0 1
  simp [sum_range_succ] at this

end Verif.MoL.AB
