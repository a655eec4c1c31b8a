import Verif.TP.Model
import Mathlib.Analysis.SpecialFunctions.Trigonometric.Chebyshev.ChebyshevGauss
import Mathlib.Analysis.Calculus.Deriv.Polynomial
import Mathlib.LinearAlgebra.Lagrange
import Mathlib.Tactic.LinearCombination
import Mathlib.Tactic.FieldSimp
import Mathlib.Algebra.BigOperators.Intervals

/-!
# The Chebyshev transforms of TwoPunctures
-/
namespace Verif.TP
open Real Polynomial Polynomial.Chebyshev

/-! ## Loops -/

theorem foldl_add (n : ℕ) (f : ℕ → ℝ) (s : ℝ) : (List.range n).foldl (fun (s : ℝ) (k : ℕ) => s + f k) s = s + ∑ k ∈ Finset.range n, f k := by
  induction n with
  | zero => simp
  | succ n ih => rw [List.range_succ, List.foldl_append, ih, Finset.sum_range_succ]; simp [add_assoc]

theorem foldl_add' (a n : ℕ) (f : ℕ → ℝ) (s : ℝ) :
    (List.range' a n).foldl (fun (s : ℝ) (k : ℕ) => s + f k) s = s + ∑ k ∈ Finset.range n, f (a + k) := by
  rw [List.range'_eq_map_range, List.foldl_map, foldl_add n fun k => f (a + k)]

theorem foldl_alt (n : ℕ) (f : ℕ → ℝ) (s t : ℝ) :
    (List.range n).foldl (fun (st : ℝ × ℝ) (k : ℕ) => (st.1 + f k * st.2, -st.2)) (s, t) =
      (s + ∑ k ∈ Finset.range n, f k * ((-1) ^ k * t), (-1) ^ n * t) := by
  induction n with
  | zero => simp
  | succ n ih =>
    rw [List.range_succ, List.foldl_append, ih, Finset.sum_range_succ]
    simp only [List.foldl_cons, List.foldl_nil, Prod.mk.injEq]
    constructor <;> ring

theorem foldl_update_range (n : ℕ) (f : ℕ → ℝ) (c : ℕ → ℝ) :
    (List.range n).foldl (fun (c : ℕ → ℝ) (j : ℕ) => Function.update c j (f j)) c = fun j => if j < n then f j else c j := by
  induction n with
  | zero => simp
  | succ n ih =>
    rw [List.range_succ, List.foldl_append, ih]
    funext j
    simp only [List.foldl_cons, List.foldl_nil, Function.update_apply]
    by_cases h : j = n
    · subst h; simp
    · have : j < n + 1 ↔ j < n := by omega
      simp [h, this]

theorem foldl_update_alt (n : ℕ) (f : ℕ → ℝ → ℝ) (c : ℕ → ℝ) (t : ℝ) :
    (List.range n).foldl (fun (st : (ℕ → ℝ) × ℝ) (j : ℕ) => (Function.update st.1 j (f j st.2), -st.2)) (c, t) =
      (fun j => if j < n then f j ((-1) ^ j * t) else c j, (-1) ^ n * t) := by
  induction n with
  | zero => simp
  | succ n ih =>
    rw [List.range_succ, List.foldl_append, ih]
    simp only [List.foldl_cons, List.foldl_nil, Prod.mk.injEq]
    constructor
    · funext j
      simp only [Function.update_apply]
      by_cases h : j = n
      · subst h; simp
      · have : j < n + 1 ↔ j < n := by omega
        simp [h, this]
    · ring

theorem copyBack_eq (u c : ℕ → ℝ) (n : ℕ) : copyBack u c n = fun j => if j < n then c j else u j := foldl_update_range n c u

theorem chebft_fwd (u : ℕ → ℝ) (n j : ℕ) (hj : j < n) :
    chebft_Zeros u n false j = 2 / n * (∑ k ∈ Finset.range n, u k * cos (π / n * j * (k + 0.5))) * (-1) ^ j := by
  have h := foldl_update_alt n (fun j s => 2.0 / (n : ℝ) * (List.range n).foldl (fun (sum : ℝ) (k : ℕ) => sum + u k * cos (π / n * j * (k + 0.5))) 0 * s)
    (fun _ => 0) 1
  simp only [chebft_Zeros, if_true, copyBack_eq, hj]
  rw [h]
  simp only [hj, if_true, mul_one]
  rw [foldl_add n fun k => u k * cos (π / n * j * (k + 0.5))]
  norm_num

theorem chebft_inv (u : ℕ → ℝ) (n j : ℕ) (hj : j < n) :
    chebft_Zeros u n true j = -0.5 * u 0 + ∑ k ∈ Finset.range n, u k * cos (π / n * (j + 0.5) * k) * (-1) ^ k := by
  simp only [chebft_Zeros, copyBack_eq, hj, if_true, Bool.true_eq_false, if_false]
  rw [foldl_update_range n fun j => ((List.range n).foldl (fun (st : ℝ × ℝ) (k : ℕ) => (st.1 + u k * cos (π / n * (j + 0.5) * k) * st.2, -st.2)) (-0.5 * u 0, 1)).1]
  simp only [hj, if_true]
  rw [foldl_alt n fun k => u k * cos (π / n * (j + 0.5) * k)]
  simp

/-! ## Specification -/

/-- The collocation points of the directions `A` and `B`: the zeros of `T_n`, in increasing order. -/
noncomputable def node (n k : ℕ) : ℝ := -cos (π * (2 * k + 1) / (2 * n))

/-- `g` is a polynomial of degree less than `n`. -/
def IsPoly (n : ℕ) (g : ℝ → ℝ) : Prop := ∃ p : ℝ[X], p.degree < n ∧ ∀ x, g x = p.eval x

/-- The polynomial `-c_0/2 + ∑ c_k T_k`. -/
noncomputable def series (n : ℕ) (c : ℕ → ℝ) : ℝ[X] := ∑ k ∈ Finset.range n, C (c k) * T ℝ k - C (c 0 / 2)

/-! ## Proofs -/

theorem node_angle (n k : ℕ) : π * (2 * k + 1) / (2 * n) = π / n * (k + 0.5) := by
  rcases eq_or_ne (n : ℝ) 0 with h | h
  · simp [h]
  · field_simp
    ring

theorem T_node (n k j : ℕ) : (T ℝ j).eval (node n k) = (-1) ^ j * cos (π / n * j * (k + 0.5)) := by
  rw [node, T_eval_neg, T_real_cos, node_angle]
  congr 1
  · simp
  · rw [Int.cast_natCast]
    ring_nf

theorem T_at_node (n k : ℕ) {i : ℤ} (hi : 0 ≤ i) : (T ℝ i).eval (node n k) = (-1) ^ i.toNat * (T ℝ i).eval (cos ((2 * k + 1) / (2 * n) * π)) := by
  obtain ⟨m, rfl⟩ := Int.eq_ofNat_of_zero_le hi
  rw [node, T_eval_neg]
  congr 1
  · simp
  · rw [mul_comm, mul_div_right_comm]

theorem sum_T_node (n : ℕ) (i : ℤ) (hi : 0 ≤ i) (h2 : i < 2 * n) (h0 : i ≠ 0) : ∑ k ∈ Finset.range n, (T ℝ i).eval (node n k) = 0 := by
  have hn : n ≠ 0 := by rintro rfl; simp at h2; omega
  have h := sumZeroes_T_of_not_dvd (n := n) (k := i) fun h => h0 (Int.eq_zero_of_dvd_of_nonneg_of_lt hi h2 h)
  rw [sumZeroes, mul_eq_zero] at h
  rcases h with h | h
  · exact absurd h (div_ne_zero Real.pi_ne_zero (by exact_mod_cast hn))
  · simp only [T_at_node n _ hi, ← Finset.mul_sum, h, mul_zero]

/-- Discrete orthogonality. -/
theorem sum_T_mul_T (n i j : ℕ) (hi : i < n) (hj : j < n) : ∑ k ∈ Finset.range n, (T ℝ i).eval (node n k) * (T ℝ j).eval (node n k) =
    if i = j then (if i = 0 then (n : ℝ) else n / 2) else 0 := by
  have e : ∀ x : ℝ, (T ℝ i).eval x * (T ℝ j).eval x = ((T ℝ (i + j)).eval x + (T ℝ |(i : ℤ) - j|).eval x) / 2 := by
    intro x
    have h := congrArg (eval x) (T_mul_T ℝ i j)
    rw [show T ℝ |(i : ℤ) - j| = T ℝ (i - j) by rw [← T_natAbs ℝ (i - j), Int.abs_eq_natAbs]]
    simp only [eval_mul, eval_add, eval_ofNat] at h
    linarith
  simp only [e, ← Finset.sum_div, Finset.sum_add_distrib]
  by_cases h : i = j
  · subst h
    simp only [sub_self, abs_zero, if_true, T_zero, eval_one, Finset.sum_const, Finset.card_range, nsmul_eq_mul, mul_one]
    by_cases h0 : i = 0
    · subst h0; simp
    · rw [sum_T_node n _ (by omega) (by omega) (by omega), if_neg h0, zero_add]
  · rw [sum_T_node n _ (by omega) (by omega) (by omega), sum_T_node n _ (abs_nonneg _) (by rw [abs_lt]; constructor <;> omega)
      (by rw [abs_ne_zero]; omega), if_neg h]
    simp

theorem series_eval (n : ℕ) (c : ℕ → ℝ) (x : ℝ) : (series n c).eval x = ∑ k ∈ Finset.range n, c k * (T ℝ k).eval x - c 0 / 2 := by
  simp [series, eval_finsetSum]

theorem series_congr {n : ℕ} (hn : 0 < n) {c c' : ℕ → ℝ} (h : ∀ k < n, c k = c' k) : series n c = series n c' := by
  rw [series, series, h 0 hn]
  congr 1
  exact Finset.sum_congr rfl fun k hk => by rw [h k (Finset.mem_range.1 hk)]

theorem series_degree (n : ℕ) (hn : 0 < n) (c : ℕ → ℝ) : (series n c).degree < n := by
  refine lt_of_le_of_lt (degree_sub_le _ _) (max_lt ?_ ?_)
  · refine lt_of_le_of_lt (degree_sum_le _ _) ?_
    refine (Finset.sup_lt_iff (WithBot.bot_lt_coe n)).2 ?_
    intro k hk
    refine lt_of_le_of_lt (degree_mul_le _ _) ?_
    refine lt_of_le_of_lt (add_le_add_left (degree_C_le) _) ?_
    rw [degree_T, zero_add, Int.natAbs_natCast]
    exact WithBot.coe_lt_coe.2 (Finset.mem_range.1 hk)
  · exact lt_of_le_of_lt degree_C_le (by exact_mod_cast hn)

/-- The inverse transform evaluates the series at the nodes. -/
theorem inv_eq (n : ℕ) (c : ℕ → ℝ) (j : ℕ) (hj : j < n) : chebft_Zeros c n true j = (series n c).eval (node n j) := by
  rw [chebft_inv c n j hj, series_eval, add_comm, sub_eq_add_neg]
  congr 1
  · refine Finset.sum_congr rfl fun k _ => ?_
    rw [T_node, mul_assoc, mul_comm (cos _)]
    congr 3
    ring
  · ring

/-- The forward transform finds the coefficients. -/
theorem fwd_series (n : ℕ) (c u : ℕ → ℝ) (hu : ∀ k < n, u k = (series n c).eval (node n k)) (j : ℕ) (hj : j < n) :
    chebft_Zeros u n false j = c j := by
  have hn : (n : ℝ) ≠ 0 := by
    have : n ≠ 0 := by omega
    exact_mod_cast this
  rw [chebft_fwd u n j hj]
  have e : (∑ k ∈ Finset.range n, u k * cos (π / n * j * (k + 0.5))) * (-1) ^ j =
      ∑ k ∈ Finset.range n, (series n c).eval (node n k) * (T ℝ j).eval (node n k) := by
    rw [Finset.sum_mul]
    refine Finset.sum_congr rfl fun k hk => ?_
    rw [T_node, hu k (Finset.mem_range.1 hk)]
    ring
  rw [mul_assoc, e]
  simp only [series_eval, sub_mul, Finset.sum_mul, Finset.sum_sub_distrib, mul_assoc]
  rw [Finset.sum_comm]
  simp only [← Finset.mul_sum]
  have o : ∀ i ∈ Finset.range n, c i * ∑ k ∈ Finset.range n, (T ℝ i).eval (node n k) * (T ℝ j).eval (node n k) =
      if i = j then c j * (if j = 0 then (n : ℝ) else n / 2) else 0 := fun i hi => by
    rw [sum_T_mul_T n i j (Finset.mem_range.1 hi) hj]
    by_cases h : i = j
    · subst h; simp
    · simp [h]
  have z : ∑ k ∈ Finset.range n, (T ℝ j).eval (node n k) = if j = 0 then (n : ℝ) else 0 := by
    by_cases h : j = 0
    · subst h; simp
    · rw [sum_T_node n _ (by omega) (by omega) (by omega), if_neg h]
  rw [Finset.sum_congr rfl o, Finset.sum_ite_eq' , if_pos (Finset.mem_range.2 hj), z]
  by_cases h : j = 0
  · subst h
    simp only [if_true]
    field_simp
    ring
  · simp only [h, if_false]
    field_simp
    ring

theorem exists_sum_T (n : ℕ) : ∀ p : ℝ[X], p.degree < n → ∃ b : ℕ → ℝ, p = ∑ k ∈ Finset.range n, C (b k) * T ℝ k := by
  induction n with
  | zero =>
    intro p hp
    refine ⟨fun _ => 0, ?_⟩
    rw [Nat.cast_zero, Nat.WithBot.lt_zero_iff, degree_eq_bot] at hp
    simpa using hp
  | succ n ih =>
    intro p hp
    have ht : (T ℝ n).leadingCoeff ≠ 0 := leadingCoeff_ne_zero.2 (T_ne_zero ℝ _)
    set q := p - C (p.coeff n / (T ℝ n).leadingCoeff) * T ℝ n with hq
    have hd : q.degree < n := by
      rw [degree_lt_iff_coeff_zero]
      intro m hm
      rcases eq_or_lt_of_le hm with rfl | hm
      · have : (T ℝ n).coeff n = (T ℝ n).leadingCoeff := by
          rw [leadingCoeff, natDegree_T]
          simp
        rw [hq, coeff_sub, coeff_C_mul, this]
        field_simp
        ring
      · rw [hq, coeff_sub, coeff_C_mul, (degree_lt_iff_coeff_zero p (n + 1)).1 hp m hm, coeff_eq_zero_of_degree_lt (p := T ℝ n)]
        · simp
        · rw [degree_T]
          exact_mod_cast hm
    obtain ⟨b, hb⟩ := ih q hd
    refine ⟨fun k => if k = n then p.coeff n / (T ℝ n).leadingCoeff else b k, ?_⟩
    have e : ∀ k ∈ Finset.range n, C (if k = n then p.coeff n / (T ℝ n).leadingCoeff else b k) * T ℝ k = C (b k) * T ℝ k := fun k hk => by
      rw [if_neg (Finset.mem_range.1 hk).ne]
    simp only [Finset.sum_range_succ, if_true]
    rw [Finset.sum_congr rfl e, ← hb, hq]
    ring

/-- Every polynomial of degree less than `n` is a series of `n` terms. -/
theorem exists_series (n : ℕ) (hn : 0 < n) (p : ℝ[X]) (hp : p.degree < n) : ∃ c : ℕ → ℝ, p = series n c := by
  obtain ⟨b, hb⟩ := exists_sum_T n p hp
  obtain ⟨m, rfl⟩ : ∃ m, n = m + 1 := ⟨n - 1, by omega⟩
  refine ⟨fun k => if k = 0 then 2 * b 0 else b k, ?_⟩
  rw [hb, series, Finset.sum_range_succ', Finset.sum_range_succ' _ m]
  simp only [Nat.succ_ne_zero, if_false, if_true, Nat.cast_zero, T_zero, mul_one]
  rw [add_sub_assoc, ← C_sub]
  congr 2
  ring

/-- The coefficients of a polynomial from its values at the nodes. -/
theorem series_fwd (n : ℕ) (hn : 0 < n) (p : ℝ[X]) (hp : p.degree < n) (u : ℕ → ℝ) (hu : ∀ k < n, u k = p.eval (node n k)) :
    series n (chebft_Zeros u n false) = p := by
  obtain ⟨c, rfl⟩ := exists_series n hn p hp
  exact series_congr hn fun k hk => fwd_series n c u hu k hk

theorem node_injOn (n : ℕ) : Set.InjOn (node n) (Finset.range n) := by
  intro i hi j hj h
  simp only [Finset.coe_range, Set.mem_Iio] at hi hj
  have hn : (0 : ℝ) < n := by
    have : 0 < n := by omega
    exact_mod_cast this
  have b : ∀ k < n, π * (2 * k + 1) / (2 * n) ∈ Set.Icc 0 π := fun k hk => by
    have : (k : ℝ) + 1 ≤ n := by exact_mod_cast hk
    constructor
    · positivity
    · rw [div_le_iff₀ (by positivity)]
      nlinarith [Real.pi_pos]
  have := Real.injOn_cos (b i hi) (b j hj) (neg_injective h)
  field_simp at this
  have h2 : (i : ℝ) = j := by linarith
  exact_mod_cast h2

/-- Data at the nodes are the values of a polynomial. -/
theorem exists_interpolant (n : ℕ) (u : ℕ → ℝ) : ∃ p : ℝ[X], p.degree < n ∧ ∀ k < n, u k = p.eval (node n k) := by
  refine ⟨Lagrange.interpolate (Finset.range n) (node n) u, ?_, fun k hk => ?_⟩
  · have := Lagrange.degree_interpolate_lt u (node_injOn n)
    simpa using this
  · rw [Lagrange.eval_interpolate_at_node u (node_injOn n) (Finset.mem_range.2 hk)]

/-! ### Derivatives -/

theorem chder_fold (c d : ℕ → ℝ) (n m : ℕ) (hn : 0 < n) (hm : m ≤ n - 1) :
    let e := (List.range m).foldl (fun (cder : ℕ → ℝ) (m : ℕ) => Function.update cder (n - 2 - m) (cder (n - 2 - m + 2) + 2 * ((n - 2 - m : ℕ) + 1) * c (n - 2 - m + 1)))
      (Function.update (Function.update d n 0) (n - 1) 0)
    e n = 0 ∧ e (n - 1) = 0 ∧ ∀ j, n - 1 - m ≤ j → j < n - 1 → e j = e (j + 2) + 2 * (j + 1) * c (j + 1) := by
  induction m with
  | zero =>
    refine ⟨?_, ?_, fun j h1 h2 => by omega⟩
    · simp [show n ≠ n - 1 by omega]
    · simp
  | succ m ih =>
    obtain ⟨h0, h1, h2⟩ := ih (by omega)
    simp only [List.range_succ, List.foldl_append, List.foldl_cons, List.foldl_nil]
    set e := (List.range m).foldl (fun (cder : ℕ → ℝ) (m : ℕ) => Function.update cder (n - 2 - m) (cder (n - 2 - m + 2) + 2 * ((n - 2 - m : ℕ) + 1) * c (n - 2 - m + 1)))
      (Function.update (Function.update d n 0) (n - 1) 0) with he
    refine ⟨?_, ?_, fun j hj1 hj2 => ?_⟩
    · rw [Function.update_of_ne (by omega), h0]
    · rw [Function.update_of_ne (by omega), h1]
    · by_cases hj : j = n - 2 - m
      · subst hj
        rw [Function.update_self, Function.update_of_ne (by omega)]
      · rw [Function.update_of_ne hj, Function.update_of_ne (by omega), h2 j (by omega) hj2]

theorem chder_rec (c d : ℕ → ℝ) (n : ℕ) (hn : 0 < n) : chder c d n n = 0 ∧ chder c d n (n - 1) = 0 ∧
    ∀ j < n - 1, chder c d n j = chder c d n (j + 2) + 2 * (j + 1) * c (j + 1) := by
  obtain ⟨h0, h1, h2⟩ := chder_fold c d n (n - 1) hn le_rfl
  exact ⟨h0, h1, fun j hj => h2 j (by omega) hj⟩

theorem sum_by_parts (d : ℕ → ℝ) (m : ℕ) : ∑ k ∈ Finset.range m, C (d k - d (k + 2)) * U ℝ k =
    2 * ∑ k ∈ Finset.range m, C (d k) * T ℝ k - C (d 0) - C (d m) * U ℝ (m - 2) - C (d (m + 1)) * U ℝ (m - 1) := by
  induction m with
  | zero => simp
  | succ m ih =>
    rw [Finset.sum_range_succ, ih, Finset.sum_range_succ]
    have h := two_mul_T_eq_U_sub_U ℝ ((m : ℤ) - 2)
    rw [show ((m : ℤ) - 2 + 2) = m by ring] at h
    rw [show (((m + 1 : ℕ) : ℤ) - 2) = m - 1 by push_cast; ring, show (((m + 1 : ℕ) : ℤ) - 1) = m by push_cast; ring]
    simp only [C_sub]
    linear_combination -C (d m) * h

/-- `chder` differentiates the series. -/
theorem series_chder (n : ℕ) (hn : 0 < n) (c d : ℕ → ℝ) : series n (chder c d n) = derivative (series n c) := by
  obtain ⟨h0, h1, h2⟩ := chder_rec c d n hn
  obtain ⟨m, rfl⟩ : ∃ m, n = m + 1 := ⟨n - 1, by omega⟩
  simp only [Nat.add_sub_cancel] at h1 h2
  set e := chder c d (m + 1)
  have hb := sum_by_parts e m
  rw [h1, h0] at hb
  have h3 : ∑ k ∈ Finset.range m, C (e k - e (k + 2)) * U ℝ k = 2 * ∑ k ∈ Finset.range m, C (c (k + 1)) * ((k + 1 : ℝ[X]) * U ℝ k) := by
    rw [Finset.mul_sum]
    refine Finset.sum_congr rfl fun k hk => ?_
    rw [h2 k (Finset.mem_range.1 hk), add_sub_cancel_left]
    simp only [Polynomial.C_mul, map_add, map_ofNat, map_natCast, map_one]
    ring
  have h4 : derivative (series (m + 1) c) = ∑ k ∈ Finset.range m, C (c (k + 1)) * ((k + 1 : ℝ[X]) * U ℝ k) := by
    simp [series, Finset.sum_range_succ', T_derivative_eq_U]
  rw [h4]
  have h5 : series (m + 1) e = ∑ k ∈ Finset.range m, C (e k) * T ℝ k - C (e 0 / 2) := by
    rw [series, Finset.sum_range_succ, h1]
    simp
  rw [h5]
  have h6 : (2 : ℝ[X]) * C (e 0 / 2) = C (e 0) := by
    rw [show (2 : ℝ[X]) = C 2 from (map_ofNat Polynomial.C 2).symm, ← Polynomial.C_mul]
    congr 1
    ring
  have h7 : (2 : ℝ[X]) * (∑ k ∈ Finset.range m, C (e k) * T ℝ k - C (e 0 / 2)) = 2 * ∑ k ∈ Finset.range m, C (c (k + 1)) * ((k + 1 : ℝ[X]) * U ℝ k) := by
    rw [mul_sub, h6, ← h3, hb]
    simp
  exact mul_left_cancel₀ two_ne_zero h7

/-! ### Evaluation -/

/-- Clenshaw's recurrence. -/
theorem clenshaw (c : ℕ → ℝ) (y : ℝ) (m l : ℕ) (hl : l ≤ m) :
    let d := (List.range l).foldl (fun (d : ℝ × ℝ) (l : ℕ) => (2 * y * d.1 - d.2 + c (m - l), d.1)) (0, 0)
    d.1 * (T ℝ (m + 1 - l : ℤ)).eval y - d.2 * (T ℝ (m - l : ℤ)).eval y = ∑ k ∈ Finset.Ico (m + 1 - l) (m + 1), c k * (T ℝ k).eval y := by
  induction l with
  | zero => simp
  | succ l ih =>
    have h := ih (by omega)
    simp only [List.range_succ, List.foldl_append, List.foldl_cons, List.foldl_nil] at h ⊢
    set d := (List.range l).foldl (fun (d : ℝ × ℝ) (l : ℕ) => (2 * y * d.1 - d.2 + c (m - l), d.1)) (0, 0)
    rw [show m + 1 - (l + 1) = m - l by omega, Finset.sum_eq_sum_Ico_succ_bot (by omega), show m - l + 1 = m + 1 - l by omega, ← h]
    have ht := congrArg (eval y) (T_add_two ℝ ((m : ℤ) - 1 - l))
    rw [show (m : ℤ) - 1 - l + 2 = m + 1 - l by ring, show (m : ℤ) - 1 - l + 1 = m - l by ring] at ht
    simp only [eval_sub, eval_mul, eval_ofNat, eval_X] at ht
    rw [show ((m : ℤ) + 1 - ((l + 1 : ℕ) : ℤ)) = m - l by push_cast; ring, show ((m : ℤ) - ((l + 1 : ℕ) : ℤ)) = m - 1 - l by push_cast; ring,
      show ((m - l : ℕ) : ℤ) = m - l by omega, ht]
    ring

/-- `chebev` evaluates the series. -/
theorem chebev_eq (a b : ℝ) (c : ℕ → ℝ) (m : ℕ) (hm : 0 < m) (x : ℝ) :
    chebev a b c m x = (series m c).eval (2 * (x - 0.5 * (b + a)) / (b - a)) := by
  obtain ⟨m, rfl⟩ : ∃ l, m = l + 1 := ⟨m - 1, by omega⟩
  have h := clenshaw c (2 * (x - 0.5 * (b + a)) / (b - a)) m m le_rfl
  simp only [chebev, Nat.add_sub_cancel, series_eval]
  simp only [add_sub_cancel_left, sub_self, T_zero, T_one, eval_X, eval_one, mul_one] at h
  rw [mul_comm, h, Finset.range_eq_Ico, Finset.sum_eq_sum_Ico_succ_bot (a := 0) (by omega), show m + 1 - m = 0 + 1 by omega]
  simp
  ring

theorem chebev_unit (c : ℕ → ℝ) (m : ℕ) (hm : 0 < m) (x : ℝ) : chebev (-1) 1 c m x = (series m c).eval x := by
  rw [chebev_eq (-1) 1 c m hm x]
  norm_num

/-! ### A line of nodes -/

theorem degree_derivative_lt' {p : ℝ[X]} {n : ℕ} (hp : p.degree < n) : (derivative p).degree < n := lt_of_le_of_lt (degree_derivative_le) hp

/-- The two derivatives along a line of nodes. -/
theorem chebLine_eq (n : ℕ) (p : ℝ[X]) (hp : p.degree < n) (u : ℕ → ℝ) (hu : ∀ k < n, u k = p.eval (node n k)) (k : ℕ) (hk : k < n) :
    (chebLine u n).1 k = (derivative p).eval (node n k) ∧ (chebLine u n).2 k = (derivative (derivative p)).eval (node n k) := by
  have hn : 0 < n := by omega
  simp only [chebLine, inv_eq n _ k hk, series_chder n hn, series_fwd n hn p hp u hu, and_self]

end Verif.TP
