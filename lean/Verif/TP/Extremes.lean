import Verif.TP.Fourier

/-!
# The Chebyshev transform on the extremal points
-/
namespace Verif.TP
open Real Polynomial Polynomial.Chebyshev

/-- The extremal points of `T_{n-1}`, in increasing order. -/
noncomputable def extreme (n k : ℕ) : ℝ := -cos (π * k / (n - 1 : ℕ))

theorem sum_fold (N : ℕ) (hN : 0 < N) (g : ℕ → ℝ) (hg : ∀ k ≤ N, g (2 * N - k) = g k) :
    ∑ k ∈ Finset.range (2 * N), g k = 2 * (1 / 2 * (g 0 + g N) + ∑ k ∈ Finset.range (N - 1), g (1 + k)) := by
  obtain ⟨m, rfl⟩ : ∃ m, N = m + 1 := ⟨N - 1, by omega⟩
  rw [two_mul (m + 1), Finset.sum_range_add, Finset.sum_range_succ', Finset.sum_range_succ' (fun k => g (m + 1 + k)), Nat.add_sub_cancel,
    ← Finset.sum_range_reflect (fun k => g (m + 1 + (k + 1)))]
  have e : ∀ k ∈ Finset.range m, g (m + 1 + (m - 1 - k + 1)) = g (k + 1) := fun k hk => by
    rw [Finset.mem_range] at hk
    rw [← hg (k + 1) (by omega)]
    congr 1
    omega
  rw [Finset.sum_congr rfl e]
  simp only [add_comm 1, add_zero]
  ring

theorem extremes_inv (n : ℕ) (c : ℕ → ℝ) (j : ℕ) (hj : j < n) : chebft_Extremes c n true j = (series n c).eval (extreme n j) := by
  simp only [chebft_Extremes, copyBack_eq, hj, if_true, Bool.true_eq_false, if_false]
  rw [foldl_update_range n fun j => ((List.range n).foldl (fun (st : ℝ × ℝ) (k : ℕ) => (st.1 + c k * cos (π / (n - 1 : ℕ) * j * k) * st.2, -st.2)) (-0.5 * c 0, 1)).1]
  simp only [hj, if_true]
  rw [foldl_alt n fun k => c k * cos (π / (n - 1 : ℕ) * j * k), series_eval]
  have e : ∀ k ∈ Finset.range n, c k * cos (π / (n - 1 : ℕ) * j * k) * ((-1) ^ k * 1) = c k * (T ℝ k).eval (extreme n j) := fun k _ => by
    rw [extreme, T_eval_neg, T_real_cos, mul_one, mul_assoc, mul_comm (cos _), Int.cast_natCast,
      show (k : ℝ) * (π * j / (n - 1 : ℕ)) = π / (n - 1 : ℕ) * j * k by ring]
    simp
  rw [Finset.sum_congr rfl e]
  ring

theorem extremes_fwd (n : ℕ) (u : ℕ → ℝ) (j : ℕ) (hj : j < n) : chebft_Extremes u n false j =
    2 / (n - 1 : ℕ) * (1 / 2 * (u 0 + u (n - 1) * (-1) ^ j) + ∑ k ∈ Finset.range (n - 1 - 1), u (1 + k) * cos (π / (n - 1 : ℕ) * j * (1 + k : ℕ))) * (-1) ^ j *
      if j = n - 1 then 1 / 2 else 1 := by
  have e : ∀ t : ℝ, (List.range' 1 (n - 1 - 1)).foldl (fun (sum : ℝ) (k : ℕ) => sum + u k * cos (π / (n - 1 : ℕ) * j * k)) (0.5 * (u 0 + u (n - 1) * t)) =
      1 / 2 * (u 0 + u (n - 1) * t) + ∑ k ∈ Finset.range (n - 1 - 1), u (1 + k) * cos (π / (n - 1 : ℕ) * j * (1 + k : ℕ)) := fun t => by
    rw [foldl_add' 1 (n - 1 - 1) fun k => u k * cos (π / (n - 1 : ℕ) * j * k)]
    norm_num
  simp only [chebft_Extremes, copyBack_eq, hj, if_true]
  rw [foldl_update_alt n (fun j t => 2.0 / ((n - 1 : ℕ) : ℝ) *
    (List.range' 1 (n - 1 - 1)).foldl (fun (sum : ℝ) (k : ℕ) => sum + u k * cos (π / (n - 1 : ℕ) * j * k)) (0.5 * (u 0 + u (n - 1) * t)) * t)]
  simp only [Function.update_apply, hj, if_true, mul_one]
  by_cases h : j = n - 1
  · have h' : n - 1 < n := by omega
    subst h
    simp only [if_true, h']
    rw [e]
    norm_num
    ring
  · simp only [h, if_false]
    rw [e]
    norm_num

theorem extremes_fwd_series (n : ℕ) (hn : 1 < n) (c u : ℕ → ℝ) (hu : ∀ k < n, u k = (series n c).eval (extreme n k)) (j : ℕ) (hj : j < n) :
    chebft_Extremes u n false j = c j := by
  obtain ⟨N, rfl⟩ : ∃ N, n = N + 1 := ⟨n - 1, by omega⟩
  have hN0 : 0 < N := by omega
  have hN : (N : ℝ) ≠ 0 := by exact_mod_cast hN0.ne'
  rw [extremes_fwd (N + 1) u j hj]
  simp only [Nat.add_sub_cancel] at *
  -- the values in terms of the angles of the double grid
  let g : ℕ → ℕ → ℝ := fun i k => cos (i * angle (2 * N) k) * cos (j * angle (2 * N) k)
  have hT : ∀ i k : ℕ, (T ℝ i).eval (extreme (N + 1) k) = (-1) ^ i * cos (i * angle (2 * N) k) := fun i k => by
    rw [extreme, T_eval_neg, T_real_cos, angle_eq, Nat.add_sub_cancel, Int.cast_natCast]
    congr 1
    simp
  have per : ∀ i : ℕ, ∀ k ≤ N, cos (i * angle (2 * N) (2 * N - k)) = cos (i * angle (2 * N) k) := fun i k hk => by
    rw [angle_eq, angle_eq, Nat.cast_sub (by omega)]
    rw [show (i : ℝ) * (π * (((2 * N : ℕ) : ℝ) - k) / N) = i * (2 * π) - i * (π * k / N) by push_cast; field_simp]
    exact cos_nat_mul_two_pi_sub _ _
  have fold : ∀ i : ℕ, i ≤ N → 1 / 2 * (g i 0 + g i N) + ∑ k ∈ Finset.range (N - 1), g i (1 + k) =
      if i = j then (if i = 0 ∨ i = N then (N : ℝ) else N / 2) else 0 := fun i hi => by
    have h1 := sum_fold N hN0 (g i) fun k hk => by simp only [g]; rw [per i k hk, per j k hk]
    have h2 := sum_cc N i j hi (by omega)
    have h3 : ∑ k ∈ Finset.range (2 * N), g i k = if i = j then (if i = 0 ∨ i = N then (2 * N : ℝ) else N) else 0 := h2
    rw [h1] at h3
    split_ifs at h3 ⊢ <;> linarith
  -- the sum in the transform
  have hsum : 1 / 2 * (u 0 + u N * (-1) ^ j) + ∑ k ∈ Finset.range (N - 1), u (1 + k) * cos (π / N * j * (1 + k : ℕ)) =
      ∑ i ∈ Finset.range (N + 1), c i * (-1) ^ i * (1 / 2 * (g i 0 + g i N) + ∑ k ∈ Finset.range (N - 1), g i (1 + k)) -
        c 0 / 2 * (1 / 2 * (g 0 0 + g 0 N) + ∑ k ∈ Finset.range (N - 1), g 0 (1 + k)) := by
    have hu' : ∀ k ≤ N, u k * cos (j * angle (2 * N) k) = ∑ i ∈ Finset.range (N + 1), c i * (-1) ^ i * g i k - c 0 / 2 * g 0 k := fun k hk => by
      rw [hu k (by omega), series_eval, sub_mul, Finset.sum_mul]
      congr 1
      · refine Finset.sum_congr rfl fun i _ => ?_
        simp only [g]
        rw [hT]
        ring
      · simp [g]
    have a : u 0 = ∑ i ∈ Finset.range (N + 1), c i * (-1) ^ i * g i 0 - c 0 / 2 * g 0 0 := by
      have := hu' 0 (by omega)
      simpa [angle] using this
    have b : u N * (-1) ^ j = ∑ i ∈ Finset.range (N + 1), c i * (-1) ^ i * g i N - c 0 / 2 * g 0 N := by
      rw [← hu' N le_rfl, angle_eq, show (j : ℝ) * (π * N / N) = j * π by field_simp, cos_nat_mul_pi]
    have d : ∀ k ∈ Finset.range (N - 1), u (1 + k) * cos (π / N * j * (1 + k : ℕ)) = ∑ i ∈ Finset.range (N + 1), c i * (-1) ^ i * g i (1 + k) - c 0 / 2 * g 0 (1 + k) := fun k hk => by
      rw [Finset.mem_range] at hk
      rw [← hu' (1 + k) (by omega), angle_eq]
      congr 2
      ring
    rw [b, Finset.sum_congr rfl d, Finset.sum_sub_distrib, Finset.sum_comm]
    conv_lhs => rw [a]
    simp only [mul_add, Finset.sum_add_distrib]
    have m1 : ∀ q : ℕ, ∑ i ∈ Finset.range (N + 1), c i * (-1) ^ i * (1 / 2 * g i q) = 1 / 2 * ∑ i ∈ Finset.range (N + 1), c i * (-1) ^ i * g i q := fun q => by
      rw [Finset.mul_sum]
      exact Finset.sum_congr rfl fun i _ => by ring
    have m2 : ∑ i ∈ Finset.range (N + 1), c i * (-1) ^ i * ∑ k ∈ Finset.range (N - 1), g i (1 + k) =
        ∑ i ∈ Finset.range (N + 1), ∑ k ∈ Finset.range (N - 1), c i * (-1) ^ i * g i (1 + k) := Finset.sum_congr rfl fun i _ => Finset.mul_sum _ _ _
    rw [m1, m1, m2, ← Finset.mul_sum]
    ring
  rw [hsum, Finset.sum_congr rfl fun i hi => by rw [fold i (by rw [Finset.mem_range] at hi; omega)], fold 0 (by omega)]
  simp only [mul_ite, mul_zero]
  rw [Finset.sum_ite_eq', if_pos (Finset.mem_range.2 hj)]
  have sq : ((-1 : ℝ) ^ j) * (-1) ^ j = 1 := by rw [← mul_pow]; simp
  by_cases h0 : j = 0
  · subst h0
    simp only [true_or, if_true, pow_zero]
    rw [if_neg (by omega)]
    field_simp
    ring
  · rw [if_neg (show ¬0 = j from fun h => h0 h.symm)]
    by_cases h1 : j = N
    · subst h1
      simp only [or_true, if_true]
      rw [show (2 / (j : ℝ) * (c j * (-1) ^ j * j - 0) * (-1) ^ j * (1 / 2)) = c j * (j / j) * ((-1) ^ j * (-1) ^ j) by ring, sq, div_self hN]
      ring
    · simp only [h0, h1, or_self, if_false]
      rw [show (2 / (N : ℝ) * (c j * (-1) ^ j * (N / 2) - 0) * (-1) ^ j * 1) = c j * (N / N) * ((-1) ^ j * (-1) ^ j) by ring, sq, div_self hN]
      ring

end Verif.TP
