import Verif.TP.Cheb
import Mathlib.LinearAlgebra.FiniteDimensional.Lemmas
import Mathlib.Analysis.SpecialFunctions.Trigonometric.Deriv

/-!
# The Fourier transforms of TwoPunctures
-/
namespace Verif.TP
open Real

/-! ## Specification -/

/-- The collocation points of the direction `phi`. -/
noncomputable def angle (N k : ℕ) : ℝ := 2 * π * k / N

/-- `g` is a trigonometric polynomial with the frequencies that `N` equidistant points resolve: `cos (l x)` for `l ≤ N/2`, `sin (l x)` for
`l < N/2`. -/
def IsTrig (N : ℕ) (g : ℝ → ℝ) : Prop :=
  ∃ a b : ℕ → ℝ, ∀ x, g x = ∑ l ∈ Finset.range (N / 2 + 1), a l * cos (l * x) + ∑ l ∈ Finset.range (N / 2), b l * sin (l * x)

/-- The series whose coefficients are stored as the code stores them. -/
noncomputable def trig (M : ℕ) (c : ℕ → ℝ) (x : ℝ) : ℝ :=
  1 / 2 * (c 0 + c M * cos (M * x)) + ∑ l ∈ Finset.range (M - 1), (c (1 + l) * cos ((1 + l : ℕ) * x) + c (M + (1 + l)) * sin ((1 + l : ℕ) * x))

/-! ## Sums over the nodes -/

theorem sum_cos_mul (n : ℕ) (t : ℝ) : (∑ k ∈ Finset.range n, cos (k * t)) * (2 * sin (t / 2)) = sin (n * t - t / 2) + sin (t / 2) := by
  induction n with
  | zero => simp
  | succ n ih =>
    rw [Finset.sum_range_succ, add_mul, ih]
    have h1 : sin (((n + 1 : ℕ) : ℝ) * t - t / 2) = sin (n * t + t / 2) := by congr 1; push_cast; ring
    rw [h1, sin_add, sin_sub]
    ring

theorem sum_sin_mul (n : ℕ) (t : ℝ) : (∑ k ∈ Finset.range n, sin (k * t)) * (2 * sin (t / 2)) = cos (t / 2) - cos (n * t - t / 2) := by
  induction n with
  | zero => simp
  | succ n ih =>
    rw [Finset.sum_range_succ, add_mul, ih]
    have h1 : cos (((n + 1 : ℕ) : ℝ) * t - t / 2) = cos (n * t + t / 2) := by congr 1; push_cast; ring
    rw [h1, cos_add, cos_sub]
    ring

theorem angle_eq (M k : ℕ) : angle (2 * M) k = π * k / M := by
  rw [angle]
  push_cast
  rw [mul_assoc, mul_div_mul_left _ _ two_ne_zero]

theorem half_ne (M m : ℕ) (h0 : 0 < m) (h1 : m < 2 * M) : sin (π * m / M / 2) ≠ 0 := by
  have hM : (0 : ℝ) < M := by
    have : 0 < M := by omega
    exact_mod_cast this
  have hm : (0 : ℝ) < m := by exact_mod_cast h0
  have hm' : (m : ℝ) < 2 * M := by exact_mod_cast h1
  refine (sin_pos_of_pos_of_lt_pi (by positivity) ?_).ne'
  rw [div_div, div_lt_iff₀ (by positivity)]
  nlinarith [Real.pi_pos]

theorem sum_cos (M m : ℕ) (hm : m ≤ 2 * M) : ∑ k ∈ Finset.range (2 * M), cos (m * angle (2 * M) k) = if m = 0 ∨ m = 2 * M then (2 * M : ℝ) else 0 := by
  have e : ∀ k : ℕ, (m : ℝ) * angle (2 * M) k = k * (π * m / M) := fun k => by rw [angle_eq]; ring
  simp only [e]
  split_ifs with h
  · have h1 : ∀ k ∈ Finset.range (2 * M), cos (k * (π * m / M)) = 1 := fun k hk => by
      rcases h with h | h
      · simp [h]
      · have hM : (M : ℝ) ≠ 0 := by
          have : M ≠ 0 := by rintro rfl; simp at hk
          exact_mod_cast this
        rw [h, ← cos_nat_mul_two_pi k]
        congr 1
        push_cast
        field_simp
    rw [Finset.sum_congr rfl h1]
    simp
  · rw [not_or] at h
    have hM : (M : ℝ) ≠ 0 := by
      have : M ≠ 0 := by omega
      exact_mod_cast this
    have h2 := sum_cos_mul (2 * M) (π * m / M)
    have h3 : ((2 * M : ℕ) : ℝ) * (π * m / M) - π * m / M / 2 = m * (2 * π) - π * m / M / 2 := by push_cast; field_simp
    rw [h3, sin_nat_mul_two_pi_sub, neg_add_cancel] at h2
    exact (mul_eq_zero.1 h2).resolve_right (mul_ne_zero two_ne_zero (half_ne M m (by omega) (by omega)))

theorem sum_sin (M m : ℕ) (hm : m ≤ 2 * M) : ∑ k ∈ Finset.range (2 * M), sin (m * angle (2 * M) k) = 0 := by
  have e : ∀ k : ℕ, (m : ℝ) * angle (2 * M) k = k * (π * m / M) := fun k => by rw [angle_eq]; ring
  simp only [e]
  by_cases h : m = 0 ∨ m = 2 * M
  · refine Finset.sum_eq_zero fun k hk => ?_
    rcases h with h | h
    · simp [h]
    · have hM : (M : ℝ) ≠ 0 := by
        have : M ≠ 0 := by rintro rfl; simp at hk
        exact_mod_cast this
      have : (k : ℝ) * (π * m / M) = (2 * k : ℕ) * π := by
        rw [h]
        push_cast
        field_simp
      rw [this, sin_nat_mul_pi]
  · rw [not_or] at h
    have hM : (M : ℝ) ≠ 0 := by
      have : M ≠ 0 := by omega
      exact_mod_cast this
    have h2 := sum_sin_mul (2 * M) (π * m / M)
    have h3 : ((2 * M : ℕ) : ℝ) * (π * m / M) - π * m / M / 2 = m * (2 * π) - π * m / M / 2 := by push_cast; field_simp
    rw [h3, cos_nat_mul_two_pi_sub, sub_self] at h2
    exact (mul_eq_zero.1 h2).resolve_right (mul_ne_zero two_ne_zero (half_ne M m (by omega) (by omega)))

theorem cos_sub_nat (i j : ℕ) (x : ℝ) : cos ((i : ℝ) * x - j * x) = cos ((if j ≤ i then i - j else j - i : ℕ) * x) := by
  split_ifs with h
  · rw [Nat.cast_sub h]
    ring_nf
  · rw [Nat.cast_sub (by omega), ← cos_neg]
    ring_nf

theorem sum_cc (M i j : ℕ) (hi : i ≤ M) (hj : j ≤ M) : ∑ k ∈ Finset.range (2 * M), cos (i * angle (2 * M) k) * cos (j * angle (2 * M) k) =
    if i = j then (if i = 0 ∨ i = M then (2 * M : ℝ) else M) else 0 := by
  have e : ∀ x : ℝ, cos (i * x) * cos (j * x) = (cos ((i + j : ℕ) * x) + cos ((if j ≤ i then i - j else j - i : ℕ) * x)) / 2 := fun x => by
    rw [← cos_sub_nat, show ((i + j : ℕ) : ℝ) * x = i * x + j * x by push_cast; ring, cos_add, cos_sub]
    ring
  simp only [e, ← Finset.sum_div, Finset.sum_add_distrib]
  rw [sum_cos M (i + j) (by omega), sum_cos M _ (by split_ifs <;> omega)]
  by_cases h : i = j
  · subst h
    simp only [le_refl, if_true, Nat.sub_self, true_or]
    by_cases h0 : i = 0 ∨ i = M
    · rw [if_pos (by omega), if_pos h0]; ring
    · rw [if_neg (by omega), if_neg h0]; ring
  · rw [if_neg h, if_neg (by omega), if_neg (by split_ifs <;> omega)]
    simp

theorem sum_ss (M i j : ℕ) (hi : i < M) (hj : j < M) (hi0 : 0 < i) : ∑ k ∈ Finset.range (2 * M), sin (i * angle (2 * M) k) * sin (j * angle (2 * M) k) =
    if i = j then (M : ℝ) else 0 := by
  have e : ∀ x : ℝ, sin (i * x) * sin (j * x) = (cos ((if j ≤ i then i - j else j - i : ℕ) * x) - cos ((i + j : ℕ) * x)) / 2 := fun x => by
    rw [← cos_sub_nat, show ((i + j : ℕ) : ℝ) * x = i * x + j * x by push_cast; ring, cos_add, cos_sub]
    ring
  simp only [e, ← Finset.sum_div, Finset.sum_sub_distrib]
  rw [sum_cos M (i + j) (by omega), sum_cos M _ (by split_ifs <;> omega)]
  by_cases h : i = j
  · subst h
    simp only [le_refl, if_true, Nat.sub_self, true_or]
    rw [if_neg (by omega)]; ring
  · rw [if_neg h, if_neg (by split_ifs <;> omega), if_neg (by omega)]
    simp

theorem sum_sc (M i j : ℕ) (hi : i ≤ M) (hj : j ≤ M) : ∑ k ∈ Finset.range (2 * M), sin (i * angle (2 * M) k) * cos (j * angle (2 * M) k) = 0 := by
  rcases le_total j i with h | h
  · have e : ∀ x : ℝ, sin (i * x) * cos (j * x) = (sin ((i + j : ℕ) * x) + sin ((i - j : ℕ) * x)) / 2 := fun x => by
      rw [Nat.cast_sub h, Nat.cast_add, add_mul, sub_mul, sin_add, sin_sub]
      ring
    simp only [e, ← Finset.sum_div, Finset.sum_add_distrib]
    rw [sum_sin M _ (by omega), sum_sin M _ (by omega)]
    simp
  · have e : ∀ x : ℝ, sin (i * x) * cos (j * x) = (sin ((i + j : ℕ) * x) - sin ((j - i : ℕ) * x)) / 2 := fun x => by
      rw [Nat.cast_sub h, Nat.cast_add, add_mul, sub_mul, sin_add, sin_sub]
      ring
    simp only [e, ← Finset.sum_div, Finset.sum_sub_distrib]
    rw [sum_sin M _ (by omega), sum_sin M _ (by omega)]
    simp

/-! ## Loops -/

theorem foldl_pairs (M m : ℕ) (hm : m ≤ M - 1) (f g u : ℕ → ℝ) :
    (List.range' 1 m).foldl (fun (u : ℕ → ℝ) (l : ℕ) => Function.update (Function.update u l (f l)) (l + M) (g l)) u =
      fun j => if 1 ≤ j ∧ j ≤ m then f j else if M + 1 ≤ j ∧ j ≤ M + m then g (j - M) else u j := by
  induction m with
  | zero =>
    funext j
    simp only [List.range'_zero, List.foldl_nil]
    rw [if_neg (by omega), if_neg (by omega)]
  | succ m ih =>
    rw [List.range'_1_concat, List.foldl_append, ih (by omega)]
    funext j
    simp only [List.foldl_cons, List.foldl_nil, Function.update_apply]
    split_ifs <;> first | rfl | (exfalso; omega) | (congr 1; omega)

theorem fourft_fwd (u : ℕ → ℝ) (M j : ℕ) (hM : 0 < M) (hj : j < 2 * M) : fourft u (2 * M) false j =
    1 / M * if j ≤ M then ∑ k ∈ Finset.range (2 * M), u k * cos (j * angle (2 * M) k)
      else ∑ k ∈ Finset.range (2 * M), u k * sin ((j - M : ℕ) * angle (2 * M) k) := by
  simp only [fourft, if_true, Nat.mul_div_cancel_left M two_pos]
  rw [foldl_pairs M (M - 1) le_rfl]
  have a : ∀ l : ℕ, (List.range (2 * M)).foldl (fun (s : ℝ) (k : ℕ) => s + 1 / (M : ℝ) * u k * cos (π * (1 / (M : ℝ)) * l * k)) 0 =
      1 / M * ∑ k ∈ Finset.range (2 * M), u k * cos (l * angle (2 * M) k) := fun l => by
    rw [foldl_add (2 * M) fun k => 1 / (M : ℝ) * u k * cos (π * (1 / (M : ℝ)) * l * k), zero_add, Finset.mul_sum]
    refine Finset.sum_congr rfl fun k _ => ?_
    rw [angle_eq, mul_assoc]
    congr 3
    ring
  have b : ∀ l : ℕ, (List.range (2 * M)).foldl (fun (s : ℝ) (k : ℕ) => s + 1 / (M : ℝ) * u k * sin (π * (1 / (M : ℝ)) * l * k)) 0 =
      1 / M * ∑ k ∈ Finset.range (2 * M), u k * sin (l * angle (2 * M) k) := fun l => by
    rw [foldl_add (2 * M) fun k => 1 / (M : ℝ) * u k * sin (π * (1 / (M : ℝ)) * l * k), zero_add, Finset.mul_sum]
    refine Finset.sum_congr rfl fun k _ => ?_
    rw [angle_eq, mul_assoc]
    congr 3
    ring
  simp only [a, b, Function.update_apply]
  split_ifs with h1 h2 h3 h4 h5 h6 h7 h8 <;> first | rfl | (exfalso; omega) | skip
  · rw [h5]
  · rw [h7]

theorem cos_M_angle (M k : ℕ) (hM : 0 < M) : cos (M * angle (2 * M) k) = (-1) ^ k := by
  have : (M : ℝ) ≠ 0 := by exact_mod_cast hM.ne'
  rw [angle_eq, show (M : ℝ) * (π * k / M) = k * π by field_simp, cos_nat_mul_pi]

theorem sin_M_angle (M k : ℕ) : sin (M * angle (2 * M) k) = 0 := by
  rcases eq_or_ne M 0 with rfl | h
  · simp
  have : (M : ℝ) ≠ 0 := by exact_mod_cast h
  rw [angle_eq, show (M : ℝ) * (π * k / M) = k * π by field_simp, sin_nat_mul_pi]

/-- The inverse transform evaluates the series at the nodes. -/
theorem fourft_inv (c : ℕ → ℝ) (M k : ℕ) (hM : 0 < M) (hk : k < 2 * M) : fourft c (2 * M) true k = trig M c (angle (2 * M) k) := by
  simp only [fourft, Bool.true_eq_false, if_false, Nat.mul_div_cancel_left M two_pos]
  rw [foldl_update_alt (2 * M) fun k t => (List.range' 1 (M - 1)).foldl (fun (s : ℝ) (l : ℕ) => s + (c l * cos (π * (1 / (M : ℝ)) * k * l) + c (M + l) * sin (π * (1 / (M : ℝ)) * k * l)))
        (0.5 * (c 0 + c M * t))]
  simp only [hk, if_true, mul_one]
  rw [foldl_add' 1 (M - 1) fun l => c l * cos (π * (1 / (M : ℝ)) * k * l) + c (M + l) * sin (π * (1 / (M : ℝ)) * k * l), trig, cos_M_angle M k hM]
  congr 1
  · norm_num
  · refine Finset.sum_congr rfl fun l _ => ?_
    rw [angle_eq, show π * (1 / (M : ℝ)) * k * ((1 + l : ℕ) : ℝ) = ((1 + l : ℕ) : ℝ) * (π * k / M) by ring]

/-- `fourev` evaluates the series. -/
theorem fourev_eq (c : ℕ → ℝ) (M : ℕ) (x : ℝ) : fourev c (2 * M) x = trig M c x := by
  simp only [fourev, Nat.mul_div_cancel_left M two_pos]
  rw [foldl_add' 1 (M - 1) fun l => c l * cos (x * l) + c (M + l) * sin (x * l), trig]
  simp only [mul_comm x]
  norm_num

theorem trig_congr {M : ℕ} (hM : 0 < M) {c c' : ℕ → ℝ} (h : ∀ j < 2 * M, c j = c' j) (x : ℝ) : trig M c x = trig M c' x := by
  rw [trig, trig, h 0 (by omega), h M (by omega)]
  congr 1
  refine Finset.sum_congr rfl fun l hl => ?_
  rw [Finset.mem_range] at hl
  rw [h _ (by omega), h _ (by omega)]

theorem sum_pick (m : ℕ) (f : ℕ → ℝ) (j : ℕ) (v : ℝ) : ∑ l ∈ Finset.range m, f (1 + l) * (if 1 + l = j then v else 0) = if 1 ≤ j ∧ j ≤ m then f j * v else 0 := by
  split_ifs with h
  · rw [Finset.sum_eq_single (j - 1)]
    · rw [show 1 + (j - 1) = j by omega, if_pos rfl]
    · intro b _ hb
      rw [if_neg (by omega), mul_zero]
    · intro hb
      exact absurd (Finset.mem_range.2 (by omega)) hb
  · refine Finset.sum_eq_zero fun l hl => ?_
    rw [Finset.mem_range] at hl
    rw [if_neg (by omega), mul_zero]

/-- The forward transform finds the coefficients. -/
theorem fwd_trig (M : ℕ) (hM : 0 < M) (c u : ℕ → ℝ) (hu : ∀ k < 2 * M, u k = trig M c (angle (2 * M) k)) (j : ℕ) (hj : j < 2 * M) :
    fourft u (2 * M) false j = c j := by
  have hM' : (M : ℝ) ≠ 0 := by exact_mod_cast hM.ne'
  rw [fourft_fwd u M j hM hj]
  have key : ∀ w : ℕ → ℝ, ∑ k ∈ Finset.range (2 * M), u k * w k =
      1 / 2 * (c 0 * ∑ k ∈ Finset.range (2 * M), cos ((0 : ℕ) * angle (2 * M) k) * w k + c M * ∑ k ∈ Finset.range (2 * M), cos (M * angle (2 * M) k) * w k) +
      ∑ l ∈ Finset.range (M - 1), (c (1 + l) * ∑ k ∈ Finset.range (2 * M), cos ((1 + l : ℕ) * angle (2 * M) k) * w k +
        c (M + (1 + l)) * ∑ k ∈ Finset.range (2 * M), sin ((1 + l : ℕ) * angle (2 * M) k) * w k) := fun w => by
    rw [Finset.sum_congr rfl fun k hk => by rw [hu k (Finset.mem_range.1 hk)]]
    simp only [trig, Finset.mul_sum, ← Finset.sum_add_distrib]
    rw [Finset.sum_comm (s := Finset.range (M - 1)), ← Finset.sum_add_distrib]
    refine Finset.sum_congr rfl fun k _ => ?_
    rw [add_mul, Finset.sum_mul]
    congr 1
    · simp
      ring
    · exact Finset.sum_congr rfl fun l _ => by ring
  split_ifs with h
  · rw [key fun k => cos (j * angle (2 * M) k), sum_cc M 0 j (by omega) h, sum_cc M M j le_rfl h]
    have e : ∀ l ∈ Finset.range (M - 1), c (1 + l) * ∑ k ∈ Finset.range (2 * M), cos ((1 + l : ℕ) * angle (2 * M) k) * cos (j * angle (2 * M) k) +
        c (M + (1 + l)) * ∑ k ∈ Finset.range (2 * M), sin ((1 + l : ℕ) * angle (2 * M) k) * cos (j * angle (2 * M) k) =
        c (1 + l) * (if 1 + l = j then (M : ℝ) else 0) := fun l hl => by
      rw [Finset.mem_range] at hl
      rw [sum_cc M (1 + l) j (by omega) h, sum_sc M (1 + l) j (by omega) h, if_neg (show ¬(1 + l = 0 ∨ 1 + l = M) by omega), mul_zero, add_zero]
    rw [Finset.sum_congr rfl e, sum_pick]
    by_cases h0 : j = 0
    · subst h0
      rw [if_neg (show ¬(1 ≤ 0 ∧ 0 ≤ M - 1) by omega), if_neg hM.ne']
      simp
      field_simp
    · by_cases h1 : j = M
      · subst h1
        rw [if_neg (show ¬(1 ≤ j ∧ j ≤ j - 1) by omega), if_neg (show ¬0 = j by omega)]
        simp
        field_simp
      · rw [if_pos (show 1 ≤ j ∧ j ≤ M - 1 by omega), if_neg (show ¬0 = j by omega), if_neg (show ¬M = j by omega)]
        field_simp
        ring
  · rw [key fun k => sin ((j - M : ℕ) * angle (2 * M) k)]
    have z : ∀ i ≤ M, ∑ k ∈ Finset.range (2 * M), cos (i * angle (2 * M) k) * sin ((j - M : ℕ) * angle (2 * M) k) = 0 := fun i hi => by
      rw [← sum_sc M (j - M) i (by omega) hi]
      exact Finset.sum_congr rfl fun k _ => mul_comm _ _
    rw [z 0 (by omega), z M le_rfl]
    have e : ∀ l ∈ Finset.range (M - 1), c (1 + l) * ∑ k ∈ Finset.range (2 * M), cos ((1 + l : ℕ) * angle (2 * M) k) * sin ((j - M : ℕ) * angle (2 * M) k) +
        c (M + (1 + l)) * ∑ k ∈ Finset.range (2 * M), sin ((1 + l : ℕ) * angle (2 * M) k) * sin ((j - M : ℕ) * angle (2 * M) k) =
        (fun i => c (M + i)) (1 + l) * (if 1 + l = j - M then (M : ℝ) else 0) := fun l hl => by
      rw [Finset.mem_range] at hl
      rw [z (1 + l) (by omega), sum_ss M (1 + l) (j - M) (by omega) (by omega) (by omega), mul_zero, zero_add]
    rw [Finset.sum_congr rfl e, sum_pick _ (fun i => c (M + i)), if_pos (by omega), show M + (j - M) = j by omega]
    field_simp
    ring

/-- The series computed from the values of a series is the series. -/
theorem trig_fwd (M : ℕ) (hM : 0 < M) (c u : ℕ → ℝ) (hu : ∀ k < 2 * M, u k = trig M c (angle (2 * M) k)) (x : ℝ) :
    trig M (fourft u (2 * M) false) x = trig M c x := trig_congr hM (fwd_trig M hM c u hu) x

/-- Trigonometric polynomials are series. -/
theorem isTrig_iff (M : ℕ) (hM : 0 < M) (g : ℝ → ℝ) : IsTrig (2 * M) g ↔ ∃ c : ℕ → ℝ, ∀ x, g x = trig M c x := by
  obtain ⟨m, rfl⟩ : ∃ m, M = m + 1 := ⟨M - 1, by omega⟩
  simp only [IsTrig, Nat.mul_div_cancel_left _ two_pos]
  constructor
  · rintro ⟨a, b, h⟩
    refine ⟨fun j => if j = 0 then 2 * a 0 else if j < m + 1 then a j else if j = m + 1 then 2 * a (m + 1) else b (j - (m + 1)), fun x => ?_⟩
    rw [h, trig, Finset.sum_range_succ, Finset.sum_range_succ', Finset.sum_range_succ' (fun l => b l * sin (l * x))]
    simp only [Nat.add_sub_cancel, Finset.sum_add_distrib]
    have e1 : ∀ l ∈ Finset.range m, (if 1 + l = 0 then 2 * a 0 else if 1 + l < m + 1 then a (1 + l) else if 1 + l = m + 1 then 2 * a (m + 1) else b (1 + l - (m + 1))) * cos ((1 + l : ℕ) * x) =
        a (l + 1) * cos ((l + 1 : ℕ) * x) := fun l hl => by
      rw [Finset.mem_range] at hl
      rw [if_neg (by omega), if_pos (by omega), add_comm 1 l]
    have e2 : ∀ l ∈ Finset.range m, (if m + 1 + (1 + l) = 0 then 2 * a 0 else if m + 1 + (1 + l) < m + 1 then a (m + 1 + (1 + l)) else if m + 1 + (1 + l) = m + 1 then 2 * a (m + 1) else b (m + 1 + (1 + l) - (m + 1))) * sin ((1 + l : ℕ) * x) =
        b (l + 1) * sin ((l + 1 : ℕ) * x) := fun l hl => by
      rw [if_neg (by omega), if_neg (by omega), if_neg (by omega), show m + 1 + (1 + l) - (m + 1) = l + 1 by omega, add_comm 1 l]
    rw [Finset.sum_congr rfl e1, Finset.sum_congr rfl e2]
    simp
    ring
  · rintro ⟨c, h⟩
    refine ⟨fun j => if j = 0 then c 0 / 2 else if j < m + 1 then c j else c (m + 1) / 2, fun j => c (m + 1 + j), fun x => ?_⟩
    rw [h, trig, Finset.sum_range_succ, Finset.sum_range_succ', Finset.sum_range_succ' (fun l => c (m + 1 + l) * sin (l * x))]
    simp only [Nat.add_sub_cancel, Finset.sum_add_distrib]
    have e1 : ∀ l ∈ Finset.range m, (if l + 1 = 0 then c 0 / 2 else if l + 1 < m + 1 then c (l + 1) else c (m + 1) / 2) * cos ((l + 1 : ℕ) * x) =
        c (1 + l) * cos ((1 + l : ℕ) * x) := fun l hl => by
      rw [Finset.mem_range] at hl
      rw [if_neg (by omega), if_pos (by omega), add_comm 1 l]
    have e2 : ∀ l ∈ Finset.range m, c (m + 1 + (l + 1)) * sin ((l + 1 : ℕ) * x) = c (m + 1 + (1 + l)) * sin ((1 + l : ℕ) * x) := fun l _ => by
      rw [add_comm 1 l]
    rw [Finset.sum_congr rfl e1, Finset.sum_congr rfl e2]
    simp
    ring

/-- Data at the nodes are the values of a series. -/
theorem exists_trig (M : ℕ) (hM : 0 < M) (u : ℕ → ℝ) : ∃ c : ℕ → ℝ, ∀ k < 2 * M, u k = trig M c (angle (2 * M) k) := by
  let ext (c : Fin (2 * M) → ℝ) : ℕ → ℝ := fun j => if h : j < 2 * M then c ⟨j, h⟩ else 0
  let V : (Fin (2 * M) → ℝ) →ₗ[ℝ] (Fin (2 * M) → ℝ) :=
    { toFun := fun c k => trig M (ext c) (angle (2 * M) k)
      map_add' := fun c c' => by
        funext k
        have e : ∀ j, ext (c + c') j = ext c j + ext c' j := fun j => by
          simp only [ext]
          split_ifs <;> simp
        simp only [trig, e, Pi.add_apply, add_mul, Finset.sum_add_distrib]
        ring
      map_smul' := fun a c => by
        funext k
        have e : ∀ j, ext (a • c) j = a * ext c j := fun j => by
          simp only [ext]
          split_ifs <;> simp
        simp only [trig, e, Pi.smul_apply, smul_eq_mul, RingHom.id_apply, mul_add, Finset.mul_sum]
        congr 1
        · ring
        · exact Finset.sum_congr rfl fun l _ => by ring }
  have inj : Function.Injective V := by
    intro c c' h
    funext j
    let w : ℕ → ℝ := fun k => trig M (ext c) (angle (2 * M) k)
    have h1 := fwd_trig M hM (ext c) w (fun k _ => rfl) j j.2
    have h2 := fwd_trig M hM (ext c') w (fun k hk => congrFun h ⟨k, hk⟩) j j.2
    have h3 := h1.symm.trans h2
    simpa [ext] using h3
  obtain ⟨c, hc⟩ := LinearMap.injective_iff_surjective.1 inj fun k => u k
  exact ⟨ext c, fun k hk => (congrFun hc ⟨k, hk⟩).symm⟩

/-! ## Derivatives -/

/-- Derivative of a series. -/
noncomputable def trigD (M : ℕ) (c : ℕ → ℝ) (x : ℝ) : ℝ :=
  1 / 2 * (c M * (-sin (M * x) * M)) + ∑ l ∈ Finset.range (M - 1), (c (1 + l) * (-sin ((1 + l : ℕ) * x) * (1 + l : ℕ)) + c (M + (1 + l)) * (cos ((1 + l : ℕ) * x) * (1 + l : ℕ)))

/-- Second derivative of a series. -/
noncomputable def trigDD (M : ℕ) (c : ℕ → ℝ) (x : ℝ) : ℝ :=
  1 / 2 * (c M * (-cos (M * x) * M ^ 2)) + ∑ l ∈ Finset.range (M - 1), (c (1 + l) * (-cos ((1 + l : ℕ) * x) * (1 + l : ℕ) ^ 2) + c (M + (1 + l)) * (-sin ((1 + l : ℕ) * x) * (1 + l : ℕ) ^ 2))

theorem hasDerivAt_cos_mul (a x : ℝ) : HasDerivAt (fun x => cos (a * x)) (-sin (a * x) * a) x := by
  have h := (Real.hasDerivAt_cos (a * x)).comp x ((hasDerivAt_id x).const_mul a)
  exact h.congr_deriv (by simp)

theorem hasDerivAt_sin_mul (a x : ℝ) : HasDerivAt (fun x => sin (a * x)) (cos (a * x) * a) x := by
  have h := (Real.hasDerivAt_sin (a * x)).comp x ((hasDerivAt_id x).const_mul a)
  exact h.congr_deriv (by simp)

theorem hasDerivAt_trig (M : ℕ) (c : ℕ → ℝ) (x : ℝ) : HasDerivAt (trig M c) (trigD M c x) x := by
  have h1 : HasDerivAt (fun x => 1 / 2 * (c 0 + c M * cos (M * x))) (1 / 2 * (c M * (-sin (M * x) * M))) x :=
    (((hasDerivAt_cos_mul M x).const_mul (c M)).const_add (c 0)).const_mul (1 / 2)
  refine h1.add (HasDerivAt.fun_sum fun l _ => ?_)
  exact ((hasDerivAt_cos_mul _ x).const_mul _).add ((hasDerivAt_sin_mul _ x).const_mul _)

theorem hasDerivAt_trigD (M : ℕ) (c : ℕ → ℝ) (x : ℝ) : HasDerivAt (trigD M c) (trigDD M c x) x := by
  have h1 : HasDerivAt (fun x => 1 / 2 * (c M * (-sin (M * x) * M))) (1 / 2 * (c M * (-cos (M * x) * M ^ 2))) x := by
    have h := ((((hasDerivAt_sin_mul M x).neg).mul_const (M : ℝ)).const_mul (c M)).const_mul (1 / 2 : ℝ)
    refine h.congr_deriv ?_
    ring
  refine h1.add (HasDerivAt.fun_sum fun l _ => ?_)
  have h2 := (((hasDerivAt_sin_mul ((1 + l : ℕ) : ℝ) x).neg.mul_const ((1 + l : ℕ) : ℝ)).const_mul (c (1 + l)))
  have h3 := (((hasDerivAt_cos_mul ((1 + l : ℕ) : ℝ) x).mul_const ((1 + l : ℕ) : ℝ)).const_mul (c (M + (1 + l))))
  refine (h2.add h3).congr_deriv ?_
  ring

theorem fourder_trig (M k : ℕ) (hM : 0 < M) (c d : ℕ → ℝ) : trig M (fourder c d (2 * M)) (angle (2 * M) k) = trigD M c (angle (2 * M) k) := by
  simp only [fourder, Nat.mul_div_cancel_left M two_pos]
  rw [foldl_pairs M (M - 1) le_rfl fun l => c (l + M) * l, trig, trigD, sin_M_angle]
  simp only [Function.update_apply]
  rw [if_neg (show ¬(1 ≤ 0 ∧ 0 ≤ M - 1) by omega), if_neg (show ¬(M + 1 ≤ 0 ∧ 0 ≤ M + (M - 1)) by omega), if_neg (show ¬0 = M by omega),
    if_neg (show ¬(1 ≤ M ∧ M ≤ M - 1) by omega), if_neg (show ¬(M + 1 ≤ M ∧ M ≤ M + (M - 1)) by omega)]
  simp only [if_true]
  congr 1
  · simp
  · refine Finset.sum_congr rfl fun l hl => ?_
    rw [Finset.mem_range] at hl
    rw [if_pos (by omega), if_neg (by omega), if_pos (by omega), show M + (1 + l) - M = 1 + l by omega, add_comm (1 + l) M]
    ring

theorem foldl_fourder2 (c : ℕ → ℝ) (M m : ℕ) (hm : m ≤ M) (u : ℕ → ℝ) :
    (List.range' 1 m).foldl (fun (d2u : ℕ → ℝ) (l : ℕ) =>
      if l < M then Function.update (Function.update d2u l (-c l * ((l : ℝ) * l))) (l + M) (-c (l + M) * ((l : ℝ) * l))
      else Function.update d2u l (-c l * ((l : ℝ) * l))) u =
      fun j => if 1 ≤ j ∧ j ≤ m then -c j * ((j : ℝ) * j) else if M + 1 ≤ j ∧ j ≤ M + m ∧ j < 2 * M then -c j * (((j - M : ℕ) : ℝ) * (j - M : ℕ)) else u j := by
  induction m with
  | zero =>
    funext j
    simp only [List.range'_zero, List.foldl_nil]
    rw [if_neg (by omega), if_neg (by omega)]
  | succ m ih =>
    rw [List.range'_1_concat, List.foldl_append, ih (by omega)]
    funext j
    simp only [List.foldl_cons, List.foldl_nil]
    by_cases hM : 1 + m < M
    · rw [if_pos hM]
      simp only [Function.update_apply]
      by_cases h1 : j = 1 + m + M
      · subst h1
        rw [if_pos rfl, if_neg (by omega), if_pos (by omega), show 1 + m + M - M = 1 + m by omega]
      · rw [if_neg h1]
        by_cases h2 : j = 1 + m
        · subst h2
          rw [if_pos rfl, if_pos (by omega)]
        · rw [if_neg h2]
          split_ifs <;> first | rfl | (exfalso; omega)
    · rw [if_neg hM]
      simp only [Function.update_apply]
      by_cases h2 : j = 1 + m
      · subst h2
        rw [if_pos rfl, if_pos (by omega)]
      · rw [if_neg h2]
        split_ifs <;> first | rfl | (exfalso; omega)

theorem fourder2_trig (M : ℕ) (hM : 0 < M) (c d : ℕ → ℝ) (x : ℝ) : trig M (fourder2 c d (2 * M)) x = trigDD M c x := by
  simp only [fourder2, Nat.mul_div_cancel_left M two_pos]
  rw [foldl_fourder2 c M M le_rfl, trig, trigDD]
  rw [if_neg (show ¬(1 ≤ 0 ∧ 0 ≤ M) by omega), if_neg (show ¬(M + 1 ≤ 0 ∧ 0 ≤ M + M ∧ 0 < 2 * M) by omega), if_pos (show 1 ≤ M ∧ M ≤ M by omega)]
  congr 1
  · simp
    ring
  · refine Finset.sum_congr rfl fun l hl => ?_
    rw [Finset.mem_range] at hl
    rw [if_pos (by omega), if_neg (by omega), if_pos (by omega), show M + (1 + l) - M = 1 + l by omega]
    ring

theorem fourLine_eq (M : ℕ) (c u : ℕ → ℝ) (hu : ∀ k < 2 * M, u k = trig M c (angle (2 * M) k)) (k : ℕ) (hk : k < 2 * M) :
    (fourLine u (2 * M)).1 k = trigD M c (angle (2 * M) k) ∧ (fourLine u (2 * M)).2 k = trigDD M c (angle (2 * M) k) := by
  have hM : 0 < M := by omega
  have e := fwd_trig M hM c u hu
  constructor
  · simp only [fourLine]
    rw [fourft_inv _ M k hM hk, fourder_trig M k hM]
    have h1 := (hasDerivAt_trig M (fourft u (2 * M) false) (angle (2 * M) k)).congr_of_eventuallyEq (f₁ := trig M c)
      (Filter.Eventually.of_forall fun x => (trig_congr hM e x).symm)
    exact h1.unique (hasDerivAt_trig M c _)
  · simp only [fourLine]
    rw [fourft_inv _ M k hM hk, fourder2_trig M hM]
    have h0 : trigD M c = trigD M (fourft u (2 * M) false) := by
      funext x
      have h1 := (hasDerivAt_trig M (fourft u (2 * M) false) x).congr_of_eventuallyEq (f₁ := trig M c)
        (Filter.Eventually.of_forall fun x => (trig_congr hM e x).symm)
      exact (hasDerivAt_trig M c _).unique h1
    have h2 := hasDerivAt_trigD M (fourft u (2 * M) false) (angle (2 * M) k)
    rw [← h0] at h2
    exact h2.unique (hasDerivAt_trigD M c _)

end Verif.TP
