import Verif.TP.Tensor
import Verif.TP.Extremes

/-!
# C94, C95: the spectral transforms of TwoPunctures
-/
namespace Verif.TP
open Real Polynomial

/-! ## C94: transforms and evaluation -/

/-- C94: the Chebyshev transform of the values of a polynomial of degree less than `n` at the `n` collocation points gives coefficients from which
`chebev` evaluates that polynomial, at every point; after `chder` it evaluates the derivative. -/
theorem C94_chebyshev_transform (n : ℕ) (hn : 0 < n) (g : ℝ → ℝ) (hg : IsPoly n g) (u : ℕ → ℝ) (hu : ∀ k < n, u k = g (node n k)) (d : ℕ → ℝ) (x : ℝ) :
    chebev (-1) 1 (chebft_Zeros u n false) n x = g x ∧ chebev (-1) 1 (chder (chebft_Zeros u n false) d n) n x = deriv g x := by
  refine ⟨cheb_eval hn hg u hu x, ?_⟩
  obtain ⟨p, hp, hp', h1, _⟩ := hg.deriv_eq
  rw [chebev_unit _ n hn, series_chder n hn, series_fwd n hn p hp u fun k hk => by rw [hu k hk, hp'], h1]

/-- C94: for arbitrary data the transform and its inverse undo each other. -/
theorem C94_chebyshev_roundtrip (n : ℕ) (u : ℕ → ℝ) (k : ℕ) (hk : k < n) :
    chebft_Zeros (chebft_Zeros u n false) n true k = u k ∧ chebft_Zeros (chebft_Zeros u n true) n false k = u k := by
  constructor
  · obtain ⟨p, hp, hu⟩ := exists_interpolant n u
    rw [inv_eq n _ k hk, series_fwd n (by omega) p hp u hu, hu k hk]
  · exact fwd_series n u _ (fun j hj => inv_eq n u j hj) k hk

/-- C94: the same for the variant on the extremal points. -/
theorem C94_chebyshev_extremes (n : ℕ) (hn : 1 < n) (g : ℝ → ℝ) (hg : IsPoly n g) (u : ℕ → ℝ) (hu : ∀ k < n, u k = g (extreme n k)) :
    (∀ x, chebev (-1) 1 (chebft_Extremes u n false) n x = g x) ∧ (∀ k < n, chebft_Extremes (chebft_Extremes u n false) n true k = u k) ∧
      ∀ (c : ℕ → ℝ), ∀ k < n, chebft_Extremes (chebft_Extremes c n true) n false k = c k := by
  obtain ⟨p, hp, hp'⟩ := hg
  obtain ⟨c, rfl⟩ := exists_series n (by omega) p hp
  have h := extremes_fwd_series n hn c u fun k hk => by rw [hu k hk, hp']
  have e := series_congr (by omega) h
  refine ⟨fun x => ?_, fun k hk => ?_, fun c k hk => ?_⟩
  · rw [chebev_unit _ n (by omega), e, hp']
  · rw [extremes_inv n _ k hk, e, hu k hk, hp']
  · exact extremes_fwd_series n hn c _ (fun j hj => extremes_inv n c j hj) k hk

/-- C94: the Fourier transform of the values of a resolved trigonometric polynomial at the equidistant points gives coefficients from which
`fourev` evaluates it at every point; after `fourder2` it evaluates the second derivative, after `fourder` the first derivative at the points. -/
theorem C94_fourier_transform (M : ℕ) (hM : 0 < M) (g : ℝ → ℝ) (hg : IsTrig (2 * M) g) (u : ℕ → ℝ) (hu : ∀ k < 2 * M, u k = g (angle (2 * M) k)) (d : ℕ → ℝ) :
    (∀ x, fourev (fourft u (2 * M) false) (2 * M) x = g x) ∧
      (∀ x, fourev (fourder2 (fourft u (2 * M) false) d (2 * M)) (2 * M) x = deriv (deriv g) x) ∧
      ∀ k < 2 * M, fourev (fourder (fourft u (2 * M) false) d (2 * M)) (2 * M) (angle (2 * M) k) = deriv g (angle (2 * M) k) := by
  have e : ∀ x, trig M (fourft u (2 * M) false) x = g x := fun x => by rw [← fourev_eq]; exact four_eval hM hg u hu x
  have h1 : g = trig M (fourft u (2 * M) false) := funext fun x => (e x).symm
  have h2 : deriv g = trigD M (fourft u (2 * M) false) := by
    funext x
    conv_lhs => rw [h1]
    exact (hasDerivAt_trig M _ x).deriv
  refine ⟨four_eval hM hg u hu, fun x => ?_, fun k _ => ?_⟩
  · rw [fourev_eq, fourder2_trig M hM, h2, (hasDerivAt_trigD M _ x).deriv]
  · rw [fourev_eq, fourder_trig M k hM, h2]

/-- C94: for arbitrary data the Fourier transform and its inverse undo each other. -/
theorem C94_fourier_roundtrip (M : ℕ) (u : ℕ → ℝ) (k : ℕ) (hk : k < 2 * M) :
    fourft (fourft u (2 * M) false) (2 * M) true k = u k ∧ fourft (fourft u (2 * M) true) (2 * M) false k = u k := by
  have hM : 0 < M := by omega
  constructor
  · obtain ⟨c, hu⟩ := exists_trig M hM u
    rw [fourft_inv _ M k hM hk, trig_fwd M hM c u hu, hu k hk]
  · exact fwd_trig M hM u _ (fun j hj => fourft_inv u M j hM hj) k hk

/-- C94: whatever data the grid holds, exactly one resolved function has these values; the evaluation from the grid data and the evaluation from the
stored coefficients both return its value, at every point. -/
theorem C94_grid_evaluation (n1 n2 M : ℕ) (h1 : 0 < n1) (h2 : 0 < n2) (hM : 0 < M) (v cf : ℤ → ℝ) :
    ∃ f, (Resolved n1 n2 (2 * M) f ∧ ∀ i < n1, ∀ j < n2, ∀ k < 2 * M, f (node n1 i) (node n2 j) (angle (2 * M) k) = v (Index 0 i j k 1 n1 n2 (2 * M : ℕ))) ∧
      (∀ f', (Resolved n1 n2 (2 * M) f' ∧ ∀ i < n1, ∀ j < n2, ∀ k < 2 * M, f' (node n1 i) (node n2 j) (angle (2 * M) k) = v (Index 0 i j k 1 n1 n2 (2 * M : ℕ))) → f' = f) ∧
      ∀ A B phi, PunctEvalAtArbitPosition v 0 A B phi 1 n1 n2 (2 * M) = f A B phi ∧
        PunctEvalAtArbitPositionFast (SpecCoef n1 n2 (2 * M) 0 v cf) 0 A B phi 1 n1 n2 (2 * M) = f A B phi := by
  obtain ⟨f, hf, e⟩ := exists_resolved n1 n2 M hM fun i j k => v (Index 0 i j k 1 n1 n2 (2 * M : ℕ))
  have ev : ∀ f', Resolved n1 n2 (2 * M) f' → (∀ i < n1, ∀ j < n2, ∀ k < 2 * M, f' (node n1 i) (node n2 j) (angle (2 * M) k) = v (Index 0 i j k 1 n1 n2 (2 * M : ℕ))) →
      ∀ A B phi, PunctEvalAtArbitPosition v 0 A B phi 1 n1 n2 (2 * M) = f' A B phi := fun f' hf' h A B phi =>
    PunctEval_eq (ivar := 0) (nvar := 1) h1 h2 hM hf' v (fun i hi j hj k hk => (h i hi j hj k hk).symm) A B phi
  refine ⟨f, ⟨hf, e⟩, fun f' h' => ?_, fun A B phi => ⟨ev f hf e A B phi, ?_⟩⟩
  · funext A B phi
    rw [← ev f' h'.1 h'.2, ev f hf e]
  · exact PunctEvalFast_eq h1 h2 hM hf v cf (fun i hi j hj k hk => (e i hi j hj k hk).symm) A B phi

/-- A function that the grid `3 × 2 × 4` resolves. -/
theorem example_resolved : Resolved 3 2 4 fun A B phi => (A ^ 2 + A) * B * sin phi + 2 where
  inA B phi := by
    refine ⟨C (B * sin phi) * (X ^ 2 + X) + C 2, ?_, fun x => by simp; ring⟩
    refine lt_of_le_of_lt (b := ((2 : ℕ) : WithBot ℕ)) ?_ (by norm_num)
    compute_degree
    all_goals norm_num
  inB A phi := by
    refine ⟨C ((A ^ 2 + A) * sin phi) * X + C 2, ?_, fun x => by simp; ring⟩
    refine lt_of_le_of_lt (b := ((1 : ℕ) : WithBot ℕ)) ?_ (by norm_num)
    compute_degree
    all_goals norm_num
  inPhi A B := ⟨fun l => if l = 0 then 2 else 0, fun l => if l = 1 then (A ^ 2 + A) * B else 0, fun x => by simp [Finset.sum_range_succ]; ring⟩

example (d : ℕ → ℝ) : chebev (-1) 1 (chder (chebft_Zeros (fun k => (node 3 k) ^ 2) 3 false) d 3) 3 (1 / 2) = 1 := by
  rw [(C94_chebyshev_transform 3 (by norm_num) (fun x => x ^ 2) ⟨X ^ 2, by rw [degree_X_pow]; norm_num, fun x => by simp⟩ _ (fun k _ => rfl) d (1 / 2)).2]
  simp

example : ∃ g, IsPoly 3 g ∧ g 2 = 4 := ⟨fun x => x ^ 2, ⟨X ^ 2, by rw [degree_X_pow]; norm_num, fun x => by simp⟩, by norm_num⟩

example : IsTrig 4 fun x => 3 + sin x + 5 * cos (2 * x) :=
  ⟨fun l => if l = 0 then 3 else if l = 2 then 5 else 0, fun l => if l = 1 then 1 else 0, fun x => by simp [Finset.sum_range_succ]; ring⟩

/-! ## C95: derivatives on the grid -/

/-- C95: if the values in `d0` are those of functions that the grid resolves, `Derivatives_AB3` leaves `d0` and everything outside the grid unchanged
and stores all first and second derivatives of these functions at all nodes, for every variable. -/
theorem C95_derivatives (nvar n1 n2 M : ℕ) (fs : ℕ → ℝ → ℝ → ℝ → ℝ) (hf : ∀ ivar < nvar, Resolved n1 n2 (2 * M) (fs ivar)) (v : Derivs)
    (h0 : ∀ ivar < nvar, ∀ i < n1, ∀ j < n2, ∀ k < 2 * M,
      v.d0 (Index ivar i j k nvar n1 n2 (2 * M : ℕ)) = fs ivar (node n1 i) (node n2 j) (angle (2 * M) k)) :
    let w := Derivatives_AB3 nvar n1 n2 (2 * M) v
    w.d0 = v.d0 ∧
    (∀ ivar < nvar, ∀ i < n1, ∀ j < n2, ∀ k < 2 * M,
      let x := Index ivar i j k nvar n1 n2 (2 * M : ℕ)
      let val (g : ℝ → ℝ → ℝ → ℝ) := g (node n1 i) (node n2 j) (angle (2 * M) k)
      let f := fs ivar
      w.d1 x = val (dA f) ∧ w.d2 x = val (dB f) ∧ w.d3 x = val (dPhi f) ∧
      w.d11 x = val (dA (dA f)) ∧ w.d12 x = val (dB (dA f)) ∧ w.d13 x = val (dPhi (dA f)) ∧
      w.d22 x = val (dB (dB f)) ∧ w.d23 x = val (dPhi (dB f)) ∧ w.d33 x = val (dPhi (dPhi f))) ∧
    ∀ x, (∀ ivar < nvar, ∀ i < n1, ∀ j < n2, ∀ k < 2 * M, x ≠ Index ivar i j k nvar n1 n2 (2 * M : ℕ)) →
      w.d1 x = v.d1 x ∧ w.d2 x = v.d2 x ∧ w.d3 x = v.d3 x ∧ w.d11 x = v.d11 x ∧ w.d12 x = v.d12 x ∧ w.d13 x = v.d13 x ∧
      w.d22 x = v.d22 x ∧ w.d23 x = v.d23 x ∧ w.d33 x = v.d33 x := by
  intro w
  have e := Derivatives_eq nvar n1 n2 M fs hf v h0
  refine ⟨by simp only [w, e], fun ivar hv i hi j hj k hk => ?_, fun x hx => ?_⟩
  · have m : Index ivar i j k nvar n1 n2 (2 * M : ℕ) ∈ grid nvar nvar n1 n2 (2 * M) := ⟨ivar, hv, i, hi, j, hj, k, hk, rfl⟩
    simp only [w, e, patch_mem m, truth_index hv hi hj hk, atNode, and_self]
  · have m : x ∉ grid nvar nvar n1 n2 (2 * M) := fun ⟨ivar, hv, i, hi, j, hj, k, hk, h⟩ => hx ivar hv i hi j hj k hk h
    simp only [w, e, patch_notMem m, and_self]

/-- C95: the premise of `C95_derivatives` holds for every content of `d0`. -/
theorem C95_interpolant_exists (nvar n1 n2 M : ℕ) (hM : 0 < M) (d0 : ℤ → ℝ) :
    ∃ fs : ℕ → ℝ → ℝ → ℝ → ℝ, (∀ ivar < nvar, Resolved n1 n2 (2 * M) (fs ivar)) ∧ ∀ ivar < nvar, ∀ i < n1, ∀ j < n2, ∀ k < 2 * M,
      d0 (Index ivar i j k nvar n1 n2 (2 * M : ℕ)) = fs ivar (node n1 i) (node n2 j) (angle (2 * M) k) := by
  have h := fun ivar : ℕ => exists_resolved n1 n2 M hM fun i j k => d0 (Index ivar i j k nvar n1 n2 (2 * M : ℕ))
  choose fs hf e using h
  exact ⟨fs, fun ivar _ => hf ivar, fun ivar _ i hi j hj k hk => (e ivar i hi j hj k hk).symm⟩

theorem mixed_range {a b n m : ℤ} (h1 : 0 ≤ a) (h2 : a < n) (h3 : 0 ≤ b) (h4 : b < m) : 0 ≤ a + n * b ∧ a + n * b < n * m := by
  constructor <;> nlinarith

theorem mixed_inj {a b a' b' n : ℤ} (h1 : 0 ≤ a) (h2 : a < n) (h3 : 0 ≤ a') (h4 : a' < n) (h : a + n * b = a' + n * b') : a = a' ∧ b = b' := by
  have e : a = a' := by
    have h5 := congrArg (· % n) h
    simp only [Int.add_mul_emod_self_left, Int.emod_eq_of_lt h1 h2, Int.emod_eq_of_lt h3 h4] at h5
    exact h5
  subst e
  have hn : n ≠ 0 := by omega
  exact ⟨rfl, mul_left_cancel₀ hn (by linarith)⟩

theorem Index_in {ivar i j k nvar n1 n2 n3 : ℤ} (hi : 0 ≤ i) (hi' : i < n1) (hj : 0 ≤ j) (hj' : j < n2) (hk : 0 ≤ k) (hk' : k < n3) :
    Index ivar i j k nvar n1 n2 n3 = ivar + nvar * (i + n1 * (j + n2 * k)) := by
  simp only [Index, if_neg (not_lt.2 hi), if_neg (not_lt.2 hj), if_neg (not_lt.2 hk), if_neg (show ¬i ≥ n1 by omega), if_neg (show ¬j ≥ n2 by omega),
    if_neg (show ¬k ≥ n3 by omega)]

/-- C95: different nodes and variables have different indices, and the indices of all nodes lie inside the arrays of `nvar * n1 * n2 * n3` elements. -/
theorem C95_index_injective (nvar n1 n2 n3 : ℤ) {ivar i j k ivar' i' j' k' : ℤ} (hv : 0 ≤ ivar ∧ ivar < nvar) (hi : 0 ≤ i ∧ i < n1) (hj : 0 ≤ j ∧ j < n2)
    (hk : 0 ≤ k ∧ k < n3) (hv' : 0 ≤ ivar' ∧ ivar' < nvar) (hi' : 0 ≤ i' ∧ i' < n1) (hj' : 0 ≤ j' ∧ j' < n2) (hk' : 0 ≤ k' ∧ k' < n3) :
    (0 ≤ Index ivar i j k nvar n1 n2 n3 ∧ Index ivar i j k nvar n1 n2 n3 < nvar * (n1 * (n2 * n3))) ∧
      (Index ivar i j k nvar n1 n2 n3 = Index ivar' i' j' k' nvar n1 n2 n3 → ivar = ivar' ∧ i = i' ∧ j = j' ∧ k = k') := by
  rw [Index_in hi.1 hi.2 hj.1 hj.2 hk.1 hk.2, Index_in hi'.1 hi'.2 hj'.1 hj'.2 hk'.1 hk'.2]
  have r1 := mixed_range hj.1 hj.2 hk.1 hk.2
  have r2 := mixed_range hi.1 hi.2 r1.1 r1.2
  refine ⟨mixed_range hv.1 hv.2 r2.1 r2.2, fun h => ?_⟩
  obtain ⟨e1, h⟩ := mixed_inj hv.1 hv.2 hv'.1 hv'.2 h
  obtain ⟨e2, h⟩ := mixed_inj hi.1 hi.2 hi'.1 hi'.2 h
  obtain ⟨e3, e4⟩ := mixed_inj hj.1 hj.2 hj'.1 hj'.2 h
  exact ⟨e1, e2, e3, e4⟩

/-- The coordinate `A` or `B` of the point with index `i`, inside or outside the grid. -/
noncomputable def nodeZ (n i : ℤ) : ℝ := -cos (π * (2 * i + 1) / (2 * n))

theorem nodeZ_low (n i : ℤ) : nodeZ n (-(i + 1)) = nodeZ n i := by
  rw [nodeZ, nodeZ, ← cos_neg]
  congr 2
  push_cast
  ring

theorem nodeZ_high (n i : ℤ) (hn : n ≠ 0) : nodeZ n (2 * n - (i + 1)) = nodeZ n i := by
  have : (n : ℝ) ≠ 0 := by exact_mod_cast hn
  rw [nodeZ, nodeZ, ← cos_two_pi_sub]
  congr 2
  push_cast
  field_simp
  ring

/-- C95: for the neighbours across the boundaries that the finite differences use, `Index` gives the element of a node inside the grid that has the same
coordinates `A` and `B` and the same angle up to full turns. -/
theorem C95_index_neighbours (ivar i j k nvar n1 n2 n3 : ℤ) (hi : -n1 ≤ i) (hi' : i < 2 * n1) (hj : -n2 ≤ j) (hj' : j < 2 * n2) (hk : -n3 ≤ k) (hk' : k < 2 * n3) :
    ∃ i1 j1 k1 m : ℤ, (0 ≤ i1 ∧ i1 < n1) ∧ (0 ≤ j1 ∧ j1 < n2) ∧ (0 ≤ k1 ∧ k1 < n3) ∧ Index ivar i j k nvar n1 n2 n3 = Index ivar i1 j1 k1 nvar n1 n2 n3 ∧
      nodeZ n1 i1 = nodeZ n1 i ∧ nodeZ n2 j1 = nodeZ n2 j ∧ 2 * π * k1 / n3 = 2 * π * k / n3 + 2 * π * m := by
  have line : ∀ n i : ℤ, -n ≤ i → i < 2 * n → ∃ i1 : ℤ, (0 ≤ i1 ∧ i1 < n) ∧ nodeZ n i1 = nodeZ n i ∧
      i1 = (if (if i < 0 then -(i + 1) else i) ≥ n then 2 * n - ((if i < 0 then -(i + 1) else i) + 1) else (if i < 0 then -(i + 1) else i)) := by
    intro n i h1 h2
    by_cases h : i < 0
    · refine ⟨-(i + 1), by omega, nodeZ_low n i, ?_⟩
      rw [if_pos h, if_neg (by omega)]
    · by_cases h3 : i ≥ n
      · refine ⟨2 * n - (i + 1), by omega, nodeZ_high n i (by omega), ?_⟩
        rw [if_neg h, if_pos h3]
      · refine ⟨i, by omega, rfl, ?_⟩
        rw [if_neg h, if_neg h3]
  obtain ⟨i1, ri, ci, ei⟩ := line n1 i hi hi'
  obtain ⟨j1, rj, cj, ej⟩ := line n2 j hj hj'
  have hn : (n3 : ℝ) ≠ 0 := by
    have : n3 ≠ 0 := by omega
    exact_mod_cast this
  have ak : ∃ k1 m : ℤ, (0 ≤ k1 ∧ k1 < n3) ∧ 2 * π * k1 / n3 = 2 * π * k / n3 + 2 * π * m ∧
      k1 = (if (if k < 0 then k + n3 else k) ≥ n3 then (if k < 0 then k + n3 else k) - n3 else (if k < 0 then k + n3 else k)) := by
    by_cases h : k < 0
    · refine ⟨k + n3, 1, by omega, ?_, ?_⟩
      · push_cast
        field_simp
      · rw [if_pos h, if_neg (by omega)]
    · by_cases h3 : k ≥ n3
      · refine ⟨k - n3, -1, by omega, ?_, ?_⟩
        · push_cast
          field_simp
          ring
        · rw [if_neg h, if_pos h3]
      · refine ⟨k, 0, by omega, by simp, ?_⟩
        rw [if_neg h, if_neg h3]
  obtain ⟨k1, m, rk, ck, ek⟩ := ak
  refine ⟨i1, j1, k1, m, ri, rj, rk, ?_, ci, cj, ck⟩
  rw [Index_in ri.1 ri.2 rj.1 rj.2 rk.1 rk.2, ei, ej, ek]
  rfl

/-- The mixed derivative of the example at the node `(0, 1, 1)`. -/
example (v : Derivs) (h0 : ∀ i : ℕ, i < 3 → ∀ j : ℕ, j < 2 → ∀ k : ℕ, k < 4 → v.d0 (Index 0 i j k 1 3 2 4) =
    ((node 3 i) ^ 2 + node 3 i) * node 2 j * sin (angle 4 k) + 2) :
    (Derivatives_AB3 1 3 2 4 v).d12 (Index 0 0 1 1 1 3 2 4) = (2 * node 3 0 + 1) * sin (angle 4 1) := by
  have h := (C95_derivatives 1 3 2 2 (fun _ A B phi => (A ^ 2 + A) * B * sin phi + 2) (fun _ _ => example_resolved) v (fun ivar hv i hi j hj k hk => by
    obtain rfl : ivar = 0 := by omega
    simpa using h0 i hi j hj k hk)).2.1 0 (by norm_num) 0 (by norm_num) 1 (by norm_num) 1 (by norm_num)
  have h2 := h.2.2.2.2.1
  norm_num at h2
  rw [h2]
  have e : dA (fun A B phi => (A ^ 2 + A) * B * sin phi + 2) = fun A B phi => (2 * A + 1) * B * sin phi := by
    funext A B phi
    have h1 := (((((hasDerivAt_id A).pow 2).add (hasDerivAt_id A)).mul_const B).mul_const (sin phi)).add_const 2
    rw [dA]
    refine (h1.congr_deriv (g' := (2 * A + 1) * B * sin phi) ?_).deriv
    simp
  rw [e, dB]
  have h3 := (((hasDerivAt_id (node 2 1)).const_mul (2 * node 3 0 + 1)).mul_const (sin (angle 4 1)))
  refine (h3.congr_deriv ?_).deriv
  simp

end Verif.TP
