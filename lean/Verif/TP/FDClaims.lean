import Verif.TP.PrecondClaims

/-! C100: the finite-difference Jacobian approximates the derivative of the residual. -/

namespace Verif.TP
open Real Verif.RefMetric Verif.BSSN Verif.Wave Verif.Initial
open scoped ContDiff

theorem sin_mid {n i : ℕ} (hi : i < n) : 0 < sin (π / n * (i + 0.5)) := by
  have hn : (0 : ℝ) < n := by exact_mod_cast Nat.pos_of_ne_zero (by omega)
  have hi' : (i : ℝ) + 1 ≤ n := by exact_mod_cast hi
  apply sin_pos_of_pos_of_lt_pi
  · positivity
  · rw [div_mul_eq_mul_div, div_lt_iff₀ hn]
    nlinarith [pi_pos]

/-- The difference formulas are exact for polynomials of second degree in the angles. -/
theorem fdJet_exact {f : ℝ → ℝ → ℝ → ℝ} (hf : ContDiff ℝ ∞ (unc f)) {n1 n2 n3 i j k : ℕ} (hi : i < n1) (hj : j < n2) (hk : k < n3) (dv : ℤ → ℝ)
    (hd : ∀ o ∈ stencil, dv (Index 0 (i + o.1) (j + o.2.1) (k + o.2.2) 1 n1 n2 n3) =
      taylor2 (fun al be phi => f (-cos al) (-cos be) phi) (π / n1 * (i + 0.5)) (π / n2 * (j + 0.5)) (2 * π / n3 * k) (π / n1 * o.1) (π / n2 * o.2.1) (2 * π / n3 * o.2.2)) :
    fdJet i j k n1 n2 n3 dv = jetABphi f (-cos (π / n1 * (i + 0.5))) (-cos (π / n2 * (j + 0.5))) (2 * π / n3 * k) := by
  have s1 := (sin_mid hi).ne'
  have s2 := (sin_mid hj).ne'
  have h1 : π / (n1 : ℝ) ≠ 0 := div_ne_zero pi_ne_zero (by exact_mod_cast (by omega : n1 ≠ 0))
  have h2 : π / (n2 : ℝ) ≠ 0 := div_ne_zero pi_ne_zero (by exact_mod_cast (by omega : n2 ≠ 0))
  have h3 : 2 * π / (n3 : ℝ) ≠ 0 := div_ne_zero (by positivity) (by exact_mod_cast (by omega : n3 ≠ 0))
  have hj' := jet_angles hf (π / n1 * (i + 0.5)) (π / n2 * (j + 0.5)) (2 * π / n3 * k)
  simp only [stencil, List.forall_mem_cons, List.not_mem_nil, false_imp_iff, implies_true, and_true] at hd
  obtain ⟨d1, d2, d3, d4, d5, d6, d7, d8, d9, d10, d11, d12, d13, d14, d15, d16, d17, d18, d19⟩ := hd
  simp only [fdJet]
  simp only [Int.cast_natCast]
  rw [d1, d2, d3, d4, d5, d6, d7, d8, d9, d10, d11, d12, d13, d14, d15, d16, d17, d18, d19]
  clear d1 d2 d3 d4 d5 d6 d7 d8 d9 d10 d11 d12 d13 d14 d15 d16 d17 d18 d19 dv
  simp only [taylor2]
  generalize hg : (fun al be phi => f (-cos al) (-cos be) phi) = g at hj' ⊢
  generalize 2 * π / (n3 : ℝ) = hp at *
  generalize π / (n1 : ℝ) = ha at *
  generalize π / (n2 : ℝ) = hb at *
  generalize ha * ((i : ℝ) + 0.5) = al at *
  generalize hb * ((j : ℝ) + 0.5) = be at *
  generalize hp * (k : ℝ) = phi at *
  generalize hU : jetABphi f (-cos al) (-cos be) phi = U at hj' ⊢
  obtain ⟨U0, U1, U2, U3, U11, U12, U13, U22, U23, U33⟩ := U
  simp only [jetABphi, Jet.mk.injEq] at hj' ⊢
  obtain ⟨e0, e1, e2, e3, e11, e12, e13, e22, e23, e33⟩ := hj'
  simp only [e1, e2, e3, e11, e12, e13, e22, e23, e33]
  have hs1 := sin_sq_add_cos_sq al
  have hh : (0.5 : ℝ) = 1 / 2 := by norm_num
  have hq : (0.25 : ℝ) = 1 / 4 := by norm_num
  rw [hh, hq]
  refine ⟨?_, ?_, ?_, ?_, ?_, ?_, ?_, ?_, ?_, ?_⟩
  · have : f (-cos al) (-cos be) phi = U0 := congrArg Jet.d0 hU
    push_cast
    rw [this]
    ring
  all_goals
    push_cast
    field_simp
    ring

theorem mid_eq (n i : ℕ) : π / n * ((i : ℝ) + 0.5) = π / 2 * (2 * i + 1) / n := by
  rw [show (0.5 : ℝ) = 1 / 2 by norm_num]
  ring

/-- **C100** (difference formulas).  Let `dv` be a resolved function `f`, `w = (A - 1) f` the function of the Cartesian position, and let the values of `dv` at the node and
at its 18 neighbours be those of the Taylor polynomial of second degree of `f` in the angles `al`, `be` and `phi`.  Then `JFD_times_dv` is a positive number times the
linearisation of the Hamiltonian constraint, `Δw - ⅞ A_ij A_ij ψ⁻⁸ w`, at the position of the node: what `J_times_dv` computes (C97). -/
theorem C100_differences (par : Par) (hb : 0 < par.par_b) {n1 n2 n3 i j k : ℕ} (hi : i < n1) (hj : j < n2) (hk : k < n3) {N1 N2 M : ℕ} (hM : 0 < M)
    (f : ℝ → ℝ → ℝ → ℝ) (hf : Resolved N1 N2 (2 * M) f) (w : Scal) (hw : Represents par.par_b f w) (u : Scal) (U : Derivs)
    (hU : U.get (Index 0 i j k 1 n1 n2 n3) = jetOf u (nodePos par.par_b n1 n2 n3 i j k)) (dv : ℤ → ℝ)
    (hd : ∀ a b c : ℤ, |a| ≤ 1 → |b| ≤ 1 → |c| ≤ 1 → (a = 0 ∨ b = 0 ∨ c = 0) → dv (Index 0 (i + a) (j + b) (k + c) 1 n1 n2 n3) =
      taylor2 (fun al be phi => f (-cos al) (-cos be) phi) (π * (2 * i + 1) / (2 * n1)) (π * (2 * j + 1) / (2 * n2)) (2 * π * k / n3) (π / n1 * a) (π / n2 * b) (2 * π / n3 * c)) :
    let x := nodePos par.par_b n1 n2 n3 i j k
    ∃ c, 0 < c ∧ c = (sin (π * (2 * i + 1) / (2 * n1)) * sin (π * (2 * j + 1) / (2 * n2))) ^ 3 ∧
      JFD_times_dv par i j k n1 n2 n3 dv U = c * (laplacian w x - 7 / 8 * (∑ i, ∑ j, curvature par i j x ^ 2) * (conformal par u x ^ 8)⁻¹ * w x) := by
  intro x
  have hx : x ∈ offPunctures par := offAxis_le par (nodePos_offAxis hb hi hj)
  refine ⟨FAC (π / 2 * (2 * i + 1) / n1) (π / 2 * (2 * j + 1) / n2), FAC_pos hi hj, ?_, ?_⟩
  · simp only [FAC]
    rw [show π / 2 * (2 * i + 1) / n1 = π * (2 * i + 1) / (2 * n1) by ring, show π / 2 * (2 * j + 1) / n2 = π * (2 * j + 1) / (2 * n2) by ring]
    ring
  · have e := fdJet_exact (hf.contDiff hM) hi hj hk dv fun o ho => by
      obtain ⟨o1, o2, o3⟩ := stencil_near ho
      have h0 : o.1 = 0 ∨ o.2.1 = 0 ∨ o.2.2 = 0 := by
        revert o
        simp [stencil]
      rw [hd o.1 o.2.1 o.2.2 (abs_le.2 o1) (abs_le.2 o2) (abs_le.2 o3) h0, mid_eq, mid_eq]
      congr 1 <;> ring
    simp only [JFD_times_dv]
    rw [if_neg (show ¬(k : ℤ) < 0 by omega), if_neg (show ¬(k : ℤ) ≥ n3 by omega), e, hU]
    simp only [Int.cast_natCast, mid_eq, al_eq]
    rw [jet_position hb hM hf hw _ (node_mem hi) (node_mem hj)]
    have ep : position par.par_b (node n1 i) (node n2 j) (2 * π / n3 * k) = x := by
      simp only [x, nodePos, angle]
      congr 1
      ring
    simp only [ep]
    rw [Lin_eq hx, mul_comm]

/-- The hypotheses hold for an interior node and every resolved function: the elements of the stencil are distinct, so that they can be given the values of the Taylor
polynomial. -/
example : ∃ dv : ℤ → ℝ, ∀ a b c : ℤ, |a| ≤ 1 → |b| ≤ 1 → |c| ≤ 1 → (a = 0 ∨ b = 0 ∨ c = 0) → dv (Index 0 (2 + a) (1 + b) (2 + c) 1 5 4 6) =
    taylor2 (fun al be phi => cos al * cos be + sin phi) (π * 5 / 10) (π * 3 / 8) (2 * π * 2 / 6) (π / 5 * a) (π / 4 * b) (2 * π / 6 * c) := by
  refine ⟨fun y => taylor2 (fun al be phi => cos al * cos be + sin phi) (π * 5 / 10) (π * 3 / 8) (2 * π * 2 / 6) (π / 5 * (y % 5 - 2 : ℤ)) (π / 4 * (y / 5 % 4 - 1 : ℤ))
    (2 * π / 6 * (y / 20 - 2 : ℤ)), fun a b c ha hb hc _ => ?_⟩
  rw [abs_le] at ha hb hc
  have e : Index 0 (2 + a) (1 + b) (2 + c) 1 5 4 6 = 2 + a + 5 * (1 + b + 4 * (2 + c)) := by
    rw [Index_in (by omega) (by omega) (by omega) (by omega) (by omega) (by omega)]
    ring
  have e1 : (2 + a + 5 * (1 + b + 4 * (2 + c))) % 5 - 2 = a := by omega
  have e2 : (2 + a + 5 * (1 + b + 4 * (2 + c))) / 5 % 4 - 1 = b := by omega
  have e3 : (2 + a + 5 * (1 + b + 4 * (2 + c))) / 20 - 2 = c := by omega
  simp only [e, e1, e2, e3]

end Verif.TP
