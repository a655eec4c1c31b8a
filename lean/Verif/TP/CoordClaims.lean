import Verif.TP.Smooth
import Verif.TP.Claims

/-!
# C96: coordinates and interpolation of TwoPunctures
-/
namespace Verif.TP
open Real Verif.RefMetric Verif.BSSN
open scoped ContDiff

/-! ## Specification -/

/-- The values of `f` at the nodes of the grid are those in the array `d0`. -/
def OnGrid (n1 n2 n3 : ℕ) (d0 : ℤ → ℝ) (f : ℝ → ℝ → ℝ → ℝ) : Prop :=
  ∀ i < n1, ∀ j < n2, ∀ k < n3, d0 (Index 0 i j k 1 n1 n2 n3) = f (node n1 i) (node n2 j) (angle n3 k)

/-- The Taylor polynomial of second order of `g` about `(p, q, r)` at the displacement `(a, b, c)`. -/
noncomputable def taylor2 (g : ℝ → ℝ → ℝ → ℝ) (p q r a b c : ℝ) : ℝ :=
  g p q r + (dA g p q r * a + dB g p q r * b + dPhi g p q r * c) +
    (dA (dA g) p q r * a ^ 2 + dB (dB g) p q r * b ^ 2 + dPhi (dPhi g) p q r * c ^ 2 +
      2 * (dB (dA g) p q r * (a * b) + dPhi (dA g) p q r * (a * c) + dPhi (dB g) p q r * (b * c))) / 2

/-! ## Lemmas -/

theorem node_mem {n k : ℕ} (hk : k < n) : -1 < node n k ∧ node n k < 1 := by
  have hn : (0 : ℝ) < n := by exact_mod_cast Nat.pos_of_ne_zero (by omega)
  have hk' : (k : ℝ) + 1 ≤ n := by exact_mod_cast hk
  have h0 : 0 < π * (2 * k + 1) / (2 * n) := by positivity
  have h1 : π * (2 * k + 1) / (2 * n) < π := by
    rw [div_lt_iff₀ (by positivity)]
    nlinarith [pi_pos]
  have c1 := cos_lt_cos_of_nonneg_of_le_pi (by linarith) h1.le h0
  have c2 := cos_lt_cos_of_nonneg_of_le_pi h0.le le_rfl h1
  rw [cos_zero] at c1
  rw [cos_pi] at c2
  rw [node]
  exact ⟨by linarith, by linarith⟩

section Slices
variable {f : ℝ → ℝ → ℝ → ℝ} (hf : ContDiff ℝ ∞ (unc f))
include hf

theorem smooth_dA : ContDiff ℝ ∞ (unc (dA f)) := by
  rw [unc_dA]
  have : Sm ⊤ (unc f) := hf.contDiffOn
  exact contDiffOn_univ.1 (this.pd 0)

theorem smooth_dB : ContDiff ℝ ∞ (unc (dB f)) := by
  rw [unc_dB]
  have : Sm ⊤ (unc f) := hf.contDiffOn
  exact contDiffOn_univ.1 (this.pd 1)

theorem smooth_dPhi : ContDiff ℝ ∞ (unc (dPhi f)) := by
  rw [unc_dPhi]
  have : Sm ⊤ (unc f) := hf.contDiffOn
  exact contDiffOn_univ.1 (this.pd 2)

theorem slice_A (A B phi : ℝ) : HasDerivAt (fun A => f A B phi) (dA f A B phi) A := by
  have h : ContDiff ℝ ∞ fun A : ℝ => (![A, B, phi] : Vec) := contDiff_pi.2 fun i => by
    fin_cases i
    · exact contDiff_id
    · exact contDiff_const
    · exact contDiff_const
  exact (((hf.comp h).differentiable (by norm_num)) A).hasDerivAt

theorem slice_B (A B phi : ℝ) : HasDerivAt (fun B => f A B phi) (dB f A B phi) B := by
  have h : ContDiff ℝ ∞ fun B : ℝ => (![A, B, phi] : Vec) := contDiff_pi.2 fun i => by
    fin_cases i
    · exact contDiff_const
    · exact contDiff_id
    · exact contDiff_const
  exact (((hf.comp h).differentiable (by norm_num)) B).hasDerivAt

/-- The derivatives with respect to the angles `al` and `be`. -/
theorem jet_angles (al be phi : ℝ) : jetABphi (fun al be phi => f (-cos al) (-cos be) phi) al be phi =
    let U := jetABphi f (-cos al) (-cos be) phi
    { d0 := U.d0
      d1 := U.d1 * sin al
      d2 := U.d2 * sin be
      d3 := U.d3
      d11 := U.d11 * (sin al * sin al) + U.d1 * cos al
      d12 := U.d12 * sin al * sin be
      d13 := U.d13 * sin al
      d22 := U.d22 * (sin be * sin be) + U.d2 * cos be
      d23 := U.d23 * sin be
      d33 := U.d33 } := by
  have hc : ∀ x, HasDerivAt (fun x => -cos x) (sin x) x := fun x => by
    have h := (hasDerivAt_cos x).neg
    rw [neg_neg] at h
    exact h
  have e1 : dA (fun al be phi => f (-cos al) (-cos be) phi) = fun al be phi => dA f (-cos al) (-cos be) phi * sin al := by
    funext al be phi
    exact ((slice_A hf (-cos al) (-cos be) phi).comp al (hc al)).deriv
  have e2 : dB (fun al be phi => f (-cos al) (-cos be) phi) = fun al be phi => dB f (-cos al) (-cos be) phi * sin be := by
    funext al be phi
    exact ((slice_B hf (-cos al) (-cos be) phi).comp be (hc be)).deriv
  have h11 := ((slice_A (smooth_dA hf) (-cos al) (-cos be) phi).comp al (hc al)).mul (hasDerivAt_sin al)
  have h12 := ((slice_B (smooth_dA hf) (-cos al) (-cos be) phi).comp be (hc be)).mul_const (sin al)
  have h22 := ((slice_B (smooth_dB hf) (-cos al) (-cos be) phi).comp be (hc be)).mul (hasDerivAt_sin be)
  have e11 : dA (fun al be phi => dA f (-cos al) (-cos be) phi * sin al) al be phi = dA (dA f) (-cos al) (-cos be) phi * (sin al * sin al) +
      dA f (-cos al) (-cos be) phi * cos al := by
    refine (h11.congr_deriv ?_).deriv
    simp only [Function.comp]
    ring
  have e12 : dB (fun al be phi => dA f (-cos al) (-cos be) phi * sin al) al be phi = dB (dA f) (-cos al) (-cos be) phi * sin al * sin be := by
    refine (h12.congr_deriv ?_).deriv
    ring
  have e22 : dB (fun al be phi => dB f (-cos al) (-cos be) phi * sin be) al be phi = dB (dB f) (-cos al) (-cos be) phi * (sin be * sin be) +
      dB f (-cos al) (-cos be) phi * cos be := by
    refine (h22.congr_deriv ?_).deriv
    simp only [Function.comp]
    ring
  have e13 : dPhi (fun al be phi => dA f (-cos al) (-cos be) phi * sin al) al be phi = dPhi (dA f) (-cos al) (-cos be) phi * sin al := by
    simp only [dPhi, deriv_mul_const_field]
  have e23 : dPhi (fun al be phi => dB f (-cos al) (-cos be) phi * sin be) al be phi = dPhi (dB f) (-cos al) (-cos be) phi * sin be := by
    simp only [dPhi, deriv_mul_const_field]
  unfold jetABphi
  simp only [e1, e2, e11, e12, e22, e13, e23]
  rfl

end Slices

theorem jet_periodic {n1 n2 M : ℕ} (hM : 0 < M) {f : ℝ → ℝ → ℝ → ℝ} (h : Resolved n1 n2 (2 * M) f) (A B phi : ℝ) (m : ℤ) :
    jetABphi f A B (phi + 2 * π * m) = jetABphi f A B phi := by
  have key : ∀ g : ℝ → ℝ → ℝ → ℝ, (∀ A B phi, g A B (phi + 2 * π * m) = g A B phi) →
      (∀ A B phi, dA g A B (phi + 2 * π * m) = dA g A B phi) ∧ (∀ A B phi, dB g A B (phi + 2 * π * m) = dB g A B phi) ∧
      ∀ A B phi, dPhi g A B (phi + 2 * π * m) = dPhi g A B phi := by
    intro g hg
    refine ⟨fun A B phi => ?_, fun A B phi => ?_, fun A B phi => ?_⟩
    · simp only [dA, hg]
    · simp only [dB, hg]
    · have := deriv_comp_add_const (f := fun phi => g A B phi) (2 * π * m) phi
      simp only [dPhi, ← this, hg]
  have h0 := h.periodic hM (m := m)
  have k0 := key f fun A B phi => h0 A B phi
  have kA := key _ k0.1
  have kB := key _ k0.2.1
  have kP := key _ k0.2.2
  simp only [jetABphi, h0 A B phi, k0.1, k0.2.1, k0.2.2, kA.1, kA.2.1, kA.2.2, kB.2.1, kB.2.2, kP.2.2]

/-- The derivatives on the grid as one jet per node. -/
theorem grid_jet {n1 n2 M : ℕ} {f : ℝ → ℝ → ℝ → ℝ} (hf : Resolved n1 n2 (2 * M) f) (v : Derivs) (h0 : OnGrid n1 n2 (2 * M) v.d0 f)
    {i j k : ℕ} (hi : i < n1) (hj : j < n2) (hk : k < 2 * M) :
    (Derivatives_AB3 1 n1 n2 (2 * M) v).get (Index 0 i j k 1 n1 n2 (2 * M : ℕ)) = jetABphi f (node n1 i) (node n2 j) (angle (2 * M) k) := by
  have h := C95_derivatives 1 n1 n2 M (fun _ => f) (fun _ _ => hf) v (fun ivar hv i hi j hj k hk => by
    obtain rfl : ivar = 0 := by omega
    exact h0 i hi j hj k hk)
  obtain ⟨e0, e, -⟩ := h
  have e := e 0 (by norm_num) i hi j hj k hk
  simp only [Nat.cast_zero, Nat.cast_one] at e
  obtain ⟨a1, a2, a3, a4, a5, a6, a7, a8, a9⟩ := e
  simp only [Derivs.get, jetABphi, a1, a2, a3, a4, a5, a6, a7, a8, a9, e0, h0 i hi j hj k hk]

theorem nodeZ_nat (n k : ℕ) : nodeZ n k = node n k := by
  simp [nodeZ, node]

/-- The same for the indices of the neighbours outside the grid. -/
theorem grid_jet_neighbour {n1 n2 M : ℕ} (hM : 0 < M) {f : ℝ → ℝ → ℝ → ℝ} (hf : Resolved n1 n2 (2 * M) f) (v : Derivs) (h0 : OnGrid n1 n2 (2 * M) v.d0 f)
    {i j k : ℤ} (hi : -n1 ≤ i) (hi' : i < 2 * n1) (hj : -n2 ≤ j) (hj' : j < 2 * n2) (hk : -(2 * M : ℕ) ≤ k) (hk' : k < 2 * (2 * M : ℕ)) :
    (Derivatives_AB3 1 n1 n2 (2 * M) v).get (Index 0 i j k 1 n1 n2 (2 * M : ℕ)) = jetABphi f (nodeZ n1 i) (nodeZ n2 j) (2 * π * k / (2 * M : ℕ)) := by
  obtain ⟨i1, j1, k1, m, ri, rj, rk, e, ei, ej, ek⟩ := C95_index_neighbours 0 i j k 1 n1 n2 (2 * M : ℕ) hi hi' hj hj' hk hk'
  obtain ⟨i2, rfl⟩ := Int.eq_ofNat_of_zero_le ri.1
  obtain ⟨j2, rfl⟩ := Int.eq_ofNat_of_zero_le rj.1
  obtain ⟨k2, rfl⟩ := Int.eq_ofNat_of_zero_le rk.1
  rw [e, grid_jet hf v h0 (by exact_mod_cast ri.2) (by exact_mod_cast rj.2) (by exact_mod_cast rk.2), ← ei, ← ej, nodeZ_nat, nodeZ_nat]
  have : angle (2 * M) k2 = 2 * π * k / (2 * M : ℕ) + 2 * π * m := by
    rw [angle]
    exact_mod_cast ek
  rw [this, jet_periodic hM hf]

theorem rint_spec (x : ℝ) : |x - rint x| ≤ 1 / 2 := by
  have h1 := Int.floor_le x
  have h2 := Int.lt_floor_add_one x
  simp only [rint]
  split_ifs with h3 h4 h5 <;> rw [abs_le] <;> push_cast <;> constructor <;> linarith

/-- Halves go to the even neighbour. -/
theorem rint_half (n : ℤ) : rint (n + 1 / 2) % 2 = 0 := by
  have h : ⌊(n : ℝ) + 1 / 2⌋ = n := by
    rw [Int.floor_eq_iff]
    constructor <;> linarith
  rw [rint]
  simp only [h]
  rw [if_neg (by norm_num), if_neg (by norm_num)]
  split_ifs <;> omega

theorem rint_range {x : ℝ} {n : ℕ} (h0 : -(1 / 2) ≤ x) (h1 : x ≤ n - 1 / 2) : 0 ≤ rint x ∧ rint x ≤ n := by
  have h := abs_le.1 (rint_spec x)
  constructor
  · by_contra hneg
    have h2 : rint x ≤ -1 := by omega
    have h3 : (rint x : ℝ) ≤ -1 := by exact_mod_cast h2
    have h4 : x = ((-1 : ℤ) : ℝ) + 1 / 2 := by
      push_cast
      linarith [h.1]
    have h5 := rint_half (-1)
    rw [← h4] at h5
    have h6 : (rint x : ℝ) ≥ -1 := by linarith [h.2]
    have h7 : rint x ≥ -1 := by exact_mod_cast h6
    omega
  · have : (rint x : ℝ) ≤ n := by linarith [h.1]
    exact_mod_cast this

/-! ## C96 -/

/-- C96: applied to the derivatives of a function with respect to `(A, B, phi)` the three coordinate transformations give the Cartesian position of the
point and all first and second Cartesian derivatives of the function there, for every function that is smooth near the point. -/
theorem C96_derivatives (b A B phi : ℝ) (hb : 0 < b) (hA : -1 < A ∧ A < 1) (hB : -1 < B ∧ B < 1) (Ω : Dom) (u : Scal) (hu : Sm Ω u)
    (hx : position b A B phi ∈ Ω) :
    toCartesian b A B phi (jetABphi (fun A B phi => u (position b A B phi)) A B phi) =
      (position b A B phi 0, position b A B phi 1, position b A B phi 2, jetOf u (position b A B phi)) :=
  toCartesian_chain phi hb hA.1 hA.2 hB.1 hB.2 hu hx

/-- C96: every Cartesian position, the axis and the punctures included, is the position of the coordinates that the interpolation computes for it, and
these lie in the ranges of the grid. -/
theorem C96_inverse (b x y z : ℝ) (hb : 0 < b) :
    let q := toABphi b x y z
    (-1 ≤ q.1 ∧ q.1 < 1) ∧ (-1 ≤ q.2.1 ∧ q.2.1 ≤ 1) ∧ (0 ≤ q.2.2 ∧ q.2.2 < 2 * π) ∧ position b q.1 q.2.1 q.2.2 = ![x, y, z] :=
  toABphi_position b x y z hb

/-- C96: for the positions of all interior coordinates, in particular of all nodes of every grid, the interpolation recovers the coordinates. -/
theorem C96_inverse_left (b A B phi : ℝ) (hb : 0 < b) (hA : -1 < A ∧ A < 1) (hB : -1 < B ∧ B < 1) (hp : 0 ≤ phi ∧ phi < 2 * π) :
    toABphi b (position b A B phi 0) (position b A B phi 1) (position b A B phi 2) = (A, B, phi) :=
  toABphi_of_position hb hA hB hp

/-- C96: the derivatives of `(A - 1) v` from those of `v`. -/
theorem C96_product_rule (f : ℝ → ℝ → ℝ → ℝ) (hf : ContDiff ℝ ∞ fun q : Vec => f (q 0) (q 1) (q 2)) (A B phi : ℝ) :
    timesAm1 (A - 1) (jetABphi f A B phi) = jetABphi (fun A B phi => (A - 1) * f A B phi) A B phi :=
  (jet_timesAm1 hf A B phi).symm

/-- C96: whatever the grid holds, there is one function of the Cartesian position, smooth off the axis through the punctures, which has the values
`(A - 1) v` at the positions of the nodes and of which both interpolation functions return the value at every position. -/
theorem C96_evaluation (b : ℝ) (hb : 0 < b) (n1 n2 M : ℕ) (h1 : 0 < n1) (h2 : 0 < n2) (hM : 0 < M) (v cf : ℤ → ℝ) :
    ∃ u : Scal, Sm offAxis u ∧
      (∀ i < n1, ∀ j < n2, ∀ k < 2 * M, u (position b (node n1 i) (node n2 j) (angle (2 * M) k)) = (node n1 i - 1) * v (Index 0 i j k 1 n1 n2 (2 * M : ℕ))) ∧
      (∃ f, Resolved n1 n2 (2 * M) f ∧ ∀ A B phi : ℝ, -1 < A ∧ A < 1 → -1 < B ∧ B < 1 → u (position b A B phi) = (A - 1) * f A B phi) ∧
      ∀ x y z : ℝ, PunctIntPolAtArbitPosition b n1 n2 (2 * M) v x y z = u ![x, y, z] ∧
        PunctIntPolAtArbitPositionFast b n1 n2 (2 * M) (SpecCoef n1 n2 (2 * M) 0 v cf) x y z = u ![x, y, z] := by
  obtain ⟨f, ⟨hf, e⟩, -, ev⟩ := C94_grid_evaluation n1 n2 M h1 h2 hM v cf
  refine ⟨cartesian b f, cartesian_smooth hb hM hf, fun i hi j hj k hk => ?_, ⟨f, hf, fun A B phi hA hB => ?_⟩, fun x y z => ?_⟩
  · rw [cartesian_position _ hb (node_mem hi) (node_mem hj) hM hf, e i hi j hj k hk]
  · exact cartesian_position phi hb hA hB hM hf
  · exact ⟨by simp only [PunctIntPolAtArbitPosition, (ev _ _ _).1]; rfl, by simp only [PunctIntPolAtArbitPositionFast, (ev _ _ _).2]; rfl⟩

/-- C96: with the derivatives that `Derivatives_AB3` stores, the third interpolation function returns at every position the factor `A - 1` times the Taylor
polynomial of second order of `v` as a function of the angles `al`, `be`, `phi` (with `A = -cos al`, `B = -cos be`), about a point of the lattice of nodes
that is no further away than half the distance of neighbouring nodes in each of the angles. -/
theorem C96_taylor (b : ℝ) (hb : 0 < b) (n1 n2 M : ℕ) (h1 : 0 < n1) (h2 : 0 < n2) (hM : 0 < M) (f : ℝ → ℝ → ℝ → ℝ) (hf : Resolved n1 n2 (2 * M) f)
    (v : Derivs) (h0 : OnGrid n1 n2 (2 * M) v.d0 f) (x y z : ℝ) :
    ∃ (al be phi : ℝ) (i j k : ℤ), (0 ≤ al ∧ al < π) ∧ (0 ≤ be ∧ be ≤ π) ∧ (0 ≤ phi ∧ phi < 2 * π) ∧
      position b (-cos al) (-cos be) phi = ![x, y, z] ∧
      |al - π * (2 * i + 1) / (2 * n1)| ≤ π / (2 * n1) ∧ |be - π * (2 * j + 1) / (2 * n2)| ≤ π / (2 * n2) ∧ |phi - 2 * π * k / (2 * M)| ≤ π / (2 * M) ∧
      PunctTaylorExpandAtArbitPosition b n1 n2 (2 * M) (Derivatives_AB3 1 n1 n2 (2 * M) v) x y z =
        (-cos al - 1) * taylor2 (fun al be phi => f (-cos al) (-cos be) phi) (π * (2 * i + 1) / (2 * n1)) (π * (2 * j + 1) / (2 * n2)) (2 * π * k / (2 * M))
          (al - π * (2 * i + 1) / (2 * n1)) (be - π * (2 * j + 1) / (2 * n2)) (phi - 2 * π * k / (2 * M)) := by
  obtain ⟨qA, qB, qp, qx⟩ := toABphi_position b x y z hb
  rcases hq : toABphi b x y z with ⟨A, B, phi⟩
  rw [hq] at qA qB qp qx
  simp only [] at qA qB qp qx
  have hπ := pi_pos
  have n1' : (0 : ℝ) < n1 := by exact_mod_cast h1
  have n2' : (0 : ℝ) < n2 := by exact_mod_cast h2
  have M' : (0 : ℝ) < M := by exact_mod_cast hM
  have cA : clamp_pm_one A = A := by
    rw [clamp_pm_one, if_neg (by linarith [qA.1]), if_neg (by linarith [qA.2])]
  have cB : clamp_pm_one B = B := by
    rw [clamp_pm_one, if_neg (by linarith [qB.1]), if_neg (by linarith [qB.2])]
  have eA : -cos (π - arccos A) = A := by rw [cos_pi_sub, neg_neg, cos_arccos qA.1 qA.2.le]
  have eB : -cos (π - arccos B) = B := by rw [cos_pi_sub, neg_neg, cos_arccos qB.1 qB.2]
  have al0 : 0 ≤ π - arccos A := by linarith [arccos_le_pi A]
  have al1 : π - arccos A < π := by linarith [arccos_pos.2 qA.2]
  have be0 : 0 ≤ π - arccos B := by linarith [arccos_le_pi B]
  have be1 : π - arccos B ≤ π := by linarith [arccos_nonneg B]
  generalize hal : π - arccos A = al at *
  generalize hbe : π - arccos B = be at *
  have ri := rint_spec (al * n1 / π - 0.5)
  have rj := rint_spec (be * n2 / π - 0.5)
  have rk := rint_spec (0.5 * phi * (2 * M : ℕ) / π)
  have bi : 0 ≤ rint (al * n1 / π - 0.5) ∧ rint (al * n1 / π - 0.5) ≤ n1 := by
    apply rint_range
    · have : 0 ≤ al * n1 / π := by positivity
      norm_num
      linarith
    · have : al * n1 / π ≤ n1 := by
        rw [div_le_iff₀ hπ]
        nlinarith
      norm_num
      linarith
  have bj : 0 ≤ rint (be * n2 / π - 0.5) ∧ rint (be * n2 / π - 0.5) ≤ n2 := by
    apply rint_range
    · have : 0 ≤ be * n2 / π := by positivity
      norm_num
      linarith
    · have : be * n2 / π ≤ n2 := by
        rw [div_le_iff₀ hπ]
        nlinarith
      norm_num
      linarith
  have bk : 0 ≤ rint (0.5 * phi * (2 * M : ℕ) / π) ∧ rint (0.5 * phi * (2 * M : ℕ) / π) ≤ (2 * M : ℕ) := by
    have a1 := abs_le.1 rk
    have p0 : 0 ≤ 0.5 * phi * (2 * M : ℕ) / π := by
      have := qp.1
      positivity
    have p1 : 0.5 * phi * (2 * M : ℕ) / π ≤ (2 * M : ℕ) := by
      rw [div_le_iff₀ hπ]
      have : (0 : ℝ) ≤ (2 * M : ℕ) := by positivity
      nlinarith [qp.2]
    constructor
    · have : (-1 : ℝ) < rint (0.5 * phi * (2 * M : ℕ) / π) := by linarith [a1.2]
      have : (-1 : ℤ) < rint (0.5 * phi * (2 * M : ℕ) / π) := by exact_mod_cast this
      omega
    · have : (rint (0.5 * phi * (2 * M : ℕ) / π) : ℝ) < (2 * M : ℕ) + 1 := by linarith [a1.1]
      have : rint (0.5 * phi * (2 * M : ℕ) / π) < (2 * M : ℕ) + 1 := by exact_mod_cast this
      omega
  refine ⟨al, be, phi, rint (al * n1 / π - 0.5), rint (be * n2 / π - 0.5), rint (0.5 * phi * (2 * M : ℕ) / π), ⟨al0, al1⟩, ⟨be0, be1⟩, qp, ?_, ?_, ?_, ?_, ?_⟩
  · rw [eA, eB, qx]
  · have : al - π * (2 * rint (al * n1 / π - 0.5) + 1) / (2 * n1) = π / n1 * (al * n1 / π - 0.5 - rint (al * n1 / π - 0.5)) := by
      field_simp
      ring
    rw [this, abs_mul, abs_of_pos (by positivity)]
    calc π / n1 * |al * n1 / π - 0.5 - rint (al * n1 / π - 0.5)| ≤ π / n1 * (1 / 2) := by gcongr
      _ = π / (2 * n1) := by field_simp
  · have : be - π * (2 * rint (be * n2 / π - 0.5) + 1) / (2 * n2) = π / n2 * (be * n2 / π - 0.5 - rint (be * n2 / π - 0.5)) := by
      field_simp
      ring
    rw [this, abs_mul, abs_of_pos (by positivity)]
    calc π / n2 * |be * n2 / π - 0.5 - rint (be * n2 / π - 0.5)| ≤ π / n2 * (1 / 2) := by gcongr
      _ = π / (2 * n2) := by field_simp
  · have : phi - 2 * π * rint (0.5 * phi * (2 * M : ℕ) / π) / (2 * M) = π / M * (0.5 * phi * (2 * M : ℕ) / π - rint (0.5 * phi * (2 * M : ℕ) / π)) := by
      generalize rint (0.5 * phi * (2 * M : ℕ) / π) = k
      push_cast
      field_simp
      ring
    rw [this, abs_mul, abs_of_pos (by positivity)]
    calc π / M * |0.5 * phi * (2 * M : ℕ) / π - rint (0.5 * phi * (2 * M : ℕ) / π)| ≤ π / M * (1 / 2) := by gcongr
      _ = π / (2 * M) := by field_simp
  · rw [PunctTaylorExpandAtArbitPosition, hq]
    simp only [cA, cB, hal, hbe]
    generalize rint (al * n1 / π - 0.5) = i at *
    generalize rint (be * n2 / π - 0.5) = j at *
    generalize rint (0.5 * phi * (2 * M : ℕ) / π) = k at *
    have hj := grid_jet_neighbour hM hf v h0 (i := i) (j := j) (k := k) (by omega) (by omega) (by omega) (by omega) (by omega) (by omega)
    have hg := jet_angles (hf.contDiff hM) (π * (2 * i + 1) / (2 * n1)) (π * (2 * j + 1) / (2 * n2)) (2 * π * k / (2 * M))
    have ei : π / 2 * (2 * i + 1) / n1 = π * (2 * i + 1) / (2 * n1) := by field_simp
    have ej : π / 2 * (2 * j + 1) / n2 = π * (2 * j + 1) / (2 * n2) := by field_simp
    have ei' : π * (i + 0.5) / n1 = π * (2 * i + 1) / (2 * n1) := by
      field_simp
      ring
    have ej' : π * (j + 0.5) / n2 = π * (2 * j + 1) / (2 * n2) := by
      field_simp
      ring
    have ni : nodeZ n1 i = -cos (π * (2 * i + 1) / (2 * n1)) := by simp [nodeZ]
    have nj : nodeZ n2 j = -cos (π * (2 * j + 1) / (2 * n2)) := by simp [nodeZ]
    have ck : (((2 * M : ℕ) : ℕ) : ℝ) = 2 * M := by push_cast; ring
    rw [ni, nj, ck] at hj
    have hc : calculate_derivs i j k n1 n2 (2 * M) (Derivatives_AB3 1 n1 n2 (2 * M) v) =
        jetABphi (fun al be phi => f (-cos al) (-cos be) phi) (π * (2 * i + 1) / (2 * n1)) (π * (2 * j + 1) / (2 * n2)) (2 * π * k / (2 * M)) := by
      rw [hg, ← hj]
      simp only [calculate_derivs, Derivs.get, ei, ej]
    rw [hc, ei', ej', ck, eA]
    simp only [interpol, jetABphi, taylor2]
    ring

/-! ## Examples -/

/-- The chain rule at `A = B = 0` for `u = x y + z²`. -/
example : (toCartesian 1 0 0 (π / 3) (jetABphi (fun A B phi => (fun x : Vec => x 0 * x 1 + x 2 ^ 2) (position 1 A B phi)) 0 0 (π / 3))).2.2.2.d12 = 1 := by
  have s : ∀ i : Fin 3, Sm ⊤ fun x : Vec => x i := fun i => (contDiff_apply ℝ ℝ i).contDiffOn
  rw [C96_derivatives 1 0 0 (π / 3) one_pos (by norm_num) (by norm_num) ⊤ _ (((s 0).mul (s 1)).add ((s 2).pow 2)) trivial]
  simp only [jetOf]
  have e : ∀ x : Vec, pd 0 (fun x : Vec => x 0 * x 1 + x 2 ^ 2) x = x 1 := fun x => by
    rw [dpd_add (Ω := ⊤) trivial 0 ((s 0).mul (s 1)) ((s 2).pow 2), dpd_mul (Ω := ⊤) trivial 0 (s 0) (s 1), pd_coord, pd_coord]
    have : pd 0 (fun x : Vec => x 2 ^ 2) x = 0 := by
      have e2 : (fun x : Vec => x 2 ^ 2) = fun x : Vec => x 2 * x 2 := by
        funext x
        ring
      rw [e2, dpd_mul (Ω := ⊤) trivial 0 (s 2) (s 2), pd_coord]
      simp
    rw [this]
    simp
  rw [show pd 0 (fun x : Vec => x 0 * x 1 + x 2 ^ 2) = fun x => x 1 from funext e, pd_coord]
  simp

/-- The coordinates of the position `(0, 0, 3/4)` between two punctures at distance 1 from the origin. -/
example : position 1 (-1 / 3) 0 (π / 2) = ![0, 0, 3 / 4] := by
  have : cos (π / 2) = 0 := cos_pi_div_two
  simp [position, this]
  norm_num

example : toABphi 1 0 0 (3 / 4) = (-1 / 3, 0, π / 2) := by
  have h := C96_inverse_left 1 (-1 / 3) 0 (π / 2) one_pos (by norm_num) (by norm_num) ⟨by positivity, by linarith [pi_pos]⟩
  have e : position 1 (-1 / 3) 0 (π / 2) = ![0, 0, 3 / 4] := by
    have : cos (π / 2) = 0 := cos_pi_div_two
    simp [position, this]
    norm_num
  rw [e] at h
  exact h

/-- A grid function with the data of `example_resolved`. -/
example : ∃ d0 : ℤ → ℝ, OnGrid 3 2 4 d0 fun A B phi => (A ^ 2 + A) * B * sin phi + 2 := by
  obtain ⟨c, hc⟩ : ∃ c : ℤ → ℝ, ∀ i : ℕ, i < 3 → ∀ j : ℕ, j < 2 → ∀ k : ℕ, k < 4 → c (Index 0 i j k 1 3 2 4) = ((node 3 i) ^ 2 + node 3 i) * node 2 j * sin (angle 4 k) + 2 := by
    refine ⟨fun x => ((node 3 (x % 3).toNat) ^ 2 + node 3 (x % 3).toNat) * node 2 (x / 3 % 2).toNat * sin (angle 4 (x / 6).toNat) + 2, fun i hi j hj k hk => ?_⟩
    rw [Index_in (by omega) (by omega) (by omega) (by omega) (by omega) (by omega)]
    beta_reduce
    rw [show ((0 + 1 * (i + 3 * (j + 2 * k)) : ℤ) % 3).toNat = i by omega, show ((0 + 1 * (i + 3 * (j + 2 * k)) : ℤ) / 3 % 2).toNat = j by omega,
      show ((0 + 1 * (i + 3 * (j + 2 * k)) : ℤ) / 6).toNat = k by omega]
  exact ⟨c, fun i hi j hj k hk => hc i hi j hj k hk⟩

end Verif.TP
