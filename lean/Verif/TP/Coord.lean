import Verif.TP.EqModel
import Verif.TP.Tensor
import Verif.BSSN.Calculus
import Mathlib.Analysis.Calculus.Deriv.Prod
import Mathlib.Analysis.SpecialFunctions.Trigonometric.ArctanDeriv
import Mathlib.Analysis.SpecialFunctions.Trigonometric.Deriv
import Mathlib.Analysis.SpecialFunctions.Log.Deriv

/-!
# The chain rule for the coordinates of TwoPunctures
-/
namespace Verif.TP
open Real Verif.RefMetric Verif.BSSN
open scoped ContDiff

/-! ## Specification -/

/-- The Cartesian position of `(A, B, phi)`: equation (62) of Ansorg, Brügmann and Tichy, with their `A` equal to `(A + 1) / 2`. -/
noncomputable def position (b A B phi : ℝ) : Vec :=
  let a := (A + 1) / 2
  let r := b * (2 * a / (1 - a ^ 2)) * ((1 - B ^ 2) / (1 + B ^ 2))
  ![b * ((a ^ 2 + 1) / (a ^ 2 - 1)) * (2 * B / (1 + B ^ 2)), r * cos phi, r * sin phi]

/-- Value and first and second partial derivatives of a function. -/
noncomputable def jetOf (f : Scal) (x : Vec) : Jet where
  d0 := f x
  d1 := pd 0 f x
  d2 := pd 1 f x
  d3 := pd 2 f x
  d11 := pd 0 (pd 0 f) x
  d12 := pd 1 (pd 0 f) x
  d13 := pd 2 (pd 0 f) x
  d22 := pd 1 (pd 1 f) x
  d23 := pd 2 (pd 1 f) x
  d33 := pd 2 (pd 2 f) x

/-- Value and derivatives of a function of three variables, as in `C95_derivatives`. -/
noncomputable def jetABphi (f : ℝ → ℝ → ℝ → ℝ) (A B phi : ℝ) : Jet where
  d0 := f A B phi
  d1 := dA f A B phi
  d2 := dB f A B phi
  d3 := dPhi f A B phi
  d11 := dA (dA f) A B phi
  d12 := dB (dA f) A B phi
  d13 := dPhi (dA f) A B phi
  d22 := dB (dB f) A B phi
  d23 := dPhi (dB f) A B phi
  d33 := dPhi (dPhi f) A B phi

/-! ## Functions of three variables as functions of a vector -/

/-- `f` as a function of a vector. -/
def unc (f : ℝ → ℝ → ℝ → ℝ) : Scal := fun q => f (q 0) (q 1) (q 2)

theorem unc_dA (f : ℝ → ℝ → ℝ → ℝ) : unc (dA f) = pd 0 (unc f) := by
  funext q
  simp [unc, dA, pd, Function.update]

theorem unc_dB (f : ℝ → ℝ → ℝ → ℝ) : unc (dB f) = pd 1 (unc f) := by
  funext q
  simp [unc, dB, pd, Function.update]

theorem unc_dPhi (f : ℝ → ℝ → ℝ → ℝ) : unc (dPhi f) = pd 2 (unc f) := by
  funext q
  simp [unc, dPhi, pd, Function.update]

theorem jetABphi_eq (f : ℝ → ℝ → ℝ → ℝ) (q : Vec) : jetABphi f (q 0) (q 1) (q 2) = jetOf (unc f) q := by
  have e : ∀ g : ℝ → ℝ → ℝ → ℝ, g (q 0) (q 1) (q 2) = unc g q := fun g => rfl
  simp only [jetABphi, jetOf, e, unc_dA, unc_dB, unc_dPhi]

/-! ## The chain rule -/

section Chain
variable {Ω Ω' : Dom} {u : Scal} {p : Fin 3 → Scal}

theorem Sm.comp3 (hu : Sm Ω u) (hp : ∀ i, Sm Ω' (p i)) (hm : ∀ q ∈ Ω', (fun i => p i q) ∈ Ω) : Sm Ω' fun q => u fun i => p i q := by
  refine sm_of_at fun q hq => ?_
  have h1 : ContDiffAt ℝ ∞ (fun q => fun i => p i q) q := contDiffAt_pi.2 fun i => (hp i).at hq
  exact ContDiffAt.comp q (hu.at (hm q hq)) h1

theorem pd_chain (hu : Sm Ω u) (hp : ∀ i, Sm Ω' (p i)) (hm : ∀ q ∈ Ω', (fun i => p i q) ∈ Ω) {q : Vec} (hq : q ∈ Ω') (k : Fin 3) :
    pd k (fun q => u fun i => p i q) q = ∑ i, pd i u (fun i => p i q) * pd k (p i) q := by
  have h1 : HasDerivAt (fun t => fun i => p i (Function.update q k t)) (fun i => pd k (p i) q) (q k) := by
    refine hasDerivAt_pi.2 fun i => ?_
    have hu' : HasDerivAt (Function.update q k) (Pi.single k 1) (q k) := hasDerivAt_update q k (q k)
    have he : Function.update q k (q k) = q := Function.update_eq_self k q
    have hf' : HasFDerivAt (p i) (fderiv ℝ (p i) q) (Function.update q k (q k)) := by
      rw [he]
      exact ((hp i).diff hq).hasFDerivAt
    rw [pd_eq ((hp i).diff hq)]
    exact hf'.comp_hasDerivAt (q k) hu'
  have h2 : HasFDerivAt u (fderiv ℝ u fun i => p i q) (fun i => p i (Function.update q k (q k))) := by
    rw [Function.update_eq_self]
    exact (hu.diff (hm q hq)).hasFDerivAt
  have h3 := (h2.comp_hasDerivAt (q k) h1).deriv
  unfold pd at h3 ⊢
  refine h3.trans ?_
  have e : (fun i => deriv (fun t => p i (Function.update q k t)) (q k)) =
      ∑ i, deriv (fun t => p i (Function.update q k t)) (q k) • (Pi.single i 1 : Vec) := by
    funext j
    simp [Finset.sum_apply, Pi.single_apply]
  rw [e, map_sum]
  refine Finset.sum_congr rfl fun i _ => ?_
  rw [map_smul, smul_eq_mul, mul_comm]
  congr 1
  exact (pd_eq (hu.diff (hm q hq)) i).symm

theorem pd_pd_chain (hu : Sm Ω u) (hp : ∀ i, Sm Ω' (p i)) (hm : ∀ q ∈ Ω', (fun i => p i q) ∈ Ω) {q : Vec} (hq : q ∈ Ω') (k l : Fin 3) :
    pd l (pd k (fun q => u fun i => p i q)) q =
      ∑ i, ((∑ j, pd j (pd i u) (fun i => p i q) * pd l (p j) q) * pd k (p i) q + pd i u (fun i => p i q) * pd l (pd k (p i)) q) := by
  rw [pd_congr_on (fun q hq => pd_chain hu hp hm hq k) hq,
    dpd_dot hq l (fun i => Sm.comp3 (hu.pd i) hp hm) (fun i => (hp i).pd k)]
  refine Finset.sum_congr rfl fun i _ => ?_
  rw [pd_chain (hu.pd i) hp hm hq l]

end Chain

theorem pd_symm3 {Ω : Dom} {u : Scal} (hu : Sm Ω u) {x : Vec} (hx : x ∈ Ω) :
    pd 0 (pd 1 u) x = pd 1 (pd 0 u) x ∧ pd 0 (pd 2 u) x = pd 2 (pd 0 u) x ∧ pd 1 (pd 2 u) x = pd 2 (pd 1 u) x :=
  ⟨dpd_comm hx 0 hu 1, dpd_comm hx 0 hu 2, dpd_comm hx 1 hu 2⟩

/-! ## From cylindrical to Cartesian coordinates -/

/-- `(x, r, phi)` to `(x, y, z)`. -/
noncomputable def p3 : Fin 3 → Scal := ![fun q => q 0, fun q => q 1 * cos (q 2), fun q => q 1 * sin (q 2)]

theorem p3_smooth (Ω : Dom) (i : Fin 3) : Sm Ω (p3 i) := by
  refine sm_of_at fun x _ => ContDiff.contDiffAt ?_
  fin_cases i
  · exact contDiff_apply ℝ ℝ 0
  · exact (contDiff_apply ℝ ℝ 1).mul (contDiff_cos.comp (contDiff_apply ℝ ℝ 2))
  · exact (contDiff_apply ℝ ℝ 1).mul (contDiff_sin.comp (contDiff_apply ℝ ℝ 2))

theorem pd_coord (i k : Fin 3) : pd k (fun q => q i) = fun _ => if i = k then 1 else 0 := by
  funext q
  unfold pd
  by_cases h : i = k
  · subst h
    simp
  · simp [h]

theorem p3_pd : (∀ k, pd k (p3 0) = fun _ => if 0 = k then 1 else 0) ∧
    pd 0 (p3 1) = (fun _ => 0) ∧ pd 1 (p3 1) = (fun q => cos (q 2)) ∧ pd 2 (p3 1) = (fun q => -(q 1 * sin (q 2))) ∧
    pd 0 (p3 2) = (fun _ => 0) ∧ pd 1 (p3 2) = (fun q => sin (q 2)) ∧ pd 2 (p3 2) = (fun q => q 1 * cos (q 2)) := by
  refine ⟨fun k => pd_coord 0 k, ?_, ?_, ?_, ?_, ?_, ?_⟩ <;> funext q <;> simp [p3, pd, Function.update]

theorem pd_zero (k : Fin 3) (c : ℝ) : pd k (fun _ => c) = fun _ => 0 := by
  funext q
  simp [pd]

theorem p3_pd2 : pd 1 (fun q : Vec => cos (q 2)) = (fun _ => 0) ∧ pd 2 (fun q : Vec => cos (q 2)) = (fun q => -sin (q 2)) ∧
    pd 1 (fun q : Vec => sin (q 2)) = (fun _ => 0) ∧ pd 2 (fun q : Vec => sin (q 2)) = (fun q => cos (q 2)) ∧
    pd 2 (fun q : Vec => -(q 1 * sin (q 2))) = (fun q => -(q 1 * cos (q 2))) ∧
    pd 2 (fun q : Vec => q 1 * cos (q 2)) = (fun q => -(q 1 * sin (q 2))) := by
  refine ⟨?_, ?_, ?_, ?_, ?_, ?_⟩ <;> funext q <;> simp [pd, Function.update]

theorem stage3 {Ω Ω' : Dom} {u : Scal} (hu : Sm Ω u) (hm : ∀ q ∈ Ω', (fun i => p3 i q) ∈ Ω) {q : Vec} (hq : q ∈ Ω') (hr : q 1 ≠ 0) :
    rx3_To_xyz (q 1) (q 2) (jetOf (fun q => u fun i => p3 i q) q) = (p3 1 q, p3 2 q, jetOf u fun i => p3 i q) := by
  have c1 := pd_chain hu (p3_smooth Ω') hm hq
  have c2 := pd_pd_chain hu (p3_smooth Ω') hm hq
  obtain ⟨s1, s2, s3⟩ := pd_symm3 hu (hm q hq)
  obtain ⟨e0, e1, e2, e3, e4, e5, e6⟩ := p3_pd
  obtain ⟨f1, f2, f3, f4, f5, f6⟩ := p3_pd2
  have n0 : (0 : Fin 3) ≠ 1 := by decide
  have n1 : (0 : Fin 3) ≠ 2 := by decide
  have hc := sin_sq_add_cos_sq (q 2)
  unfold rx3_To_xyz jetOf
  simp only [c1, c2, e0, e1, e2, e3, e4, e5, e6, f1, f2, f3, f4, f5, f6, pd_zero, Fin.sum_univ_three, s1, s2, s3, if_true, if_neg n0, if_neg n1]
  generalize pd 0 u (fun i => p3 i q) = u0
  generalize pd 1 u (fun i => p3 i q) = u1
  generalize pd 2 u (fun i => p3 i q) = u2
  generalize pd 0 (pd 0 u) (fun i => p3 i q) = u00
  generalize pd 1 (pd 0 u) (fun i => p3 i q) = u01
  generalize pd 2 (pd 0 u) (fun i => p3 i q) = u02
  generalize pd 1 (pd 1 u) (fun i => p3 i q) = u11
  generalize pd 2 (pd 1 u) (fun i => p3 i q) = u12
  generalize pd 2 (pd 2 u) (fun i => p3 i q) = u22
  simp only [p3, Matrix.cons_val]
  generalize sin (q 2) = s at *
  generalize cos (q 2) = c at *
  generalize q 1 = r at *
  have hs : s ^ 2 = 1 - c ^ 2 := by linarith
  refine Prod.ext rfl (Prod.ext rfl ?_)
  ext <;> simp only [] <;> field_simp <;> ring_nf <;> simp only [hs, show s ^ 3 = s * (1 - c ^ 2) by rw [← hs]; ring,
    show s ^ 4 = (1 - c ^ 2) ^ 2 by rw [← hs]; ring] <;> ring

/-! ## From spheroidal to cylindrical coordinates -/

/-- `(X, R, phi)` to `(x, r, phi)`. -/
noncomputable def p2 (b : ℝ) : Fin 3 → Scal :=
  ![fun q => b * cosh (q 0) * cos (q 1), fun q => b * sinh (q 0) * sin (q 1), fun q => q 2]

theorem p2_smooth (b : ℝ) (Ω : Dom) (i : Fin 3) : Sm Ω (p2 b i) := by
  refine sm_of_at fun x _ => ContDiff.contDiffAt ?_
  fin_cases i
  · exact (contDiff_const.mul (contDiff_cosh.comp (contDiff_apply ℝ ℝ 0))).mul (contDiff_cos.comp (contDiff_apply ℝ ℝ 1))
  · exact (contDiff_const.mul (contDiff_sinh.comp (contDiff_apply ℝ ℝ 0))).mul (contDiff_sin.comp (contDiff_apply ℝ ℝ 1))
  · exact contDiff_apply ℝ ℝ 2

/-- Real and imaginary part of `dc/dC`. -/
noncomputable def cre (b : ℝ) : Scal := fun q => b * sinh (q 0) * cos (q 1)
@[inherit_doc cre] noncomputable def cim (b : ℝ) : Scal := fun q => b * cosh (q 0) * sin (q 1)

theorem p2_pd (b : ℝ) : pd 0 (p2 b 0) = cre b ∧ pd 1 (p2 b 0) = (fun q => -cim b q) ∧ pd 2 (p2 b 0) = (fun _ => 0) ∧
    pd 0 (p2 b 1) = cim b ∧ pd 1 (p2 b 1) = cre b ∧ pd 2 (p2 b 1) = (fun _ => 0) ∧
    ∀ k, pd k (p2 b 2) = fun _ => if 2 = k then 1 else 0 := by
  refine ⟨?_, ?_, ?_, ?_, ?_, ?_, fun k => pd_coord 2 k⟩ <;> funext q <;>
    simp [p2, pd, Function.update, cre, cim, mul_assoc]

theorem p2_pd2 (b : ℝ) : pd 0 (cre b) = p2 b 0 ∧ pd 1 (cre b) = (fun q => -p2 b 1 q) ∧ pd 2 (cre b) = (fun _ => 0) ∧
    pd 0 (cim b) = p2 b 1 ∧ pd 1 (cim b) = p2 b 0 ∧ pd 2 (cim b) = (fun _ => 0) ∧
    pd 1 (fun q => -cim b q) = (fun q => -p2 b 0 q) ∧ pd 2 (fun q => -cim b q) = (fun _ => 0) := by
  refine ⟨?_, ?_, ?_, ?_, ?_, ?_, ?_, ?_⟩ <;> funext q <;> simp [p2, pd, Function.update, cre, cim, mul_assoc]

theorem stage2 {b : ℝ} {Ω Ω' : Dom} {u : Scal} (hu : Sm Ω u) (hm : ∀ q ∈ Ω', (fun i => p2 b i q) ∈ Ω) {q : Vec} (hq : q ∈ Ω')
    (hN : cre b q ^ 2 + cim b q ^ 2 ≠ 0) :
    C_To_c b (q 0) (q 1) (jetOf (fun q => u fun i => p2 b i q) q) = (p2 b 0 q, p2 b 1 q, jetOf u fun i => p2 b i q) := by
  have c1 := pd_chain hu (p2_smooth b Ω') hm hq
  have c2 := pd_pd_chain hu (p2_smooth b Ω') hm hq
  obtain ⟨s1, s2, s3⟩ := pd_symm3 hu (hm q hq)
  obtain ⟨e0, e1, e2, e3, e4, e5, e6⟩ := p2_pd b
  obtain ⟨f1, f2, f3, f4, f5, f6, f7, f8⟩ := p2_pd2 b
  have n0 : (2 : Fin 3) ≠ 0 := by decide
  have n1 : (2 : Fin 3) ≠ 1 := by decide
  have hc : Complex.cosh ⟨q 0, q 1⟩ * b = ⟨p2 b 0 q, p2 b 1 q⟩ := by
    rw [show (⟨q 0, q 1⟩ : ℂ) = (q 0 : ℂ) + (q 1 : ℂ) * Complex.I from (Complex.re_add_im ⟨q 0, q 1⟩).symm, Complex.cosh_add,
      Complex.cosh_mul_I, Complex.sinh_mul_I]
    apply Complex.ext <;> simp [p2, ← Complex.ofReal_cosh, ← Complex.ofReal_sinh, ← Complex.ofReal_cos, ← Complex.ofReal_sin] <;> ring
  have hs : Complex.sinh ⟨q 0, q 1⟩ * b = ⟨cre b q, cim b q⟩ := by
    rw [show (⟨q 0, q 1⟩ : ℂ) = (q 0 : ℂ) + (q 1 : ℂ) * Complex.I from (Complex.re_add_im ⟨q 0, q 1⟩).symm, Complex.sinh_add,
      Complex.cosh_mul_I, Complex.sinh_mul_I]
    apply Complex.ext <;> simp [cre, cim, ← Complex.ofReal_cosh, ← Complex.ofReal_sinh, ← Complex.ofReal_cos, ← Complex.ofReal_sin] <;> ring
  unfold C_To_c jetOf
  simp only [hc, hs, c1, c2, e0, e1, e2, e3, e4, e5, e6, f1, f2, f3, f4, f5, f6, f7, f8, pd_zero, Fin.sum_univ_three, s1, s2, s3, if_true,
    if_neg n0, if_neg n1]
  generalize pd 0 u (fun i => p2 b i q) = u0
  generalize pd 1 u (fun i => p2 b i q) = u1
  generalize pd 2 u (fun i => p2 b i q) = u2
  generalize pd 0 (pd 0 u) (fun i => p2 b i q) = u00
  generalize pd 1 (pd 0 u) (fun i => p2 b i q) = u01
  generalize pd 2 (pd 0 u) (fun i => p2 b i q) = u02
  generalize pd 1 (pd 1 u) (fun i => p2 b i q) = u11
  generalize pd 2 (pd 1 u) (fun i => p2 b i q) = u12
  generalize pd 2 (pd 2 u) (fun i => p2 b i q) = u22
  generalize p2 b 0 q = x
  generalize p2 b 1 q = r
  generalize cre b q = m at *
  generalize cim b q = n at *
  refine Prod.ext rfl (Prod.ext rfl ?_)
  have hN2 : m * m + n * n ≠ 0 := by
    rw [← pow_two, ← pow_two]
    exact hN
  ext <;> simp only [Complex.inv_re, Complex.inv_im, Complex.mul_re, Complex.mul_im, Complex.add_re, Complex.add_im, Complex.neg_re,
    Complex.neg_im, Complex.normSq_mk, Complex.normSq_apply] <;> field_simp <;> ring

/-! ## From compactified to spheroidal coordinates -/

/-- `(A, B, phi)` to `(X, R, phi)`. -/
noncomputable def p1 : Fin 3 → Scal := ![fun q => log (3 + q 0) - log (1 - q 0), fun q => π / 2 + 2 * arctan (q 1), fun q => q 2]

/-- The values of `A` for which `p1` is smooth. -/
def inA : Dom := ⟨{q | -3 < q 0 ∧ q 0 < 1}, (isOpen_lt continuous_const (continuous_apply 0)).inter (isOpen_lt (continuous_apply 0) continuous_const)⟩

theorem two_artanh {A : ℝ} (h1 : -3 < A) (h2 : A < 1) : 2 * artanh (0.5 * (A + 1)) = log (3 + A) - log (1 - A) := by
  rw [artanh_eq_half_log ⟨by linarith, by linarith⟩, ← log_div (by linarith) (by linarith)]
  rw [show (1 + 0.5 * (A + 1)) / (1 - 0.5 * (A + 1)) = (3 + A) / (1 - A) by
    rw [div_eq_div_iff (by linarith) (by linarith)]
    ring]
  ring

theorem p1_smooth {Ω : Dom} (hΩ : Ω ≤ inA) (i : Fin 3) : Sm Ω (p1 i) := by
  refine sm_of_at fun x hx => ?_
  obtain ⟨h1, h2⟩ : -3 < x 0 ∧ x 0 < 1 := hΩ hx
  fin_cases i
  · exact ((contDiffAt_const.add (contDiff_apply ℝ ℝ 0).contDiffAt).log (by simp; linarith)).sub
      ((contDiffAt_const.sub (contDiff_apply ℝ ℝ 0).contDiffAt).log (by simp; linarith))
  · exact (contDiff_const.add (contDiff_const.mul (contDiff_arctan.comp (contDiff_apply ℝ ℝ 1)))).contDiffAt
  · exact (contDiff_apply ℝ ℝ 2).contDiffAt

theorem p1_pd {q : Vec} (hq : q ∈ inA) : pd 0 (p1 0) q = 4 / ((3 + q 0) * (1 - q 0)) := by
  obtain ⟨h1, h2⟩ : -3 < q 0 ∧ q 0 < 1 := hq
  have e1 : HasDerivAt (fun t => log (3 + t)) (1 / (3 + q 0)) (q 0) := ((hasDerivAt_id (q 0)).const_add 3).log (by simp; linarith)
  have e2 : HasDerivAt (fun t => log (1 - t)) (-1 / (1 - q 0)) (q 0) := ((hasDerivAt_id (q 0)).const_sub 1).log (by simp; linarith)
  have e3 := (e1.sub e2).deriv
  have e4 : pd 0 (p1 0) q = deriv (fun t => log (3 + t) - log (1 - t)) (q 0) := by
    simp [p1, pd, Function.update]
  rw [e4]
  refine e3.trans ?_
  have a1 : 3 + q 0 ≠ 0 := by linarith
  have a2 : 1 - q 0 ≠ 0 := by linarith
  field_simp
  ring

theorem p1_pd2 {q : Vec} (hq : q ∈ inA) : pd 0 (pd 0 (p1 0)) q = 8 * (q 0 + 1) / ((3 + q 0) * (1 - q 0)) ^ 2 := by
  obtain ⟨h1, h2⟩ : -3 < q 0 ∧ q 0 < 1 := id hq
  rw [pd_congr_on (Ω := inA) (fun y hy => p1_pd hy) hq]
  have a1 : 3 + q 0 ≠ 0 := by linarith
  have a2 : 1 - q 0 ≠ 0 := by linarith
  have e1 : HasDerivAt (fun t => (3 + t) * (1 - t)) (1 * (1 - q 0) + (3 + q 0) * (-1)) (q 0) :=
    ((hasDerivAt_id (q 0)).const_add 3).mul ((hasDerivAt_id (q 0)).const_sub 1)
  have e2 := ((hasDerivAt_const (q 0) (4 : ℝ)).div e1 (mul_ne_zero a1 a2)).deriv
  have e4 : pd 0 (fun y : Vec => 4 / ((3 + y 0) * (1 - y 0))) q = deriv (fun t => 4 / ((3 + t) * (1 - t))) (q 0) := by
    simp [pd, Function.update]
  rw [e4]
  refine e2.trans ?_
  field_simp
  ring

theorem p1_pdB : pd 1 (p1 1) = fun q => 2 / (1 + q 1 ^ 2) := by
  funext q
  have e := (((hasDerivAt_arctan (q 1)).const_mul 2).const_add (π / 2)).deriv
  have e4 : pd 1 (p1 1) q = deriv (fun t => π / 2 + 2 * arctan t) (q 1) := by
    simp [p1, pd, Function.update]
  rw [e4]
  refine e.trans ?_
  ring

theorem p1_pdB2 : pd 1 (fun q : Vec => 2 / (1 + q 1 ^ 2)) = fun q => -4 * q 1 / (1 + q 1 ^ 2) ^ 2 := by
  funext q
  have hp : 1 + q 1 ^ 2 ≠ 0 := by positivity
  have e1 : HasDerivAt (fun t : ℝ => 1 + t ^ 2) (2 * q 1) (q 1) := by
    simpa using ((hasDerivAt_id (q 1)).pow 2).const_add 1
  have e := ((hasDerivAt_const (q 1) (2 : ℝ)).div e1 hp).deriv
  have e4 : pd 1 (fun q : Vec => 2 / (1 + q 1 ^ 2)) q = deriv (fun t => 2 / (1 + t ^ 2)) (q 1) := by
    simp [pd, Function.update]
  rw [e4]
  refine e.trans ?_
  ring

theorem p1_pd0 : pd 1 (p1 0) = (fun _ => 0) ∧ pd 2 (p1 0) = (fun _ => 0) ∧ pd 0 (p1 1) = (fun _ => 0) ∧ pd 2 (p1 1) = (fun _ => 0) ∧
    ∀ k, pd k (p1 2) = fun _ => if 2 = k then 1 else 0 := by
  refine ⟨?_, ?_, ?_, ?_, fun k => pd_coord 2 k⟩ <;> funext q <;> simp [p1, pd, Function.update]

theorem p1_mixed {q : Vec} (hq : q ∈ inA) : pd 1 (pd 0 (p1 0)) q = 0 ∧ pd 2 (pd 0 (p1 0)) q = 0 := by
  rw [pd_congr_on (Ω := inA) (fun y hy => p1_pd hy) hq, pd_congr_on (Ω := inA) (fun y hy => p1_pd hy) hq]
  simp [pd, Function.update]

theorem p1_mixedB : pd 2 (fun q : Vec => 2 / (1 + q 1 ^ 2)) = fun _ => 0 := by
  funext q
  simp [pd, Function.update]

theorem stage1 {Ω Ω' : Dom} {u : Scal} (hu : Sm Ω u) (hA : Ω' ≤ inA) (hm : ∀ q ∈ Ω', (fun i => p1 i q) ∈ Ω) {q : Vec} (hq : q ∈ Ω') :
    AB_To_XR (q 0) (q 1) (jetOf (fun q => u fun i => p1 i q) q) = (p1 0 q, p1 1 q, jetOf u fun i => p1 i q) := by
  have c1 := pd_chain hu (p1_smooth hA) hm hq
  have c2 := pd_pd_chain hu (p1_smooth hA) hm hq
  obtain ⟨s1, s2, s3⟩ := pd_symm3 hu (hm q hq)
  obtain ⟨e0, e1, e2, e3, e4⟩ := p1_pd0
  obtain ⟨m1, m2⟩ := p1_mixed (hA hq)
  have n0 : (2 : Fin 3) ≠ 0 := by decide
  have n1 : (2 : Fin 3) ≠ 1 := by decide
  obtain ⟨h1, h2⟩ : -3 < q 0 ∧ q 0 < 1 := hA hq
  have a1 : 3 + q 0 ≠ 0 := by linarith
  have a2 : 1 - q 0 ≠ 0 := by linarith
  have a3 : 1 + q 1 ^ 2 ≠ 0 := by positivity
  unfold AB_To_XR jetOf
  simp only [two_artanh h1 h2, c1, c2, p1_pd (hA hq), p1_pd2 (hA hq), m1, m2, p1_pdB, p1_pdB2, p1_mixedB, e0, e1, e2, e3, e4, pd_zero,
    Fin.sum_univ_three, s1, s2, s3, if_true, if_neg n0, if_neg n1]
  generalize pd 0 u (fun i => p1 i q) = u0
  generalize pd 1 u (fun i => p1 i q) = u1
  generalize pd 2 u (fun i => p1 i q) = u2
  generalize pd 0 (pd 0 u) (fun i => p1 i q) = u00
  generalize pd 1 (pd 0 u) (fun i => p1 i q) = u01
  generalize pd 2 (pd 0 u) (fun i => p1 i q) = u02
  generalize pd 1 (pd 1 u) (fun i => p1 i q) = u11
  generalize pd 2 (pd 1 u) (fun i => p1 i q) = u12
  generalize pd 2 (pd 2 u) (fun i => p1 i q) = u22
  refine Prod.ext (by simp [p1]) (Prod.ext (by simp [p1]) ?_)
  ext <;> simp only [] <;> field_simp <;> ring

/-! ## All stages -/

section Position
variable {A : ℝ} (b B phi : ℝ)

theorem p1_X (h1 : -1 ≤ A) (h2 : A < 1) : p1 0 ![A, B, phi] = 2 * artanh ((A + 1) / 2) := by
  have := two_artanh (A := A) (by linarith) h2
  rw [show (A + 1) / 2 = 0.5 * (A + 1) by ring, this]
  simp [p1]

theorem cosh_two_artanh {a : ℝ} (hm : a ∈ Set.Ioo (-1) (1 : ℝ)) : cosh (2 * artanh a) = (1 + a ^ 2) / (1 - a ^ 2) := by
  have hs : 0 < 1 - a ^ 2 := by nlinarith [hm.1, hm.2]
  rw [cosh_two_mul, cosh_artanh hm, sinh_artanh hm, div_pow, div_pow, sq_sqrt hs.le]
  field_simp

theorem sinh_two_artanh {a : ℝ} (hm : a ∈ Set.Ioo (-1) (1 : ℝ)) : sinh (2 * artanh a) = 2 * a / (1 - a ^ 2) := by
  have hs : 0 < 1 - a ^ 2 := by nlinarith [hm.1, hm.2]
  rw [sinh_two_mul, cosh_artanh hm, sinh_artanh hm]
  have : √(1 - a ^ 2) ^ 2 = 1 - a ^ 2 := sq_sqrt hs.le
  have h0 : √(1 - a ^ 2) ≠ 0 := (sqrt_pos.2 hs).ne'
  generalize √(1 - a ^ 2) = w at *
  rw [← this]
  field_simp

theorem cos_R : cos (π / 2 + 2 * arctan B) = -(2 * B / (1 + B ^ 2)) := by
  have hB : 0 < 1 + B ^ 2 := by positivity
  have hq : √(1 + B ^ 2) ^ 2 = 1 + B ^ 2 := sq_sqrt hB.le
  have hB0 : √(1 + B ^ 2) ≠ 0 := (sqrt_pos.2 hB).ne'
  rw [add_comm, cos_add_pi_div_two, sin_two_mul, sin_arctan, cos_arctan]
  congr 1
  generalize √(1 + B ^ 2) = w at *
  rw [← hq]
  field_simp

theorem sin_R : sin (π / 2 + 2 * arctan B) = (1 - B ^ 2) / (1 + B ^ 2) := by
  have hB : 0 < 1 + B ^ 2 := by positivity
  have hq : √(1 + B ^ 2) ^ 2 = 1 + B ^ 2 := sq_sqrt hB.le
  rw [add_comm, sin_add_pi_div_two, cos_two_mul, cos_arctan, div_pow, hq]
  field_simp
  ring

theorem p_position (h1 : -1 ≤ A) (h2 : A < 1) :
    (fun i => p3 i fun j => p2 b j fun k => p1 k ![A, B, phi]) = position b A B phi := by
  have hX := p1_X B phi h1 h2
  have hm : (A + 1) / 2 ∈ Set.Ioo (-1) (1 : ℝ) := ⟨by linarith, by linarith⟩
  have hR : p1 1 ![A, B, phi] = π / 2 + 2 * arctan B := by simp [p1]
  have e0 : p2 b 0 (fun k => p1 k ![A, B, phi]) =
      b * ((((A + 1) / 2) ^ 2 + 1) / (((A + 1) / 2) ^ 2 - 1)) * (2 * B / (1 + B ^ 2)) := by
    simp only [p2, Matrix.cons_val]
    rw [hX, hR, cosh_two_artanh hm, cos_R, ← neg_sub 1 (((A + 1) / 2) ^ 2), div_neg]
    ring
  have e1 : p2 b 1 (fun k => p1 k ![A, B, phi]) =
      b * (2 * ((A + 1) / 2) / (1 - ((A + 1) / 2) ^ 2)) * ((1 - B ^ 2) / (1 + B ^ 2)) := by
    simp only [p2, Matrix.cons_val]
    rw [hX, hR, sinh_two_artanh hm, sin_R]
  have e2 : p2 b 2 (fun k => p1 k ![A, B, phi]) = phi := by simp [p2, p1]
  funext i
  fin_cases i <;> simp [p3, position, e0, e1, e2]

end Position

theorem jetOf_congr {Ω : Dom} {f g : Scal} (h : ∀ y ∈ Ω, f y = g y) {x : Vec} (hx : x ∈ Ω) : jetOf f x = jetOf g x := by
  have h1 : ∀ k, ∀ y ∈ Ω, pd k f y = pd k g y := fun k y hy => pd_congr_on h hy k
  have h2 : ∀ k l, pd l (pd k f) x = pd l (pd k g) x := fun k l => pd_congr_on (h1 k) hx l
  simp only [jetOf, h x hx, h1 _ x hx, h2]

/-- The interior of the range of `A`. -/
def inA1 : Dom := ⟨{q | -1 < q 0 ∧ q 0 < 1}, (isOpen_lt continuous_const (continuous_apply 0)).inter (isOpen_lt (continuous_apply 0) continuous_const)⟩

theorem inA1_le : inA1 ≤ inA := fun q hq => ⟨by linarith [hq.1], hq.2⟩

theorem continuous_of_smooth {p : Fin 3 → Scal} (h : ∀ i, Sm ⊤ (p i)) : Continuous fun q => fun i => p i q :=
  continuous_pi fun i => continuousOn_univ.1 (by simpa using (h i).continuousOn)

theorem toCartesian_chain {b A B : ℝ} (phi : ℝ) (hb : 0 < b) (h1 : -1 < A) (h2 : A < 1) (h3 : -1 < B) (h4 : B < 1) {Ω : Dom} {u : Scal}
    (hu : Sm Ω u) (hx : position b A B phi ∈ Ω) :
    toCartesian b A B phi (jetABphi (fun A B phi => u (position b A B phi)) A B phi) =
      (position b A B phi 0, position b A B phi 1, position b A B phi 2, jetOf u (position b A B phi)) := by
  let Ω3 : Dom := ⟨(fun q => fun i => p3 i q) ⁻¹' Ω, Ω.isOpen.preimage (continuous_of_smooth (p3_smooth ⊤))⟩
  let Ω2 : Dom := ⟨(fun q => fun i => p2 b i q) ⁻¹' Ω3, Ω3.isOpen.preimage (continuous_of_smooth (p2_smooth b ⊤))⟩
  let Ω1 : Dom := ⟨inA1 ∩ (fun q => fun i => p1 i q) ⁻¹' Ω2,
    ContinuousOn.isOpen_inter_preimage (continuousOn_pi.2 fun i => (p1_smooth inA1_le i).continuousOn) inA1.isOpen Ω2.isOpen⟩
  have hpos := p_position b B phi h1.le h2
  have hq : (![A, B, phi] : Vec) ∈ Ω1 := by
    refine ⟨⟨by simpa using h1, by simpa using h2⟩, ?_⟩
    show (fun i => p3 i fun j => p2 b j fun k => p1 k ![A, B, phi]) ∈ Ω
    rw [hpos]
    exact hx
  have hle : Ω1 ≤ inA := fun q hq => inA1_le hq.1
  let u3 : Scal := fun q => u fun i => p3 i q
  let u2 : Scal := fun q => u3 fun i => p2 b i q
  have s3 : Sm Ω3 u3 := Sm.comp3 hu (p3_smooth Ω3) fun q hq => hq
  have s2 : Sm Ω2 u2 := Sm.comp3 s3 (p2_smooth b Ω2) fun q hq => hq
  have hj : jetABphi (fun A B phi => u (position b A B phi)) A B phi = jetOf (fun q => u2 fun i => p1 i q) ![A, B, phi] := by
    have := jetABphi_eq (fun A B phi => u (position b A B phi)) ![A, B, phi]
    simp only [Matrix.cons_val] at this
    rw [this]
    refine jetOf_congr (Ω := Ω1) (fun y hy => ?_) hq
    have := p_position (A := y 0) b (y 1) (y 2) hy.1.1.le hy.1.2
    rw [show (![y 0, y 1, y 2] : Vec) = y by
      funext i
      fin_cases i <;> rfl] at this
    simp only [unc, ← this]
    rfl
  have t1 := stage1 s2 hle (fun q hq => hq.2) hq
  have hr : sinh (p1 0 ![A, B, phi]) ≠ 0 := by
    rw [p1_X B phi h1.le h2, sinh_two_artanh ⟨by linarith, by linarith⟩]
    have : 0 < 1 - ((A + 1) / 2) ^ 2 := by nlinarith
    exact div_ne_zero (by linarith) this.ne'
  have hs : sin (p1 1 ![A, B, phi]) ≠ 0 := by
    rw [show p1 1 ![A, B, phi] = π / 2 + 2 * arctan B by simp [p1], sin_R]
    have : 0 < 1 - B ^ 2 := by nlinarith
    exact div_ne_zero this.ne' (by positivity)
  have hN : cre b (fun i => p1 i ![A, B, phi]) ^ 2 + cim b (fun i => p1 i ![A, B, phi]) ^ 2 ≠ 0 := by
    have : cim b (fun i => p1 i ![A, B, phi]) ≠ 0 := mul_ne_zero (mul_ne_zero hb.ne' (cosh_pos _).ne') hs
    positivity
  have t2 := stage2 (b := b) s3 (fun q (hq : q ∈ Ω2) => hq) (q := fun i => p1 i ![A, B, phi]) hq.2 hN
  have hr3 : p2 b 1 (fun i => p1 i ![A, B, phi]) ≠ 0 := mul_ne_zero (mul_ne_zero hb.ne' hr) hs
  have t3 := stage3 hu (fun q (hq : q ∈ Ω3) => hq) (q := fun j => p2 b j fun i => p1 i ![A, B, phi]) hq.2 hr3
  have e2 : p2 b 2 (fun k => p1 k ![A, B, phi]) = phi := by simp [p2, p1]
  simp only [Matrix.cons_val] at t1
  unfold toCartesian
  rw [hj, t1]
  simp only []
  rw [t2]
  simp only []
  rw [e2] at t3
  rw [t3, ← hpos]
  rfl

end Verif.TP
