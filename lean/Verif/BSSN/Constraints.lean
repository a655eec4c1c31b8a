import Verif.BSSN.Physical
import Verif.BSSN.RhsModel

/-!
# The constraints of BSSN data are the ADM constraints
-/
namespace Verif.BSSN
open Verif.RefMetric Verif.IndexedExp Real

/-! ### Divergence of raised tensors -/

section
variable {Ω : Dom} {g A : T2} {f : Scal} (hg : IsMetric Ω g) (hA : ∀ i j, Sm Ω (A i j)) (hf : Sm Ω f)
include hg

theorem raise2_smooth (hA : ∀ i j, Sm Ω (A i j)) (i j : Fin 3) : Sm Ω (raise2 g A i j) :=
  Sm.sum fun k => Sm.sum fun l => ((hg.inverse_smooth i k).mul (hg.inverse_smooth j l)).mul (hA k l)

theorem raise2_symm (hAs : ∀ y ∈ Ω, ∀ i j, A i j y = A j i y) {y : Vec} (hy : y ∈ Ω) (i j : Fin 3) :
    raise2 g A i j y = raise2 g A j i y := by
  simp only [raise2, Fin.sum_univ_three, hAs y hy 1 0, hAs y hy 2 0, hAs y hy 2 1]
  ring

theorem pd_raise2 (hA : ∀ i j, Sm Ω (A i j)) {x : Vec} (hx : x ∈ Ω) (i j n : Fin 3) :
    pd n (raise2 g A i j) x = ∑ k, ∑ l, (pd n (inverse g i k) x * inverse g j l x * A k l x +
      inverse g i k x * pd n (inverse g j l) x * A k l x + inverse g i k x * inverse g j l x * pd n (A k l) x) := by
  have h1 : ∀ k l, Sm Ω fun y => inverse g i k y * inverse g j l y := fun k l => (hg.inverse_smooth i k).mul (hg.inverse_smooth j l)
  show pd n (fun y => ∑ k, ∑ l, inverse g i k y * inverse g j l y * A k l y) x = _
  rw [dpd_sum hx n fun k => Sm.sum fun l => (h1 k l).mul (hA k l)]
  refine Finset.sum_congr rfl fun k _ => ?_
  rw [dpd_sum hx n fun l => (h1 k l).mul (hA k l)]
  refine Finset.sum_congr rfl fun l _ => ?_
  rw [dpd_mul hx n (h1 k l) (hA k l), dpd_mul hx n (hg.inverse_smooth i k) (hg.inverse_smooth j l)]
  ring

theorem cov_raise2 (hA : ∀ i j, Sm Ω (A i j)) {x : Vec} (hx : x ∈ Ω) (i j n : Fin 3) :
    pd n (raise2 g A i j) x + ∑ m, (christoffel g i n m x * raise2 g A m j x + christoffel g j n m x * raise2 g A i m x) =
      ∑ k, ∑ l, inverse g i k x * inverse g j l x *
        covDD (fun i j k => christoffel g i j k x) (fun i j => A i j x) (fun i j k => pd k (A i j) x) k l n := by
  rw [pd_raise2 hg hA hx]
  simp only [hg.pd_inverse' hx, raise2, covDD, Fin.sum_univ_three]
  ring

/-- `D_j (A^{ij} + c g^{ij} f)`. -/
theorem divergence_raise (hA : ∀ i j, Sm Ω (A i j)) (hf : Sm Ω f) (c : ℝ) {x : Vec} (hx : x ∈ Ω) (i : Fin 3) :
    divergence g (fun a b y => raise2 g A a b y + c * (inverse g a b y * f y)) i x =
      ∑ j, ∑ k, ∑ l, inverse g i k x * inverse g j l x *
        covDD (fun i j k => christoffel g i j k x) (fun i j => A i j x) (fun i j k => pd k (A i j) x) k l j +
      c * ∑ j, inverse g i j x * pd j f x := by
  have h1 : ∀ j, pd j (fun y => raise2 g A i j y + c * (inverse g i j y * f y)) x = pd j (raise2 g A i j) x +
      c * (pd j (inverse g i j) x * f x + inverse g i j x * pd j f x) := fun j => by
    rw [dpd_add hx j (raise2_smooth hg hA i j) ((Sm.const c).mul ((hg.inverse_smooth i j).mul hf)),
      dpd_cmul hx j c ((hg.inverse_smooth i j).mul hf), dpd_mul hx j (hg.inverse_smooth i j) hf]
  have h2 : divergence g (fun a b y => raise2 g A a b y + c * (inverse g a b y * f y)) i x =
      ∑ j, (pd j (raise2 g A i j) x + ∑ m, (christoffel g i j m x * raise2 g A m j x + christoffel g j j m x * raise2 g A i m x)) +
      c * ∑ j, inverse g i j x * pd j f x + c * f x * ∑ j, (pd j (inverse g i j) x +
        ∑ m, (christoffel g i j m x * inverse g m j x + christoffel g j j m x * inverse g i m x)) := by
    simp only [divergence, h1, Fin.sum_univ_three]
    ring
  rw [h2]
  have h3 : ∀ j, pd j (inverse g i j) x + ∑ m, (christoffel g i j m x * inverse g m j x + christoffel g j j m x * inverse g i m x) = 0 :=
    fun j => by rw [hg.pd_inverse' hx]; ring
  simp only [h3, cov_raise2 hg hA hx]
  simp

end

section
variable {Ω : Dom} {s : Vec → Vec} {F : Fields} {c : CF} (hs : IsRfm Ω s) (hF : F.Smooth Ω)
  (hc : ∀ y ∈ Ω, cfValid c (F.cf y)) (hdet : ∀ y ∈ Ω, (Matrix.of fun a b => gammabarF s F a b y).det ≠ 0)
include hs hF

theorem AbarF_symm (i j : Fin 3) : AbarF s F i j = AbarF s F j i := by
  funext y
  simp only [AbarF, AbarDD, gfsAt, rfmAt, hF.asymm i j, RefMetric.ReDD]
  ring

theorem AbarUU_eq (y : Vec) (i j : Fin 3) : AbarUU (rfmAt s y) (gfsAt F y) i j = raise2 (gammabarF s F) (AbarF s F) i j y := by
  unfold AbarUU raise2
  simp only [gammabarUU_eq hs hF]
  rfl

theorem trAbar_eq (y : Vec) : trAbar (rfmAt s y) (gfsAt F y) = trace (gammabarF s F) (AbarF s F) y := by
  unfold trAbar trace
  simp only [gammabarUU_eq hs hF]
  refine Finset.sum_congr rfl fun k _ => Finset.sum_congr rfl fun j _ => ?_
  rw [congrFun (AbarF_symm hs hF k j) y]
  rfl

include hc

theorem KF_eq (y : Vec) (hy : y ∈ Ω) (i j : Fin 3) :
    KF s F c i j y = Real.exp (4 * phiF F c y) * (AbarF s F i j y + 1 / 3 * gammabarF s F i j y * F.trK y) := by
  rw [← exp4phi_eq hF hc hy]
  simp only [KF, KDD, AbarF, gammaDD, gammabarF, gfsAt]
  ring

include hdet

theorem gammaF_metric : IsMetric Ω (gammaF s F c) :=
  conf_metric (gammabarF_metric hs hF hdet) (phiF_smooth hF hc) fun y hy i j => gammaF_eq hF hc y hy i j

theorem inverse_gammaF {y : Vec} (hy : y ∈ Ω) (i j : Fin 3) :
    inverse (gammaF s F c) i j y = Real.exp (-4 * phiF F c y) * inverse (gammabarF s F) i j y :=
  conf_inverse (gammabarF_metric hs hF hdet) (fun y hy i j => gammaF_eq hF hc y hy i j) hy i j

omit hc in
theorem gammabar_trace {y : Vec} (hy : y ∈ Ω) : ∑ i, ∑ j, inverse (gammabarF s F) i j y * gammabarF s F i j y = 3 := by
  have hg := gammabarF_metric hs hF hdet
  have : ∀ i, ∑ j, inverse (gammabarF s F) i j y * gammabarF s F i j y = 1 := fun i => by
    have := hg.inverse_mul hy i i
    simp only [if_true] at this
    rw [← this]
    exact Finset.sum_congr rfl fun j _ => by rw [hg.symm i j y hy]
  simp [this]

theorem trace_KF {y : Vec} (hy : y ∈ Ω) : trace (gammaF s F c) (KF s F c) y = trAbar (rfmAt s y) (gfsAt F y) + F.trK y := by
  have e : Real.exp (-4 * phiF F c y) * Real.exp (4 * phiF F c y) = 1 := by rw [← Real.exp_add]; simp
  have h3 := gammabar_trace hs hF hdet hy
  have h : trace (gammaF s F c) (KF s F c) y = Real.exp (-4 * phiF F c y) * Real.exp (4 * phiF F c y) * (trace (gammabarF s F) (AbarF s F) y +
      1 / 3 * F.trK y * ∑ i, ∑ j, inverse (gammabarF s F) i j y * gammabarF s F i j y) := by
    simp only [trace, inverse_gammaF hs hF hc hdet hy, KF_eq hs hF hc y hy, Fin.sum_univ_three]
    ring
  rw [h, e, h3, trAbar_eq hs hF]
  ring

theorem raise_KF {y : Vec} (hy : y ∈ Ω) (i j : Fin 3) : raise2 (gammaF s F c) (KF s F c) i j y =
    Real.exp (-4 * phiF F c y) * (raise2 (gammabarF s F) (AbarF s F) i j y + 1 / 3 * F.trK y * inverse (gammabarF s F) i j y) := by
  have hg := gammabarF_metric hs hF hdet
  have e : Real.exp (-4 * phiF F c y) * Real.exp (4 * phiF F c y) = 1 := by rw [← Real.exp_add]; simp
  have h : raise2 (gammaF s F c) (KF s F c) i j y = Real.exp (-4 * phiF F c y) * (Real.exp (-4 * phiF F c y) * Real.exp (4 * phiF F c y)) *
      (raise2 (gammabarF s F) (AbarF s F) i j y + 1 / 3 * F.trK y *
        ∑ l, inverse (gammabarF s F) j l y * ∑ k, inverse (gammabarF s F) i k y * gammabarF s F k l y) := by
    simp only [raise2, inverse_gammaF hs hF hc hdet hy, KF_eq hs hF hc y hy, Fin.sum_univ_three]
    ring
  rw [h, e]
  simp only [hg.inverse_mul hy]
  simp [hg.inverse_symm hy j i]

/-- `γ̄^{ij} R̄_{ij}` etc. are the curvature terms of the Hamiltonian constraint. -/
theorem Hcurv_eq {x : Vec} (hx : x ∈ Ω) (hR : ∀ i j, RbarDD (rfmAt s x) (gfsAt F x) i j = ricci (gammabarF s F) i j x) :
    Hcurv (rfmAt s x) (gfsAt F x) c = scalarCurvature (gammaF s F c) x := by
  rw [conf_scalar (gammabarF_metric hs hF hdet) (phiF_smooth hF hc) (fun y hy i j => gammaF_eq hF hc y hy i j) hx]
  unfold Hcurv
  simp only [hR, gammabarUU_eq hs hF, phi_dBarDD_eq hs hF hc hx, ← pd_phiF hF hc hx, exp_m4phi_eq hF hc hx, scalarCurvature]
  ring

theorem H_vacuum_eq {x : Vec} (hx : x ∈ Ω) (hR : ∀ i j, RbarDD (rfmAt s x) (gfsAt F x) i j = ricci (gammabarF s F) i j x)
    (htr : trAbar (rfmAt s x) (gfsAt F x) = 0) :
    H (rfmAt s x) (gfsAt F x) c none = scalarCurvature (gammaF s F c) x + trace (gammaF s F c) (KF s F c) x ^ 2 -
      ∑ i, ∑ j, KF s F c i j x * raise2 (gammaF s F c) (KF s F c) i j x := by
  have e : Real.exp (4 * phiF F c x) * Real.exp (-4 * phiF F c x) = 1 := by rw [← Real.exp_add]; simp
  have hg := gammabarF_metric hs hF hdet
  have h3 := gammabar_trace hs hF hdet hx
  have htr' := htr
  rw [trAbar_eq hs hF] at htr'
  have h4 : ∑ i, ∑ j, gammabarF s F i j x * raise2 (gammabarF s F) (AbarF s F) i j x = trace (gammabarF s F) (AbarF s F) x := by
    have t : ∑ i, ∑ j, gammabarF s F i j x * raise2 (gammabarF s F) (AbarF s F) i j x =
        ∑ k, ∑ l, AbarF s F k l x * ∑ i, inverse (gammabarF s F) k i x * ∑ j, gammabarF s F i j x * inverse (gammabarF s F) j l x := by
      simp only [raise2, Fin.sum_univ_three, hg.inverse_symm hx 1 0, hg.inverse_symm hx 2 0, hg.inverse_symm hx 2 1]
      ring
    rw [t]
    simp only [hg.mul_inverse hx, trace]
    refine Finset.sum_congr rfl fun k _ => Finset.sum_congr rfl fun l _ => ?_
    simp [mul_comm]
  have h5 : ∑ i, ∑ j, KF s F c i j x * raise2 (gammaF s F c) (KF s F c) i j x =
      (Real.exp (4 * phiF F c x) * Real.exp (-4 * phiF F c x)) * (∑ i, ∑ j, AbarF s F i j x * raise2 (gammabarF s F) (AbarF s F) i j x +
        1 / 3 * F.trK x * trace (gammabarF s F) (AbarF s F) x +
        1 / 3 * F.trK x * ∑ i, ∑ j, gammabarF s F i j x * raise2 (gammabarF s F) (AbarF s F) i j x +
        1 / 9 * F.trK x ^ 2 * ∑ i, ∑ j, inverse (gammabarF s F) i j x * gammabarF s F i j x) := by
    simp only [raise_KF hs hF hc hdet hx, KF_eq hs hF hc x hx, trace, Fin.sum_univ_three]
    ring
  rw [h5, e, h3, h4, trace_KF hs hF hc hdet hx, htr, htr', H, Hcurv_eq hs hF hc hdet hx hR]
  simp only [AbarUU_eq hs hF]
  have h6 : ∑ i, ∑ j, -AbarDD (rfmAt s x) (gfsAt F x) i j * raise2 (gammabarF s F) (AbarF s F) i j x =
      -∑ i, ∑ j, AbarF s F i j x * raise2 (gammabarF s F) (AbarF s F) i j x := by
    simp only [AbarF, Fin.sum_univ_three]
    ring
  rw [h6]
  simp only [gfsAt]
  ring

theorem MU_vacuum_eq {x : Vec} (hx : x ∈ Ω) (htr : ∀ y ∈ Ω, trAbar (rfmAt s y) (gfsAt F y) = 0) (i : Fin 3) :
    MU (rfmAt s x) (gfsAt F x) c none i =
      divergence (gammaF s F c) (fun a b y => raise2 (gammaF s F c) (KF s F c) a b y -
        inverse (gammaF s F c) a b y * trace (gammaF s F c) (KF s F c) y) i x := by
  have hg := gammabarF_metric hs hF hdet
  have hA := AbarF_smooth hs hF
  have hAs : ∀ y ∈ Ω, ∀ i j, AbarF s F i j y = AbarF s F j i y := fun y _ i j => congrFun (AbarF_symm hs hF i j) y
  rw [conf_divergence hg (phiF_smooth hF hc) (fun y hy i j => gammaF_eq hF hc y hy i j)
    (T := fun a b y => raise2 (gammabarF s F) (AbarF s F) a b y + -(2 / 3) * (inverse (gammabarF s F) a b y * F.trK y))
    (fun a b => (raise2_smooth hg hA a b).add ((Sm.const _).mul ((hg.inverse_smooth a b).mul hF.trK)))
    (fun y hy a b => by rw [raise2_symm hg hAs hy a b, hg.inverse_symm hy a b])
    (fun y hy a b => by
      rw [raise_KF hs hF hc hdet hy, trace_KF hs hF hc hdet hy, htr y hy, inverse_gammaF hs hF hc hdet hy]; ring) hx i,
    divergence_raise hg hA hF.trK _ hx]
  have h4 : ∑ a, ∑ b, gammabarF s F a b x * (raise2 (gammabarF s F) (AbarF s F) a b x + -(2 / 3) * (inverse (gammabarF s F) a b x * F.trK x)) =
      -2 * F.trK x := by
    have t : ∑ a, ∑ b, gammabarF s F a b x * (raise2 (gammabarF s F) (AbarF s F) a b x + -(2 / 3) * (inverse (gammabarF s F) a b x * F.trK x)) =
        ∑ k, ∑ l, AbarF s F k l x * ∑ i, inverse (gammabarF s F) k i x * ∑ j, gammabarF s F i j x * inverse (gammabarF s F) j l x -
        2 / 3 * F.trK x * ∑ a, ∑ b, inverse (gammabarF s F) a b x * gammabarF s F a b x := by
      simp only [raise2, Fin.sum_univ_three, hg.inverse_symm hx 1 0, hg.inverse_symm hx 2 0, hg.inverse_symm hx 2 1]
      ring
    have h0 : ∑ k, ∑ l, AbarF s F k l x * ∑ i, inverse (gammabarF s F) k i x * ∑ j, gammabarF s F i j x * inverse (gammabarF s F) j l x = 0 := by
      have := htr x hx
      rw [trAbar_eq hs hF] at this
      rw [← this]
      simp only [hg.mul_inverse hx, trace]
      refine Finset.sum_congr rfl fun k _ => Finset.sum_congr rfl fun l _ => ?_
      simp [mul_comm]
    rw [t, h0, gammabar_trace hs hF hdet hx]
    ring
  rw [h4]
  have h5 : ∀ k l j, covDD (fun i j k => christoffel (gammabarF s F) i j k x) (fun i j => AbarF s F i j x)
      (fun i j k => pd k (AbarF s F i j) x) k l j = AbarDD_dBarD (rfmAt s x) (gfsAt F x) k l j := fun k l j => by
    unfold covDD AbarDD_dBarD
    simp only [pd_AbarF hs hF hx, GammabarUDD_eq hs hF hx, AbarF, Fin.sum_univ_three]
    ring
  have h6 : ∀ j, (gfsAt F x).trK_dD j = pd j F.trK x := fun _ => rfl
  unfold MU
  simp only [h5, h6, gammabarUU_eq hs hF, AbarUU_eq hs hF, ← pd_phiF hF hc hx, exp_m4phi_eq hF hc hx]
  simp only [Fin.sum_univ_three]
  ring

end

/-! ### Matter -/

section
variable (γ : V2) (β : V1) (α : ℝ) (T : Fin 4 → Fin 4 → ℝ)

theorem gamma4_zero (i : Fin 3) : gamma4DD γ β α i.succ 0 = ∑ j, γ i j * β j := by
  have h : n4D α i.succ = 0 := by fin_cases i <;> rfl
  simp only [gamma4DD, h, zero_mul, add_zero]
  rfl

theorem gamma4_succ (i j : Fin 3) : gamma4DD γ β α i.succ j.succ = γ i j := by
  have h : n4D α i.succ = 0 := by fin_cases i <;> rfl
  simp only [gamma4DD, h, zero_mul, add_zero]
  rfl

theorem rho_eq : rho α T = α ^ 2 * T 0 0 := by
  have h : ∀ i : Fin 3, n4D α i.succ = 0 := fun i => by fin_cases i <;> rfl
  have h0 : n4D α 0 = -α := by simp [n4D]
  simp only [rho, Fin.sum_univ_succ (n := 3), h, h0, mul_zero, zero_mul, Finset.sum_const_zero, add_zero]
  ring

theorem SD_eq (i : Fin 3) : SD γ β α T i = α * ∑ j : Fin 3, γ i j * (β j * T 0 0 + T j.succ 0) := by
  have h : ∀ i : Fin 3, n4D α i.succ = 0 := fun i => by fin_cases i <;> rfl
  have h0 : n4D α 0 = -α := by simp [n4D]
  simp only [SD, Fin.sum_univ_succ (n := 3), gamma4_zero, gamma4_succ, h, h0]
  simp only [Fin.sum_univ_three]
  ring

theorem SDD_eq (i j : Fin 3) : SDD γ β α T i j = ∑ k : Fin 3, ∑ l : Fin 3, γ i k * γ j l *
    (β k * β l * T 0 0 + β k * T 0 l.succ + β l * T k.succ 0 + T k.succ l.succ) := by
  simp only [SDD, Fin.sum_univ_succ (n := 3), gamma4_zero, gamma4_succ]
  simp only [Fin.sum_univ_three]
  ring

end

end Verif.BSSN
