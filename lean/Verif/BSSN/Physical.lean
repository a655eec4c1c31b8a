import Verif.BSSN.Conformal
import Verif.BSSN.RoundTrip
import Mathlib.Analysis.SpecialFunctions.Log.Deriv

/-!
# The physical metric and extrinsic curvature of BSSN data, and their derivatives
-/
namespace Verif.BSSN
open Verif.RefMetric Verif.IndexedExp Real
open scoped ContDiff

theorem Sm.log {Ω : Dom} {f : Scal} (hf : Sm Ω f) (h0 : ∀ x ∈ Ω, f x ≠ 0) : Sm Ω fun y => Real.log (f y) := ContDiffOn.log hf h0

theorem dpd_log {Ω : Dom} {f : Scal} {x : Vec} (hx : x ∈ Ω) (k : Fin 3) (hf : Sm Ω f) (h0 : ∀ x ∈ Ω, f x ≠ 0) :
    pd k (fun y => Real.log (f y)) x = pd k f x / f x := by
  rw [pd_eq ((hf.log h0).diff hx), pd_eq (hf.diff hx), ((hf.diff hx).hasFDerivAt.log (h0 x hx)).fderiv]
  simp [div_eq_inv_mul]

theorem dpd_div {Ω : Dom} {f g : Scal} {x : Vec} (hx : x ∈ Ω) (k : Fin 3) (hf : Sm Ω f) (hg : Sm Ω g) (h0 : ∀ x ∈ Ω, g x ≠ 0) :
    pd k (fun y => f y / g y) x = (pd k f x * g x - f x * pd k g x) / g x ^ 2 := by
  have h1 := (hf.div hg h0)
  have e : pd k f x = pd k (fun y => f y / g y * g y) x :=
    pd_congr_on (fun y hy => (div_mul_cancel₀ _ (h0 y hy)).symm) hx k
  rw [dpd_mul hx k h1 hg] at e
  have := h0 x hx
  rw [e]
  field_simp
  ring

section
variable {Ω : Dom} {s : Vec → Vec} {F : Fields} {c : CF} (hs : IsRfm Ω s) (hF : F.Smooth Ω)
  (hc : ∀ y ∈ Ω, cfValid c (F.cf y))
include hF hc

theorem phiF_smooth : Sm Ω (phiF F c) := by
  cases c
  · exact hF.cf
  · exact (Sm.const _).mul (hF.cf.log fun x hx => (hc x hx : 0 < F.cf x).ne')
  · exact (Sm.const _).mul (hF.cf.log fun x hx => (hc x hx : 0 < F.cf x).ne')

theorem pd_phiF {x : Vec} (hx : x ∈ Ω) (i : Fin 3) : pd i (phiF F c) x = phi_dD (gfsAt F x) c i := by
  cases c
  · rfl
  · have h0 : ∀ x ∈ Ω, F.cf x ≠ 0 := fun x hx => (hc x hx : 0 < F.cf x).ne'
    show pd i (fun y => -(1 / 2) * Real.log (F.cf y)) x = _
    rw [dpd_cmul hx i _ (hF.cf.log h0), dpd_log hx i hF.cf h0]
    have := h0 x hx
    simp only [phi_dD, gfsAt]
    field_simp
  · have h0 : ∀ x ∈ Ω, F.cf x ≠ 0 := fun x hx => (hc x hx : 0 < F.cf x).ne'
    show pd i (fun y => -(1 / 4) * Real.log (F.cf y)) x = _
    rw [dpd_cmul hx i _ (hF.cf.log h0), dpd_log hx i hF.cf h0]
    have := h0 x hx
    simp only [phi_dD, gfsAt]
    field_simp

theorem pd_pd_phiF {x : Vec} (hx : x ∈ Ω) (i j : Fin 3) : pd j (pd i (phiF F c)) x = phi_dDD (gfsAt F x) c i j := by
  rw [pd_congr_on (fun y hy => pd_phiF hF hc hy i) hx j]
  have key : ∀ (n : ℝ), (∀ x ∈ Ω, F.cf x ≠ 0) → pd j (fun y => -pd i F.cf y / (n * F.cf y)) x =
      (-pd j (pd i F.cf) x + pd i F.cf x * pd j F.cf x / F.cf x) / (n * F.cf x) := fun n h0 => by
    by_cases hn : n = 0
    · subst hn; simp [dpd_const]
    · have h1 : ∀ x ∈ Ω, n * F.cf x ≠ 0 := fun x hx => mul_ne_zero hn (h0 x hx)
      rw [dpd_div hx j (hF.cf.pd i).neg ((Sm.const n).mul hF.cf) h1, dpd_neg hx j (hF.cf.pd i), dpd_cmul hx j n hF.cf]
      have := h0 x hx
      field_simp
      ring
  cases c
  · rfl
  · exact key 2 fun x hx => (hc x hx : 0 < F.cf x).ne'
  · exact key 4 fun x hx => (hc x hx : 0 < F.cf x).ne'

theorem exp4phi_eq {x : Vec} (hx : x ∈ Ω) : exp4phi (gfsAt F x) c = Real.exp (4 * phiF F c x) := by
  cases c
  · rfl
  · have h0 : 0 < F.cf x := hc x hx
    simp only [exp4phi, gfsAt, phiF]
    rw [show (4 : ℝ) * (-(1 / 2) * Real.log (F.cf x)) = -((2 : ℕ) * Real.log (F.cf x)) by push_cast; ring, Real.exp_neg, ← Real.log_pow,
      Real.exp_log (pow_pos h0 2), one_div]
  · have h0 : 0 < F.cf x := hc x hx
    simp only [exp4phi, gfsAt, phiF]
    rw [show (4 : ℝ) * (-(1 / 4) * Real.log (F.cf x)) = -Real.log (F.cf x) by ring, Real.exp_neg, Real.exp_log h0, one_div]

theorem exp_m4phi_eq {x : Vec} (hx : x ∈ Ω) : exp_m4phi (gfsAt F x) c = Real.exp (-4 * phiF F c x) := by
  rw [show -4 * phiF F c x = -(4 * phiF F c x) by ring, Real.exp_neg, ← exp4phi_eq hF hc hx]
  cases c
  · simp only [exp_m4phi, exp4phi, ← Real.exp_neg]; ring_nf
  · simp only [exp_m4phi, exp4phi]; simp [sq]
  · simp only [exp_m4phi, exp4phi]; simp

theorem phidD_eq {x : Vec} (hx : x ∈ Ω) (i : Fin 3) : phidD (gfsAt F x) c i = pd i (phiF F c) x := by
  rw [pd_phiF hF hc hx]
  cases c
  · rfl
  · simp only [phidD, phi_dD]; ring
  · simp only [phidD, phi_dD, exp4phi]; ring

theorem phidDD_eq {x : Vec} (hx : x ∈ Ω) (i j : Fin 3) : phidDD (gfsAt F x) c i j = pd j (pd i (phiF F c)) x := by
  rw [pd_pd_phiF hF hc hx]
  cases c
  · rfl
  · simp only [phidDD, phi_dDD, exp4phi]; ring
  · simp only [phidDD, phi_dDD, exp4phi]; ring

theorem gammaF_eq (y : Vec) (hy : y ∈ Ω) (i j : Fin 3) : gammaF s F c i j y = Real.exp (4 * phiF F c y) * gammabarF s F i j y := by
  rw [← exp4phi_eq hF hc hy]; rfl

include hs

theorem gammaF_smooth (i j : Fin 3) : Sm Ω (gammaF s F c i j) :=
  (((Sm.const 4).mul (phiF_smooth hF hc)).exp.mul (gammabarF_smooth hs hF i j)).congr fun y hy => gammaF_eq hF hc y hy i j

variable {x : Vec} (hx : x ∈ Ω)
include hx

theorem pd_exp4phi (k : Fin 3) : pd k (fun y => Real.exp (4 * phiF F c y)) x = exp4phidD (gfsAt F x) c k := by
  have hφ := phiF_smooth hF hc
  rw [dpd_exp hx k ((Sm.const 4).mul hφ), dpd_cmul hx k 4 hφ, exp4phidD, phidD_eq hF hc hx, exp4phi_eq hF hc hx]
  ring

theorem pd_pd_exp4phi (k l : Fin 3) : pd l (pd k fun y => Real.exp (4 * phiF F c y)) x = exp4phidDD (gfsAt F x) c k l := by
  have hφ := phiF_smooth hF hc
  have h4 := ((Sm.const 4).mul hφ)
  rw [pd_congr_on (g := fun y => Real.exp (4 * phiF F c y) * (4 * pd k (phiF F c) y)) (fun y hy => by
    rw [dpd_exp hy k h4, dpd_cmul hy k 4 hφ]) hx, dpd_mul hx l h4.exp ((Sm.const 4).mul (hφ.pd k)),
    dpd_exp hx l h4, dpd_cmul hx l 4 hφ, dpd_cmul hx l 4 (hφ.pd k), exp4phidDD, phidDD_eq hF hc hx, exp4phi_eq hF hc hx,
    phidD_eq hF hc hx, phidD_eq hF hc hx]
  ring

theorem pd_gammaF (i j k : Fin 3) : pd k (gammaF s F c i j) x = gammaDDdD (rfmAt s x) (gfsAt F x) c i j k := by
  have h4 := ((Sm.const 4).mul (phiF_smooth hF hc)).exp
  rw [pd_congr_on (fun y hy => gammaF_eq hF hc y hy i j) hx, dpd_mul hx k h4 (gammabarF_smooth hs hF i j),
    pd_exp4phi hs hF hc hx, pd_gammabarF hs hF hx, gammaDDdD, exp4phi_eq hF hc hx]
  rfl

theorem pd_pd_gammaF (i j k l : Fin 3) : pd l (pd k (gammaF s F c i j)) x = gammaDDdDD (rfmAt s x) (gfsAt F x) c i j k l := by
  have h4 := ((Sm.const 4).mul (phiF_smooth hF hc)).exp
  have hg := gammabarF_smooth hs hF i j
  rw [pd_congr_on (g := fun y => pd k (fun y => Real.exp (4 * phiF F c y)) y * gammabarF s F i j y +
      Real.exp (4 * phiF F c y) * pd k (gammabarF s F i j) y) (fun y hy => by
    rw [pd_congr_on (fun y hy => gammaF_eq hF hc y hy i j) hy, dpd_mul hy k h4 hg]) hx,
    dpd_add hx l ((h4.pd k).mul hg) (h4.mul (hg.pd k)), dpd_mul hx l (h4.pd k) hg, dpd_mul hx l h4 (hg.pd k),
    pd_pd_exp4phi hs hF hc hx, pd_exp4phi hs hF hc hx, pd_exp4phi hs hF hc hx, pd_gammabarF hs hF hx, pd_gammabarF hs hF hx,
    pd_pd_gammabarF hs hF hx, gammaDDdDD, exp4phi_eq hF hc hx]
  simp only [gammabarF]
  ring

theorem pd_KF (i j k : Fin 3) : pd k (KF s F c i j) x = KDDdD (rfmAt s x) (gfsAt F x) c i j k := by
  have h4 := ((Sm.const 4).mul (phiF_smooth hF hc)).exp
  have hA := AbarF_smooth hs hF i j
  have hg := gammaF_smooth hs hF hc i j
  have e : ∀ y ∈ Ω, KF s F c i j y = Real.exp (4 * phiF F c y) * AbarF s F i j y + 1 / 3 * (gammaF s F c i j y * F.trK y) := fun y hy => by
    rw [← exp4phi_eq hF hc hy]
    simp only [KF, KDD, AbarF, gammaF, gfsAt]
    ring
  rw [pd_congr_on e hx, dpd_add hx k (h4.mul hA) ((Sm.const _).mul (hg.mul hF.trK)), dpd_mul hx k h4 hA,
    dpd_cmul hx k _ (hg.mul hF.trK), dpd_mul hx k hg hF.trK, pd_exp4phi hs hF hc hx, pd_AbarF hs hF hx, pd_gammaF hs hF hc hx,
    KDDdD, exp4phi_eq hF hc hx]
  rfl

omit hx in
theorem gammaUU_eq (y : Vec) (i j : Fin 3) : gammaUU (rfmAt s y) (gfsAt F y) c i j = inverse (gammaF s F c) i j y :=
  inv3_eq (fun a b => by
    simp only [gammaDD]
    rw [show gammabarDD (rfmAt s y) (gfsAt F y) a b = gammabarF s F a b y from rfl, congrFun (gammabarF_symm hs hF a b) y]
    rfl) i j

theorem GammaUDD_eq (i j k : Fin 3) : GammaUDD (rfmAt s x) (gfsAt F x) c i j k = christoffel (gammaF s F c) i j k x := by
  unfold GammaUDD christoffel
  refine Finset.sum_congr rfl fun m _ => ?_
  rw [gammaUU_eq hs hF hc, pd_gammaF hs hF hc hx, pd_gammaF hs hF hc hx, pd_gammaF hs hF hc hx]
  ring

theorem phi_dBarDD_eq (i j : Fin 3) : phi_dBarDD (rfmAt s x) (gfsAt F x) c i j = hessian (gammabarF s F) (phiF F c) i j x := by
  unfold phi_dBarDD hessian
  simp only [GammabarUDD_eq hs hF hx, ← pd_phiF hF hc hx, ← pd_pd_phiF hF hc hx]
  rw [dpd_comm hx i (phiF_smooth hF hc) j]
  simp only [neg_mul, Finset.sum_neg_distrib]
  ring

end

end Verif.BSSN
