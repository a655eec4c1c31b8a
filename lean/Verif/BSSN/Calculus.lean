import Verif.BSSN.Geometry
import Verif.RefMetric.HattedProps

/-!
# Calculus of smooth functions on an open set of the coordinate space
-/
namespace Verif.BSSN
open Verif.RefMetric Topology
open scoped ContDiff

abbrev Dom := TopologicalSpace.Opens Vec

/-- `f` is smooth on `Ω`. -/
def Sm (Ω : Dom) (f : Scal) : Prop := ContDiffOn ℝ ∞ f Ω

variable {Ω : Dom} {f g : Scal}

theorem Sm.at (hf : Sm Ω f) {x : Vec} (hx : x ∈ Ω) : ContDiffAt ℝ ∞ f x := hf.contDiffAt (Ω.isOpen.mem_nhds hx)

theorem Sm.diff (hf : Sm Ω f) {x : Vec} (hx : x ∈ Ω) : DifferentiableAt ℝ f x := (hf.at hx).differentiableAt (by simp)

theorem sm_of_at (h : ∀ x ∈ Ω, ContDiffAt ℝ ∞ f x) : Sm Ω f := fun x hx => (h x hx).contDiffWithinAt

theorem Sm.congr (hf : Sm Ω f) (h : ∀ x ∈ Ω, g x = f x) : Sm Ω g := ContDiffOn.congr hf h

theorem Sm.const (c : ℝ) : Sm Ω fun _ => c := contDiffOn_const
theorem Sm.add (hf : Sm Ω f) (hg : Sm Ω g) : Sm Ω fun y => f y + g y := ContDiffOn.add hf hg
theorem Sm.sub (hf : Sm Ω f) (hg : Sm Ω g) : Sm Ω fun y => f y - g y := ContDiffOn.sub hf hg
theorem Sm.mul (hf : Sm Ω f) (hg : Sm Ω g) : Sm Ω fun y => f y * g y := ContDiffOn.mul hf hg
theorem Sm.neg (hf : Sm Ω f) : Sm Ω fun y => -f y := ContDiffOn.neg hf
theorem Sm.pow (hf : Sm Ω f) (n : ℕ) : Sm Ω fun y => f y ^ n := ContDiffOn.pow hf n
theorem Sm.div (hf : Sm Ω f) (hg : Sm Ω g) (h0 : ∀ x ∈ Ω, g x ≠ 0) : Sm Ω fun y => f y / g y := ContDiffOn.div hf hg h0
theorem Sm.sum {F : Fin 3 → Scal} (hF : ∀ m, Sm Ω (F m)) : Sm Ω fun y => ∑ m, F m y :=
  ContDiffOn.sum fun m _ => hF m

theorem pd_congr_on (h : ∀ y ∈ Ω, f y = g y) {x : Vec} (hx : x ∈ Ω) (k : Fin 3) : pd k f x = pd k g x :=
  pd_congr (Filter.eventually_of_mem (Ω.isOpen.mem_nhds hx) h) k

theorem Sm.pd (hf : Sm Ω f) (k : Fin 3) : Sm Ω (pd k f) := by
  have h : Sm Ω fun y => fderiv ℝ f y (Pi.single k 1) :=
    (hf.fderiv_of_isOpen Ω.isOpen (m := ∞) (by simp)).clm_apply contDiffOn_const
  exact h.congr fun x hx => pd_eq (hf.diff hx) k

section At
variable {x : Vec} (hx : x ∈ Ω) (k : Fin 3)
include hx

theorem dpd_add (hf : Sm Ω f) (hg : Sm Ω g) : pd k (fun y => f y + g y) x = pd k f x + pd k g x := by
  rw [pd_eq ((hf.diff hx).fun_add (hg.diff hx)), pd_eq (hf.diff hx), pd_eq (hg.diff hx),
    fderiv_fun_add (hf.diff hx) (hg.diff hx)]
  rfl

theorem dpd_sub (hf : Sm Ω f) (hg : Sm Ω g) : pd k (fun y => f y - g y) x = pd k f x - pd k g x := by
  rw [pd_eq ((hf.diff hx).fun_sub (hg.diff hx)), pd_eq (hf.diff hx), pd_eq (hg.diff hx),
    fderiv_fun_sub (hf.diff hx) (hg.diff hx)]
  rfl

theorem dpd_mul (hf : Sm Ω f) (hg : Sm Ω g) : pd k (fun y => f y * g y) x = pd k f x * g x + f x * pd k g x :=
  pd_mul_at (hf.diff hx) (hg.diff hx) k

omit hx in
theorem dpd_const (c : ℝ) : pd k (fun _ => c) x = 0 := by simp [RefMetric.pd]

theorem dpd_cmul (c : ℝ) (hf : Sm Ω f) : pd k (fun y => c * f y) x = c * pd k f x := by
  rw [dpd_mul hx k (Sm.const c) hf, dpd_const]
  ring

theorem dpd_neg (hf : Sm Ω f) : pd k (fun y => -f y) x = -pd k f x := by
  have := dpd_cmul hx k (-1) hf
  simpa using this

theorem dpd_sum {F : Fin 3 → Scal} (hF : ∀ m, Sm Ω (F m)) : pd k (fun y => ∑ m, F m y) x = ∑ m, pd k (F m) x := by
  rw [pd_eq (DifferentiableAt.fun_sum fun a _ => (hF a).diff hx), fderiv_fun_sum fun a _ => (hF a).diff hx]
  simp [pd_eq ((hF _).diff hx)]

theorem dpd_dot {F G : Fin 3 → Scal} (hF : ∀ m, Sm Ω (F m)) (hG : ∀ m, Sm Ω (G m)) :
    pd k (fun y => ∑ m, F m y * G m y) x = ∑ m, (pd k (F m) x * G m x + F m x * pd k (G m) x) := by
  rw [dpd_sum hx k fun m => (hF m).mul (hG m)]
  exact Finset.sum_congr rfl fun m _ => dpd_mul hx k (hF m) (hG m)

theorem dpd_comm (hf : Sm Ω f) (l : Fin 3) : pd k (pd l f) x = pd l (pd k f) x :=
  pd_comm_at ((hf.at hx).of_le (show ((2 : ℕ∞) : WithTop ℕ∞) ≤ _ from WithTop.coe_le_coe.2 le_top)) k l

end At

/-! ### Inverse metric and connection -/

/-- `g` is a smooth, symmetric and invertible metric on `Ω`. -/
structure IsMetric (Ω : Dom) (g : T2) : Prop where
  smooth : ∀ i j, Sm Ω (g i j)
  symm : ∀ i j, ∀ x ∈ Ω, g i j x = g j i x
  det : ∀ x ∈ Ω, (Matrix.of fun a b => g a b x).det ≠ 0

namespace IsMetric
variable {g : T2} (hg : IsMetric Ω g)
include hg

theorem mul_inverse {x : Vec} (hx : x ∈ Ω) (i j : Fin 3) : ∑ m, g i m x * inverse g m j x = if i = j then 1 else 0 := by
  have h := Matrix.mul_nonsing_inv (Matrix.of fun a b => g a b x) (isUnit_iff_ne_zero.2 (hg.det x hx))
  have e := congrFun (congrFun h i) j
  rw [Matrix.mul_apply, Matrix.one_apply] at e
  exact e

theorem inverse_symm {x : Vec} (hx : x ∈ Ω) (i j : Fin 3) : inverse g i j x = inverse g j i x := by
  have h : (Matrix.of fun a b => g a b x).IsSymm := by
    ext a b
    simp [hg.symm b a x hx]
  have h2 : ((Matrix.of fun a b => g a b x)⁻¹).transpose = (Matrix.of fun a b => g a b x)⁻¹ := by
    rw [Matrix.transpose_nonsing_inv, h.eq]
  exact congrFun (congrFun h2 j) i

theorem inverse_mul {x : Vec} (hx : x ∈ Ω) (i j : Fin 3) : ∑ m, inverse g i m x * g m j x = if i = j then 1 else 0 := by
  have h := Matrix.nonsing_inv_mul (Matrix.of fun a b => g a b x) (isUnit_iff_ne_zero.2 (hg.det x hx))
  have e := congrFun (congrFun h i) j
  rw [Matrix.mul_apply, Matrix.one_apply] at e
  exact e

theorem inverse_smooth (i j : Fin 3) : Sm Ω (inverse g i j) := by
  have hdet : Sm Ω fun y => (Matrix.of fun a b => g a b y).det := by
    simp only [Matrix.det_fin_three, Matrix.of_apply]
    have s := hg.smooth
    exact (((((((s 0 0).mul (s 1 1)).mul (s 2 2)).sub (((s 0 0).mul (s 1 2)).mul (s 2 1))).sub
      (((s 0 1).mul (s 1 0)).mul (s 2 2))).add (((s 0 1).mul (s 1 2)).mul (s 2 0))).add
      (((s 0 2).mul (s 1 0)).mul (s 2 1))).sub (((s 0 2).mul (s 1 1)).mul (s 2 0))
  have hadj : Sm Ω fun y => (Matrix.of fun a b => g a b y).adjugate i j := by
    have s := hg.smooth
    fin_cases i <;> fin_cases j <;>
    · simp [Matrix.adjugate_fin_three]
      first
      | exact ((s _ _).mul (s _ _)).sub ((s _ _).mul (s _ _))
      | exact (((s _ _).mul (s _ _)).neg).add ((s _ _).mul (s _ _))
  refine (hadj.div hdet hg.det).congr fun y hy => ?_
  simp only [inverse, Matrix.inv_def, Matrix.smul_apply, smul_eq_mul, Ring.inverse_eq_inv']
  rw [div_eq_inv_mul]

/-- `∂_l g^{ij} = -g^{ia} g^{jb} ∂_l g_{ab}`. -/
theorem pd_inverse {x : Vec} (hx : x ∈ Ω) (i j l : Fin 3) :
    pd l (inverse g i j) x = -∑ a, ∑ b, inverse g i a x * inverse g j b x * pd l (g a b) x := by
  -- differentiate `g^{ia} g_{ab} = δ`
  have h1 : ∀ b, ∑ a, (pd l (inverse g i a) x * g a b x + inverse g i a x * pd l (g a b) x) = 0 := by
    intro b
    rw [← dpd_dot hx l (fun a => hg.inverse_smooth i a) (fun a => hg.smooth a b),
      pd_congr_on (g := fun _ => if i = b then 1 else 0) (fun y hy => hg.inverse_mul hy i b) hx, dpd_const]
  have h2 : pd l (inverse g i j) x = ∑ a, pd l (inverse g i a) x * ∑ b, g a b x * inverse g b j x := by
    simp only [hg.mul_inverse hx]
    simp
  rw [h2]
  have h3 : ∑ a, pd l (inverse g i a) x * ∑ b, g a b x * inverse g b j x =
      ∑ b, (∑ a, (pd l (inverse g i a) x * g a b x + inverse g i a x * pd l (g a b) x)) * inverse g b j x -
      ∑ a, ∑ b, inverse g i a x * inverse g b j x * pd l (g a b) x := by
    simp only [Fin.sum_univ_three]
    ring
  rw [h3]
  simp only [h1, zero_mul, Finset.sum_const_zero, zero_sub, hg.inverse_symm hx j]

theorem christoffel_smooth (i j k : Fin 3) : Sm Ω (christoffel g i j k) := by
  refine Sm.sum fun m => ?_
  exact ((Sm.const _).mul (hg.inverse_smooth i m)).mul
    ((((hg.smooth m k).pd j).add ((hg.smooth m j).pd k)).sub ((hg.smooth j k).pd m))

theorem pd_symm {x : Vec} (hx : x ∈ Ω) (i j k : Fin 3) : pd k (g i j) x = pd k (g j i) x :=
  pd_congr_on (fun y hy => hg.symm i j y hy) hx k

theorem christoffel_symm {x : Vec} (hx : x ∈ Ω) (i j k : Fin 3) : christoffel g i j k x = christoffel g i k j x := by
  unfold christoffel
  refine Finset.sum_congr rfl fun m _ => ?_
  rw [hg.pd_symm hx j k m]
  ring

/-- `g_{im} Γ^m_{jk}`. -/
theorem lower_christoffel {x : Vec} (hx : x ∈ Ω) (i j k : Fin 3) :
    ∑ m, g i m x * christoffel g m j k x = 1 / 2 * (pd j (g i k) x + pd k (g i j) x - pd i (g j k) x) := by
  have h : ∑ m, g i m x * christoffel g m j k x =
      ∑ n, (∑ m, g i m x * inverse g m n x) * (1 / 2 * (pd j (g n k) x + pd k (g n j) x - pd n (g j k) x)) := by
    unfold christoffel
    simp only [Fin.sum_univ_three]
    ring
  rw [h]
  simp only [hg.mul_inverse hx]
  simp

/-- The metric is covariantly constant. -/
theorem compat {x : Vec} (hx : x ∈ Ω) (i j k : Fin 3) :
    pd k (g i j) x = ∑ m, g j m x * christoffel g m i k x + ∑ m, g i m x * christoffel g m j k x := by
  rw [hg.lower_christoffel hx, hg.lower_christoffel hx, hg.pd_symm hx j i k]
  ring

end IsMetric

end Verif.BSSN
