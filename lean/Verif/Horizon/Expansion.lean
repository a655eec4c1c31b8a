import Verif.Horizon.Spec
import Verif.BSSN.Conformal
import Verif.BSSN.Physical
import Verif.BSSN.Tetrad

/-!
# Calculus of the expansion
-/
namespace Verif.Horizon
open Verif.RefMetric Verif.BSSN
open scoped ContDiff

variable {Ω : Dom} {γ : T2} {f : Scal} {x : Vec}

theorem Sm.sqrt {q : Scal} (hq : Sm Ω q) (h0 : ∀ y ∈ Ω, 0 < q y) : Sm Ω fun y => Real.sqrt (q y) :=
  ContDiffOn.sqrt hq fun y hy => (h0 y hy).ne'

theorem dpd_sqrt {q : Scal} (hx : x ∈ Ω) (k : Fin 3) (hq : Sm Ω q) (h0 : ∀ y ∈ Ω, 0 < q y) :
    pd k (fun y => Real.sqrt (q y)) x = pd k q x / (2 * Real.sqrt (q x)) := by
  rw [pd_eq ((Sm.sqrt hq h0).diff hx), pd_eq (hq.diff hx)]
  rw [((hq.diff hx).hasFDerivAt.sqrt (h0 x hx).ne').fderiv]
  simp
  ring

/-- `γ^{ij} ∂_i f ∂_j f`. -/
noncomputable def grad2 (γ : T2) (f : Scal) : Scal := fun y => ∑ i, ∑ j, inverse γ i j y * pd i f y * pd j f y

/-- The gradient does not vanish and the metric is positive definite along it. -/
def Regular (Ω : Dom) (γ : T2) (f : Scal) : Prop := ∀ y ∈ Ω, 0 < grad2 γ f y

section
variable (hg : IsMetric Ω γ) (hf : Sm Ω f)
include hg hf

theorem grad2_smooth : Sm Ω (grad2 γ f) := Sm.sum fun i => Sm.sum fun j => ((hg.inverse_smooth i j).mul (hf.pd i)).mul (hf.pd j)

theorem raise_smooth (i : Fin 3) : Sm Ω fun y => ∑ j, inverse γ i j y * pd j f y :=
  Sm.sum fun j => (hg.inverse_smooth i j).mul (hf.pd j)

theorem pd_grad2 (hx : x ∈ Ω) (k : Fin 3) : pd k (grad2 γ f) x =
    ∑ i, ∑ j, (pd k (inverse γ i j) x * pd i f x * pd j f x + 2 * inverse γ i j x * pd j f x * pd k (pd i f) x) := by
  have h : pd k (grad2 γ f) x = ∑ i, ∑ j, ((pd k (inverse γ i j) x * pd i f x + inverse γ i j x * pd k (pd i f) x) * pd j f x +
      inverse γ i j x * pd i f x * pd k (pd j f) x) := by
    unfold grad2
    rw [dpd_sum hx k fun i => Sm.sum fun j => ((hg.inverse_smooth i j).mul (hf.pd i)).mul (hf.pd j)]
    refine Finset.sum_congr rfl fun i _ => ?_
    rw [dpd_sum hx k fun j => ((hg.inverse_smooth i j).mul (hf.pd i)).mul (hf.pd j)]
    refine Finset.sum_congr rfl fun j _ => ?_
    rw [dpd_mul hx k ((hg.inverse_smooth i j).mul (hf.pd i)) (hf.pd j), dpd_mul hx k (hg.inverse_smooth i j) (hf.pd i)]
  rw [h]
  simp only [Fin.sum_univ_three]
  rw [hg.inverse_symm hx 1 0, hg.inverse_symm hx 2 0, hg.inverse_symm hx 2 1]
  ring

variable (h0 : Regular Ω γ f)
include h0

theorem gradLength_pos (hx : x ∈ Ω) : 0 < gradLength γ f x := Real.sqrt_pos.2 (h0 x hx)

theorem gradLength_smooth : Sm Ω (gradLength γ f) := Sm.sqrt (grad2_smooth hg hf) h0

theorem pd_gradLength (hx : x ∈ Ω) (k : Fin 3) : pd k (gradLength γ f) x = pd k (grad2 γ f) x / (2 * gradLength γ f x) :=
  dpd_sqrt hx k (grad2_smooth hg hf) h0

theorem pd_unitNormal (hx : x ∈ Ω) (i k : Fin 3) : pd k (unitNormal γ f i) x =
    (∑ j, (pd k (inverse γ i j) x * pd j f x + inverse γ i j x * pd k (pd j f) x)) / gradLength γ f x -
      (∑ j, inverse γ i j x * pd j f x) * pd k (gradLength γ f) x / gradLength γ f x ^ 2 := by
  have hl := (gradLength_pos hg hf h0 hx).ne'
  unfold unitNormal
  rw [dpd_div hx k (raise_smooth hg hf i) (gradLength_smooth hg hf h0) fun y hy => (gradLength_pos hg hf h0 hy).ne',
    dpd_dot hx k (fun j => hg.inverse_smooth i j) fun j => hf.pd j]
  field_simp

omit hf h0 in
theorem christoffel_trace (hx : x ∈ Ω) (k : Fin 3) :
    ∑ i, christoffel γ i i k x = 1 / 2 * ∑ i, ∑ j, inverse γ i j x * pd k (γ i j) x := by
  unfold christoffel
  simp only [Fin.sum_univ_three]
  rw [hg.inverse_symm hx 1 0, hg.inverse_symm hx 2 0, hg.inverse_symm hx 2 1]
  have e := fun a b c => hg.pd_symm hx a b c
  fin_cases k <;> simp <;> simp only [e 1 0, e 2 0, e 2 1] <;> ring

/-- The divergence of the unit normal, expanded. -/
theorem divU_unitNormal (hx : x ∈ Ω) : divU γ (unitNormal γ f) x =
    ∑ k, unitNormal γ f k x * (1 / 2 * ∑ i, ∑ j, inverse γ i j x * pd k (γ i j) x) +
    ((∑ i, ∑ j, (pd i (inverse γ i j) x * pd j f x + inverse γ i j x * pd i (pd j f) x)) / gradLength γ f x -
      (∑ i, ∑ j, pd i (gradLength γ f) x * inverse γ i j x * pd j f x) / gradLength γ f x ^ 2) := by
  unfold divU
  have h1 : ∑ i, ∑ k, christoffel γ i i k x * unitNormal γ f k x =
      ∑ k, unitNormal γ f k x * (1 / 2 * ∑ i, ∑ j, inverse γ i j x * pd k (γ i j) x) := by
    rw [Finset.sum_comm]
    refine Finset.sum_congr rfl fun k _ => ?_
    rw [← christoffel_trace hg hx k, ← Finset.sum_mul, mul_comm]
  rw [Finset.sum_add_distrib, h1, add_comm]
  congr 1
  simp only [pd_unitNormal hg hf h0 hx, Finset.sum_sub_distrib, Finset.sum_div, Finset.mul_sum, Finset.sum_mul]
  congr 1
  refine Finset.sum_congr rfl fun i _ => Finset.sum_congr rfl fun j _ => ?_
  ring

/-- `∂_i |∇f| = s^j D_i D_j f`. -/
theorem pd_gradLength_hessian (hx : x ∈ Ω) (k : Fin 3) :
    pd k (gradLength γ f) x = ∑ j, unitNormal γ f j x * hessian γ f k j x := by
  have hl := (gradLength_pos hg hf h0 hx).ne'
  rw [pd_gradLength hg hf h0 hx, pd_grad2 hg hf hx]
  simp only [hg.pd_inverse' hx]
  unfold unitNormal hessian
  rw [div_eq_iff (by positivity)]
  simp only [Fin.sum_univ_three]
  rw [hg.inverse_symm hx 1 0, hg.inverse_symm hx 2 0, hg.inverse_symm hx 2 1]
  field_simp
  ring

/-- The mean curvature: `D_i s^i = (γ^{ij} - s^i s^j) D_i D_j f / |∇f|`. -/
theorem divU_hessian (hx : x ∈ Ω) : divU γ (unitNormal γ f) x =
    ∑ i, ∑ j, (inverse γ i j x - unitNormal γ f i x * unitNormal γ f j x) * (hessian γ f i j x / gradLength γ f x) := by
  have hl := (gradLength_pos hg hf h0 hx).ne'
  unfold divU
  simp only [pd_unitNormal hg hf h0 hx, pd_gradLength_hessian hg hf h0 hx, hg.pd_inverse' hx]
  have e : ∀ i j, hessian γ f i j x = pd i (pd j f) x - ∑ k, christoffel γ k i j x * pd k f x := fun _ _ => rfl
  simp only [e]
  unfold unitNormal
  simp only [Fin.sum_univ_three]
  rw [hg.inverse_symm hx 1 0, hg.inverse_symm hx 2 0, hg.inverse_symm hx 2 1]
  have c := fun a b d => hg.christoffel_symm hx a b d
  simp only [c _ 1 0, c _ 2 0, c _ 2 1]
  field_simp
  ring

theorem expansion_hessian (K : T2) (hx : x ∈ Ω) : expansion γ K f x =
    ∑ i, ∑ j, (inverse γ i j x - unitNormal γ f i x * unitNormal γ f j x) * (hessian γ f i j x / gradLength γ f x - K i j x) := by
  unfold expansion
  rw [divU_hessian hg hf h0 hx]
  unfold trace
  simp only [mul_sub, sub_mul, Finset.sum_sub_distrib]
  ring

end

end Verif.Horizon
