import Verif.Initial.Spherical
import Verif.Initial.Jets
import Verif.BSSN.Physical
import Verif.Wave.Radial

/-!
# Derivatives of functions of spherical coordinates
-/
namespace Verif.Initial
open Verif.RefMetric Verif.BSSN Real
open scoped ContDiff

theorem pd_of {k : Fin 3} {f : Scal} {x : Vec} {d : ℝ} (h : HasDerivAt (fun t => f (Function.update x k t)) d (x k)) : pd k f x = d := h.deriv

/-- A function of one coordinate. -/
theorem pd_one (m : Fin 3) {φ : ℝ → ℝ} {d : ℝ} {x : Vec} (h : HasDerivAt φ d (x m)) (k : Fin 3) :
    pd k (fun y => φ (y m)) x = if k = m then d else 0 := by
  by_cases e : k = m
  · subst e
    rw [if_pos rfl]
    apply pd_of
    simpa using h
  · rw [if_neg e]
    apply pd_of
    simpa [Function.update_of_ne (Ne.symm e)] using hasDerivAt_const _ _

theorem sm_one {Ω : Dom} (m : Fin 3) {φ : ℝ → ℝ} (h : ∀ x ∈ Ω, ContDiffAt ℝ ∞ φ (x m)) : Sm Ω fun y => φ (y m) :=
  sm_of_at fun x hx => (h x hx).comp x (contDiff_apply ℝ ℝ m).contDiffAt

variable {Ω : Dom} {f : Scal} {x : Vec}

theorem sm_coord (m : Fin 3) : Sm Ω fun y => y m := sm_one m fun _ _ => contDiffAt_id

theorem Sm.inv (hf : Sm Ω f) (h0 : ∀ x ∈ Ω, f x ≠ 0) : Sm Ω fun y => (f y)⁻¹ := ContDiffOn.inv hf h0

theorem Sm.sqrt (hf : Sm Ω f) (h0 : ∀ x ∈ Ω, f x ≠ 0) : Sm Ω fun y => √(f y) := ContDiffOn.sqrt hf h0

theorem dpd_inv (hx : x ∈ Ω) (k : Fin 3) (hf : Sm Ω f) (h0 : ∀ x ∈ Ω, f x ≠ 0) :
    pd k (fun y => (f y)⁻¹) x = -pd k f x * (f x)⁻¹ ^ 2 := by
  have h := Wave.pd_comp (φ := fun t => t⁻¹) (f := f) (x := x) (differentiableAt_inv (h0 x hx)) (hf.diff hx) k
  rw [h, (hasDerivAt_inv (h0 x hx)).deriv]
  field_simp

theorem dpd_sqrt (hx : x ∈ Ω) (k : Fin 3) (hf : Sm Ω f) (h0 : ∀ x ∈ Ω, f x ≠ 0) :
    pd k (fun y => √(f y)) x = pd k f x / (2 * √(f x)) := by
  have hs := Real.hasDerivAt_sqrt (h0 x hx)
  have h := Wave.pd_comp (φ := fun t => √t) (f := f) (x := x) hs.differentiableAt (hf.diff hx) k
  rw [h, hs.deriv]
  ring

theorem dpd_sin (k : Fin 3) : pd k (fun y => sin (y 1)) x = if k = 1 then cos (x 1) else 0 := pd_one 1 (hasDerivAt_sin _) k
theorem dpd_cos (k : Fin 3) : pd k (fun y => cos (y 1)) x = if k = 1 then -sin (x 1) else 0 := pd_one 1 (hasDerivAt_cos _) k
theorem dpd_csc (h : sin (x 1) ≠ 0) (k : Fin 3) : pd k (fun y => (sin (y 1))⁻¹) x = if k = 1 then -cos (x 1) / sin (x 1) ^ 2 else 0 :=
  pd_one (φ := fun t => (sin t)⁻¹) 1 ((hasDerivAt_sin _).inv h) k
theorem sm_sin : Sm Ω fun y => sin (y 1) := sm_one 1 fun _ _ => contDiff_sin.contDiffAt
theorem sm_cos : Sm Ω fun y => cos (y 1) := sm_one 1 fun _ _ => contDiff_cos.contDiffAt
theorem sm_csc (h : ∀ x ∈ Ω, sin (x 1) ≠ 0) : Sm Ω fun y => (sin (y 1))⁻¹ := sm_sin.inv h

/-- Open conditions on the radius and off the axis. -/
def offAxis (U : Set ℝ) (hU : IsOpen U) : Dom :=
  ⟨{x | x 0 ∈ U ∧ sin (x 1) ≠ 0}, (hU.preimage (continuous_apply 0)).inter
    (isOpen_ne.preimage (continuous_sin.comp (continuous_apply 1)))⟩

end Verif.Initial
