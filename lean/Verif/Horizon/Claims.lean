import Verif.Horizon.Model
import Verif.Horizon.Expansion

/-!
# Claims on the expansion function
-/
namespace Verif.Horizon
open Verif.RefMetric Verif.IndexedExp Verif.BSSN
open scoped ContDiff

/-- The point of the surface `r = h(θ, φ)` at the angles of `x`. -/
def onSurface (h : ℝ → ℝ → ℝ) (x : Vec) : Vec := Function.update x 0 (h (x 1) (x 2))

/-- `h` as a field. -/
def hField (h : ℝ → ℝ → ℝ) : Scal := fun y => h (y 1) (y 2)

/-- The values the symbols stand for, at the angles of `x`: `h` and its derivatives; the evolved variables with `cf = W` and
their derivatives at the point of the surface. -/
noncomputable def symsAt (F : Fields) (h : ℝ → ℝ → ℝ) (x : Vec) : Syms where
  hh := h (x 1) (x 2)
  hh_dD i := pd i (hField h) x
  hh_dDD i j := pd j (pd i (hField h)) x
  hDD i j := F.hDD i j (onSurface h x)
  partial_D_hDD k i j := pd k (F.hDD i j) (onSurface h x)
  WW := F.cf (onSurface h x)
  partial_D_WW k := pd k F.cf (onSurface h x)
  aDD i j := F.aDD i j (onSurface h x)
  trK := F.trK (onSurface h x)

/-! ### Functions that do not depend on the radius -/

theorem pd_radial {H : Scal} (hH : ∀ y t, H (Function.update y 0 t) = H y) (x : Vec) : pd 0 H x = 0 := by
  unfold pd
  simp [hH]

theorem pd_angular {H : Scal} (hH : ∀ y t, H (Function.update y 0 t) = H y) (k : Fin 3) (y : Vec) (t : ℝ) :
    pd k H (Function.update y 0 t) = pd k H y := by
  by_cases hk : k = 0
  · subst hk
    rw [pd_radial hH, pd_radial hH]
  · unfold pd
    rw [Function.update_of_ne hk]
    congr 1
    funext u
    rw [Function.update_comm (Ne.symm hk), hH]

theorem hField_radial (h : ℝ → ℝ → ℝ) (y : Vec) (t : ℝ) : hField h (Function.update y 0 t) = hField h y := by
  simp [hField, Function.update_of_ne (show (1 : Fin 3) ≠ 0 by decide), Function.update_of_ne (show (2 : Fin 3) ≠ 0 by decide)]

section
variable {Ω : Dom} {h : ℝ → ℝ → ℝ} (hh : Sm Ω (hField h))
include hh

theorem coord_smooth (k : Fin 3) : Sm Ω fun y => y k := (contDiff_apply ℝ ℝ k).contDiffOn

theorem level_smooth : Sm Ω (level h) := (coord_smooth hh 0).sub hh

theorem pd_level {x : Vec} (hx : x ∈ Ω) (k : Fin 3) : pd k (level h) x = (if k = 0 then 1 else 0) - pd k (hField h) x := by
  have h1 : pd k (fun y : Vec => y 0) x = if k = 0 then 1 else 0 := by
    unfold pd
    by_cases hk : k = 0
    · subst hk; simp
    · simp [Function.update_of_ne (Ne.symm hk), hk]
  rw [← h1]
  exact dpd_sub hx k (coord_smooth hh 0) hh

theorem pd_pd_level {x : Vec} (hx : x ∈ Ω) (k l : Fin 3) : pd l (pd k (level h)) x = -pd l (pd k (hField h)) x := by
  rw [pd_congr_on (fun y hy => pd_level hh hy k) hx, dpd_sub hx l (Sm.const _) (hh.pd k), dpd_const, zero_sub]

end

section
variable {P : CoordParams} {name : Py.Str} {C : Coords} {Ω : Dom} {F : Fields} {h : ℝ → ℝ → ℝ}

theorem prod_inverse {γ : T2} {y : Vec} (hg : IsMetric Ω γ) (hy : y ∈ Ω) (v : Vec) :
    ∑ i, ∑ j, inverse γ i j y * v i * v j =
      prod (fun i j => γ i j y) (fun i => ∑ j, inverse γ i j y * v j) (fun i => ∑ j, inverse γ i j y * v j) := by
  have e : ∀ i, ∑ k, γ i k y * ∑ j, inverse γ k j y * v j = v i := fun i => (lower_grad hg hy v i).symm
  have e2 : prod (fun i j => γ i j y) (fun i => ∑ j, inverse γ i j y * v j) (fun i => ∑ j, inverse γ i j y * v j) =
      ∑ i, (∑ j, inverse γ i j y * v j) * ∑ k, γ i k y * ∑ j, inverse γ k j y * v j := by
    unfold prod
    simp only [Fin.sum_univ_three]
    ring
  rw [e2]
  simp only [e]
  simp only [Fin.sum_univ_three]
  ring

/-- The gradient of a function with non-zero differential has positive length. -/
theorem regular_of {γ : T2} (hg : IsMetric Ω γ) (hp : ∀ y ∈ Ω, Riemannian γ y) {f : Scal}
    (hd : ∀ y ∈ Ω, ∃ k, pd k f y ≠ 0) : Regular Ω γ f := by
  intro y hy
  have e := prod_inverse hg hy fun i => pd i f y
  show 0 < ∑ i, ∑ j, inverse γ i j y * pd i f y * pd j f y
  rw [e]
  refine hp y hy _ fun h0 => ?_
  obtain ⟨k, hk⟩ := hd y hy
  refine hk ?_
  rw [lower_grad hg hy (fun i => pd i f y) k]
  have : ∀ i, ∑ j, inverse γ i j y * pd j f y = 0 := fun i => congrFun h0 i
  simp [this]

theorem level_regular {γ : T2} (hg : IsMetric Ω γ) (hp : ∀ y ∈ Ω, Riemannian γ y) (hh : Sm Ω (hField h)) : Regular Ω γ (level h) :=
  regular_of hg hp fun y hy => ⟨0, by rw [pd_level hh hy, pd_radial (hField_radial h)]; simp⟩

theorem F_dD_eq (hh : Sm Ω (hField h)) {x : Vec} (hx : onSurface h x ∈ Ω) (i : Fin 3) :
    F_dD (symsAt F h x) i = pd i (level h) (onSurface h x) := by
  rw [pd_level hh hx, onSurface, pd_angular (hField_radial h)]
  fin_cases i
  · simp [F_dD, pd_radial (hField_radial h)]
  · simp [F_dD, symsAt]
  · simp [F_dD, symsAt]

theorem F_dDD_eq (hh : Sm Ω (hField h)) {x : Vec} (hx : onSurface h x ∈ Ω) (i j : Fin 3) :
    F_dDD (symsAt F h x) i j = pd i (pd j (level h)) (onSurface h x) := by
  have r := fun k => pd_angular (hField_radial h) k
  have r0 : pd 0 (hField h) = fun _ => 0 := funext fun y => pd_radial (hField_radial h) y
  have z : ∀ k y, pd k (fun _ => (0 : ℝ)) y = 0 := fun k y => by simp [pd]
  have c : pd 2 (pd 1 (hField h)) (onSurface h x) = pd 1 (pd 2 (hField h)) (onSurface h x) := dpd_comm hx 2 hh 1
  rw [pd_pd_level hh hx]
  rw [onSurface, pd_angular (r 1), pd_angular (r 2)] at c
  rw [onSurface, pd_angular (r j)]
  fin_cases i <;> fin_cases j <;> simp [F_dDD, symsAt, r0, z, pd_radial (r _), c]

variable (S : Setting P name C Ω F .W)
include S

theorem gammaDDdD_eq {p : Vec} (hp : p ∈ Ω) (i j k : Fin 3) :
    -2 / F.cf p ^ 3 * gammabarF C.scale F i j p * pd k F.cf p + BSSN.gammabarDD_dD (rfmAt C.scale p) (gfsAt F p) i j k / F.cf p ^ 2 =
      pd k (gammaF C.scale F .W i j) p := by
  have h0 : F.cf p ≠ 0 := (show 0 < F.cf p from S.conformal p hp).ne'
  rw [pd_gammaF S.rfm S.smooth S.conformal hp]
  simp only [BSSN.gammaDDdD, exp4phidD, exp4phi, phidD, gammabarF, gfsAt]
  field_simp
  ring

/-- The expression is the expansion. -/
theorem thetaExpr_eq (hT : Traceless C.scale F Ω) (hh : Sm Ω (hField h)) (hp : ∀ y ∈ Ω, Riemannian (gammaF C.scale F .W) y)
    {x : Vec} (hx : onSurface h x ∈ Ω) :
    thetaExpr (rfmAt C.scale (onSurface h x)) (symsAt F h x) =
      expansion (gammaF C.scale F .W) (KF C.scale F .W) (level h) (onSurface h x) := by
  have hg := S.metric
  have hf := level_smooth hh
  have h0 := level_regular hg hp hh
  set R := rfmAt C.scale (onSurface h x)
  set G := symsAt F h x
  set γ := gammaF C.scale F .W
  set f := level h
  set p := onSurface h x
  have e1 : ∀ i j, gammaDD R G i j = γ i j p := fun i j => rfl
  have e2 : ∀ i j, gammaUU R G i j = inverse γ i j p := fun i j => gammaUU_eq S.rfm S.smooth S.conformal p i j
  have e3 : ∀ i j k, gammaDDdD R G i j k = pd k (γ i j) p := fun i j k => gammaDDdD_eq S hx i j k
  have eF : ∀ i, F_dD G i = pd i f p := F_dD_eq hh hx
  have eFF : ∀ i j, F_dDD G i j = pd i (pd j f) p := F_dDD_eq hh hx
  have e4 : ∀ i j k, gammaUUdD R G i j k = pd k (inverse γ i j) p := fun i j k => by
    rw [hg.pd_inverse hx]
    simp only [gammaUUdD, e2, e3, neg_mul, Finset.sum_neg_distrib]
  have e5 : lamb R G = gradLength γ f p := by
    unfold lamb lambda_squared gradLength
    simp only [e2, eF]
  have hl : gradLength γ f p ≠ 0 := (gradLength_pos hg hf h0 hx).ne'
  have e6 : ∀ i, sU R G i = unitNormal γ f i p := fun i => by
    unfold sU unnormalized_sU unitNormal
    simp only [e2, eF, e5]
  have e7 : ∀ k, lamb_dD R G k = pd k (gradLength γ f) p := fun k => by
    rw [pd_gradLength hg hf h0 hx, pd_grad2 hg hf hx]
    simp only [lamb_dD, e2, eF, eFF, e4, e5]
    simp only [Finset.sum_add_distrib]
    rw [div_eq_mul_one_div (_ + _) (2 * gradLength γ f p)]
    congr 2
    refine Finset.sum_congr rfl fun i _ => Finset.sum_congr rfl fun j _ => ?_
    ring
  have hd : detgamma R G ≠ 0 := by
    have := hg.det p hx
    rw [show detgamma R G = symmInv3Det (fun i j => γ i j p) from rfl, det_eq fun i j => hg.symm i j p hx]
    exact this
  have e8 : covariant_divergence_of_s_i R G = divU γ (unitNormal γ f) p := by
    rw [divU_unitNormal hg hf h0 hx]
    unfold covariant_divergence_of_s_i
    congr 1
    · rw [Finset.sum_mul]
      refine Finset.sum_congr rfl fun k _ => ?_
      rw [e6]
      simp only [detgamma_dD, e2, e3]
      rw [Finset.sum_comm]
      simp only [mul_assoc, ← Finset.mul_sum]
      field_simp
    · simp only [partial_i_si, partial_i_si_parenthetical_term, partial_i_si_term_after_parenthetical, e2, eF, eFF, e4, e5, e7]
      simp only [Finset.sum_add_distrib]
      rw [sub_eq_add_neg, ← div_neg]
      congr 2
      · congr 1
        refine Finset.sum_congr rfl fun i _ => Finset.sum_congr rfl fun j _ => ?_
        ring
      · ring
  have e9 : G.trK = trace γ (KF C.scale F .W) p := by
    rw [trace_KF S.rfm S.smooth S.conformal S.det hx, trAbar_eq S.rfm S.smooth, hT p hx, zero_add]
    rfl
  unfold thetaExpr expansion
  rw [e8, e9]
  simp only [e6]
  rfl

theorem sU_eq (hh : Sm Ω (hField h)) {x : Vec} (hx : onSurface h x ∈ Ω) (i : Fin 3) :
    sU (rfmAt C.scale (onSurface h x)) (symsAt F h x) i = unitNormal (gammaF C.scale F .W) (level h) i (onSurface h x) := by
  have e2 : ∀ i j, gammaUU (rfmAt C.scale (onSurface h x)) (symsAt F h x) i j = inverse (gammaF C.scale F .W) i j (onSurface h x) :=
    fun i j => BSSN.gammaUU_eq S.rfm S.smooth S.conformal (onSurface h x) i j
  simp only [sU, unnormalized_sU, lamb, lambda_squared, unitNormal, gradLength, e2, F_dD_eq hh hx]

end

theorem spherical_known (P : CoordParams) : choose P (c% "Spherical") = .sys (spherical P.rmax) := by
  rw [choose, if_neg (by decide), if_pos (by decide), sphericalChoice, if_pos rfl]

/-- The expansion does not change when the function is multiplied by a positive function, on its zero set. -/
theorem expansion_scale_aux {Ω : Dom} {γ K : T2} {f u : Scal} (hg : IsMetric Ω γ) (hf : Sm Ω f) (h0 : Regular Ω γ f) (hu : Sm Ω u)
    (hu0 : ∀ y ∈ Ω, 0 < u y) (h1 : Regular Ω γ fun y => u y * f y) {x : Vec} (hx : x ∈ Ω) (hfx : f x = 0) :
    expansion γ K (fun y => u y * f y) x = expansion γ K f x := by
  have hux := hu0 x hx
  have d1 : ∀ k, ∀ y ∈ Ω, pd k (fun y => u y * f y) y = pd k u y * f y + u y * pd k f y := fun k y hy => dpd_mul hy k hu hf
  have d1x : ∀ k, pd k (fun y => u y * f y) x = u x * pd k f x := fun k => by rw [d1 k x hx, hfx]; ring
  have d2 : ∀ i j, pd i (pd j fun y => u y * f y) x = pd j u x * pd i f x + pd i u x * pd j f x + u x * pd i (pd j f) x := fun i j => by
    rw [pd_congr_on (d1 j) hx, dpd_add hx i ((hu.pd j).mul hf) (hu.mul (hf.pd j)), dpd_mul hx i (hu.pd j) hf, dpd_mul hx i hu (hf.pd j), hfx]
    ring
  have eL : gradLength γ (fun y => u y * f y) x = u x * gradLength γ f x := by
    unfold gradLength
    simp only [d1x]
    rw [← Real.sqrt_sq hux.le, ← Real.sqrt_mul (sq_nonneg _), Real.sqrt_sq hux.le]
    congr 1
    simp only [Finset.mul_sum]
    exact Finset.sum_congr rfl fun i _ => Finset.sum_congr rfl fun j _ => by ring
  have hl := gradLength_pos hg hf h0 hx
  have es : ∀ i, unitNormal γ (fun y => u y * f y) i x = unitNormal γ f i x := fun i => by
    unfold unitNormal
    rw [eL]
    simp only [d1x]
    rw [div_eq_div_iff (by positivity) hl.ne']
    simp only [Finset.sum_mul]
    exact Finset.sum_congr rfl fun j _ => by ring
  have eh : ∀ i j, hessian γ (fun y => u y * f y) i j x = u x * hessian γ f i j x + (pd j u x * pd i f x + pd i u x * pd j f x) := fun i j => by
    unfold hessian
    simp only [d1x, d2, Fin.sum_univ_three]
    ring
  have hsq : gradLength γ f x ^ 2 = grad2 γ f x := Real.sq_sqrt (h0 _ hx).le
  have en : ∀ i, ∑ j, (inverse γ i j x - unitNormal γ f i x * unitNormal γ f j x) * pd j f x = 0 := fun i => by
    have : ∑ j, unitNormal γ f j x * pd j f x = gradLength γ f x := by
      unfold unitNormal
      simp only [div_mul_eq_mul_div, ← Finset.sum_div]
      rw [div_eq_iff hl.ne', ← sq, hsq]
      unfold grad2
      simp only [Finset.sum_mul]
      exact Finset.sum_congr rfl fun i _ => Finset.sum_congr rfl fun j _ => by ring
    simp only [sub_mul, Finset.sum_sub_distrib, mul_assoc, ← Finset.mul_sum, this]
    unfold unitNormal
    rw [div_mul_cancel₀ _ hl.ne', sub_self]
  have en' : ∀ j, ∑ i, (inverse γ i j x - unitNormal γ f i x * unitNormal γ f j x) * pd i f x = 0 := fun j => by
    rw [← en j]
    exact Finset.sum_congr rfl fun i _ => by rw [hg.inverse_symm hx i j]; ring
  rw [expansion_hessian hg (hu.mul hf) h1 K hx, expansion_hessian hg hf h0 K hx]
  simp only [es, eh, eL]
  have key : ∀ i j, (inverse γ i j x - unitNormal γ f i x * unitNormal γ f j x) *
      ((u x * hessian γ f i j x + (pd j u x * pd i f x + pd i u x * pd j f x)) / (u x * gradLength γ f x) - K i j x) =
      (inverse γ i j x - unitNormal γ f i x * unitNormal γ f j x) * (hessian γ f i j x / gradLength γ f x - K i j x) +
      ((inverse γ i j x - unitNormal γ f i x * unitNormal γ f j x) * pd i f x * (pd j u x / (u x * gradLength γ f x)) +
      (inverse γ i j x - unitNormal γ f i x * unitNormal γ f j x) * pd j f x * (pd i u x / (u x * gradLength γ f x))) := fun i j => by
    field_simp
    ring
  simp only [key, Finset.sum_add_distrib]
  have z2 : ∑ i, ∑ j, (inverse γ i j x - unitNormal γ f i x * unitNormal γ f j x) * pd j f x * (pd i u x / (u x * gradLength γ f x)) = 0 := by
    refine Finset.sum_eq_zero fun i _ => ?_
    rw [← Finset.sum_mul, en, zero_mul]
  have z1 : ∑ i, ∑ j, (inverse γ i j x - unitNormal γ f i x * unitNormal γ f j x) * pd i f x * (pd j u x / (u x * gradLength γ f x)) = 0 := by
    rw [Finset.sum_comm]
    refine Finset.sum_eq_zero fun j _ => ?_
    rw [← Finset.sum_mul, en', zero_mul]
  rw [z1, z2, add_zero, add_zero]

@[inherit_doc expansion_scale_aux]
theorem expansion_scale {Ω : Dom} {γ K : T2} {f u : Scal} (hg : IsMetric Ω γ) (hf : Sm Ω f) (h0 : Regular Ω γ f) (hu : Sm Ω u)
    (hu0 : ∀ y ∈ Ω, 0 < u y) {x : Vec} (hx : x ∈ Ω) (hfx : f x = 0) :
    expansion γ K (fun y => u y * f y) x = expansion γ K f x := by
  have hq : Sm Ω (grad2 γ fun y => u y * f y) := grad2_smooth hg (hu.mul hf)
  let Ω' : Dom := ⟨Ω ∩ grad2 γ (fun y => u y * f y) ⁻¹' Set.Ioi 0, hq.continuousOn.isOpen_inter_preimage Ω.isOpen isOpen_Ioi⟩
  have hsub : ∀ y ∈ Ω', y ∈ Ω := fun y hy => hy.1
  have hm : ∀ {g : Scal}, Sm Ω g → Sm Ω' g := fun hg => ContDiffOn.mono hg fun y hy => hy.1
  have hx' : x ∈ Ω' := by
    refine ⟨hx, ?_⟩
    have d1x : ∀ k, pd k (fun y => u y * f y) x = u x * pd k f x := fun k => by rw [dpd_mul hx k hu hf, hfx]; ring
    show 0 < grad2 γ (fun y => u y * f y) x
    have : grad2 γ (fun y => u y * f y) x = u x ^ 2 * grad2 γ f x := by
      unfold grad2
      simp only [d1x, Finset.mul_sum]
      exact Finset.sum_congr rfl fun i _ => Finset.sum_congr rfl fun j _ => by ring
    rw [this]
    exact mul_pos (pow_pos (hu0 x hx) 2) (h0 x hx)
  exact expansion_scale_aux (Ω := Ω') ⟨fun i j => hm (hg.smooth i j), fun i j y hy => hg.symm i j y (hsub y hy), fun y hy => hg.det y (hsub y hy)⟩
    (hm hf) (fun y hy => h0 y (hsub y hy)) (hm hu) (fun y hy => hu0 y (hsub y hy)) (fun y hy => hy.2) hx' hfx

section
variable {P : CoordParams} {C : Coords} {Ω : Dom} {F : Fields} {h : ℝ → ℝ → ℝ}

/-- **C88**: for evolved variables with `cf = W` in spherical coordinates and a surface `r = h(θ, φ)`, `Theta` is the expansion
`D_i s^i - γ^{ij} K_{ij} + s^i s^j K_{ij}` of the surface in the physical metric, at every point of the surface. -/
theorem C88_expansion (S : Setting P (c% "Spherical") C Ω F .W) (hT : Traceless C.scale F Ω) (hh : Sm Ω (hField h))
    (hp : ∀ y ∈ Ω, Riemannian (gammaF C.scale F .W) y) {x : Vec} (hx : onSurface h x ∈ Ω) :
    theta P (c% "Spherical") (symsAt F h x) x =
      .ok (expansion (gammaF C.scale F .W) (KF C.scale F .W) (level h) (onSurface h x)) := by
  rw [theta, if_pos rfl, S.known]
  exact congrArg Except.ok (thetaExpr_eq S hT hh hp hx)

/-- **C88**: `sU` is the outward unit normal of the surface: of length one, orthogonal to the tangent vectors `(∂_θ h, 1, 0)` and
`(∂_φ h, 0, 1)` of the surface, and `r - h` increases along it. -/
theorem C88_normal (S : Setting P (c% "Spherical") C Ω F .W) (hh : Sm Ω (hField h))
    (hp : ∀ y ∈ Ω, Riemannian (gammaF C.scale F .W) y) {x : Vec} (hx : onSurface h x ∈ Ω) :
    let s := sU (rfmAt C.scale (onSurface h x)) (symsAt F h x)
    let g := fun i j => gammaF C.scale F .W i j (onSurface h x)
    prod g s s = 1 ∧ prod g s ![pd 1 (hField h) x, 1, 0] = 0 ∧ prod g s ![pd 2 (hField h) x, 0, 1] = 0 ∧
      0 < s 0 - pd 1 (hField h) x * s 1 - pd 2 (hField h) x * s 2 := by
  intro s g
  have hg := S.metric
  have hf := level_smooth hh
  have h0 := level_regular hg hp hh
  have hl := gradLength_pos hg hf h0 hx
  have hsq : gradLength (gammaF C.scale F .W) (level h) (onSurface h x) ^ 2 = grad2 (gammaF C.scale F .W) (level h) (onSurface h x) :=
    Real.sq_sqrt (h0 _ hx).le
  set L := gradLength (gammaF C.scale F .W) (level h) (onSurface h x)
  have es : s = fun i => (∑ j, inverse (gammaF C.scale F .W) i j (onSurface h x) * pd j (level h) (onSurface h x)) / L :=
    funext fun i => sU_eq S hh hx i
  have hlow : ∀ v, prod g s v = (∑ i, v i * pd i (level h) (onSurface h x)) / L := fun v => by
    have e : ∀ i, ∑ k, g i k * ∑ j, inverse (gammaF C.scale F .W) k j (onSurface h x) * pd j (level h) (onSurface h x) =
        pd i (level h) (onSurface h x) := fun i => (lower_grad hg hx (fun i => pd i (level h) (onSurface h x)) i).symm
    have e2 : prod g s v = (∑ i, v i * ∑ k, g i k * ∑ j, inverse (gammaF C.scale F .W) k j (onSurface h x) * pd j (level h) (onSurface h x)) / L := by
      have gs : ∀ i j, g i j = g j i := fun i j => hg.symm i j _ hx
      rw [es]
      unfold prod
      simp only [Fin.sum_univ_three]
      rw [gs 1 0, gs 2 0, gs 2 1]
      field_simp
      ring
    rw [e2]
    simp only [e]
  have p0 : pd 0 (level h) (onSurface h x) = 1 := by rw [← F_dD_eq (F := F) hh hx]; rfl
  have p1 : pd 1 (level h) (onSurface h x) = -pd 1 (hField h) x := by rw [← F_dD_eq (F := F) hh hx]; rfl
  have p2 : pd 2 (level h) (onSurface h x) = -pd 2 (hField h) x := by rw [← F_dD_eq (F := F) hh hx]; rfl
  have hself : ∑ i, s i * pd i (level h) (onSurface h x) = L := by
    rw [es]
    simp only [div_mul_eq_mul_div, ← Finset.sum_div]
    rw [div_eq_iff hl.ne', ← sq, hsq]
    unfold grad2
    simp only [Finset.sum_mul]
    exact Finset.sum_congr rfl fun i _ => Finset.sum_congr rfl fun j _ => by ring
  refine ⟨?_, ?_, ?_, ?_⟩
  · rw [hlow, hself, div_self hl.ne']
  · rw [hlow]; simp [Fin.sum_univ_three, p0, p1, p2]
  · rw [hlow]; simp [Fin.sum_univ_three, p0, p1, p2]
  · rw [Fin.sum_univ_three, p0, p1, p2] at hself
    have : s 0 - pd 1 (hField h) x * s 1 - pd 2 (hField h) x * s 2 = L := by rw [← hself]; ring
    rw [this]; exact hl

/-- **C88**: `Theta` is `(γ^{ij} - s^i s^j) (D_i D_j F / |∇F| - K_{ij})`: the trace over the tangent plane of the surface of its second
fundamental form minus the extrinsic curvature of the slice. -/
theorem C88_mean_curvature (S : Setting P (c% "Spherical") C Ω F .W) (hT : Traceless C.scale F Ω) (hh : Sm Ω (hField h))
    (hp : ∀ y ∈ Ω, Riemannian (gammaF C.scale F .W) y) {x : Vec} (hx : onSurface h x ∈ Ω) :
    theta P (c% "Spherical") (symsAt F h x) x = .ok (∑ i, ∑ j, (inverse (gammaF C.scale F .W) i j (onSurface h x) -
      unitNormal (gammaF C.scale F .W) (level h) i (onSurface h x) * unitNormal (gammaF C.scale F .W) (level h) j (onSurface h x)) *
      (hessian (gammaF C.scale F .W) (level h) i j (onSurface h x) / gradLength (gammaF C.scale F .W) (level h) (onSurface h x) -
        KF C.scale F .W i j (onSurface h x))) := by
  rw [C88_expansion S hT hh hp hx, expansion_hessian S.metric (level_smooth hh) (level_regular S.metric hp hh) _ hx]

/-- **C88**: `Theta` depends on the surface only, not on the function used to describe it: any function `u (r - h)` with `u > 0` gives
the same expansion on the surface. -/
theorem C88_surface_only (S : Setting P (c% "Spherical") C Ω F .W) (hT : Traceless C.scale F Ω) (hh : Sm Ω (hField h))
    (hp : ∀ y ∈ Ω, Riemannian (gammaF C.scale F .W) y) {u : Scal} (hu : Sm Ω u) (hu0 : ∀ y ∈ Ω, 0 < u y)
    {x : Vec} (hx : onSurface h x ∈ Ω) :
    theta P (c% "Spherical") (symsAt F h x) x =
      .ok (expansion (gammaF C.scale F .W) (KF C.scale F .W) (fun y => u y * level h y) (onSurface h x)) := by
  rw [C88_expansion S hT hh hp hx, expansion_scale S.metric (level_smooth hh) (level_regular S.metric hp hh) hu hu0
    hx (by simp [level, onSurface])]

/-- **C88**: other coordinate systems are rejected, and spherical coordinates are not. -/
theorem C88_choices (P : CoordParams) (name : Py.Str) (G : Syms) (x : Vec) :
    (∃ v, theta P name G x = .ok v) ↔ name = (c% "Spherical") := by
  unfold theta
  constructor
  · rintro ⟨v, hv⟩
    by_contra hn
    rw [if_neg hn] at hv
    exact absurd hv (by simp)
  · rintro rfl
    rw [if_pos rfl, spherical_known]
    exact ⟨_, rfl⟩

end

end Verif.Horizon
