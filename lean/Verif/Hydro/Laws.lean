import Verif.Hydro.Model
import Verif.Hydro.Algebra
import Verif.BSSN.Psi4
import Verif.BSSN.EvolClaims

/-!
# Densities and their divergence
-/
namespace Verif.Hydro
open Verif.RefMetric Verif.IndexedExp Verif.BSSN Verif.Equations

/-- The spacetime metric that the BSSN variables stand for. -/
noncomputable def spacetime (s : Vec → Vec) (F : ℝ → Fields) (c : CF) : Fin 4 → Fin 4 → Scal4 :=
  metric4 (fun τ => gammaF s (F τ) c) (fun τ => (F τ).alpha) fun τ => betaF s (F τ)

/-- The four-velocity `u^0 (1, v^i)`, where the components of `v` in the coordinate basis are `rescaledvU i / s_i` (`s`: scale factors). -/
noncomputable def velocity (s : Vec → Vec) (H : ℝ → Vec → Hyd) (μ : Fin 4) : Scal4 := fun τ y =>
  Fin.cons (α := fun _ => ℝ) (H τ y).u4Ut (fun i => (H τ y).rescaledvU i / s y i * (H τ y).u4Ut) μ

/-- The stress-energy tensor of a perfect fluid, `ρ h u^μ u^ν + P g^{μν}`. -/
noncomputable def fluid (g : Fin 4 → Fin 4 → Scal4) (u : Fin 4 → Scal4) (H : ℝ → Vec → Hyd) (μ ν : Fin 4) : Scal4 := fun τ y =>
  (H τ y).rhob * (H τ y).h * u μ τ y * u ν τ y + (H τ y).P * inv4 g μ ν τ y

/-- The setting at the time `t` and the point `x`: for all times near `t` the BSSN variables are admissible, the lapse does not vanish and
the determinant of `γ̄` is that of `γ̂`; the variables of metric and fluid are differentiable in time, those of the fluid are smooth in space. -/
structure Flow (P : CoordParams) (name : Py.Str) (C : Coords) (Ω : Dom) (F : ℝ → Fields) (c : CF) (H : ℝ → Vec → Hyd) (t : ℝ) (x : Vec) :
    Prop where
  near : ∀ᶠ τ in nhds t, Setting P name C Ω (F τ) c ∧ ∀ y ∈ Ω, (F τ).alpha y ≠ 0 ∧
    detOf (gammabarF C.scale (F τ)) y = detOf (ghatF C.scale) y
  mem : x ∈ Ω
  hDD : ∀ i j, DifferentiableAt ℝ (fun τ => (F τ).hDD i j x) t
  vetU : ∀ i, DifferentiableAt ℝ (fun τ => (F τ).vetU i x) t
  cf : DifferentiableAt ℝ (fun τ => (F τ).cf x) t
  alpha : DifferentiableAt ℝ (fun τ => (F τ).alpha x) t
  v : ∀ i, Df Ω t x fun τ y => (H τ y).rescaledvU i
  u0 : Df Ω t x fun τ y => (H τ y).u4Ut
  rho : Df Ω t x fun τ y => (H τ y).rhob
  press : Df Ω t x fun τ y => (H τ y).P
  h : Df Ω t x fun τ y => (H τ y).h
  Ye : Df Ω t x fun τ y => (H τ y).Ye

section
variable {P : CoordParams} {name : Py.Str} {C : Coords} {Ω : Dom} {F : ℝ → Fields} {c : CF} {H : ℝ → Vec → Hyd} {t : ℝ} {x : Vec}

/-! ## Values -/

section
variable {G : Fields} (S : Setting P name C Ω G c) {y : Vec} (hy : y ∈ Ω)
include S hy

theorem e6_eq : e6phi (gfsAt G y) c = Real.exp (6 * phiF G c y) := by
  rw [e6phi, exp_m4phi_eq S.smooth S.conformal hy, ← Real.exp_mul, ← Real.exp_mul]
  norm_num
  ring_nf

theorem e6_sq (hd : detOf (gammabarF C.scale G) y = detOf (ghatF C.scale) y) :
    e6phi (gfsAt G y) c ^ 2 * detOf (ghatF C.scale) y = detOf (gammaF C.scale G c) y := by
  rw [e6_eq S hy, ← hd]
  have e : Real.exp (6 * phiF G c y) ^ 2 = Real.exp (4 * phiF G c y) ^ 3 := by
    rw [← Real.exp_nat_mul, ← Real.exp_nat_mul]; congr 1; push_cast; ring
  simp only [detOf, Matrix.det_fin_three, Matrix.of_apply, gammaF_eq S.smooth S.conformal y hy, e]
  ring

theorem gamma_symm (i j : Fin 3) : gammaF C.scale G c i j y = gammaF C.scale G c j i y := S.metric.symm i j y hy

theorem inv4_eq (hα : G.alpha y ≠ 0) (μ ν : Fin 4) :
    (Matrix.of fun a b => coordMetric (fun i j => gammaF C.scale G c i j y) (G.alpha y) (fun i => betaF C.scale G i y) a b)⁻¹ μ ν =
      split4 (fun i j => inverse (gammaF C.scale G c) i j y) (G.alpha y) (fun i => betaF C.scale G i y) μ ν := by
  have h := coord_mul_split (β := fun i => betaF C.scale G i y) hα (gamma_symm S hy) (S.metric.mul_inverse hy)
  have h2 : (Matrix.of fun a b => coordMetric (fun i j => gammaF C.scale G c i j y) (G.alpha y) (fun i => betaF C.scale G i y) a b) *
      (Matrix.of fun a b => split4 (fun i j => inverse (gammaF C.scale G c) i j y) (G.alpha y) (fun i => betaF C.scale G i y) a b) = 1 := by
    ext a b
    rw [Matrix.mul_apply, Matrix.one_apply]
    exact h a b
  rw [Matrix.inv_eq_right_inv h2]
  rfl

theorem g4UU_eq (μ ν : Fin 4) : g4UU (rfmAt C.scale y) (gfsAt G y) c μ ν =
    split4 (fun i j => inverse (gammaF C.scale G c) i j y) (G.alpha y) (fun i => betaF C.scale G i y) μ ν := by
  refine Fin.cases ?_ (fun i => ?_) μ <;> refine Fin.cases ?_ (fun j => ?_) ν
  · rfl
  · rfl
  · rfl
  · have h : inv3 (gammaDD (rfmAt C.scale y) (gfsAt G y) c) i j = inverse (gammaF C.scale G c) i j y :=
      (C71_connections S hy i j 0).2.1
    show inv3 (gammaDD (rfmAt C.scale y) (gfsAt G y) c) i j - _ = _
    rw [h]; rfl

theorem g4DD_eq (μ ν : Fin 4) : g4DD (rfmAt C.scale y) (gfsAt G y) c μ ν =
    coordMetric (fun i j => gammaF C.scale G c i j y) (G.alpha y) (fun i => betaF C.scale G i y) μ ν := by
  have hs := gamma_symm S hy
  refine Fin.cases ?_ (fun i => ?_) μ <;> refine Fin.cases ?_ (fun j => ?_) ν
  · show -((G.alpha y) ^ 2) + ∑ i, betaF C.scale G i y * (∑ j, gammaF C.scale G c i j y * betaF C.scale G j y) = -(G.alpha y) ^ 2 +
      ∑ i, ∑ j, gammaF C.scale G c i j y * betaF C.scale G i y * betaF C.scale G j y
    simp only [Finset.mul_sum]
    exact congrArg _ (Finset.sum_congr rfl fun i _ => Finset.sum_congr rfl fun j _ => by ring)
  · show ∑ i, gammaF C.scale G c j i y * betaF C.scale G i y = ∑ i, gammaF C.scale G c i j y * betaF C.scale G i y
    exact Finset.sum_congr rfl fun i _ => by rw [hs]
  · rfl
  · rfl
end

namespace Flow
variable (W : Flow P name C Ω F c H t x)
include W

theorem S : Setting P name C Ω (F t) c := W.near.self_of_nhds.1
theorem lapse : ∀ y ∈ Ω, (F t).alpha y ≠ 0 := fun y hy => (W.near.self_of_nhds.2 y hy).1
theorem dets : ∀ y ∈ Ω, detOf (gammabarF C.scale (F t)) y = detOf (ghatF C.scale) y := fun y hy => (W.near.self_of_nhds.2 y hy).2

/-! ## Differentiability -/

theorem dAlpha : Df Ω t x fun τ => (F τ).alpha := ⟨W.alpha, W.S.smooth.alpha⟩
theorem dBeta (i : Fin 3) : Df Ω t x fun τ => betaF C.scale (F τ) i :=
  ⟨(W.vetU i).mul_const _, betaF_smooth W.S.rfm W.S.smooth i⟩
theorem dPhi : Df Ω t x fun τ => phiF (F τ) c := by
  refine ⟨?_, phiF_smooth W.S.smooth W.S.conformal⟩
  have h := W.S.conformal x W.mem
  cases c
  · exact W.cf
  · exact (W.cf.log (h : 0 < (F t).cf x).ne').const_mul _
  · exact (W.cf.log (h : 0 < (F t).cf x).ne').const_mul _
theorem dGamma (i j : Fin 3) : Df Ω t x fun τ => gammaF C.scale (F τ) c i j := by
  refine Df.congr (f := fun τ y => Real.exp (4 * phiF (F τ) c y) * gammabarF C.scale (F τ) i j y) ⟨?_, ?_⟩ ?_ ?_
  · exact (W.dPhi.time.const_mul 4).exp.mul (((W.hDD i j).mul_const _).add_const _)
  · exact ((Sm.const 4).mul W.dPhi.space).exp.mul (gammabarF_smooth W.S.rfm W.S.smooth i j)
  · exact W.near.mono fun τ h => gammaF_eq h.1.smooth h.1.conformal x W.mem i j
  · exact fun y hy => gammaF_eq W.S.smooth W.S.conformal y hy i j
theorem dE6 : Df Ω t x fun τ y => e6phi (gfsAt (F τ) y) c := by
  refine Df.congr (f := fun τ y => Real.exp (6 * phiF (F τ) c y)) ⟨(W.dPhi.time.const_mul 6).exp, ((Sm.const 6).mul W.dPhi.space).exp⟩ ?_ ?_
  · exact W.near.mono fun τ h => e6_eq h.1 W.mem
  · exact fun y hy => e6_eq W.S hy
theorem dInverse (i j : Fin 3) : Df Ω t x fun τ => inverse (gammaF C.scale (F τ) c) i j :=
  ⟨inverse_differentiable (fun i j => (W.dGamma i j).time.hasDerivAt) (W.S.metric.det x W.mem) i j, W.S.metric.inverse_smooth i j⟩

theorem dSplit (μ ν : Fin 4) : Df Ω t x fun τ y => split4 (fun i j => inverse (gammaF C.scale (F τ) c) i j y) ((F τ).alpha y)
    (fun i => betaF C.scale (F τ) i y) μ ν := by
  have ha := W.dAlpha
  have h2 : Df Ω t x fun τ y => (F τ).alpha y ^ 2 := by simp only [sq]; exact ha.mul ha
  have h0 : ∀ y ∈ Ω, (F t).alpha y ^ 2 ≠ 0 := fun y hy => pow_ne_zero 2 (W.lapse y hy)
  refine Fin.cases ?_ (fun i => ?_) μ <;> refine Fin.cases ?_ (fun j => ?_) ν
  · exact Df.div W.mem (Df.const (-1)) h2 h0
  · exact Df.div W.mem (W.dBeta j) h2 h0
  · exact Df.div W.mem (W.dBeta i) h2 h0
  · exact (W.dInverse i j).sub (Df.div W.mem ((W.dBeta i).mul (W.dBeta j)) h2 h0)

theorem dInv4 (μ ν : Fin 4) : Df Ω t x (inv4 (spacetime C.scale F c) μ ν) :=
  (W.dSplit μ ν).congr (W.near.mono fun _ h => inv4_eq h.1 W.mem (h.2 x W.mem).1 μ ν) fun y hy => inv4_eq W.S hy (W.lapse y hy) μ ν

theorem dVel (μ : Fin 4) : Df Ω t x (velocity C.scale H μ) := by
  refine Fin.cases ?_ (fun i => ?_) μ
  · exact W.u0
  · exact ((W.v i).div W.mem (Df.static (W.S.rfm.smooth i)) fun y hy => W.S.rfm.ne y hy i).mul W.u0

theorem dFluid (μ ν : Fin 4) : Df Ω t x (fluid (spacetime C.scale F c) (velocity C.scale H) H μ ν) :=
  (((W.rho.mul W.h).mul (W.dVel μ)).mul (W.dVel ν)).add (W.press.mul (W.dInv4 μ ν))

theorem dMetric (μ ν : Fin 4) : Df Ω t x (spacetime C.scale F c μ ν) := by
  have ha := W.dAlpha
  refine Fin.cases ?_ (fun i => ?_) μ <;> refine Fin.cases ?_ (fun j => ?_) ν
  · have h : Df Ω t x fun τ y => -((F τ).alpha y * (F τ).alpha y) +
        ∑ i, ∑ j, gammaF C.scale (F τ) c i j y * betaF C.scale (F τ) i y * betaF C.scale (F τ) j y :=
      (ha.mul ha).neg.add (Df.sum fun i => Df.sum fun j => ((W.dGamma i j).mul (W.dBeta i)).mul (W.dBeta j))
    simp only [← sq] at h
    exact h
  · exact Df.sum fun i => (W.dGamma i j).mul (W.dBeta i)
  · exact Df.sum fun j => (W.dGamma i j).mul (W.dBeta j)
  · exact W.dGamma i j

/-! ## Derivatives -/

theorem d_metric (a b μ : Fin 4) : d4 (spacetime C.scale F c a b) t x μ = dCoord (fun i j => gammaF C.scale (F t) c i j x)
    (fun i j => d4 (fun τ => gammaF C.scale (F τ) c i j) t x μ) ((F t).alpha x) (d4 (fun τ => (F τ).alpha) t x μ)
    (fun i => betaF C.scale (F t) i x) (fun i => d4 (fun τ => betaF C.scale (F τ) i) t x μ) a b := by
  have ha := W.dAlpha
  have hx := W.mem
  refine Fin.cases ?_ (fun i => ?_) a <;> refine Fin.cases ?_ (fun j => ?_) b
  · have e : spacetime C.scale F c 0 0 = fun τ y => -((F τ).alpha y * (F τ).alpha y) +
        ∑ i, ∑ j, gammaF C.scale (F τ) c i j y * betaF C.scale (F τ) i y * betaF C.scale (F τ) j y := by
      funext τ y
      simp only [← sq]
      rfl
    have hs : ∀ i, Df Ω t x fun τ y => ∑ j, gammaF C.scale (F τ) c i j y * betaF C.scale (F τ) i y * betaF C.scale (F τ) j y :=
      fun i => Df.sum fun j => ((W.dGamma i j).mul (W.dBeta i)).mul (W.dBeta j)
    rw [e, d4_add hx (ha.mul ha).neg (Df.sum hs), d4_neg hx (ha.mul ha), d4_mul hx ha ha, d4_sum hx hs]
    have h2 : ∀ i, d4 (fun τ y => ∑ j, gammaF C.scale (F τ) c i j y * betaF C.scale (F τ) i y * betaF C.scale (F τ) j y) t x μ =
        ∑ j, ((d4 (fun τ => gammaF C.scale (F τ) c i j) t x μ * betaF C.scale (F t) i x +
          gammaF C.scale (F t) c i j x * d4 (fun τ => betaF C.scale (F τ) i) t x μ) * betaF C.scale (F t) j x +
          gammaF C.scale (F t) c i j x * betaF C.scale (F t) i x * d4 (fun τ => betaF C.scale (F τ) j) t x μ) := fun i => by
      rw [d4_sum hx fun j => ((W.dGamma i j).mul (W.dBeta i)).mul (W.dBeta j)]
      exact Finset.sum_congr rfl fun j _ => by
        rw [d4_mul hx ((W.dGamma i j).mul (W.dBeta i)) (W.dBeta j), d4_mul hx (W.dGamma i j) (W.dBeta i)]
    simp only [h2, dCoord, Fin.cons_zero]
    congr 1
    · ring
    · exact Finset.sum_congr rfl fun i _ => Finset.sum_congr rfl fun j _ => by ring
  · refine (d4_sum hx (fun i => (W.dGamma i j).mul (W.dBeta i)) μ).trans ?_
    exact Finset.sum_congr rfl fun i _ => d4_mul hx (W.dGamma i j) (W.dBeta i) μ
  · refine (d4_sum hx (fun j => (W.dGamma i j).mul (W.dBeta j)) μ).trans ?_
    exact Finset.sum_congr rfl fun j _ => d4_mul hx (W.dGamma i j) (W.dBeta j) μ
  · rfl

theorem dgamma_symm (i j : Fin 3) (μ : Fin 4) :
    d4 (fun τ => gammaF C.scale (F τ) c i j) t x μ = d4 (fun τ => gammaF C.scale (F τ) c j i) t x μ :=
  d4_congr W.mem (W.near.mono fun _ h => gamma_symm h.1 W.mem i j) (fun _ hy => gamma_symm W.S hy i j) μ

/-- `½ γ^{ij} ∂_μ γ_{ij}`. -/
theorem d_e6 (μ : Fin 4) : d4 (fun τ y => e6phi (gfsAt (F τ) y) c) t x μ +
    e6phi (gfsAt (F t) x) c * (Fin.cons (α := fun _ => ℝ) 0 (fun k => ∑ j, (rfmAt C.scale x).GammahatUDD j j k) μ) =
    e6phi (gfsAt (F t) x) c * (1 / 2 * ∑ i, ∑ j, inverse (gammaF C.scale (F t) c) i j x * d4 (fun τ => gammaF C.scale (F τ) c i j) t x μ) := by
  have hx := W.mem
  have hE := W.dE6
  have hh := W.S.rfm.isMetric
  have hg := W.S.metric
  have hD : Df Ω t x fun _ y => detOf (ghatF C.scale) y := Df.static hh.detOf_smooth
  have hd0 : detOf (ghatF C.scale) x ≠ 0 := hh.det x hx
  have he0 : e6phi (gfsAt (F t) x) c ≠ 0 := by rw [e6_eq W.S hx]; exact (Real.exp_pos _).ne'
  have hval := e6_sq W.S hx (W.dets x hx)
  have key : d4 (fun τ y => e6phi (gfsAt (F τ) y) c * e6phi (gfsAt (F τ) y) c * detOf (ghatF C.scale) y) t x μ =
      d4 (fun τ => detOf (gammaF C.scale (F τ) c)) t x μ := by
    refine d4_congr hx (W.near.mono fun τ h => ?_) (fun y hy => ?_) μ
    · rw [← sq]; exact e6_sq h.1 hx (h.2 x hx).2
    · rw [← sq]; exact e6_sq W.S hy (W.dets y hy)
  rw [d4_mul hx (hE.mul hE) hD, d4_mul hx hE hE] at key
  have hdet : d4 (fun τ => detOf (gammaF C.scale (F τ) c)) t x μ = detOf (gammaF C.scale (F t) c) x *
      ∑ i, ∑ j, inverse (gammaF C.scale (F t) c) i j x * d4 (fun τ => gammaF C.scale (F τ) c i j) t x μ := by
    refine Fin.cases ?_ (fun k => ?_) μ
    · refine (hasDerivAt_detOf (fun i j => (W.dGamma i j).time.hasDerivAt) (hg.det x hx)).deriv.trans ?_
      refine congrArg _ (Finset.sum_congr rfl fun i _ => Finset.sum_congr rfl fun j _ => ?_)
      rw [hg.inverse_symm hx]; rfl
    · refine (hg.pd_detOf hx k).trans ?_
      refine congrArg _ (Finset.sum_congr rfl fun i _ => Finset.sum_congr rfl fun j _ => ?_)
      rw [hg.inverse_symm hx]; rfl
  have hhat : d4 (fun _ y => detOf (ghatF C.scale) y) t x μ = detOf (ghatF C.scale) x *
      (2 * Fin.cons (α := fun _ => ℝ) 0 (fun k => ∑ j, (rfmAt C.scale x).GammahatUDD j j k) μ) := by
    refine Fin.cases ?_ (fun k => ?_) μ
    · simp [d4]
    · refine (hh.pd_detOf hx k).trans (congrArg _ ?_)
      have f : ∀ j, (rfmAt C.scale x).GammahatUDD j j k = christoffel (ghatF C.scale) j j k x := fun j => Gammahat_eq x j j k
      simp only [Fin.cons_succ, f, christoffel, Fin.sum_univ_three]
      have s := fun a b => hh.inverse_symm hx a b
      have p := fun a b => hh.pd_symm hx a b
      simp only [s 1 0, s 2 0, s 2 1, p 1 0, p 2 0, p 2 1]
      ring
  rw [hdet, hhat, ← hval] at key
  have h2 : e6phi (gfsAt (F t) x) c * detOf (ghatF C.scale) x * 2 ≠ 0 := by positivity
  refine mul_left_cancel₀ h2 ?_
  linear_combination key


/-! ## The laws -/

theorem inv4_val (a b : Fin 4) : inv4 (spacetime C.scale F c) a b t x = split4 (fun i j => inverse (gammaF C.scale (F t) c) i j x)
    ((F t).alpha x) (fun i => betaF C.scale (F t) i x) a b := inv4_eq W.S W.mem (W.lapse x W.mem) a b

theorem inv4_symm (a b : Fin 4) : inv4 (spacetime C.scale F c) a b t x = inv4 (spacetime C.scale F c) b a t x := by
  rw [W.inv4_val, W.inv4_val]
  refine Fin.cases ?_ (fun i => ?_) a <;> refine Fin.cases ?_ (fun j => ?_) b <;>
    simp only [split4, Fin.cons_zero, Fin.cons_succ]
  rw [W.S.metric.inverse_symm W.mem, mul_comm]

theorem d_metric_symm (a b μ : Fin 4) : d4 (spacetime C.scale F c a b) t x μ = d4 (spacetime C.scale F c b a) t x μ := by
  rw [W.d_metric, W.d_metric]
  have hd := fun i j => W.dgamma_symm i j μ
  have hγ := gamma_symm W.S W.mem
  refine Fin.cases ?_ (fun i => ?_) a <;> refine Fin.cases ?_ (fun j => ?_) b <;>
    simp only [dCoord, Fin.cons_zero, Fin.cons_succ]
  · exact Finset.sum_congr rfl fun i _ => by rw [hd i j, hγ i j]
  · exact Finset.sum_congr rfl fun j _ => by rw [hd i j, hγ i j]
  · exact hd i j

/-- `Γ̂^j_{ji}` and the derivative of the weight complete the divergence of a density to a covariant divergence. -/
theorem divergence_law {J : Fin 4 → Scal4} (hJ : ∀ μ, Df Ω t x (J μ)) :
    ∑ μ, d4 (fun τ y => (F τ).alpha y * e6phi (gfsAt (F τ) y) c * J μ τ y) t x μ +
      ∑ i, ∑ j, (rfmAt C.scale x).GammahatUDD i i j * ((F t).alpha x * e6phi (gfsAt (F t) x) c * J j.succ t x) =
    (F t).alpha x * e6phi (gfsAt (F t) x) c * div1 (spacetime C.scale F c) J t x := by
  have hx := W.mem
  have ha := W.dAlpha
  have hE := W.dE6
  have hα := W.lapse x hx
  have hγ := gamma_symm W.S hx
  have hU := W.inv4_val
  have hUs := W.inv4_symm
  have hdgs := W.d_metric_symm
  have e1 : div1 (spacetime C.scale F c) J t x = divP1 (fun a b => inv4 (spacetime C.scale F c) a b t x)
      (fun a b μ => d4 (spacetime C.scale F c a b) t x μ) (fun μ => J μ t x) fun μ ν => d4 (J μ) t x ν := rfl
  rw [e1, divP1_eq hUs hdgs]
  have tr := fun l => split_trace (u := fun i j => inverse (gammaF C.scale (F t) c) i j x) hα hγ W.dgamma_symm W.d_metric l
  simp only [hU, tr]
  have d : ∀ μ, d4 (fun τ y => (F τ).alpha y * e6phi (gfsAt (F τ) y) c * J μ τ y) t x μ = _ := fun μ => by
    rw [d4_mul hx (ha.mul hE) (hJ μ), d4_mul hx ha hE]
  simp only [d]
  have h0 := W.d_e6 0
  have hk := fun k : Fin 3 => W.d_e6 k.succ
  simp only [Fin.cons_zero, Fin.cons_succ] at h0 hk
  simp only [Fin.sum_univ_succ (n := 3)]
  generalize hT : (fun l => ∑ i, ∑ j, inverse (gammaF C.scale (F t) c) i j x * d4 (fun τ => gammaF C.scale (F τ) c i j) t x l) = Tr at *
  have hT' := fun l => congrFun hT l
  simp only [hT'] at h0 hk ⊢
  simp only [Fin.sum_univ_three] at hk ⊢
  have k0 := hk 0
  have k1 := hk 1
  have k2 := hk 2
  clear hk tr d e1 hT hT'
  field_simp
  linear_combination (2 * (F t).alpha x * J 0 t x) * h0 + (2 * (F t).alpha x * J (Fin.succ 0) t x) * k0 +
    (2 * (F t).alpha x * J (Fin.succ 1) t x) * k1 + (2 * (F t).alpha x * J (Fin.succ 2) t x) * k2

end Flow
end
end Verif.Hydro
