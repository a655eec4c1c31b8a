import Verif.Wave.Model
import Verif.Wave.Radial
import Verif.BSSN.Flat
import Mathlib.Analysis.SpecialFunctions.Trigonometric.Deriv
import Mathlib.Analysis.SpecialFunctions.ExpDeriv

/-!
# C81: the scalar wave equation
-/
namespace Verif.Wave
open Verif.RefMetric Verif.BSSN Real Topology
open scoped ContDiff

/-! ## Specification -/

/-- The symbols of the right-hand sides stand for the derivatives of `u` and the value of `v`. -/
noncomputable def symsOf (u v : Scal) (x : Vec) : Syms := ⟨v x, fun i => pd i u x, fun i j => pd j (pd i u) x⟩

/-- `∂ₜu = v` and `∂ₜv = c² Δu` at the points of `Ω`, where `Δ` is the Laplacian in Cartesian coordinates. -/
def WaveEq (wavespeed : ℝ) (u v : ℝ → Scal) (Ω : Dom) : Prop :=
  ∀ t, ∀ x ∈ Ω, HasDerivAt (fun t => u t x) (v t x) t ∧ HasDerivAt (fun t => v t x) (wavespeed ^ 2 * laplacian (u t) x) t

/-! ## The right-hand sides -/

/-- In Cartesian coordinates. -/
theorem C81_cartesian (wavespeed : ℝ) (u v : Scal) (x : Vec) :
    cartRhs wavespeed (symsOf u v x) = (v x, wavespeed ^ 2 * laplacian u x) := by
  simp only [cartRhs, symsOf, laplacian, Fin.sum_univ_three]
  exact Prod.ext rfl (by simp only; ring)

theorem pd_chain {U : Scal} {X : Vec → Vec} {x : Vec} (hU : DifferentiableAt ℝ U (X x))
    (hX : ∀ a, DifferentiableAt ℝ (fun y => X y a) x) (i : Fin 3) :
    pd i (fun y => U (X y)) x = ∑ a, pd a U (X x) * pd i (fun y => X y a) x := by
  have hXd : DifferentiableAt ℝ X x := differentiableAt_pi.2 hX
  have h1 : pd i (fun y => U (X y)) x = fderiv ℝ (U ∘ X) x (Pi.single i 1) := pd_eq (hU.comp x hXd) i
  have h2 : ∀ a, pd i (fun y => X y a) x = fderiv ℝ X x (Pi.single i 1) a := by
    intro a
    rw [pd_eq (hX a), fderiv_apply hXd]
    rfl
  rw [h1, fderiv_comp x hU hXd]
  simp only [h2, pd_eq hU, ContinuousLinearMap.comp_apply]
  set v := fderiv ℝ X x (Pi.single i 1)
  have hv : v = ∑ a, v a • (Pi.single a (1 : ℝ) : Vec) := by
    funext b
    simp [Finset.sum_apply, Pi.single_apply]
  conv_lhs => rw [hv]
  rw [map_sum]
  simp only [map_smul, smul_eq_mul]
  exact Finset.sum_congr rfl fun a _ => by ring

/-- In a supported coordinate system: applied to `u` as a function of the curvilinear coordinates, the right-hand side is the
Cartesian one at the same point of space. -/
theorem C81_curvilinear {P : CoordParams} (hb : P.b ≠ 0) {name : Py.Str} {c : Coords} (h : choose P name = .sys c)
    {Ω : Dom} {u : Scal} (hu : Sm Ω u) (v : Scal) (wavespeed : ℝ) (x : Vec) (hx : c.toCart x ∈ Ω) (hs : ∀ i, c.scale x i ≠ 0) :
    curviRhs wavespeed c.scale x (symsOf (fun y => u (c.toCart y)) (fun y => v (c.toCart y)) x) =
      (v (c.toCart x), wavespeed ^ 2 * laplacian u (c.toCart x)) := by
  have hX : ∀ a, ContDiff ℝ ∞ fun y => c.toCart y a := smooth_toCart hb h
  have hXc : Continuous c.toCart := continuous_pi fun a => (hX a).continuous
  let Ω' : Dom := ⟨c.toCart ⁻¹' Ω, Ω.isOpen.preimage hXc⟩
  have hx' : x ∈ Ω' := hx
  have hXs : ∀ a, Sm Ω' fun y => c.toCart y a := fun a => (hX a).contDiffOn
  have hcomp : ∀ {f : Scal}, Sm Ω f → Sm Ω' fun y => f (c.toCart y) := fun {f} hf =>
    ContDiffOn.comp hf (contDiffOn_pi.2 fun a => hXs a) fun y hy => hy
  have hXd : ∀ a (y : Vec), DifferentiableAt ℝ (fun y => c.toCart y a) y := fun a y => (hX a).differentiable (by simp) y
  have d1 : ∀ y ∈ Ω', ∀ i, pd i (fun y => u (c.toCart y)) y = ∑ a, pd a u (c.toCart y) * pd i (fun y => c.toCart y a) y :=
    fun y hy i => pd_chain (hu.diff hy) (fun a => hXd a y) i
  have d2 : ∀ i j, pd j (pd i fun y => u (c.toCart y)) x = ∑ a, ((∑ b, pd b (pd a u) (c.toCart x) * pd j (fun y => c.toCart y b) x) *
      pd i (fun y => c.toCart y a) x + pd a u (c.toCart x) * pd j (pd i fun y => c.toCart y a) x) := by
    intro i j
    rw [pd_congr_on (fun y hy => d1 y hy i) hx' j, dpd_dot hx' j (fun a => hcomp (hu.pd a)) (fun a => (hXs a).pd i)]
    refine Finset.sum_congr rfl fun a _ => ?_
    rw [pd_chain ((hu.pd a).diff hx) (fun b => hXd b x)]
  have hG := fun k l a => C63_flat hb h x hs k l a
  -- the inverse metric
  let E : Matrix (Fin 3) (Fin 3) ℝ := Matrix.of fun i b => pd i (fun y => c.toCart y b) x
  let G : Matrix (Fin 3) (Fin 3) ℝ := Matrix.of fun i j => RefMetric.ghatDD c.scale i j x
  let V : Matrix (Fin 3) (Fin 3) ℝ := Matrix.of fun i j => ghatUU c.scale i j x
  have hGE : G = E * E.transpose := by
    ext i j
    rw [Matrix.mul_apply]
    exact C60_flat hb h x i j
  have hGV : G * V = 1 := by
    ext i j
    rw [Matrix.mul_apply, Matrix.one_apply]
    exact ghatUU_mul c.scale x hs i j
  have hEVE : E.transpose * V * E = 1 := by
    have h1 : E * (E.transpose * V) = 1 := by rw [← Matrix.mul_assoc, ← hGE, hGV]
    exact mul_eq_one_comm.1 h1
  have hinv : ∀ a b, ∑ i, ∑ j, ghatUU c.scale i j x * pd i (fun y => c.toCart y a) x * pd j (fun y => c.toCart y b) x =
      if a = b then 1 else 0 := by
    intro a b
    have e := congrFun (congrFun hEVE a) b
    rw [Matrix.one_apply] at e
    rw [← e]
    simp only [Matrix.mul_apply, Matrix.transpose_apply, Fin.sum_univ_three, E, V, Matrix.of_apply]
    ring
  refine Prod.ext rfl ?_
  simp only [curviRhs, symsOf, contractedGammahatU, d2, d1 x hx', laplacian]
  have key : ∑ i, (-((∑ k, ∑ l, ghatUU c.scale k l x * GammahatUDD c.scale i k l x) *
        ∑ a, pd a u (c.toCart x) * pd i (fun y => c.toCart y a) x) +
      ∑ j, ghatUU c.scale i j x * ∑ a, ((∑ b, pd b (pd a u) (c.toCart x) * pd j (fun y => c.toCart y b) x) *
        pd i (fun y => c.toCart y a) x + pd a u (c.toCart x) * pd j (pd i fun y => c.toCart y a) x)) =
      ∑ a, ∑ b, pd b (pd a u) (c.toCart x) * ∑ i, ∑ j, ghatUU c.scale i j x * pd i (fun y => c.toCart y a) x *
        pd j (fun y => c.toCart y b) x := by
    have e : ∀ i j a, pd j (pd i fun y => c.toCart y a) x = ∑ k, GammahatUDD c.scale k i j x * pd k (fun y => c.toCart y a) x := by
      intro i j a
      rw [hG i j a]
      exact pd_comm ((hX a).of_le (show ((2 : ℕ∞) : WithTop ℕ∞) ≤ _ from WithTop.coe_le_coe.2 le_top)) j i x
    simp only [e, Fin.sum_univ_three]
    ring
  rw [key]
  simp only [hinv]
  simp [Fin.sum_univ_three]
  ring

/-! ## The exact solutions -/

/-- A plane wave solves the equation everywhere. -/
theorem C81_plane (wavespeed : ℝ) (kk : Vec) (hk : kk ≠ 0) : WaveEq wavespeed (planeU wavespeed kk) (planeV wavespeed kk) ⊤ := by
  have hn : 0 < kk 0 ^ 2 + kk 1 ^ 2 + kk 2 ^ 2 := by
    have := sq_pos_of_ne (c := 0) hk
    simpa using this
  set N := √(kk 0 ^ 2 + kk 1 ^ 2 + kk 2 ^ 2) with hN
  have hN0 : N ≠ 0 := (Real.sqrt_pos.2 hn).ne'
  have hN2 : N ^ 2 = kk 0 ^ 2 + kk 1 ^ 2 + kk 2 ^ 2 := Real.sq_sqrt hn.le
  have hU : ∀ t x, planeU wavespeed kk t x = sin ((∑ i, kk i * x i) / N - wavespeed * t) + 2 := fun t x => rfl
  have ht : ∀ (A t : ℝ), HasDerivAt (fun t => A - wavespeed * t) (-wavespeed) t := by
    intro A t
    simpa using ((hasDerivAt_id t).const_mul wavespeed).const_sub A
  have hV1 : ∀ t x, HasDerivAt (fun t => planeU wavespeed kk t x) (cos ((∑ i, kk i * x i) / N - wavespeed * t) * -wavespeed) t := by
    intro t x
    exact ((ht _ t).sin).add_const 2
  have hV : ∀ t x, planeV wavespeed kk t x = cos ((∑ i, kk i * x i) / N - wavespeed * t) * -wavespeed := fun t x => (hV1 t x).deriv
  intro t x _
  refine ⟨by rw [hV]; exact hV1 t x, ?_⟩
  have hVt : HasDerivAt (fun t => planeV wavespeed kk t x) (-sin ((∑ i, kk i * x i) / N - wavespeed * t) * -wavespeed * -wavespeed) t := by
    have h1 : (fun t => planeV wavespeed kk t x) = fun t => cos ((∑ i, kk i * x i) / N - wavespeed * t) * -wavespeed :=
      funext fun t => hV t x
    rw [h1]
    exact ((ht _ t).cos).mul_const _
  -- the phase
  have hph : ∀ (k : Fin 3) (y : Vec), pd k (fun y => (∑ i, kk i * y i) / N - wavespeed * t) y = kk k / N := by
    intro k y
    have hy : y ∈ (⊤ : Dom) := trivial
    have hc : ∀ i, Sm ⊤ fun y : Vec => y i := fun i => (smooth_coord (N := ∞) i).contDiffOn
    have e0 : (fun y : Vec => (∑ i, kk i * y i) / N - wavespeed * t) =
        fun y => (1 / N) * (∑ i, kk i * y i) - wavespeed * t := by funext y; ring
    have e1 : ∀ i, pd k (fun y : Vec => y i) y = if i = k then 1 else 0 := by
      intro i
      have := pd_coord 0 y k i
      simpa using this
    have s1 : Sm ⊤ fun y : Vec => ∑ i, kk i * y i := Sm.sum fun i => (Sm.const (kk i)).mul (hc i)
    rw [e0, dpd_sub hy k ((Sm.const _).mul s1) (Sm.const _), dpd_const, dpd_cmul hy k _ s1,
      dpd_sum hy k (fun i => (Sm.const (kk i)).mul (hc i))]
    have e2 : ∀ i, pd k (fun y : Vec => kk i * y i) y = kk i * if i = k then 1 else 0 := fun i => by
      rw [dpd_cmul hy k _ (hc i), e1]
    simp only [e2]
    simp
    ring
  have hphd : Differentiable ℝ fun y : Vec => (∑ i, kk i * y i) / N - wavespeed * t := by
    have : ContDiff ℝ ∞ fun y : Vec => (∑ i, kk i * y i) / N - wavespeed * t :=
      ((ContDiff.sum fun i _ => contDiff_const.mul (smooth_coord i)).div_const _).sub contDiff_const
    exact this.differentiable (by simp)
  have hL : laplacian (planeU wavespeed kk t) x = -sin ((∑ i, kk i * x i) / N - wavespeed * t) := by
    have p1 : ∀ k, pd k (planeU wavespeed kk t) = fun y => cos ((∑ i, kk i * y i) / N - wavespeed * t) * (kk k / N) := by
      intro k
      funext y
      have h1 := pd_comp (φ := fun s => sin s + 2) (f := fun y => (∑ i, kk i * y i) / N - wavespeed * t) (x := y)
        ((Real.differentiable_sin _).add_const 2) (hphd y) k
      rw [hph] at h1
      have h2 : deriv (fun s : ℝ => sin s + 2) ((∑ i, kk i * y i) / N - wavespeed * t) =
          cos ((∑ i, kk i * y i) / N - wavespeed * t) := ((Real.hasDerivAt_sin _).add_const 2).deriv
      rw [h2] at h1
      exact h1
    have p2 : ∀ k, pd k (pd k (planeU wavespeed kk t)) x =
        -sin ((∑ i, kk i * x i) / N - wavespeed * t) * (kk k / N) * (kk k / N) := by
      intro k
      rw [p1]
      have h1 := pd_comp (φ := fun s => cos s * (kk k / N)) (f := fun y => (∑ i, kk i * y i) / N - wavespeed * t) (x := x)
        ((Real.differentiable_cos _).mul_const _) (hphd x) k
      rw [hph, ((Real.hasDerivAt_cos _).mul_const (kk k / N)).deriv] at h1
      exact h1
    simp only [laplacian, p2, Fin.sum_univ_three]
    field_simp
    rw [hN2]
    ring
  rw [hL]
  convert hVt using 1
  ring

/-- `s e^{-s²/2σ²}` -/
noncomputable def bump (σ s : ℝ) : ℝ := s * exp (-(s ^ 2) / (2 * σ ^ 2))

theorem bump_smooth (σ : ℝ) : ContDiff ℝ ∞ (bump σ) :=
  contDiff_id.mul (((contDiff_id.pow 2).neg.div_const _).exp)

theorem bump_odd (σ s : ℝ) : bump σ (-s) = -bump σ s := by
  unfold bump
  rw [neg_sq]
  ring

theorem bump'_even (σ s : ℝ) : deriv (bump σ) (-s) = deriv (bump σ) s := by
  have h : (fun s => bump σ (-s)) = fun s => -bump σ s := funext (bump_odd σ)
  have h2 := congrArg (fun f => deriv f s) h
  simp only [deriv_comp_neg, deriv.fun_neg] at h2
  linarith

theorem bump_hasDeriv (σ s : ℝ) : HasDerivAt (bump σ) (deriv (bump σ) s) s :=
  ((bump_smooth σ).differentiable (by simp) s).hasDerivAt

theorem bump'_smooth (σ : ℝ) : ContDiff ℝ ∞ (deriv (bump σ)) := (contDiff_infty_iff_deriv.1 (bump_smooth σ)).2

theorem bump'_hasDeriv (σ s : ℝ) : HasDerivAt (deriv (bump σ)) (deriv (deriv (bump σ)) s) s :=
  ((bump'_smooth σ).differentiable (by simp) s).hasDerivAt

theorem radius_eq (x : Vec) : radius x = dist3 0 x := by
  simp [radius, dist3, Fin.sum_univ_three]

/-- Both waves together. -/
noncomputable def waves (c σ t s : ℝ) : ℝ := bump σ (s - c * t) + bump σ (s + c * t)

theorem waves_smooth (c σ t : ℝ) : ContDiff ℝ ∞ (waves c σ t) :=
  ((bump_smooth σ).comp (contDiff_id.sub contDiff_const)).add ((bump_smooth σ).comp (contDiff_id.add contDiff_const))

theorem waves_deriv (c σ t s : ℝ) : deriv (waves c σ t) s = deriv (bump σ) (s - c * t) + deriv (bump σ) (s + c * t) := by
  have h1 : HasDerivAt (fun s => bump σ (s - c * t)) (deriv (bump σ) (s - c * t)) s := by
    simpa using (bump_hasDeriv σ (s - c * t)).comp_sub_const s (c * t)
  have h2 : HasDerivAt (fun s => bump σ (s + c * t)) (deriv (bump σ) (s + c * t)) s := by
    simpa using (bump_hasDeriv σ (s + c * t)).comp_add_const s (c * t)
  exact (h1.add h2).deriv

theorem waves_deriv2 (c σ t s : ℝ) : deriv (deriv (waves c σ t)) s =
    deriv (deriv (bump σ)) (s - c * t) + deriv (deriv (bump σ)) (s + c * t) := by
  have e : deriv (waves c σ t) = fun s => deriv (bump σ) (s - c * t) + deriv (bump σ) (s + c * t) := funext (waves_deriv c σ t)
  have h1 : HasDerivAt (fun s => deriv (bump σ) (s - c * t)) (deriv (deriv (bump σ)) (s - c * t)) s := by
    simpa using (bump'_hasDeriv σ (s - c * t)).comp_sub_const s (c * t)
  have h2 : HasDerivAt (fun s => deriv (bump σ) (s + c * t)) (deriv (deriv (bump σ)) (s + c * t)) s := by
    simpa using (bump'_hasDeriv σ (s + c * t)).comp_add_const s (c * t)
  rw [e]
  exact (h1.add h2).deriv

theorem gaussU_eq (c σ t : ℝ) (x : Vec) : gaussU c σ t x = waves c σ t (dist3 0 x) * invDist 0 x + 2 := by
  unfold gaussU waves bump invDist
  rw [radius_eq]
  ring

theorem waves_time (c σ t s : ℝ) : HasDerivAt (fun t => waves c σ t s)
    (c * (deriv (bump σ) (s + c * t) - deriv (bump σ) (s - c * t))) t := by
  have h1 : HasDerivAt (fun t => s - c * t) (-c) t := by
    simpa using ((hasDerivAt_id t).const_mul c).const_sub s
  have h2 : HasDerivAt (fun t => s + c * t) c t := by
    simpa using ((hasDerivAt_id t).const_mul c).const_add s
  have := ((bump_hasDeriv σ (s - c * t)).comp t h1).add ((bump_hasDeriv σ (s + c * t)).comp t h2)
  exact this.congr_deriv (by ring)

theorem gaussV_hasDeriv (c σ t : ℝ) (x : Vec) : HasDerivAt (fun t => gaussU c σ t x)
    (c * (deriv (bump σ) (dist3 0 x + c * t) - deriv (bump σ) (dist3 0 x - c * t)) * invDist 0 x) t := by
  have e : (fun t => gaussU c σ t x) = fun t => waves c σ t (dist3 0 x) * invDist 0 x + 2 := funext fun t => gaussU_eq c σ t x
  rw [e]
  exact ((waves_time c σ t _).mul_const _).add_const 2

theorem gaussV_eq (c σ t : ℝ) (x : Vec) : gaussV c σ t x =
    c * (deriv (bump σ) (dist3 0 x + c * t) - deriv (bump σ) (dist3 0 x - c * t)) * invDist 0 x := (gaussV_hasDeriv c σ t x).deriv

theorem wavesV_time (c σ t s : ℝ) : HasDerivAt (fun t => c * (deriv (bump σ) (s + c * t) - deriv (bump σ) (s - c * t)))
    (c ^ 2 * (deriv (deriv (bump σ)) (s - c * t) + deriv (deriv (bump σ)) (s + c * t))) t := by
  have h1 : HasDerivAt (fun t => s - c * t) (-c) t := by
    simpa using ((hasDerivAt_id t).const_mul c).const_sub s
  have h2 : HasDerivAt (fun t => s + c * t) c t := by
    simpa using ((hasDerivAt_id t).const_mul c).const_add s
  have := (((bump'_hasDeriv σ (s + c * t)).comp t h2).sub ((bump'_hasDeriv σ (s - c * t)).comp t h1)).const_mul c
  exact this.congr_deriv (by ring)

/-- The spherical Gaussian solves the equation away from the origin. -/
theorem C81_gaussian (wavespeed sigma : ℝ) (_hσ : sigma ≠ 0) :
    WaveEq wavespeed (gaussU wavespeed sigma) (gaussV wavespeed sigma) (away 0) := by
  intro t x hx
  refine ⟨by rw [gaussV_eq]; exact gaussV_hasDeriv _ _ t x, ?_⟩
  have hx' : x ≠ 0 := hx
  have e : (fun t => gaussV wavespeed sigma t x) = fun t =>
      wavespeed * (deriv (bump sigma) (dist3 0 x + wavespeed * t) - deriv (bump sigma) (dist3 0 x - wavespeed * t)) * invDist 0 x :=
    funext fun t => gaussV_eq _ _ t x
  rw [e]
  have hL : laplacian (gaussU wavespeed sigma t) x = deriv (deriv (waves wavespeed sigma t)) (dist3 0 x) * invDist 0 x := by
    rw [← laplacian_radial (waves_smooth _ _ _) hx']
    have e2 : gaussU wavespeed sigma t = fun y => waves wavespeed sigma t (dist3 0 y) * invDist 0 y + 2 :=
      funext fun y => gaussU_eq _ _ t y
    have hs : Sm (away 0) fun y => waves wavespeed sigma t (dist3 0 y) * invDist 0 y :=
      ((waves_smooth wavespeed sigma t).comp_contDiffOn (sm_dist3 0)).mul (sm_invDist 0)
    unfold laplacian
    refine Finset.sum_congr rfl fun k _ => pd_congr_on (Ω := away 0) (fun y hy => ?_) hx k
    rw [e2, dpd_add hy k hs (Sm.const 2), dpd_const, add_zero]
  rw [hL, waves_deriv2]
  have := (wavesV_time wavespeed sigma t (dist3 0 x)).mul_const (invDist 0 x)
  exact this.congr_deriv (by ring)

theorem dist3_tendsto : Filter.Tendsto (dist3 0) (𝓝[≠] (0 : Vec)) (𝓝[≠] 0) := by
  apply tendsto_nhdsWithin_of_tendsto_nhds_of_eventually_within
  · have hc : Continuous (dist3 0) := by
      unfold dist3
      fun_prop
    have := hc.tendsto 0
    rw [dist3_eq.2 rfl] at this
    exact this.mono_left nhdsWithin_le_nhds
  · filter_upwards [self_mem_nhdsWithin] with x hx
    exact (dist3_pos hx).ne'

theorem slope_limit {F : ℝ → ℝ} {F' : ℝ} (h : HasDerivAt F F' 0) (h0 : F 0 = 0) :
    Filter.Tendsto (fun x : Vec => F (dist3 0 x) * invDist 0 x) (𝓝[≠] 0) (𝓝 F') := by
  have h1 := (hasDerivAt_iff_tendsto_slope.1 h).comp dist3_tendsto
  refine h1.congr fun x => ?_
  simp only [Function.comp, slope, vsub_eq_sub, h0, sub_zero, smul_eq_mul, invDist]
  ring

/-- The expressions for the origin are the limits there. -/
theorem C81_gaussian_origin (wavespeed sigma t : ℝ) (_hσ : sigma ≠ 0) :
    Filter.Tendsto (gaussU wavespeed sigma t) (𝓝[≠] 0) (𝓝 (gaussU0 wavespeed sigma t 0)) ∧
      Filter.Tendsto (gaussV wavespeed sigma t) (𝓝[≠] 0) (𝓝 (gaussV0 wavespeed sigma t 0)) := by
  have hr : radius 0 = 0 := by rw [radius_eq]; exact dist3_eq.2 rfl
  have hU0 : ∀ t, gaussU0 wavespeed sigma t 0 = deriv (waves wavespeed sigma t) 0 + 2 := by
    intro t
    unfold gaussU0
    rw [hr]
    rfl
  constructor
  · have h := slope_limit ((waves_smooth wavespeed sigma t).differentiable (by simp) 0).hasDerivAt (by
      simp only [waves, zero_sub, zero_add, bump_odd]; ring)
    rw [hU0]
    exact (h.add_const 2).congr fun x => (gaussU_eq _ _ t x).symm
  · have h1 : HasDerivAt (fun t => gaussU0 wavespeed sigma t 0)
        (wavespeed * (deriv (deriv (bump sigma)) (wavespeed * t) - deriv (deriv (bump sigma)) (-(wavespeed * t)))) t := by
      have e : (fun t => gaussU0 wavespeed sigma t 0) = fun t =>
          deriv (bump sigma) (0 - wavespeed * t) + deriv (bump sigma) (0 + wavespeed * t) + 2 := by
        funext t
        rw [hU0, waves_deriv]
      rw [e]
      have a1 : HasDerivAt (fun t => 0 - wavespeed * t) (-wavespeed) t := by
        simpa using ((hasDerivAt_id t).const_mul wavespeed).const_sub 0
      have a2 : HasDerivAt (fun t => 0 + wavespeed * t) wavespeed t := by
        simpa using ((hasDerivAt_id t).const_mul wavespeed).const_add 0
      have := (((bump'_hasDeriv sigma (0 - wavespeed * t)).comp t a1).add
        ((bump'_hasDeriv sigma (0 + wavespeed * t)).comp t a2)).add_const 2
      exact this.congr_deriv (by rw [zero_sub, zero_add]; ring)
    have hV0 : gaussV0 wavespeed sigma t 0 = _ := h1.deriv
    have h2 : HasDerivAt (fun s => wavespeed * (deriv (bump sigma) (s + wavespeed * t) - deriv (bump sigma) (s - wavespeed * t)))
        (wavespeed * (deriv (deriv (bump sigma)) (wavespeed * t) - deriv (deriv (bump sigma)) (-(wavespeed * t)))) 0 := by
      have b1 := (bump'_hasDeriv sigma (0 + wavespeed * t)).comp_add_const 0 (wavespeed * t)
      have b2 := (bump'_hasDeriv sigma (0 - wavespeed * t)).comp_sub_const 0 (wavespeed * t)
      have := (b1.sub b2).const_mul wavespeed
      rwa [zero_sub, zero_add] at this
    rw [hV0]
    refine (slope_limit h2 ?_).congr fun x => (gaussV_eq _ _ t x).symm
    rw [zero_add, zero_sub, bump'_even]
    ring

theorem mul_exp_neg_le (y : ℝ) (hy : 0 ≤ y) : y * exp (-y) ≤ 1 := by
  have h := Real.add_one_le_exp y
  rw [Real.exp_neg]
  have hp := Real.exp_pos y
  rw [← div_eq_mul_inv, div_le_one hp]
  linarith

theorem bump_bound (σ s : ℝ) (hσ : σ ≠ 0) : |bump σ s| ≤ 1 + 2 * σ ^ 2 := by
  have h2 : 0 < 2 * σ ^ 2 := by positivity
  have hy : 0 ≤ s ^ 2 / (2 * σ ^ 2) := by positivity
  have h := mul_exp_neg_le _ hy
  have he : exp (-(s ^ 2 / (2 * σ ^ 2))) ≤ 1 := Real.exp_le_one_iff.2 (by linarith)
  have h3 : s ^ 2 * exp (-(s ^ 2 / (2 * σ ^ 2))) ≤ 2 * σ ^ 2 := by
    rw [div_mul_eq_mul_div, div_le_one h2] at h
    exact h
  unfold bump
  rw [abs_mul, abs_of_pos (Real.exp_pos _), neg_div]
  have h4 : |s| ≤ 1 + s ^ 2 := by nlinarith [sq_abs s, sq_nonneg (|s| - 1), abs_nonneg s]
  calc |s| * exp (-(s ^ 2 / (2 * σ ^ 2))) ≤ (1 + s ^ 2) * exp (-(s ^ 2 / (2 * σ ^ 2))) :=
        mul_le_mul_of_nonneg_right h4 (Real.exp_pos _).le
    _ ≤ 1 + 2 * σ ^ 2 := by linarith

theorem bump'_bound (σ s : ℝ) (hσ : σ ≠ 0) : |deriv (bump σ) s| ≤ 3 := by
  have h2 : 0 < 2 * σ ^ 2 := by positivity
  have hd : HasDerivAt (bump σ) (1 * exp (-(s ^ 2) / (2 * σ ^ 2)) + s * (exp (-(s ^ 2) / (2 * σ ^ 2)) * (-(2 * s) / (2 * σ ^ 2)))) s := by
    have h1 : HasDerivAt (fun s : ℝ => -(s ^ 2) / (2 * σ ^ 2)) (-(2 * s) / (2 * σ ^ 2)) s := by
      simpa using ((hasDerivAt_pow 2 s).neg).div_const (2 * σ ^ 2)
    exact (hasDerivAt_id s).mul h1.exp
  rw [hd.deriv]
  have hy : 0 ≤ s ^ 2 / (2 * σ ^ 2) := by positivity
  have h := mul_exp_neg_le _ hy
  have he : exp (-(s ^ 2 / (2 * σ ^ 2))) ≤ 1 := Real.exp_le_one_iff.2 (by linarith)
  have hp := Real.exp_pos (-(s ^ 2 / (2 * σ ^ 2)))
  have e : 1 * exp (-(s ^ 2) / (2 * σ ^ 2)) + s * (exp (-(s ^ 2) / (2 * σ ^ 2)) * (-(2 * s) / (2 * σ ^ 2))) =
      exp (-(s ^ 2 / (2 * σ ^ 2))) - 2 * (s ^ 2 / (2 * σ ^ 2) * exp (-(s ^ 2 / (2 * σ ^ 2)))) := by
    rw [neg_div]
    ring
  rw [e, abs_le]
  have hn : 0 ≤ s ^ 2 / (2 * σ ^ 2) * exp (-(s ^ 2 / (2 * σ ^ 2))) := mul_nonneg hy hp.le
  constructor <;> linarith

theorem tail_limit {f : Vec → ℝ} {M : ℝ} (h : ∀ x, |f x| ≤ M) :
    Filter.Tendsto (fun x => f x * invDist 0 x) (Filter.comap radius Filter.atTop) (𝓝 0) := by
  have h1 : Filter.Tendsto (fun x => invDist 0 x) (Filter.comap radius Filter.atTop) (𝓝 0) := by
    have := tendsto_inv_atTop_zero.comp (Filter.tendsto_comap (f := radius) (x := Filter.atTop))
    refine this.congr fun x => ?_
    simp [invDist, radius_eq]
  have h2 := h1.const_mul M
  rw [mul_zero] at h2
  refine squeeze_zero_norm (fun x => ?_) h2
  rw [Real.norm_eq_abs, abs_mul]
  have hi : 0 ≤ invDist 0 x := inv_nonneg.2 (Real.sqrt_nonneg _)
  rw [abs_of_nonneg hi]
  exact mul_le_mul_of_nonneg_right (h x) hi

/-- Far away the Gaussian has the values that are registered for the outer boundary (`f_infinity=[2.0, 0.0]`). -/
theorem C81_gaussian_infinity (wavespeed sigma t : ℝ) (hσ : sigma ≠ 0) :
    Filter.Tendsto (gaussU wavespeed sigma t) (Filter.comap radius Filter.atTop) (𝓝 2) ∧
      Filter.Tendsto (gaussV wavespeed sigma t) (Filter.comap radius Filter.atTop) (𝓝 0) := by
  constructor
  · have h := tail_limit (f := fun x => waves wavespeed sigma t (dist3 0 x)) (M := (1 + 2 * sigma ^ 2) + (1 + 2 * sigma ^ 2))
      fun x => (abs_add_le _ _).trans (add_le_add (bump_bound _ _ hσ) (bump_bound _ _ hσ))
    have := h.add_const 2
    rw [zero_add] at this
    exact this.congr fun x => (gaussU_eq _ _ t x).symm
  · have h := tail_limit (f := fun x => wavespeed * (deriv (bump sigma) (dist3 0 x + wavespeed * t) -
        deriv (bump sigma) (dist3 0 x - wavespeed * t))) (M := |wavespeed| * (3 + 3)) fun x => by
      rw [abs_mul]
      refine mul_le_mul_of_nonneg_left ?_ (abs_nonneg _)
      exact (abs_sub _ _).trans (add_le_add (bump'_bound _ _ hσ) (bump'_bound _ _ hσ))
    exact h.congr fun x => (gaussV_eq _ _ t x).symm

/-- A solution of the wave equation, as a function of the coordinates of a supported system, evolves by the right-hand sides of the
code. -/
theorem C81_evolution {P : CoordParams} (hb : P.b ≠ 0) {name : Py.Str} {c : Coords} (h : choose P name = .sys c) {Ω : Dom}
    {u v : ℝ → Scal} {wavespeed : ℝ} (hu : ∀ t, Sm Ω (u t)) (hw : WaveEq wavespeed u v Ω) (t : ℝ) (x : Vec) (hx : c.toCart x ∈ Ω)
    (hs : ∀ i, c.scale x i ≠ 0) :
    HasDerivAt (fun t => u t (c.toCart x))
        (curviRhs wavespeed c.scale x (symsOf (fun y => u t (c.toCart y)) (fun y => v t (c.toCart y)) x)).1 t ∧
      HasDerivAt (fun t => v t (c.toCart x))
        (curviRhs wavespeed c.scale x (symsOf (fun y => u t (c.toCart y)) (fun y => v t (c.toCart y)) x)).2 t := by
  rw [C81_curvilinear hb h (hu t) (v t) wavespeed x hx hs]
  exact hw t _ hx

/-! ## A concrete case -/

/-- The Gaussian in spherical coordinates. -/
example (wavespeed : ℝ) : ∃ c, choose demo (c% "Spherical") = .sys c ∧ c.toCart ![1, π / 2, 0] ∈ away 0 ∧
    (∀ i, c.scale ![1, π / 2, 0] i ≠ 0) ∧ ∀ t, Sm (away 0) (gaussU wavespeed 3 t) := by
  refine ⟨_, rfl, ?_, ?_, fun t => ?_⟩
  · rw [mem_away]
    intro h
    have := congrFun h 0
    simp [spherical, sphericalLike] at this
  · intro i
    fin_cases i <;> simp [spherical, sphericalLike]
  · have : gaussU wavespeed 3 t = fun y => waves wavespeed 3 t (dist3 0 y) * invDist 0 y + 2 := funext fun y => gaussU_eq _ _ t y
    rw [this]
    exact (((waves_smooth wavespeed 3 t).comp_contDiffOn (sm_dist3 0)).mul (sm_invDist 0)).add (Sm.const 2)

end Verif.Wave
