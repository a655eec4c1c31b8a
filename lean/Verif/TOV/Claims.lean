import Verif.TOV.Model
import Verif.TOV.Star
import Mathlib.Analysis.SpecialFunctions.Pow.Deriv
import Mathlib.Analysis.Calculus.Deriv.Inverse
import Mathlib.Topology.Order.IntermediateValue
import Mathlib.Topology.Order.MonotoneContinuity

/-!
# C92: the initial data of TOVola
-/
namespace Verif.TOV
open Verif.RefMetric Verif.BSSN Verif.Initial Verif.Hydro Real Set

/-! ## Specification -/

/-- The point with spherical coordinates `(r, θ, φ)`. -/
noncomputable def toCart (x : Vec) : Vec := ![x 0 * sin (x 1) * cos (x 2), x 0 * sin (x 1) * sin (x 2), x 0 * cos (x 1)]

/-- The data that `TOVola_interp` sets, as functions of the spherical coordinates, are a static solution of Einstein's equations at `x`. -/
def StaticStar (v : ℝ → Values) (x : Vec) : Prop :=
  StaticSolution (fun i j y => (interp v (toCart y)).gammaDD i j) (fun i j y => (interp v (toCart y)).KDD i j)
    (fun y => (interp v (toCart y)).alpha) (fun i y => (interp v (toCart y)).betaU i) (fun μ ν y => (interp v (toCart y)).T4UU μ ν) x

/-- `y` solves the ordinary differential equations that the code hands to the solver, for areal radii between `a` and `b`. -/
structure Solves (e : Eos) (a b : ℝ) (y : ℝ → State) : Prop where
  P : ∀ r ∈ Ioo a b, HasDerivAt (fun t => (y t).P) (ode e r (y r)).P r
  nu : ∀ r ∈ Ioo a b, HasDerivAt (fun t => (y t).nu) (ode e r (y r)).nu r
  M : ∀ r ∈ Ioo a b, HasDerivAt (fun t => (y t).M) (ode e r (y r)).M r
  riso : ∀ r ∈ Ioo a b, HasDerivAt (fun t => (y t).riso) (ode e r (y r)).riso r

/-! ## Points -/

theorem toCart_norm {x : Vec} (h : 0 < x 0) :
    √(toCart x 0 * toCart x 0 + toCart x 1 * toCart x 1 + toCart x 2 * toCart x 2) = x 0 := by
  have e : toCart x 0 * toCart x 0 + toCart x 1 * toCart x 1 + toCart x 2 * toCart x 2 = x 0 ^ 2 := by
    have h1 := sin_sq_add_cos_sq (x 1)
    have h2 := sin_sq_add_cos_sq (x 2)
    simp only [toCart, Matrix.cons_val_zero, Matrix.cons_val_one, Matrix.cons_val]
    linear_combination x 0 ^ 2 * sin (x 1) ^ 2 * h2 + x 0 ^ 2 * h1
  rw [e, sqrt_sq h.le]

theorem toCart_theta {x : Vec} (h : 0 < x 0) (h0 : 0 ≤ x 1) (h1 : x 1 ≤ π) : arccos (toCart x 2 / x 0) = x 1 := by
  have : toCart x 2 / x 0 = cos (x 1) := by
    simp only [toCart, Matrix.cons_val]
    field_simp
  rw [this, arccos_cos h0 h1]

/-- What `TOVola_interp` sets at a point off the axis. -/
theorem interp_eq (v : ℝ → Values) {x : Vec} (h : 0 < x 0) (h0 : 0 ≤ x 1) (h1 : x 1 ≤ π) : interp v (toCart x) =
    { alpha := √(v (x 0)).expnu
      betaU := fun _ => 0
      BU := fun _ => 0
      gammaDD := fun i j => rad (fun t => (v t).exp4phi) i j x
      KDD := fun _ _ => 0
      T4UU := ![![(v (x 0)).rho_energy / (v (x 0)).expnu, 0, 0, 0], ![0, (v (x 0)).P / (v (x 0)).exp4phi, 0, 0],
        ![0, 0, (v (x 0)).P / ((v (x 0)).exp4phi * x 0 * x 0), 0],
        ![0, 0, 0, (v (x 0)).P / ((v (x 0)).exp4phi * x 0 * x 0 * sin (x 1) * sin (x 1))]] } := by
  simp only [interp, toCart_norm h, toCart_theta h h0 h1]
  rfl

/-- From a profile to the data. -/
theorem star_of_profile {V : Set ℝ} (hV : IsOpen V) {s m p ρ f : ℝ → ℝ} (h : Profile V s m p ρ f) {v : ℝ → Values}
    (hv : ∀ t ∈ V, v t = ⟨ρ t, p t, f t ^ 2, s t / t * (s t / t)⟩) (hf : ∀ t ∈ V, 0 < f t) {x : Vec} (hx : x 0 ∈ V) (h0 : 0 < x 1) (h1 : x 1 < π) :
    StaticStar v x := by
  let Ω : Dom := ⟨{y | y 0 ∈ V ∧ y 1 ∈ Ioo 0 π}, (hV.preimage (continuous_apply 0)).inter (isOpen_Ioo.preimage (continuous_apply 1))⟩
  have hi : ∀ y ∈ Ω, interp v (toCart y) = _ := fun y hy => interp_eq v (h.pos _ hy.1) hy.2.1.le hy.2.2.le
  refine static_solution h (Ω := Ω) (fun y hy => ⟨hy.1, (sin_pos_of_mem_Ioo hy.2).ne'⟩) (fun y hy i j => ?_) (fun i j y => rfl) (fun y hy => ?_)
    (fun i y => rfl) (fun y hy μ ν => ?_) ⟨hx, h0, h1⟩
  · rw [hi y hy]
    simp only [rad, hv _ hy.1]
  · show (interp v (toCart y)).alpha = _
    rw [hi y hy]
    simp only [hv _ hy.1]
    exact sqrt_sq (hf _ hy.1).le
  · show (interp v (toCart y)).T4UU μ ν = _
    rw [hi y hy]
    simp only [hv _ hy.1]

/-! ## Inside the star -/

theorem normalize_pos {R m r : ℝ} (hR : 0 < R) (hm : 2 * m < R) (hr : 0 < r) : 0 < normalize R m r := by
  unfold normalize
  have := sqrt_nonneg (R * (R - 2 * m))
  refine div_pos (mul_pos (by norm_num) ?_) hr
  linarith

/-- The inverse of a function with a positive derivative on an open interval. -/
theorem inverse_on {a b : ℝ} {F F' : ℝ → ℝ} (hF : ∀ r ∈ Ioo a b, HasDerivAt F (F' r) r) (hp : ∀ r ∈ Ioo a b, 0 < F' r) :
    ∃ G : ℝ → ℝ, IsOpen (F '' Ioo a b) ∧ (∀ r ∈ Ioo a b, G (F r) = r) ∧ ∀ r ∈ Ioo a b, HasDerivAt G (F' r)⁻¹ (F r) := by
  have hcont : ContinuousOn F (Ioo a b) := fun r hr => (hF r hr).continuousAt.continuousWithinAt
  have hmono : StrictMonoOn F (Ioo a b) := by
    refine strictMonoOn_of_deriv_pos (convex_Ioo a b) hcont fun r hr => ?_
    rw [interior_Ioo] at hr
    rw [(hF r hr).deriv]
    exact hp r hr
  have hopen : IsOpen (F '' Ioo a b) := by
    rw [isOpen_iff_mem_nhds]
    rintro _ ⟨r, hr, rfl⟩
    obtain ⟨c, hc1, hc2⟩ := exists_between hr.1
    obtain ⟨d, hd1, hd2⟩ := exists_between hr.2
    have hsub : Icc c d ⊆ Ioo a b := fun t ht => ⟨hc1.trans_le ht.1, ht.2.trans_lt hd2⟩
    have hcd : c ≤ d := hc2.le.trans hd1.le
    have hiv : Icc (F c) (F d) ⊆ F '' Icc c d := intermediate_value_Icc hcd (hcont.mono hsub)
    have h1 : F c < F r := hmono (hsub ⟨le_rfl, hcd⟩) hr hc2
    have h2 : F r < F d := hmono hr (hsub ⟨hcd, le_rfl⟩) hd1
    exact Filter.mem_of_superset (Icc_mem_nhds h1 h2) (hiv.trans (image_mono hsub))
  let G := Function.invFunOn F (Ioo a b)
  have hG : ∀ r ∈ Ioo a b, G (F r) = r := fun r hr => hmono.injOn.leftInvOn_invFunOn hr
  refine ⟨G, hopen, hG, fun r hr => ?_⟩
  have hGmono : StrictMonoOn G (F '' Ioo a b) := by
    rintro _ ⟨r1, h1, rfl⟩ _ ⟨r2, h2, rfl⟩ h
    rw [hG r1 h1, hG r2 h2]
    exact (hmono.lt_iff_lt h1 h2).1 h
  have himg : G '' (F '' Ioo a b) = Ioo a b := by
    rw [image_image]
    ext t
    constructor
    · rintro ⟨u, hu, rfl⟩
      show G (F u) ∈ _
      rwa [hG u hu]
    · exact fun ht => ⟨t, ht, hG t ht⟩
  have hGc : ContinuousAt G (F r) := by
    refine hGmono.continuousAt_of_image_mem_nhds (hopen.mem_nhds ⟨r, hr, rfl⟩) ?_
    rw [himg, hG r hr]
    exact Ioo_mem_nhds hr.1 hr.2
  refine HasDerivAt.of_local_left_inverse hGc (by rw [hG r hr]; exact hF r hr) (hp r hr).ne' ?_
  filter_upwards [hopen.mem_nhds ⟨r, hr, rfl⟩]
  rintro _ ⟨t, ht, rfl⟩
  rw [hG t ht]

/-- Between any two radii, a solution of the code's differential equations gives a static solution of Einstein's equations, whatever the
values at the surface that are used to normalize: `v` is any function that gives, at the isotropic radius of each point of the solution, its energy
density, pressure, `expnu` and `exp4phi`. -/
theorem C92_star (e : Eos) (a b : ℝ) (ha : 0 ≤ a) (y : ℝ → State) (hy : Solves e a b y) (hc : ∀ r ∈ Ioo a b, 2 * (y r).M < r)
    (hi : ∀ r ∈ Ioo a b, 0 < (y r).riso) (R : ℝ) (s : State) (hR : 0 < R) (hs : 2 * s.M < R) (hsi : 0 < s.riso) (v : ℝ → Values)
    (hv : ∀ r ∈ Ioo a b, v (normalized R s r (y r)).1 =
      ⟨energy e (y r).P, (y r).P, (normalized R s r (y r)).2.1, (normalized R s r (y r)).2.2⟩)
    (r : ℝ) (hr : r ∈ Ioo a b) (x : Vec) (hx : x 0 = (normalized R s r (y r)).1) (h0 : 0 < x 1) (h1 : x 1 < π) : StaticStar v x := by
  have hn := normalize_pos hR hs hsi
  set n := normalize R s.M s.riso with hndef
  have hr0 : ∀ r ∈ Ioo a b, 0 < r := fun r hr => ha.trans_lt hr.1
  have harg : ∀ r ∈ Ioo a b, 0 < 1 - 2 * (y r).M / r := fun r hr => by
    rw [sub_pos, div_lt_one (hr0 r hr)]; exact hc r hr
  have hq : ∀ r ∈ Ioo a b, 0 < √(1 - 2 * (y r).M / r) := fun r hr => sqrt_pos.2 (harg r hr)
  have hode : ∀ r ∈ Ioo a b, ode e r (y r) = ⟨dP_dr r (energy e (y r).P) (y r).P (y r).M, dnu_dr r (y r).P (y r).M, dM_dr r (energy e (y r).P),
      dr_iso_dr r (y r).riso (y r).M⟩ := fun r hr => by rw [ode, if_neg (hr0 r hr).ne']
  -- the isotropic radius as a function of the areal radius
  have hF : ∀ r ∈ Ioo a b, HasDerivAt (fun t => (y t).riso * n) ((y r).riso * n / (r * √(1 - 2 * (y r).M / r))) r := fun r hr => by
    refine ((hy.riso r hr).mul_const n).congr_deriv ?_
    rw [hode r hr]
    simp only [dr_iso_dr]
    ring
  have hFp : ∀ r ∈ Ioo a b, 0 < (y r).riso * n / (r * √(1 - 2 * (y r).M / r)) := fun r hr =>
    div_pos (mul_pos (hi r hr) hn) (mul_pos (hr0 r hr) (hq r hr))
  obtain ⟨G, hV, hG, hdG⟩ := inverse_on hF hFp
  set c := -s.nu + log (1 - 2 * s.M / R) with hcdef
  have hmem : x 0 ∈ (fun t => (y t).riso * n) '' Ioo a b := ⟨r, hr, by rw [hx]; rfl⟩
  refine star_of_profile hV (s := G) (m := fun t => (y (G t)).M) (p := fun t => (y (G t)).P) (ρ := fun t => energy e (y (G t)).P)
    (f := fun t => exp (((y (G t)).nu + c) / 2)) ?_ ?_ (fun t _ => exp_pos _) hmem h0 h1
  · refine ⟨?_, ?_, ?_, ?_, ?_, ?_, ?_, ?_⟩
    · rintro _ ⟨r, hr, rfl⟩
      exact mul_pos (hi r hr) hn
    · rintro _ ⟨r, hr, rfl⟩
      show 0 < G ((y r).riso * n)
      rw [hG r hr]
      exact hr0 r hr
    · rintro _ ⟨r, hr, rfl⟩
      simp only [hG r hr]
      exact hc r hr
    · exact fun t _ => (exp_pos _).ne'
    · rintro _ ⟨r, hr, rfl⟩
      refine (hdG r hr).congr_deriv ?_
      simp only [hG r hr, inv_div]
    · rintro _ ⟨r, hr, rfl⟩
      have hGr := hG r hr
      have d := HasDerivAt.comp ((y r).riso * n) (h₂ := fun t => (y t).M) (by rw [hGr]; exact hy.M r hr) (hdG r hr)
      refine d.congr_deriv ?_
      simp only [hGr, hode r hr, dM_dr, inv_div]
      ring
    · rintro _ ⟨r, hr, rfl⟩
      have hGr := hG r hr
      have d := HasDerivAt.comp ((y r).riso * n) (h₂ := fun t => (y t).P) (by rw [hGr]; exact hy.P r hr) (hdG r hr)
      refine d.congr_deriv ?_
      have e1 := sq_sqrt (harg r hr).le
      have e2 := (hq r hr).ne'
      have e3 := (hr0 r hr).ne'
      have e4 := (hi r hr).ne'
      have e5 := hn.ne'
      simp only [hGr, hode r hr, dP_dr, inv_div]
      generalize √(1 - 2 * (y r).M / r) = q at e1 e2 ⊢
      rw [← e1]
      field_simp
      ring
    · rintro _ ⟨r, hr, rfl⟩
      have hGr := hG r hr
      have d := HasDerivAt.comp ((y r).riso * n) (h₂ := fun t => (y t).nu) (by rw [hGr]; exact hy.nu r hr) (hdG r hr)
      refine ((d.add_const c).div_const 2).exp.congr_deriv ?_
      have e1 := sq_sqrt (harg r hr).le
      have e2 := (hq r hr).ne'
      have e3 := (hr0 r hr).ne'
      have e4 := (hi r hr).ne'
      have e5 := hn.ne'
      simp only [hGr, hode r hr, dnu_dr, inv_div, Function.comp]
      generalize √(1 - 2 * (y r).M / r) = q at e1 e2 ⊢
      rw [← e1]
      field_simp
      ring
  · rintro _ ⟨r, hr, rfl⟩
    have hvr := hv r hr
    simp only [normalized, ← hndef] at hvr
    simp only [hG r hr]
    rw [hvr, ← exp_nat_mul]
    congr 2
    rw [hcdef]
    push_cast
    ring

/-! ## Outside the star -/

/-- Outside the star the code's data are exactly a static solution of the vacuum equations, of mass `M`. -/
theorem C92_exterior (M rmax : ℝ) (hM : 0 ≤ M) (hmax : M < 2 * rmax) (v : ℝ → Values) (hv : ∀ t, rmax ≤ t → v t = exterior M t) (x : Vec)
    (hx : rmax < x 0) (h0 : 0 < x 1) (h1 : x 1 < π) : StaticStar v x ∧ ∀ μ ν, (interp v (toCart x)).T4UU μ ν = 0 := by
  have hr : ∀ t ∈ Ioi rmax, 0 < t ∧ M < 2 * t := fun t ht => by
    have : rmax < t := ht
    constructor <;> linarith
  have hs : ∀ t ∈ Ioi rmax, t + M + M * M / (4 * t) = (t + M / 2) ^ 2 / t := fun t ht => by
    have := (hr t ht).1.ne'
    field_simp
    ring
  have hsp : ∀ t ∈ Ioi rmax, 0 < (t + M / 2) ^ 2 / t := fun t ht => by
    have := (hr t ht).1
    positivity
  have harg : ∀ t ∈ Ioi rmax, 1 - 2 * M / (t + M + M * M / (4 * t)) = ((t - M / 2) / (t + M / 2)) ^ 2 := fun t ht => by
    have h := (hr t ht).1
    have h2 : t + M / 2 ≠ 0 := by positivity
    rw [hs t ht]
    field_simp
    ring
  have hqp : ∀ t ∈ Ioi rmax, 0 < (t - M / 2) / (t + M / 2) := fun t ht => by
    have h := hr t ht
    exact div_pos (by linarith) (by linarith)
  have hq : ∀ t ∈ Ioi rmax, √(1 - 2 * M / (t + M + M * M / (4 * t))) = (t - M / 2) / (t + M / 2) := fun t ht => by
    rw [harg t ht, sqrt_sq (hqp t ht).le]
  have hprof : Profile (Ioi rmax) (fun t => t + M + M * M / (4 * t)) (fun _ => M) (fun _ => 0) (fun _ => 0)
      (fun t => (t - M / 2) / (t + M / 2)) := by
    refine ⟨fun t ht => (hr t ht).1, fun t ht => ?_, fun t ht => ?_, fun t ht => (hqp t ht).ne', fun t ht => ?_, fun t ht => ?_, fun t ht => ?_,
      fun t ht => ?_⟩
    · show 0 < t + M + M * M / (4 * t)
      rw [hs t ht]; exact hsp t ht
    · have h : 0 < 1 - 2 * M / (t + M + M * M / (4 * t)) := by rw [harg t ht]; exact pow_pos (hqp t ht) 2
      rw [sub_pos, div_lt_one (by rw [hs t ht]; exact hsp t ht)] at h
      exact h
    · show HasDerivAt (fun t => t + M + M * M / (4 * t)) ((t + M + M * M / (4 * t)) * √(1 - 2 * M / (t + M + M * M / (4 * t))) / t) t
      rw [hq t ht]
      have ht0 := (hr t ht).1.ne'
      have h2 : t + M / 2 ≠ 0 := by have := (hr t ht).1; positivity
      refine (((hasDerivAt_id t).add_const M).add ((hasDerivAt_const t (M * M)).div ((hasDerivAt_id t).const_mul 4) (by simpa using ht0))).congr_deriv ?_
      rw [hs t ht]
      simp only [id]
      field_simp
      ring
    · exact (hasDerivAt_const t M).congr_deriv (by ring)
    · exact (hasDerivAt_const t (0 : ℝ)).congr_deriv (by simp)
    · show HasDerivAt (fun t => (t - M / 2) / (t + M / 2)) ((t - M / 2) / (t + M / 2) * (M / (t + M + M * M / (4 * t)) +
        4 * π * (t + M + M * M / (4 * t)) ^ 2 * 0) / (t * √(1 - 2 * M / (t + M + M * M / (4 * t))))) t
      rw [hq t ht, hs t ht]
      have ht0 := (hr t ht).1.ne'
      have h2 : t + M / 2 ≠ 0 := by have := (hr t ht).1; positivity
      have h3 : t - M / 2 ≠ 0 := by have := (hr t ht).2; intro h; linarith
      refine (((hasDerivAt_id t).sub_const (M / 2)).div ((hasDerivAt_id t).add_const (M / 2)) h2).congr_deriv ?_
      simp only [id]
      have h4 : t + M / 2 - (t - M / 2) = M := by ring
      generalize t + M / 2 = u at h2 h4 ⊢
      generalize t - M / 2 = w at h3 h4 ⊢
      rw [mul_zero, add_zero, one_mul, mul_one, h4]
      field_simp
  refine ⟨star_of_profile isOpen_Ioi hprof (fun t ht => ?_) (fun t ht => hqp t ht) hx h0 h1, fun μ ν => ?_⟩
  · have ht0 := (hr t ht).1.ne'
    rw [hv t (le_of_lt ht), exterior, harg t ht]
    congr 1
    field_simp
  · rw [interp_eq v (hr _ hx).1 h0.le h1.le, hv _ hx.le]
    simp only [exterior, zero_div]
    fin_cases μ <;> fin_cases ν <;> rfl

/-! ## The surface -/

/-- The normalization makes the interior and the exterior agree at the surface: areal radius, `expnu` and `exp4phi`. -/
theorem C92_surface (R : ℝ) (s : State) (hR : 0 < R) (hs : 2 * s.M < R) (hi : s.riso ≠ 0) :
    let n := normalized R s R s
    0 < n.1 ∧ n.1 + s.M + s.M * s.M / (4 * n.1) = R ∧ n.2.1 = (exterior s.M n.1).expnu ∧ n.2.2 = (exterior s.M n.1).exp4phi := by
  have hq : 0 ≤ R * (R - 2 * s.M) := mul_nonneg hR.le (by linarith)
  have hsq := sq_sqrt hq
  have hnn := sqrt_nonneg (R * (R - 2 * s.M))
  have e1 : (normalized R s R s).1 = (√(R * (R - 2 * s.M)) + R - s.M) / 2 := by
    simp only [normalized, normalize]
    field_simp
    ring
  have hpos : 0 < √(R * (R - 2 * s.M)) + R - s.M := by linarith
  have e2 : (normalized R s R s).1 + s.M + s.M * s.M / (4 * (normalized R s R s).1) = R := by
    rw [e1]
    generalize √(R * (R - 2 * s.M)) = q at hsq hpos ⊢
    have := hpos.ne'
    field_simp
    linear_combination 4 * hsq
  have harg : 0 < 1 - 2 * s.M / R := by rw [sub_pos, div_lt_one hR]; exact hs
  refine ⟨by rw [e1]; linarith, e2, ?_, ?_⟩
  · simp only [exterior, e2]
    simp only [normalized, sub_self, zero_add, exp_log harg]
  · simp only [exterior, e2]
    simp only [normalized, div_mul_div_comm]

/-! ## The equation of state -/

section
variable (e : Eos) (hK : 0 < e.K) (hG : 1 < e.Gamma)
include hK hG

omit hG in
theorem baryon_pos {P : ℝ} (hP : 0 < P) : 0 < (densities e P).1 := rpow_pos_of_pos (div_pos hP hK) _

/-- Density and pressure determine each other, and the energy density is the rest mass plus the internal energy. -/
theorem C92_eos (P : ℝ) (hP : 0 < P) : let ρ := (densities e P).1
    0 < ρ ∧ (cold e ρ).1 = P ∧ energy e P = ρ + P / (e.Gamma - 1) := by
  have hρ := baryon_pos e hK hP
  have h1 : (cold e (densities e P).1).1 = P := by
    simp only [cold, densities]
    rw [← rpow_mul (div_pos hP hK).le, one_div, inv_mul_cancel₀ (by linarith : e.Gamma ≠ 0), rpow_one]
    field_simp
  refine ⟨hρ, h1, ?_⟩
  have h2 : (cold e (densities e P).1).2 = P / ((e.Gamma - 1) * (densities e P).1) := by
    simp only [cold]
    rw [show e.K * (densities e P).1 ^ e.Gamma = P from h1]
  have h3 : energy e P = (densities e P).1 * (1 + (cold e (densities e P).1).2) := by
    simp only [energy, densities, if_pos hP]; rfl
  have hg : e.Gamma - 1 ≠ 0 := by linarith
  rw [h3, h2]
  have := hρ.ne'
  field_simp

/-- The fluid is barotropic and its entropy is constant: the energy density changes with the baryon density by the specific enthalpy,
`dε/dρ = (ε + P)/ρ`. -/
theorem C92_first_law (P : ℝ) (hP : 0 < P) : let ρ := (densities e P).1
    HasDerivAt (fun t => energy e (cold e t).1) ((energy e P + P) / ρ) ρ := by
  intro ρ
  obtain ⟨hρ, h1, h2⟩ := C92_eos e hK hG P hP
  have hg : e.Gamma - 1 ≠ 0 := by linarith
  have hloc : (fun t => energy e (cold e t).1) =ᶠ[nhds ρ] fun t => t + e.K * t ^ e.Gamma / (e.Gamma - 1) := by
    filter_upwards [lt_mem_nhds hρ] with t ht
    have hp : 0 < (cold e t).1 := mul_pos hK (rpow_pos_of_pos ht _)
    obtain ⟨_, _, h3⟩ := C92_eos e hK hG _ hp
    rw [h3]
    have : (densities e (cold e t).1).1 = t := by
      simp only [densities, cold]
      rw [mul_div_cancel_left₀ _ hK.ne', ← rpow_mul ht.le, mul_one_div, div_self (by linarith : e.Gamma ≠ 0), rpow_one]
    rw [this]
    rfl
  have d : HasDerivAt (fun t => t + e.K * t ^ e.Gamma / (e.Gamma - 1)) (1 + e.K * (e.Gamma * ρ ^ (e.Gamma - 1)) / (e.Gamma - 1)) ρ :=
    (hasDerivAt_id ρ).add (((hasDerivAt_rpow_const (Or.inl hρ.ne')).const_mul e.K).div_const (e.Gamma - 1))
  refine (d.congr_of_eventuallyEq hloc).congr_deriv ?_
  have h4 : e.K * ρ ^ (e.Gamma - 1) = P / ρ := by
    rw [rpow_sub_one hρ.ne', ← mul_div_assoc]
    exact congrArg (· / ρ) h1
  have h5 : e.K * (e.Gamma * ρ ^ (e.Gamma - 1)) = e.Gamma * (P / ρ) := by rw [← h4]; ring
  have h6 : ρ ≠ 0 := hρ.ne'
  have h7 : energy e P = ρ + P / (e.Gamma - 1) := h2
  rw [h5, h7]
  field_simp
  ring

/-- The initial densities are those of the equation of state at the initial pressure. -/
theorem C92_initial (ρc : ℝ) (hρ : 0 < ρc) : let (y, ρb, ρe) := initialCondition e ρc
    0 < y.P ∧ ρb = (densities e y.P).1 ∧ ρe = energy e y.P ∧ y.M = 0 ∧ y.riso = 0 := by
  have hp : 0 < e.K * ρc ^ e.Gamma := mul_pos hK (rpow_pos_of_pos hρ _)
  have h1 : (densities e (e.K * ρc ^ e.Gamma)).1 = ρc := by
    simp only [densities]
    rw [mul_div_cancel_left₀ _ hK.ne', ← rpow_mul hρ.le, mul_one_div, div_self (by linarith : e.Gamma ≠ 0), rpow_one]
  refine ⟨hp, h1.symm, ?_, rfl, rfl⟩
  show (e.K * ρc ^ e.Gamma / e.K) ^ (1 / e.Gamma) + e.K * ρc ^ e.Gamma / (e.Gamma - 1) = _
  rw [(C92_eos e hK hG _ hp).2.2]
  rfl

/-- Hydrostatic balance in integrated form: the specific enthalpy times the lapse is the same at all radii. -/
theorem C92_bernoulli (a b : ℝ) (ha : 0 ≤ a) (y : ℝ → State) (hy : Solves e a b y) (hc : ∀ r ∈ Ioo a b, 2 * (y r).M < r)
    (hP : ∀ r ∈ Ioo a b, 0 < (y r).P) (r₁ r₂ : ℝ) (h₁ : r₁ ∈ Ioo a b) (h₂ : r₂ ∈ Ioo a b) :
    (energy e (y r₁).P + (y r₁).P) / (densities e (y r₁).P).1 * exp ((y r₁).nu / 2) =
      (energy e (y r₂).P + (y r₂).P) / (densities e (y r₂).P).1 * exp ((y r₂).nu / 2) := by
  have hg : e.Gamma - 1 ≠ 0 := by linarith
  have hg0 : e.Gamma ≠ 0 := by linarith
  have hr0 : ∀ r ∈ Ioo a b, 0 < r := fun r hr => ha.trans_lt hr.1
  have hd : ∀ r ∈ Ioo a b, HasDerivAt (fun t => (energy e (y t).P + (y t).P) / (densities e (y t).P).1 * exp ((y t).nu / 2)) 0 r := by
    intro r hr
    have dP := hy.P r hr
    have dnu := hy.nu r hr
    rw [ode, if_neg (hr0 r hr).ne'] at dP dnu
    simp only at dP dnu
    have hPr := hP r hr
    obtain ⟨hρ, h1, h2⟩ := C92_eos e hK hG _ hPr
    set ρ := (densities e (y r).P).1 with hρdef
    -- the density along the solution
    have dρ : HasDerivAt (fun t => (densities e (y t).P).1) (ρ / (e.Gamma * (y r).P) * dP_dr r (energy e (y r).P) (y r).P (y r).M) r := by
      have := (dP.div_const e.K).rpow_const (p := 1 / e.Gamma) (Or.inl (div_pos hPr hK).ne')
      refine this.congr_deriv ?_
      rw [rpow_sub_one (div_pos hPr hK).ne', show ((y r).P / e.K) ^ (1 / e.Gamma) = ρ from rfl]
      have := hPr.ne'
      have := hK.ne'
      field_simp
    have hloc : (fun t => (energy e (y t).P + (y t).P) / (densities e (y t).P).1 * exp ((y t).nu / 2)) =ᶠ[nhds r]
        fun t => ((densities e (y t).P).1 + (y t).P / (e.Gamma - 1) + (y t).P) / (densities e (y t).P).1 * exp ((y t).nu / 2) := by
      filter_upwards [Ioo_mem_nhds hr.1 hr.2] with t ht
      rw [(C92_eos e hK hG _ (hP t ht)).2.2]
    have d := (((dρ.add (dP.div_const (e.Gamma - 1))).add dP).div dρ hρ.ne').mul ((dnu.div_const 2).exp)
    refine (d.congr_of_eventuallyEq hloc).congr_deriv ?_
    simp only [Pi.add_apply, Pi.div_apply]
    rw [← hρdef]
    have e1 : dP_dr r (energy e (y r).P) (y r).P (y r).M = -(ρ + (y r).P / (e.Gamma - 1) + (y r).P) * (dnu_dr r (y r).P (y r).M / 2) := by
      have h3 : r * (1 - 2 * (y r).M / r) ≠ 0 := by
        refine mul_ne_zero (hr0 r hr).ne' ?_
        have : 0 < 1 - 2 * (y r).M / r := by rw [sub_pos, div_lt_one (hr0 r hr)]; exact hc r hr
        exact this.ne'
      rw [dP_dr, dnu_dr, h2, show r * 2 * (1 - 2 * (y r).M / r) = 2 * (r * (1 - 2 * (y r).M / r)) by ring]
      field_simp
    rw [e1]
    have := hPr.ne'
    have := hρ.ne'
    field_simp
    ring
  have hconst := (convex_Ioo a b).is_const_of_fderivWithin_eq_zero (𝕜 := ℝ) (f := fun t => (energy e (y t).P + (y t).P) / (densities e (y t).P).1 * exp ((y t).nu / 2))
    (fun r hr => (hd r hr).differentiableAt.differentiableWithinAt) (fun r hr => by
      rw [fderivWithin_of_isOpen isOpen_Ioo hr, (hd r hr).hasFDerivAt.fderiv]
      ext
      simp) h₁ h₂
  exact hconst

end

end Verif.TOV
