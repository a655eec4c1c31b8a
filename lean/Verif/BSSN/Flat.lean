import Verif.BSSN.Fields

/-!
# The reference metrics are smooth and flat
-/
namespace Verif.BSSN
open Verif.RefMetric Verif.IndexedExp Real
open scoped ContDiff

theorem smooth_deriv {r : ℝ → ℝ} (hr : ContDiff ℝ ∞ r) : ContDiff ℝ ∞ (deriv r) := (contDiff_infty_iff_deriv.1 hr).2

theorem scale_sphericalLike {r : ℝ → ℝ} (hr : ContDiff ℝ ∞ r) (i : Fin 3) :
    ContDiff ℝ ∞ fun y : Vec => (![deriv r (y 0), r (y 0), r (y 0) * sin (y 1)] : Vec) i := by
  have h0 := hr.comp (smooth_coord (N := ∞) 0)
  have h1 := (smooth_deriv hr).comp (smooth_coord (N := ∞) 0)
  have s1 := contDiff_sin.comp (smooth_coord (N := ∞) 1)
  fin_cases i
  · exact h1
  · exact h0
  · exact h0.mul s1

theorem scale_cylindricalLike {r z : ℝ → ℝ} (hr : ContDiff ℝ ∞ r) (hz : ContDiff ℝ ∞ z) (i : Fin 3) :
    ContDiff ℝ ∞ fun y : Vec => (![deriv r (y 0), r (y 0), deriv z (y 2)] : Vec) i := by
  fin_cases i
  · exact (smooth_deriv hr).comp (smooth_coord (N := ∞) 0)
  · exact hr.comp (smooth_coord (N := ∞) 0)
  · exact (smooth_deriv hz).comp (smooth_coord (N := ∞) 2)

theorem scale_symTPLike {aa : ℝ → ℝ} (ha : ContDiff ℝ ∞ aa) {b : ℝ} (hb : b ≠ 0) (hi : Vec) (i : Fin 3) (x : Vec)
    (hx : (symTPLike aa b hi).scale x 1 ≠ 0) : ContDiffAt ℝ ∞ (fun y => (symTPLike aa b hi).scale y i) x := by
  have h0 := ha.comp (smooth_coord (N := ∞) 0)
  have h1 := (smooth_deriv ha).comp (smooth_coord (N := ∞) 0)
  have s1 := contDiff_sin.comp (smooth_coord (N := ∞) 1)
  have hu : aa (x 0) ^ 2 + (b * sin (x 1)) ^ 2 ≠ 0 := fun h => hx (by
    show √(aa (x 0) ^ 2 + (b * sin (x 1)) ^ 2) = 0
    rw [h, Real.sqrt_zero])
  have v1 : ContDiffAt ℝ ∞ (fun y : Vec => √(aa (y 0) ^ 2 + (b * sin (y 1)) ^ 2)) x :=
    (((h0.pow 2).add ((contDiff_const.mul s1).pow 2)).contDiffAt).sqrt hu
  have hpos : ∀ y : Vec, 0 < aa (y 0) ^ 2 + b ^ 2 := fun y => by
    have : 0 < b ^ 2 := by positivity
    positivity
  have v2 : ContDiff ℝ ∞ (fun y : Vec => √(aa (y 0) ^ 2 + b ^ 2)) :=
    ((h0.pow 2).add contDiff_const).sqrt fun y => (hpos y).ne'
  fin_cases i
  · exact (h1.contDiffAt.mul v1).div v2.contDiffAt (Real.sqrt_pos.2 (hpos x)).ne'
  · exact v1
  · exact (h0.mul s1).contDiffAt

/-- Where no scale factor vanishes, the scale factors of a supported coordinate system are smooth. -/
theorem scale_smooth {P : CoordParams} (hb : P.b ≠ 0) {name : Py.Str} {c : Coords} (h : choose P name = .sys c) (x : Vec)
    (hx : ∀ i, c.scale x i ≠ 0) (i : Fin 3) : ContDiffAt ℝ ∞ (fun y => c.scale y i) x := by
  have hsph : ∀ (r : ℝ → ℝ), ContDiff ℝ ∞ r → ∀ lo hi o, ContDiffAt ℝ ∞ (fun y => (sphericalLike r lo hi o).scale y i) x :=
    fun r hr lo hi o => (scale_sphericalLike hr i).contDiffAt
  cases known_of_choose h with
  | cartesian => exact contDiffAt_const
  | sinhCartesian => 
    fin_cases i <;> exact ((smooth_deriv (smooth_sinhv1 _ _)).comp (smooth_coord _)).contDiffAt
  | spherical => exact hsph _ contDiff_id _ _ _
  | sinhSpherical => exact hsph _ (smooth_sinhv1 _ _) _ _ _
  | holey => exact hsph _ (smooth_sinhv1 _ _) _ _ _
  | ringHoley => exact hsph _ (smooth_sinhv1 _ _) _ _ _
  | sphericalv2 => exact hsph _ (smooth_sinhv2 _ _ _ _) _ _ _
  | upper => exact (scale_sphericalLike (smooth_sinhv1 _ _) i).contDiffAt
  | lower => exact (scale_sphericalLike (smooth_sinhv1 _ _) i).contDiffAt
  | symTP => exact scale_symTPLike contDiff_id hb _ i x (hx 1)
  | sinhSymTP => exact scale_symTPLike (smooth_sinhv1 _ _) hb _ i x (hx 1)
  | cylindrical => exact (scale_cylindricalLike contDiff_id contDiff_id i).contDiffAt
  | sinhCylindrical => exact (scale_cylindricalLike (smooth_sinhv1 _ _) (smooth_sinhv1 _ _) i).contDiffAt
  | cylindricalv2 => exact (scale_cylindricalLike (smooth_sinhv2 _ _ _ _) (smooth_sinhv2 _ _ _ _) i).contDiffAt

/-- A supported coordinate system on an open set without coordinate singularities. -/
theorem isRfm_of_choose {P : CoordParams} (hb : P.b ≠ 0) {name : Py.Str} {c : Coords} (h : choose P name = .sys c) {Ω : Dom}
    (hΩ : ∀ x ∈ Ω, ∀ i, c.scale x i ≠ 0) : IsRfm Ω c.scale where
  smooth i := sm_of_at fun x hx => scale_smooth hb h x (hΩ x hx) i
  ne := hΩ

/-- The set of points without coordinate singularity is open. -/
def regular {P : CoordParams} (hb : P.b ≠ 0) {name : Py.Str} {c : Coords} (h : choose P name = .sys c) : Dom where
  carrier := {x | ∀ i, c.scale x i ≠ 0}
  is_open' := by
    rw [isOpen_iff_mem_nhds]
    intro x hx
    have : ∀ i, ∀ᶠ y in nhds x, c.scale y i ≠ 0 := fun i =>
      (scale_smooth hb h x hx i).continuousAt.eventually_ne (hx i)
    exact Filter.eventually_all.2 this

theorem riemann_hat {P : CoordParams} (hb : P.b ≠ 0) {name : Py.Str} {c : Coords} (h : choose P name = .sys c) {Ω : Dom}
    (hΩ : ∀ x ∈ Ω, ∀ i, c.scale x i ≠ 0) (hG : ∀ i j k, Sm Ω (GammahatUDD c.scale i j k)) {x : Vec} (hx : x ∈ Ω)
    (i j k l : Fin 3) : riemannOf (GammahatUDD c.scale) i j k l x = 0 := by
  set X : Fin 3 → Scal := fun a y => c.toCart y a with hXd
  have hX : ∀ a, Sm Ω (X a) := fun a => (smooth_toCart hb h a).contDiffOn
  have e1 : ∀ y ∈ Ω, ∀ k l a, ∑ i, GammahatUDD c.scale i k l y * pd i (X a) y = pd k (pd l (X a)) y :=
    fun y hy k l a => C63_flat hb h y (hΩ y hy) k l a
  -- derivative of the flatness equation
  have e2 : ∀ m k l a, ∑ i, (pd m (GammahatUDD c.scale i k l) x + ∑ n, GammahatUDD c.scale i m n x * GammahatUDD c.scale n k l x) *
      pd i (X a) x = pd m (pd k (pd l (X a))) x := fun m k l a => by
    rw [← pd_congr_on (fun y hy => e1 y hy k l a) hx m, dpd_dot hx m (fun i => hG i k l) (fun i => (hX a).pd i)]
    simp only [← e1 x hx m]
    simp only [Fin.sum_univ_three]
    ring
  have e3 : ∀ a, ∑ i, riemannOf (GammahatUDD c.scale) i j k l x * pd i (X a) x = 0 := fun a => by
    have h1 := e2 k l j a
    have h2 := e2 l k j a
    rw [dpd_comm hx k ((hX a).pd j) l] at h1
    rw [← h2] at h1
    simp only [riemannOf, Fin.sum_univ_three] at h1 ⊢
    linear_combination h1
  -- the derivatives of the Cartesian coordinates are linearly independent
  let E : Matrix (Fin 3) (Fin 3) ℝ := Matrix.of fun i b => pd i (X b) x
  let G : Matrix (Fin 3) (Fin 3) ℝ := Matrix.of fun i j => RefMetric.ghatDD c.scale i j x
  have hGE : G = E * E.transpose := by
    ext i j
    rw [Matrix.mul_apply]
    exact C60_flat hb h x i j
  have hGdet : G.det ≠ 0 := by
    have := (C63_inverse c.scale x (hΩ x hx)).2
    rw [show G.det = detgammahat c.scale x from this.1.symm]
    exact this.2.1.ne'
  have hE : IsUnit E.det := by
    rw [hGE, Matrix.det_mul] at hGdet
    exact isUnit_iff_ne_zero.2 (left_ne_zero_of_mul hGdet)
  let r : Fin 3 → ℝ := fun i => riemannOf (GammahatUDD c.scale) i j k l x
  have e4 : Matrix.vecMul r E = 0 := by
    funext a
    exact e3 a
  have e5 : r = 0 := by
    have := congrArg (fun v => Matrix.vecMul v E⁻¹) e4
    simpa [Matrix.vecMul_vecMul, Matrix.mul_nonsing_inv _ hE] using this
  exact congrFun e5 i

end Verif.BSSN
