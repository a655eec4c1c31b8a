import Verif.RefMetric.CoordsProps
import Verif.RefMetric.Hatted
import Verif.CFunction.Props
import Mathlib.Analysis.Real.Pi.Bounds
import Mathlib.Analysis.SpecialFunctions.Trigonometric.Deriv
import Mathlib.Analysis.SpecialFunctions.ExpDeriv
import Mathlib.LinearAlgebra.Matrix.Determinant.Basic

/-!
# Properties of the coordinate systems (C59 to C62)
-/
namespace Verif.RefMetric
open Verif.Py Real

/-! ### The systems a name can stand for -/

/-- All systems, with the names they go by. -/
inductive Known (P : CoordParams) : Str → Coords → Prop
  | cartesian : Known P (c% "Cartesian") (cartesian P.lo P.hi)
  | sinhCartesian : Known P (c% "SinhCartesian") (sinhCartesian P.ampl P.w)
  | spherical : Known P (c% "Spherical") (spherical P.rmax)
  | sinhSpherical (name : Str) : (c% "SinhSpherical") <:+ name → ¬ (c% "HoleySinhSpherical") <:+: name →
      ¬ (c% "Cartesian") <:+: name → Known P name (sinhSpherical P.ampl P.w)
  | holey : Known P (c% "HoleySinhSpherical") (holeySinhSpherical P.ampl P.w P.rmin)
  | ringHoley : Known P (c% "RingHoleySinhSpherical") (ringHoleySinhSpherical P.ampl P.w P.rmin)
  | sphericalv2 (name : Str) (n : ℕ) : (c% "SinhSphericalv2n") <+: name → powerN name = some n →
      Known P name (sinhSphericalv2 n P.ampl P.w P.slope)
  | upper : Known P (c% "UWedgeHSinhSph") (upperWedge P.ampl P.w P.rmin)
  | lower : Known P (c% "LWedgeHSinhSph") (lowerWedge P.ampl P.w P.rmin)
  | symTP : Known P (c% "SymTP") (symTP P.amax P.b)
  | sinhSymTP : Known P (c% "SinhSymTP") (sinhSymTP P.amax P.waa P.b)
  | cylindrical : Known P (c% "Cylindrical") (cylindrical P.rhomax P.zmin P.zmax)
  | sinhCylindrical : Known P (c% "SinhCylindrical") (sinhCylindrical P.ampl P.w P.amplz P.wz)
  | cylindricalv2 (name : Str) (n : ℕ) : (c% "SinhCylindricalv2") <+: name → powerN name = some n →
      Known P name (sinhCylindricalv2 n P.ampl P.w P.slope P.amplz P.wz P.slopez)

theorem known_of_choose {P : CoordParams} {name : Str} {c : Coords} (h : choose P name = .sys c) : Known P name c := by
  unfold choose at h
  split at h
  · unfold cartesianChoice at h
    split at h
    · next e => subst e; cases h; exact .cartesian
    split at h
    · next e => subst e; cases h; exact .sinhCartesian
    cases h
  next hc =>
  split at h
  · unfold sphericalChoice at h
    split at h
    · next e => subst e; cases h; exact .spherical
    split at h
    · next hs =>
      split at h
      · split at h
        · next e => subst e; cases h; exact .holey
        split at h
        · next e => subst e; cases h; exact .ringHoley
        cases h
      · next hh =>
        cases h
        exact .sinhSpherical name (List.isSuffixOf_iff_suffix.1 hs) (by simpa [CFunction.containsSub_iff] using hh)
          (by simpa [CFunction.containsSub_iff] using hc)
    split at h
    · next hp =>
      split at h
      · next n hn => cases h; exact .sphericalv2 name n (List.isPrefixOf_iff_prefix.1 hp) hn
      · cases h
    cases h
  split at h
  · unfold wedgeChoice at h
    split at h
    · next e => subst e; cases h; exact .upper
    split at h
    · next e => subst e; cases h; exact .lower
    cases h
  split at h
  · unfold symTPChoice at h
    split at h
    · next e => subst e; cases h; exact .symTP
    split at h
    · next e => subst e; cases h; exact .sinhSymTP
    cases h
  split at h
  · unfold cylindricalChoice at h
    split at h
    · next e => subst e; cases h; exact .cylindrical
    split at h
    · next e => subst e; cases h; exact .sinhCylindrical
    split at h
    · next hp =>
      split at h
      · next n hn => cases h; exact .cylindricalv2 name n (List.isPrefixOf_iff_prefix.1 hp) hn
      · cases h
    cases h
  cases h

/-! ### C59: round trips -/

/-- `Cart_to_xx` and `xx_to_Cart` are inverse to each other.  Missing from the full statement: `SinhSymTP`, for which it
is false (below), and the `v2n` systems, which have no `Cart_to_xx`. -/
theorem C59_round_trip_partial {P : CoordParams} (hP : ValidParams P) {name : Str} {c : Coords}
    (h : choose P name = .sys c) (hn : name ≠ (c% "SinhSymTP")) {g : Vec → Vec} (hg : c.ofCart = some g) :
    IsInverse c g := by
  have hA := hP.ampl
  have hw := hP.w
  have hm := arsinh_min_nonneg hP.ampl hP.w hP.rmin
  have hπ := pi_pos
  cases known_of_choose h with
  | cartesian => cases hg; exact inverse_cartesian _ _
  | sinhCartesian => cases hg; exact inverse_sinhCartesian hA hw
  | spherical =>
    cases hg
    exact inverse_sphericalLike (s := fun t => t) (fun t ht => ht) (fun _ => rfl) (fun _ => rfl) (by simp) (by simp)
      (by simp) (by simp) _
  | sinhSpherical =>
    cases hg
    exact inverse_sphericalLike (s := fun t => P.w * arsinh (t * sinh (1 / P.w) / P.ampl))
      (fun t ht => sinhv1_pos hA hw ht) (fun _ => arsinh_sinhv1 hA hw) (fun _ => sinhv1_arsinh hA hw) (by simp)
      (by simp) (by simp) (by simp) _
  | holey =>
    cases hg
    exact inverse_sphericalLike (s := fun t => P.w * arsinh (t * sinh (1 / P.w) / P.ampl))
      (fun t ht => sinhv1_pos hA hw (lt_of_le_of_lt hm ht)) (fun _ => arsinh_sinhv1 hA hw)
      (fun _ => sinhv1_arsinh hA hw) (by simp) (by simp) (by simp) (by simp) _
  | ringHoley =>
    cases hg
    exact inverse_sphericalLike (s := fun t => P.w * arsinh (t * sinh (1 / P.w) / P.ampl))
      (fun t ht => sinhv1_pos hA hw (lt_of_le_of_lt hm ht)) (fun _ => arsinh_sinhv1 hA hw)
      (fun _ => sinhv1_arsinh hA hw) (by simp; positivity) (by simp; linarith) (by simp) (by simp) _
  | sphericalv2 => cases hg
  | upper => cases hg; exact inverse_upperWedge hA hw hP.rmin
  | lower => cases hg; exact inverse_lowerWedge hA hw hP.rmin
  | symTP =>
    cases hg
    refine ⟨fun x hx => ?_, fun p hp => symTP_ofCart hP.b hp⟩
    have k0 : 0 < x 0 := (hx 0).1
    have k1 : 0 < x 1 := (hx 1).1
    have k1' : x 1 < π := (hx 1).2
    have k2 : -π < x 2 := (hx 2).1
    have k2' : x 2 < π := (hx 2).2
    show ofCartSymTP P.b ((symTPLike (fun t => t) P.b _).toCart x) = x
    rw [ofCartSymTP_toCart hP.b k0 k1 k1' k2 k2'.le]
    exact vec3_ext rfl rfl rfl
  | sinhSymTP => exact absurd rfl hn
  | cylindrical =>
    cases hg
    exact inverse_cylindricalLike (s := fun t => t) (t := fun t => t) (fun t ht => ht) (fun _ => rfl) (fun _ => rfl)
      (fun _ => rfl) (fun _ => rfl) (by simp) (by simp) _
  | sinhCylindrical =>
    cases hg
    exact inverse_cylindricalLike (s := fun t => P.w * arsinh (t * sinh (1 / P.w) / P.ampl))
      (t := fun t => P.wz * arsinh (t * sinh (1 / P.wz) / P.amplz)) (fun t ht => sinhv1_pos hA hw ht)
      (fun _ => arsinh_sinhv1 hA hw) (fun _ => sinhv1_arsinh hA hw) (fun _ => arsinh_sinhv1 hP.amplz hP.wz)
      (fun _ => sinhv1_arsinh hP.amplz hP.wz) (by simp) (by simp) _
  | cylindricalv2 => cases hg

/-- The names for which the round trip is proved do give a system with both maps. -/
theorem C59_available (P : CoordParams) : ∀ name ∈ [(c% "Cartesian"), (c% "SinhCartesian"), (c% "Spherical"),
      (c% "SinhSpherical"), (c% "HoleySinhSpherical"), (c% "RingHoleySinhSpherical"), (c% "UWedgeHSinhSph"),
      (c% "LWedgeHSinhSph"), (c% "SymTP"), (c% "SinhSymTP"), (c% "Cylindrical"), (c% "SinhCylindrical")],
    ∃ c g, choose P name = .sys c ∧ c.ofCart = some g := by
  intro name h
  simp only [List.mem_cons, List.not_mem_nil, or_false] at h
  rcases h with h | h | h | h | h | h | h | h | h | h | h | h <;> subst h
  · exact ⟨_, _, rfl, rfl⟩
  · exact ⟨_, _, rfl, rfl⟩
  · exact ⟨_, _, rfl, rfl⟩
  · exact ⟨_, _, rfl, rfl⟩
  · exact ⟨_, _, rfl, rfl⟩
  · exact ⟨_, _, rfl, rfl⟩
  · exact ⟨_, _, rfl, rfl⟩
  · exact ⟨_, _, rfl, rfl⟩
  · exact ⟨_, _, rfl, rfl⟩
  · exact ⟨_, _, rfl, rfl⟩
  · exact ⟨_, _, rfl, rfl⟩
  · exact ⟨_, _, rfl, rfl⟩

/-- `SinhSymTP`: on the whole domain `Cart_to_xx[0]` gives the value of `AA`, not `xx0`. -/
theorem C59_sinhSymTP {P : CoordParams} (hP : ValidParams P) {x : Vec}
    (hx : InDomain (sinhSymTP P.amax P.waa P.b) x) :
    ofCartSymTP P.b ((sinhSymTP P.amax P.waa P.b).toCart x) = ![sinhv1 (x 0) P.amax P.waa, x 1, x 2] :=
  ofCartSymTP_toCart (aa := fun t => sinhv1 t P.amax P.waa) hP.b (sinhv1_pos hP.amax hP.waa (hx 0).1) (hx 1).1 (hx 1).2
    (hx 2).1 (hx 2).2.le

/-- Parameters like the defaults of the code. -/
noncomputable def demo : CoordParams where
  lo := ![-10, -10, -10]
  hi := ![10, 10, 10]
  rmax := 10
  ampl := 10
  w := 1 / 5
  rmin := 1
  slope := 1
  amax := 10
  b := 1 / 2
  waa := 1 / 5
  rhomax := 10
  zmin := -10
  zmax := 10
  amplz := 10
  wz := 1 / 5
  slopez := 1

theorem demo_valid : ValidParams demo := by
  constructor <;> norm_num [demo]

/-- At the outer boundary the radial coordinate is 1 and `Cart_to_xx` makes it `AMAX`; just inside it cannot be `xx0`
either. -/
theorem C59_sinhSymTP_violation : ∃ x : Vec, InDomain (sinhSymTP demo.amax demo.waa demo.b) x ∧
    ofCartSymTP demo.b ((sinhSymTP demo.amax demo.waa demo.b).toCart x) ≠ x := by
  by_contra hall
  push Not at hall
  -- otherwise `sinhv1` would be the identity on (0,1), and by continuity at 1, where it is 10
  have hid : ∀ t : ℝ, 0 < t → t < 1 → sinhv1 t 10 (1 / 5) = t := by
    intro t h0 h1
    have hd : InDomain (sinhSymTP demo.amax demo.waa demo.b) ![t, 1, 0] := by
      have := pi_gt_three
      intro i
      fin_cases i <;> simp [sinhSymTP, symTPLike, h0, h1] <;> linarith
    have := hall _ hd
    rw [C59_sinhSymTP demo_valid hd] at this
    simpa [demo] using congrFun this 0
  have hcont : Continuous fun t => sinhv1 t 10 (1 / 5) := (differentiable_sinhv1 10 (1 / 5)).continuous
  have hset : IsClosed {t : ℝ | sinhv1 t 10 (1 / 5) = t} := isClosed_eq hcont continuous_id
  have hsub : Set.Ioo (0 : ℝ) 1 ⊆ {t | sinhv1 t 10 (1 / 5) = t} := fun t ht => hid t ht.1 ht.2
  have h1 : (1 : ℝ) ∈ closure (Set.Ioo (0 : ℝ) 1) := by
    rw [closure_Ioo (by norm_num)]; simp
  have hmem : sinhv1 1 10 (1 / 5) = 1 := hset.closure_subset_iff.2 hsub h1
  have hne : exp (1 / (1 / 5 : ℝ)) - exp (-1 / (1 / 5)) ≠ 0 := by
    have : exp (-1 / (1 / 5 : ℝ)) < exp (1 / (1 / 5)) := exp_lt_exp.2 (by norm_num)
    linarith
  rw [sinhv1, mul_div_assoc, div_self hne] at hmem
  norm_num at hmem

/-- The hypotheses of C59 are met. -/
example : ∃ c g x, choose demo (c% "SinhSpherical") = .sys c ∧ c.ofCart = some g ∧ InDomain c x := by
  refine ⟨_, _, ![1 / 2, 1, 0], rfl, rfl, ?_⟩
  have := pi_gt_three
  intro i
  fin_cases i <;> simp [sinhSpherical, sphericalLike] <;> norm_num <;> linarith

/-! ### C60: the scale factors and unit vectors belong to the coordinate map -/

/-- At the point `x`: the `j`-th coordinate vector of the map to Cartesian coordinates is the `j`-th scale factor times
the `j`-th unit vector; the unit vectors are orthonormal and right-handed; the diagonal reference metric built from the
scale factors is the flat metric in these coordinates; the named functions give the same scale factors. -/
structure IsBasis (c : Coords) (x : Vec) : Prop where
  deriv : ∀ i j, HasDerivAt (fun t => c.toCart (Function.update x j t) i) (c.scale x j * c.unit x j i) (x j)
  orthonormal : ∀ i j, ∑ k, c.unit x i k * c.unit x j k = if i = j then 1 else 0
  right_handed : Matrix.det (Matrix.of (c.unit x)) = 1
  named : c.scaleFunc x = c.scale x

/-- The flat metric in the coordinates of `c`: sums of products of derivatives of the Cartesian coordinates. -/
noncomputable def flatMetric (c : Coords) (i j : Fin 3) : Vec → ℝ := fun x =>
  ∑ a, pd i (fun y => c.toCart y a) x * pd j (fun y => c.toCart y a) x

theorem flatMetric_eq {c : Coords} {x : Vec} (h : IsBasis c x) (i j : Fin 3) :
    ghatDD c.scale i j x = flatMetric c i j x := by
  have e := h.orthonormal i j
  unfold ghatDD flatMetric pd
  simp only [(h.deriv _ _).deriv]
  have : ∑ k, c.scale x i * c.unit x i k * (c.scale x j * c.unit x j k)
      = c.scale x i * c.scale x j * ∑ k, c.unit x i k * c.unit x j k := by
    rw [Finset.mul_sum]; exact Finset.sum_congr rfl fun k _ => by ring
  rw [this, e]
  split
  · next h => subst h; ring
  · ring

theorem basis_sphericalLike {r : ℝ → ℝ} (hr : Differentiable ℝ r) (lo hi : Vec) (o : Option (Vec → Vec)) (x : Vec) :
    IsBasis (sphericalLike r lo hi o) x := by
  have s1 := sin_sq_add_cos_sq (x 1)
  have s2 := sin_sq_add_cos_sq (x 2)
  have dr := (hr (x 0)).hasDerivAt
  have ds1 := hasDerivAt_sin (x 1)
  have dc1 := hasDerivAt_cos (x 1)
  have ds2 := hasDerivAt_sin (x 2)
  have dc2 := hasDerivAt_cos (x 2)
  refine ⟨?_, ?_, ?_, ?_⟩
  · intro i j
    fin_cases j <;> fin_cases i <;> simp [sphericalLike]
    · exact ((dr.mul_const _).mul_const _).congr_deriv (by ring)
    · exact ((dr.mul_const _).mul_const _).congr_deriv (by ring)
    · exact (dr.mul_const _).congr_deriv (by ring)
    · exact ((ds1.const_mul _).mul_const _).congr_deriv (by ring)
    · exact ((ds1.const_mul _).mul_const _).congr_deriv (by ring)
    · exact (dc1.const_mul _).congr_deriv (by ring)
    · exact (dc2.const_mul _).congr_deriv (by ring)
    · exact (ds2.const_mul _).congr_deriv (by ring)
    · exact hasDerivAt_const _ _
  · intro i j
    fin_cases i <;> fin_cases j <;> simp [sphericalLike, Fin.sum_univ_three]
    · linear_combination s1 + sin (x 1) ^ 2 * s2
    · linear_combination sin (x 1) * cos (x 1) * s2
    · ring
    · linear_combination sin (x 1) * cos (x 1) * s2
    · linear_combination s1 + cos (x 1) ^ 2 * s2
    · ring
    · ring
    · ring
    · linear_combination s2
  · simp [sphericalLike, Matrix.det_fin_three]
    linear_combination s1 + s2 * (sin (x 1) ^ 2 + cos (x 1) ^ 2)
  · rfl

theorem basis_cylindricalLike {rho z : ℝ → ℝ} (hr : Differentiable ℝ rho) (hz : Differentiable ℝ z) (lo hi : Vec)
    (o : Option (Vec → Vec)) (x : Vec) : IsBasis (cylindricalLike rho z lo hi o) x := by
  have s1 := sin_sq_add_cos_sq (x 1)
  have dr := (hr (x 0)).hasDerivAt
  have dz := (hz (x 2)).hasDerivAt
  have ds1 := hasDerivAt_sin (x 1)
  have dc1 := hasDerivAt_cos (x 1)
  refine ⟨?_, ?_, ?_, ?_⟩
  · intro i j
    fin_cases j <;> fin_cases i <;> simp [cylindricalLike]
    · exact dr.mul_const _
    · exact dr.mul_const _
    · exact hasDerivAt_const _ _
    · exact (dc1.const_mul _).congr_deriv (by ring)
    · exact (ds1.const_mul _).congr_deriv (by ring)
    · exact hasDerivAt_const _ _
    · exact hasDerivAt_const _ _
    · exact hasDerivAt_const _ _
    · exact hz _
  · intro i j
    fin_cases i <;> fin_cases j <;> simp [cylindricalLike, Fin.sum_univ_three] <;>
      first | linear_combination s1 | ring
  · simp [cylindricalLike, Matrix.det_fin_three]
    linear_combination s1
  · rfl

theorem basis_cartesian (lo hi x : Vec) : IsBasis (cartesian lo hi) x := by
  refine ⟨?_, ?_, ?_, ?_⟩
  · intro i j
    fin_cases j <;> fin_cases i <;> simp [cartesian] <;> first | exact hasDerivAt_id' _ | exact hasDerivAt_const _ _
  · intro i j
    fin_cases i <;> fin_cases j <;> simp [cartesian, Fin.sum_univ_three]
  · simp [cartesian, Matrix.det_fin_three]
  · rfl

theorem basis_sinhCartesian (ampl w : ℝ) (x : Vec) : IsBasis (sinhCartesian ampl w) x := by
  refine ⟨?_, ?_, ?_, ?_⟩
  · intro i j
    fin_cases j <;> fin_cases i <;> simp [sinhCartesian] <;>
      first | exact differentiable_sinhv1 ampl w _ | exact hasDerivAt_const _ _
  · intro i j
    fin_cases i <;> fin_cases j <;> simp [sinhCartesian, Fin.sum_univ_three]
  · simp [sinhCartesian, Matrix.det_fin_three]
  · rfl

theorem basis_upperWedge (ampl w rmin : ℝ) (x : Vec) : IsBasis (upperWedge ampl w rmin) x := by
  have s1 := sin_sq_add_cos_sq (x 1)
  have s2 := sin_sq_add_cos_sq (x 2)
  have dr := (differentiable_sinhv1 ampl w (x 0)).hasDerivAt
  have ds1 := hasDerivAt_sin (x 1)
  have dc1 := hasDerivAt_cos (x 1)
  have ds2 := hasDerivAt_sin (x 2)
  have dc2 := hasDerivAt_cos (x 2)
  refine ⟨?_, ?_, ?_, ?_⟩
  · intro i j
    fin_cases j <;> fin_cases i <;> simp [upperWedge, wedge]
    · exact (dr.mul_const (cos (x 1))).neg.congr_deriv (by ring)
    · exact ((dr.mul_const _).mul_const _).congr_deriv (by ring)
    · exact ((dr.mul_const _).mul_const _).congr_deriv (by ring)
    · exact (dc1.const_mul (sinhv1 (x 0) ampl w)).neg.congr_deriv (by ring)
    · exact ((ds1.const_mul _).mul_const _).congr_deriv (by ring)
    · exact ((ds1.const_mul _).mul_const _).congr_deriv (by ring)
    · exact hasDerivAt_const _ _
    · exact (ds2.const_mul _).congr_deriv (by ring)
    · exact (dc2.const_mul _).congr_deriv (by ring)
  · intro i j
    fin_cases i <;> fin_cases j <;> simp [upperWedge, wedge, Fin.sum_univ_three]
    · linear_combination s1 + sin (x 1) ^ 2 * s2
    · linear_combination sin (x 1) * cos (x 1) * s2
    · ring
    · linear_combination sin (x 1) * cos (x 1) * s2
    · linear_combination s1 + cos (x 1) ^ 2 * s2
    · ring
    · ring
    · ring
    · linear_combination s2
  · simp [upperWedge, wedge, Matrix.det_fin_three]
    linear_combination s1 + s2 * (sin (x 1) ^ 2 + cos (x 1) ^ 2)
  · rfl

theorem basis_lowerWedge (ampl w rmin : ℝ) (x : Vec) : IsBasis (lowerWedge ampl w rmin) x := by
  have s1 := sin_sq_add_cos_sq (x 1)
  have s2 := sin_sq_add_cos_sq (x 2)
  have dr := (differentiable_sinhv1 ampl w (x 0)).hasDerivAt
  have ds1 := hasDerivAt_sin (x 1)
  have dc1 := hasDerivAt_cos (x 1)
  have ds2 := hasDerivAt_sin (x 2)
  have dc2 := hasDerivAt_cos (x 2)
  refine ⟨?_, ?_, ?_, ?_⟩
  · intro i j
    fin_cases j <;> fin_cases i <;> simp [lowerWedge, wedge]
    · exact (dr.mul_const (cos (x 1))).congr_deriv (by ring)
    · exact ((dr.mul_const _).mul_const _).congr_deriv (by ring)
    · exact ((dr.mul_const _).mul_const _).neg.congr_deriv (by ring)
    · exact (dc1.const_mul (sinhv1 (x 0) ampl w)).congr_deriv (by ring)
    · exact ((ds1.const_mul _).mul_const _).congr_deriv (by ring)
    · exact ((ds1.const_mul _).mul_const _).neg.congr_deriv (by ring)
    · exact hasDerivAt_const _ _
    · exact (ds2.const_mul _).congr_deriv (by ring)
    · exact (dc2.const_mul _).neg.congr_deriv (by ring)
  · intro i j
    fin_cases i <;> fin_cases j <;> simp [lowerWedge, wedge, Fin.sum_univ_three]
    · linear_combination s1 + sin (x 1) ^ 2 * s2
    · linear_combination sin (x 1) * cos (x 1) * s2
    · ring
    · linear_combination sin (x 1) * cos (x 1) * s2
    · linear_combination s1 + cos (x 1) ^ 2 * s2
    · ring
    · ring
    · ring
    · linear_combination s2
  · simp [lowerWedge, wedge, Matrix.det_fin_three]
    linear_combination s1 + s2 * (sin (x 1) ^ 2 + cos (x 1) ^ 2)
  · rfl

theorem basis_symTPLike {aa : ℝ → ℝ} (ha : Differentiable ℝ aa) {b : ℝ} (hb : b ≠ 0) (hi x : Vec)
    (hv : (symTPLike aa b hi).scale x 1 ≠ 0) : IsBasis (symTPLike aa b hi) x := by
  have s1 := sin_sq_add_cos_sq (x 1)
  have s2 := sin_sq_add_cos_sq (x 2)
  have da := (ha (x 0)).hasDerivAt
  have ds1 := hasDerivAt_sin (x 1)
  have dc1 := hasDerivAt_cos (x 1)
  have ds2 := hasDerivAt_sin (x 2)
  have dc2 := hasDerivAt_cos (x 2)
  have h2 : 0 < aa (x 0) ^ 2 + b ^ 2 := by positivity
  have dv : HasDerivAt (fun t => √(aa t ^ 2 + b ^ 2)) (aa (x 0) * deriv aa (x 0) / √(aa (x 0) ^ 2 + b ^ 2)) (x 0) := by
    have : HasDerivAt (fun t => aa t ^ 2 + b ^ 2) (2 * aa (x 0) * deriv aa (x 0)) (x 0) :=
      ((da.pow 2).add_const (b ^ 2)).congr_deriv (by push_cast; ring)
    exact (this.sqrt h2.ne').congr_deriv (by field_simp)
  have hv1 : √(aa (x 0) ^ 2 + (b * sin (x 1)) ^ 2) ≠ 0 := by simpa [symTPLike] using hv
  have hv2 : √(aa (x 0) ^ 2 + b ^ 2) ≠ 0 := (sqrt_pos.2 h2).ne'
  have q1 : √(aa (x 0) ^ 2 + (b * sin (x 1)) ^ 2) ^ 2 = aa (x 0) ^ 2 + (b * sin (x 1)) ^ 2 := sq_sqrt (by positivity)
  have q2 : √(aa (x 0) ^ 2 + b ^ 2) ^ 2 = aa (x 0) ^ 2 + b ^ 2 := sq_sqrt h2.le
  refine ⟨?_, ?_, ?_, ?_⟩
  · generalize hV1 : √(aa (x 0) ^ 2 + (b * sin (x 1)) ^ 2) = v1 at *
    generalize hV2 : √(aa (x 0) ^ 2 + b ^ 2) = v2 at *
    intro i j
    fin_cases j <;> fin_cases i <;> simp [symTPLike, hV1, hV2]
    · exact ((da.mul_const _).mul_const _).congr_deriv (by field_simp)
    · exact ((da.mul_const _).mul_const _).congr_deriv (by field_simp)
    · exact (dv.mul_const _).congr_deriv (by field_simp)
    · exact ((ds1.const_mul _).mul_const _).congr_deriv (by field_simp)
    · exact ((ds1.const_mul _).mul_const _).congr_deriv (by field_simp)
    · exact (dc1.const_mul _).congr_deriv (by field_simp)
    · exact (dc2.const_mul _).congr_deriv (by ring)
    · exact (ds2.const_mul _).congr_deriv (by ring)
    · exact hasDerivAt_const _ _
  · generalize hV1 : √(aa (x 0) ^ 2 + (b * sin (x 1)) ^ 2) = v1 at *
    generalize hV2 : √(aa (x 0) ^ 2 + b ^ 2) = v2 at *
    intro i j
    fin_cases i <;> fin_cases j <;> simp [symTPLike, Fin.sum_univ_three, hV1, hV2] <;> field_simp
    · linear_combination sin (x 1) ^ 2 * v2 ^ 2 * s2 + sin (x 1) ^ 2 * q2 - q1 + aa (x 0) ^ 2 * s1
    · linear_combination sin (x 1) * cos (x 1) * aa (x 0) * v2 * s2
    · ring
    · linear_combination sin (x 1) * cos (x 1) * aa (x 0) * v2 * s2
    · linear_combination aa (x 0) ^ 2 * cos (x 1) ^ 2 * s2 + sin (x 1) ^ 2 * q2 - q1 + aa (x 0) ^ 2 * s1
    · ring
    · ring
    · ring
    · linear_combination s2
  · generalize hV1 : √(aa (x 0) ^ 2 + (b * sin (x 1)) ^ 2) = v1 at *
    generalize hV2 : √(aa (x 0) ^ 2 + b ^ 2) = v2 at *
    simp [symTPLike, Matrix.det_fin_three, hV1, hV2]
    field_simp
    linear_combination (sin (x 1) ^ 2 * v2 ^ 2 + aa (x 0) ^ 2 * cos (x 1) ^ 2) * s2 + sin (x 1) ^ 2 * q2 - q1
      + aa (x 0) ^ 2 * s1
  · rfl

/-- C60, all systems. -/
theorem C60_basis {P : CoordParams} (hb : P.b ≠ 0) {name : Str} {c : Coords} (h : choose P name = .sys c) (x : Vec)
    (hx : c.scale x 1 ≠ 0) : IsBasis c x := by
  cases known_of_choose h with
  | cartesian => exact basis_cartesian _ _ _
  | sinhCartesian => exact basis_sinhCartesian _ _ _
  | spherical => exact basis_sphericalLike differentiable_id _ _ _ _
  | sinhSpherical => exact basis_sphericalLike (differentiable_sinhv1 _ _) _ _ _ _
  | holey => exact basis_sphericalLike (differentiable_sinhv1 _ _) _ _ _ _
  | ringHoley => exact basis_sphericalLike (differentiable_sinhv1 _ _) _ _ _ _
  | sphericalv2 => exact basis_sphericalLike (differentiable_sinhv2 _ _ _ _) _ _ _ _
  | upper => exact basis_upperWedge _ _ _ _
  | lower => exact basis_lowerWedge _ _ _ _
  | symTP => exact basis_symTPLike differentiable_id hb _ _ hx
  | sinhSymTP => exact basis_symTPLike (differentiable_sinhv1 _ _) hb _ _ hx
  | cylindrical => exact basis_cylindricalLike differentiable_id differentiable_id _ _ _ _
  | sinhCylindrical => exact basis_cylindricalLike (differentiable_sinhv1 _ _) (differentiable_sinhv1 _ _) _ _ _ _
  | cylindricalv2 => exact basis_cylindricalLike (differentiable_sinhv2 _ _ _ _) (differentiable_sinhv2 _ _ _ _) _ _ _ _

theorem flat_symTPLike {aa : ℝ → ℝ} (ha : Differentiable ℝ aa) {b : ℝ} (hb : b ≠ 0) (hi x : Vec) (i j : Fin 3) :
    ghatDD (symTPLike aa b hi).scale i j x = flatMetric (symTPLike aa b hi) i j x := by
  by_cases hv : (symTPLike aa b hi).scale x 1 = 0
  · -- on the axis inside the foci all coordinate vectors but the scale factors vanish
    have hv1 : √(aa (x 0) ^ 2 + (b * sin (x 1)) ^ 2) = 0 := hv
    rw [sqrt_eq_zero (by positivity)] at hv1
    have h0 : aa (x 0) = 0 := by nlinarith [sq_nonneg (aa (x 0)), sq_nonneg (b * sin (x 1))]
    have h1 : sin (x 1) = 0 := by
      have : b * sin (x 1) = 0 := by nlinarith [sq_nonneg (aa (x 0)), sq_nonneg (b * sin (x 1))]
      exact (mul_eq_zero.1 this).resolve_left hb
    have da := (ha (x 0)).hasDerivAt
    have ds1 := hasDerivAt_sin (x 1)
    have dc1 := hasDerivAt_cos (x 1)
    have h2 : 0 < aa (x 0) ^ 2 + b ^ 2 := by positivity
    have dv : HasDerivAt (fun t => √(aa t ^ 2 + b ^ 2)) 0 (x 0) := by
      have : HasDerivAt (fun t => aa t ^ 2 + b ^ 2) (2 * aa (x 0) * deriv aa (x 0)) (x 0) :=
        ((da.pow 2).add_const (b ^ 2)).congr_deriv (by push_cast; ring)
      exact (this.sqrt h2.ne').congr_deriv (by simp [h0])
    have hz : ∀ i a, pd i (fun y => (symTPLike aa b hi).toCart y a) x = 0 := by
      intro i a
      unfold pd
      apply HasDerivAt.deriv
      fin_cases i <;> fin_cases a <;> simp [symTPLike]
      · exact ((da.mul_const _).mul_const _).congr_deriv (by simp [h1])
      · exact ((da.mul_const _).mul_const _).congr_deriv (by simp [h1])
      · exact (dv.mul_const _).congr_deriv (by simp)
      · exact ((ds1.const_mul _).mul_const _).congr_deriv (by simp [h0])
      · exact ((ds1.const_mul _).mul_const _).congr_deriv (by simp [h0])
      · exact (dc1.const_mul _).congr_deriv (by simp [h1])
      · simp [h0]; exact hasDerivAt_const _ _
      · simp [h0]; exact hasDerivAt_const _ _
      · exact hasDerivAt_const _ _
    have hs : ∀ i, (symTPLike aa b hi).scale x i = 0 := by
      intro i
      fin_cases i <;> simp [symTPLike, h0, h1]
    unfold flatMetric ghatDD
    simp [hz, hs]
  · exact flatMetric_eq (basis_symTPLike ha hb hi x hv) i j

/-- The reference metric is the flat metric, at every point. -/
theorem C60_flat {P : CoordParams} (hb : P.b ≠ 0) {name : Str} {c : Coords} (h : choose P name = .sys c) (x : Vec)
    (i j : Fin 3) : ghatDD c.scale i j x = flatMetric c i j x := by
  cases known_of_choose h with
  | symTP => exact flat_symTPLike differentiable_id hb _ _ _ _
  | sinhSymTP => exact flat_symTPLike (differentiable_sinhv1 _ _) hb _ _ _ _
  | cartesian => exact flatMetric_eq (basis_cartesian _ _ _) i j
  | sinhCartesian => exact flatMetric_eq (basis_sinhCartesian _ _ _) i j
  | spherical => exact flatMetric_eq (basis_sphericalLike differentiable_id _ _ _ _) i j
  | sinhSpherical => exact flatMetric_eq (basis_sphericalLike (differentiable_sinhv1 _ _) _ _ _ _) i j
  | holey => exact flatMetric_eq (basis_sphericalLike (differentiable_sinhv1 _ _) _ _ _ _) i j
  | ringHoley => exact flatMetric_eq (basis_sphericalLike (differentiable_sinhv1 _ _) _ _ _ _) i j
  | sphericalv2 => exact flatMetric_eq (basis_sphericalLike (differentiable_sinhv2 _ _ _ _) _ _ _ _) i j
  | upper => exact flatMetric_eq (basis_upperWedge _ _ _ _) i j
  | lower => exact flatMetric_eq (basis_lowerWedge _ _ _ _) i j
  | cylindrical => exact flatMetric_eq (basis_cylindricalLike differentiable_id differentiable_id _ _ _ _) i j
  | sinhCylindrical =>
    exact flatMetric_eq (basis_cylindricalLike (differentiable_sinhv1 _ _) (differentiable_sinhv1 _ _) _ _ _ _) i j
  | cylindricalv2 =>
    exact flatMetric_eq (basis_cylindricalLike (differentiable_sinhv2 _ _ _ _) (differentiable_sinhv2 _ _ _ _) _ _ _ _)
      i j

/-- Inside the domain the scale factor of the second direction does not vanish. -/
theorem C60_applies {P : CoordParams} (hP : ValidParams P) {name : Str} {c : Coords} (h : choose P name = .sys c)
    (x : Vec) (hx : InDomain c x) : c.scale x 1 ≠ 0 := by
  have hA := hP.ampl
  have hw := hP.w
  have hm := arsinh_min_nonneg hP.ampl hP.w hP.rmin
  cases known_of_choose h with
  | cartesian => simp [cartesian]
  | sinhCartesian => exact (deriv_sinhv1_pos hA hw _).ne'
  | spherical => exact ne_of_gt (hx 0).1
  | sinhSpherical => exact (sinhv1_pos hA hw (hx 0).1).ne'
  | holey => exact (sinhv1_pos hA hw (lt_of_le_of_lt hm (hx 0).1)).ne'
  | ringHoley => exact (sinhv1_pos hA hw (lt_of_le_of_lt hm (hx 0).1)).ne'
  | sphericalv2 => exact (sinhv2_pos hA hw hP.slope hP.slope_le (hx 0).1).ne'
  | upper => exact (sinhv1_pos hA hw (lt_of_le_of_lt hm (hx 0).1)).ne'
  | lower => exact (sinhv1_pos hA hw (lt_of_le_of_lt hm (hx 0).1)).ne'
  | symTP =>
    have k : 0 < x 0 := (hx 0).1
    show √(x 0 ^ 2 + _) ≠ 0
    exact (sqrt_pos.2 (by positivity)).ne'
  | sinhSymTP =>
    have k : 0 < sinhv1 (x 0) P.amax P.waa := sinhv1_pos hP.amax hP.waa (hx 0).1
    show √(sinhv1 (x 0) P.amax P.waa ^ 2 + _) ≠ 0
    exact (sqrt_pos.2 (by positivity)).ne'
  | cylindrical => exact ne_of_gt (hx 0).1
  | sinhCylindrical => exact (sinhv1_pos hA hw (hx 0).1).ne'
  | cylindricalv2 => exact (sinhv2_pos hA hw hP.slope hP.slope_le (hx 0).1).ne'

/-! ### C61: the spherical coordinates belong to the same point -/

/-- The Cartesian point with the given radius, inclination and azimuth. -/
noncomputable def sphToCart (s : Vec) : Vec := ![s 0 * sin (s 1) * cos (s 2), s 0 * sin (s 1) * sin (s 2), s 0 * cos (s 1)]

theorem sph_of_cart {p : Vec} (hp : p ≠ 0) :
    p = sphToCart ![√(p 0 ^ 2 + p 1 ^ 2 + p 2 ^ 2), arccos (p 2 / √(p 0 ^ 2 + p 1 ^ 2 + p 2 ^ 2)), atan2 (p 1) (p 0)] := by
  obtain ⟨a, b, c⟩ := spherical_cart (radius_pos hp) (radius_sq p)
  exact vec3_ext a.symm b.symm c.symm

/-- Around the axis: distance `rho ≥ 0` from it, height `z`, azimuth `φ`. -/
theorem sph_of_axis {rho z φ : ℝ} (hr : 0 ≤ rho) (h : ![rho * cos φ, rho * sin φ, z] ≠ 0) :
    ![rho * cos φ, rho * sin φ, z] = sphToCart ![√(rho ^ 2 + z ^ 2), arccos (z / √(rho ^ 2 + z ^ 2)), φ] := by
  have hpos : 0 < rho ^ 2 + z ^ 2 := by
    rcases lt_or_eq_of_le (by positivity : 0 ≤ rho ^ 2 + z ^ 2) with h' | h'
    · exact h'
    · exfalso
      apply h
      have h1 : rho = 0 := by nlinarith [sq_nonneg rho, sq_nonneg z]
      have h2 : z = 0 := by nlinarith [sq_nonneg rho, sq_nonneg z]
      apply vec3_ext <;> simp [h1, h2]
  have hs := sqrt_pos.2 hpos
  have hz : |z / √(rho ^ 2 + z ^ 2)| ≤ 1 := by
    rw [abs_div, abs_of_pos hs, div_le_one hs]
    exact abs_le_of_sq_le_sq (by rw [sq_sqrt hpos.le]; nlinarith [sq_nonneg rho]) hs.le
  have hsin : √(rho ^ 2 + z ^ 2) * sin (arccos (z / √(rho ^ 2 + z ^ 2))) = rho := by
    rw [sin_arccos, ← sqrt_mul hpos.le]
    rw [show (rho ^ 2 + z ^ 2) * (1 - (z / √(rho ^ 2 + z ^ 2)) ^ 2) = rho ^ 2 by
      rw [div_pow, sq_sqrt hpos.le]; field_simp; ring]
    exact sqrt_sq hr
  apply vec3_ext
  · show _ = √(rho ^ 2 + z ^ 2) * sin (arccos (z / √(rho ^ 2 + z ^ 2))) * cos φ
    rw [hsin]; rfl
  · show _ = √(rho ^ 2 + z ^ 2) * sin (arccos (z / √(rho ^ 2 + z ^ 2))) * sin φ
    rw [hsin]; rfl
  · show _ = √(rho ^ 2 + z ^ 2) * cos (arccos (z / √(rho ^ 2 + z ^ 2)))
    rw [cos_arccos (abs_le.1 hz).1 (abs_le.1 hz).2]
    field_simp
    rfl

/-- `xxSph` and `xx_to_Cart` describe the same point, at every point of the closed coordinate ranges that is not the
origin.  Missing from the full statement: the two wedges, for which it is false (below). -/
theorem C61_spherical_partial {P : CoordParams} (hP : ValidParams P) {name : Str} {c : Coords}
    (h : choose P name = .sys c) (hu : name ≠ (c% "UWedgeHSinhSph")) (hl : name ≠ (c% "LWedgeHSinhSph")) (x : Vec)
    (hx : ∀ i, c.xxmin i ≤ x i ∧ x i ≤ c.xxmax i) (h0 : c.toCart x ≠ 0) : c.toCart x = sphToCart (c.sph x) := by
  have hA := hP.ampl
  have hw := hP.w
  cases known_of_choose h with
  | cartesian => exact sph_of_cart h0
  | sinhCartesian => exact sph_of_cart h0
  | spherical => rfl
  | sinhSpherical => rfl
  | holey => rfl
  | ringHoley => rfl
  | sphericalv2 => rfl
  | upper => exact absurd rfl hu
  | lower => exact absurd rfl hl
  | symTP =>
    have k0 : 0 ≤ x 0 := (hx 0).1
    have k1 : 0 ≤ x 1 := (hx 1).1
    have k1' : x 1 ≤ π := (hx 1).2
    exact sph_of_axis (mul_nonneg k0 (sin_nonneg_of_nonneg_of_le_pi k1 k1')) h0
  | sinhSymTP =>
    have k0 : 0 ≤ sinhv1 (x 0) P.amax P.waa := sinhv1_nonneg hP.amax hP.waa (hx 0).1
    have k1 : 0 ≤ x 1 := (hx 1).1
    have k1' : x 1 ≤ π := (hx 1).2
    exact sph_of_axis (mul_nonneg k0 (sin_nonneg_of_nonneg_of_le_pi k1 k1')) h0
  | cylindrical => exact sph_of_axis (hx 0).1 h0
  | sinhCylindrical => exact sph_of_axis (sinhv1_nonneg hA hw (hx 0).1) h0
  | cylindricalv2 => exact sph_of_axis (sinhv2_nonneg hP.slope hP.slope_le hw (hx 0).1) h0

/-- Both wedges violate C61 at every point of their domain: the radius is right, the angles are those of the frame of the
wedge. -/
theorem C61_wedge_violation {P : CoordParams} (hP : ValidParams P) (x : Vec) :
    (InDomain (upperWedge P.ampl P.w P.rmin) x →
      (upperWedge P.ampl P.w P.rmin).toCart x ≠ sphToCart ((upperWedge P.ampl P.w P.rmin).sph x)) ∧
    (InDomain (lowerWedge P.ampl P.w P.rmin) x →
      (lowerWedge P.ampl P.w P.rmin).toCart x ≠ sphToCart ((lowerWedge P.ampl P.w P.rmin).sph x)) := by
  have hm := arsinh_min_nonneg hP.ampl hP.w hP.rmin
  have hπ := pi_pos
  have key : ∀ x : Vec, P.w * arsinh (P.rmin * sinh (1 / P.w) / P.ampl) < x 0 → 1 / 4 * π < x 1 → x 1 < 3 / 4 * π →
      -π * (1 / 4) < x 2 → x 2 < π * (1 / 4) → 0 < sinhv1 (x 0) P.ampl P.w ∧ 0 < sin (x 1) ∧ 0 < cos (x 2) ∧
        |cos (x 1)| < sin (x 1) := by
    intro x h0 h1 h1' h2 h2'
    have hs : 0 < sin (x 1) := sin_pos_of_pos_of_lt_pi (by linarith) (by linarith)
    refine ⟨sinhv1_pos hP.ampl hP.w (lt_of_le_of_lt hm h0), hs, cos_pos_of_mem_Ioo ⟨by linarith, by linarith⟩, ?_⟩
    -- sin² - cos² = -cos 2θ > 0
    have hc : cos (2 * x 1) < 0 := cos_neg_of_pi_div_two_lt_of_lt (by linarith) (by linarith)
    rw [cos_two_mul] at hc
    exact abs_lt_of_sq_lt_sq (by nlinarith [sin_sq_add_cos_sq (x 1)]) hs.le
  constructor
  · intro hx he
    obtain ⟨hr, hs, hc, hlt⟩ := key x (hx 0).1 (hx 1).1 (hx 1).2 (hx 2).1 (hx 2).2
    have e0 : -sinhv1 (x 0) P.ampl P.w * cos (x 1) = sinhv1 (x 0) P.ampl P.w * sin (x 1) * cos (x 2) := congrFun he 0
    have e2 : sinhv1 (x 0) P.ampl P.w * sin (x 1) * cos (x 2) = sinhv1 (x 0) P.ampl P.w * cos (x 1) := congrFun he 2
    have : 0 < sinhv1 (x 0) P.ampl P.w * sin (x 1) * cos (x 2) := by positivity
    linarith
  · intro hx he
    obtain ⟨hr, hs, hc, hlt⟩ := key x (hx 0).1 (hx 1).1 (hx 1).2 (hx 2).1 (hx 2).2
    have e0 : sinhv1 (x 0) P.ampl P.w * cos (x 1) = sinhv1 (x 0) P.ampl P.w * sin (x 1) * cos (x 2) := congrFun he 0
    have e2 : -sinhv1 (x 0) P.ampl P.w * sin (x 1) * cos (x 2) = sinhv1 (x 0) P.ampl P.w * cos (x 1) := congrFun he 2
    have : 0 < sinhv1 (x 0) P.ampl P.w * sin (x 1) * cos (x 2) := by positivity
    linarith

/-- Such points exist: the domain of the wedges is not empty. -/
example : InDomain (upperWedge demo.ampl demo.w demo.rmin)
    ![demo.w * arsinh (5 * sinh (1 / demo.w) / demo.ampl), π / 2, 0] := by
  have hπ := pi_pos
  have h2 : 0 < sinh (1 / demo.w) := sinh_pos_iff.2 (by norm_num [demo])
  have hw : 0 < demo.w := by norm_num [demo]
  have hr : demo.rmin = 1 := rfl
  have ha : demo.ampl = 10 := rfl
  intro i
  fin_cases i
  · constructor
    · exact mul_lt_mul_of_pos_left (arsinh_lt_arsinh.2 (by rw [hr, ha]; linarith)) hw
    · exact mul_lt_mul_of_pos_left (arsinh_lt_arsinh.2 (by rw [ha]; linarith)) hw
  · constructor
    · show 1 / 4 * π < π / 2; linarith
    · show π / 2 < 3 / 4 * π; linarith
  · constructor
    · show -π * (1 / 4) < 0; linarith
    · show 0 < π * (1 / 4); linarith

/-- C61 is not empty for the default parameters. -/
example : ∃ c x, choose demo (c% "SinhSymTP") = .sys c ∧ (∀ i, c.xxmin i ≤ x i ∧ x i ≤ c.xxmax i) ∧ c.toCart x ≠ 0 := by
  refine ⟨_, ![1 / 2, 0, 0], rfl, ?_, ?_⟩
  · have := pi_gt_three
    intro i
    fin_cases i <;> simp [sinhSymTP, symTPLike] <;> norm_num <;> linarith
  · intro h
    have e : √(sinhv1 (1 / 2) demo.amax demo.waa ^ 2 + demo.b ^ 2) * cos 0 = 0 := congrFun h 2
    have hp : 0 < √(sinhv1 (1 / 2) demo.amax demo.waa ^ 2 + demo.b ^ 2) := sqrt_pos.2 (by norm_num [demo]; positivity)
    rw [cos_zero, mul_one] at e
    linarith

/-! ### C62: names -/

/-- The documented names: twelve fixed ones and two families with an even number. -/
def Documented (name : Str) : Prop :=
  name ∈ [(c% "Cartesian"), (c% "SinhCartesian"), (c% "Spherical"), (c% "SinhSpherical"), (c% "HoleySinhSpherical"),
    (c% "RingHoleySinhSpherical"), (c% "UWedgeHSinhSph"), (c% "LWedgeHSinhSph"), (c% "SymTP"), (c% "SinhSymTP"),
    (c% "Cylindrical"), (c% "SinhCylindrical")] ∨
  ∃ d : Str, d ≠ [] ∧ d.all Char.isDigit ∧ digitsVal d % 2 = 0 ∧
    (name = (c% "SinhSphericalv2n") ++ d ∨ name = (c% "SinhCylindricalv2n") ++ d)

theorem powerN_sph {d : Str} (h0 : d ≠ []) (h1 : d.all Char.isDigit) (h2 : digitsVal d % 2 = 0) :
    powerN ((c% "SinhSphericalv2n") ++ d) = some (digitsVal d) := by
  have : afterSub (c% "v2n") ((c% "SinhSphericalv2n") ++ d) = some d := by
    simp [afterSub, List.isPrefixOf]
  unfold powerN
  rw [this]
  simp only []
  rw [if_pos ⟨by simp [List.isPrefixOf], h0, h1, h2⟩]

theorem powerN_cyl {d : Str} (h0 : d ≠ []) (h1 : d.all Char.isDigit) (h2 : digitsVal d % 2 = 0) :
    powerN ((c% "SinhCylindricalv2n") ++ d) = some (digitsVal d) := by
  have : afterSub (c% "v2n") ((c% "SinhCylindricalv2n") ++ d) = some d := by
    simp [afterSub, List.isPrefixOf]
  unfold powerN
  rw [this]
  simp only []
  rw [if_pos ⟨by simp [List.isPrefixOf], h0, h1, h2⟩]

theorem not_mem_digits {d : Str} (h1 : d.all Char.isDigit) {c : Char} (hc : c.isDigit = false) : c ∉ d := by
  intro h
  rw [List.all_eq_true.1 h1 c h] at hc
  cases hc

theorem containsSub_absent {pat s : Str} {c : Char} (hp : c ∈ pat) (hs : c ∉ s) : containsSub pat s = false := by
  rw [Bool.eq_false_iff, Ne, CFunction.containsSub_iff]
  exact fun h => hs (h.subset hp)

/-- Every documented name gives a system, and the families the power asked for. -/
theorem C62_documented (P : CoordParams) {name : Str} (h : Documented name) : ∃ c, choose P name = .sys c := by
  rcases h with h | ⟨d, h0, h1, h2, h | h⟩
  · obtain ⟨c, g, hc, -⟩ := C59_available P name h
    exact ⟨c, hc⟩
  · subst h
    refine ⟨sinhSphericalv2 (digitsVal d) P.ampl P.w P.slope, ?_⟩
    unfold choose
    rw [containsSub_absent (c := 'C') (by decide)
      (by simp only [List.mem_append, not_or]; exact ⟨by decide, not_mem_digits h1 (by decide)⟩)]
    rw [if_neg (by simp), if_pos (by rw [CFunction.containsSub_iff]; exact ⟨(c% "Sinh"), (c% "v2n") ++ d, by simp⟩)]
    unfold sphericalChoice
    rw [if_neg (by simp), if_neg, if_pos (by simp [List.isPrefixOf]), powerN_sph h0 h1 h2]
    rw [Bool.not_eq_true, Bool.eq_false_iff, Ne, List.isSuffixOf_iff_suffix]
    rintro ⟨p, hp⟩
    have hl := congrArg List.getLast? hp
    rw [List.getLast?_append, List.getLast?_append] at hl
    obtain ⟨e, c, rfl⟩ : ∃ e c, d = e ++ [c] := ⟨d.dropLast, d.getLast h0, (List.dropLast_append_getLast h0).symm⟩
    simp at hl
    have := not_mem_digits h1 (c := 'l') (by decide)
    apply this
    simp [← hl]
  · subst h
    refine ⟨sinhCylindricalv2 (digitsVal d) P.ampl P.w P.slope P.amplz P.wz P.slopez, ?_⟩
    have hno : ∀ c : Char, c ∉ (c% "SinhCylindricalv2n") → c.isDigit = false → c ∉ (c% "SinhCylindricalv2n") ++ d := by
      intro c hc hd
      simp only [List.mem_append, not_or]
      exact ⟨hc, not_mem_digits h1 hd⟩
    unfold choose
    rw [containsSub_absent (c := 't') (by decide) (hno _ (by decide) (by decide)),
      containsSub_absent (pat := (c% "Spherical")) (c := 'p') (by decide) (hno _ (by decide) (by decide)),
      containsSub_absent (pat := (c% "Wedge")) (c := 'W') (by decide) (hno _ (by decide) (by decide)),
      containsSub_absent (pat := (c% "SymTP")) (c := 'T') (by decide) (hno _ (by decide) (by decide))]
    simp only [Bool.false_eq_true, if_false]
    rw [if_pos (by rw [CFunction.containsSub_iff]; exact ⟨(c% "Sinh"), (c% "v2n") ++ d, by simp⟩)]
    unfold cylindricalChoice
    rw [if_neg (by simp), if_neg (by simp), if_pos (by simp [List.isPrefixOf]), powerN_cyl h0 h1 h2]

theorem afterSub_spec {pat : Str} : ∀ {s r : Str}, afterSub pat s = some r → ∃ p, s = p ++ pat ++ r
  | [], r, h => by
    simp only [afterSub] at h
    split at h
    · next e => subst e; cases h; exact ⟨[], rfl⟩
    · cases h
  | c :: s, r, h => by
    simp only [afterSub] at h
    split at h
    · next e =>
      cases h
      obtain ⟨t, ht⟩ := List.isPrefixOf_iff_prefix.1 e
      refine ⟨[], ?_⟩
      rw [← ht]; simp
    · obtain ⟨p, hp⟩ := afterSub_spec h
      exact ⟨c :: p, by rw [hp]; simp⟩

/-- A name that gives a system is documented.  Missing from the full statement ("any other name is an error"): names
containing `Cartesian` or `Wedge`, names ending in `SinhSpherical` but not `HoleySinhSpherical`, and names starting with `SinhCylindricalv2`, for
which it is false (below). -/
theorem C62_rejected_partial (P : CoordParams) {name : Str} (h : ¬ Documented name)
    (h1 : ¬ (c% "Cartesian") <:+: name) (h2 : ¬ (c% "Wedge") <:+: name)
    (h3 : (c% "SinhSpherical") <:+ name → (c% "HoleySinhSpherical") <:+: name)
    (h4 : ¬ (c% "SinhCylindricalv2") <+: name) : choose P name = .valueError := by
  have hb : ∀ pat : Str, ¬ pat <:+: name → containsSub pat name = false := by
    intro pat hp
    rw [Bool.eq_false_iff, Ne, CFunction.containsSub_iff]
    exact hp
  have hne : ∀ s ∈ [(c% "Cartesian"), (c% "SinhCartesian"), (c% "Spherical"), (c% "SinhSpherical"),
      (c% "HoleySinhSpherical"), (c% "RingHoleySinhSpherical"), (c% "UWedgeHSinhSph"), (c% "LWedgeHSinhSph"),
      (c% "SymTP"), (c% "SinhSymTP"), (c% "Cylindrical"), (c% "SinhCylindrical")], name ≠ s := by
    intro s hs e
    exact h (Or.inl (e ▸ hs))
  have hpow : (c% "SinhSphericalv2n") <+: name → powerN name = none := by
    rintro ⟨r, rfl⟩
    have ha : afterSub (c% "v2n") ((c% "SinhSphericalv2n") ++ r) = some r := by simp [afterSub, List.isPrefixOf]
    unfold powerN
    rw [ha]
    simp only []
    rw [if_neg]
    rintro ⟨-, k1, k2, k3⟩
    exact h (Or.inr ⟨r, k1, k2, k3, Or.inl rfl⟩)
  unfold choose
  rw [hb _ h1, hb _ h2]
  simp only [Bool.false_eq_true, if_false]
  split
  · unfold sphericalChoice
    rw [if_neg (hne _ (by simp))]
    split
    · next hp =>
      rw [if_pos ((CFunction.containsSub_iff _ _).2 (h3 (List.isSuffixOf_iff_suffix.1 hp))), if_neg (hne _ (by simp)),
        if_neg (hne _ (by simp))]
    split
    · next hp => rw [hpow (List.isPrefixOf_iff_prefix.1 hp)]
    · rfl
  split
  · unfold symTPChoice
    rw [if_neg (hne _ (by simp)), if_neg (hne _ (by simp))]
  split
  · unfold cylindricalChoice
    rw [if_neg (hne _ (by simp)), if_neg (hne _ (by simp)),
      if_neg (by rw [List.isPrefixOf_iff_prefix]; exact h4)]
  · rfl

/-- The hypotheses are met by a typing error. -/
example : ¬ Documented (c% "Sphericall") ∧ ¬ (c% "Cartesian") <:+: (c% "Sphericall") ∧
    ¬ (c% "Wedge") <:+: (c% "Sphericall") ∧ ((c% "SinhSpherical") <:+ (c% "Sphericall") → (c% "HoleySinhSpherical") <:+: (c% "Sphericall")) ∧
    ¬ (c% "SinhCylindricalv2") <+: (c% "Sphericall") := by
  refine ⟨?_, by decide, by decide, by decide, by decide⟩
  rintro (h | ⟨d, h0, h1, h2, h | h⟩)
  · revert h; decide
  · simp at h
  · simp at h

/-- Violation: unknown names that are accepted.  The first leaves all coordinate functions at zero, the second is taken
for `SinhSpherical`, the third for `SinhCylindricalv2n4`. -/
theorem C62_violation (P : CoordParams) :
    choose P (c% "MyCartesian") = .unset ∧ ¬ Documented (c% "MyCartesian") ∧
    choose P (c% "MySinhSpherical") = .sys (sinhSpherical P.ampl P.w) ∧ ¬ Documented (c% "MySinhSpherical") ∧
    choose P (c% "SinhCylindricalv2_v2n4") =
      .sys (sinhCylindricalv2 4 P.ampl P.w P.slope P.amplz P.wz P.slopez) ∧
    ¬ Documented (c% "SinhCylindricalv2_v2n4") := by
  have nd : ∀ s : Str, s ∉ [(c% "Cartesian"), (c% "SinhCartesian"), (c% "Spherical"), (c% "SinhSpherical"),
      (c% "HoleySinhSpherical"), (c% "RingHoleySinhSpherical"), (c% "UWedgeHSinhSph"), (c% "LWedgeHSinhSph"),
      (c% "SymTP"), (c% "SinhSymTP"), (c% "Cylindrical"), (c% "SinhCylindrical")] →
      ¬ (c% "SinhSphericalv2n") <+: s → ¬ (c% "SinhCylindricalv2n") <+: s → ¬ Documented s := by
    rintro s a b c (h | ⟨d, -, -, -, h | h⟩)
    · exact a h
    · exact b ⟨d, h.symm⟩
    · exact c ⟨d, h.symm⟩
  exact ⟨rfl, nd _ (by decide) (by decide) (by decide), rfl, nd _ (by decide) (by decide) (by decide), rfl,
    nd _ (by decide) (by decide) (by decide)⟩

end Verif.RefMetric
