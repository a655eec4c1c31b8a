import Verif.RefMetric.Coords
import Mathlib.Tactic.FieldSimp
import Mathlib.Tactic.LinearCombination
import Mathlib.Tactic.FinCases
import Mathlib.Tactic.Positivity
import Mathlib.LinearAlgebra.Matrix.Determinant.Basic

/-!
# Properties of the coordinate systems (C59, C60, C61, C62)
-/
namespace Verif.RefMetric
open Verif.Py Real

/-! ### The sinh transformation -/

theorem sinhv1_eq (x ampl w : ℝ) : sinhv1 x ampl w = ampl * sinh (x / w) / sinh (1 / w) := by
  unfold sinhv1
  rw [sinh_eq, sinh_eq, neg_div, neg_div, mul_div_assoc, mul_div_assoc]
  congr 1
  rw [div_div_div_cancel_right₀ (by norm_num)]

theorem sinhv1_pos {x ampl w : ℝ} (hA : 0 < ampl) (hw : 0 < w) (hx : 0 < x) : 0 < sinhv1 x ampl w := by
  rw [sinhv1_eq]
  have h1 : 0 < sinh (x / w) := sinh_pos_iff.2 (by positivity)
  have h2 : 0 < sinh (1 / w) := sinh_pos_iff.2 (by positivity)
  positivity

theorem sinhv1_nonneg {x ampl w : ℝ} (hA : 0 < ampl) (hw : 0 < w) (hx : 0 ≤ x) : 0 ≤ sinhv1 x ampl w := by
  rcases hx.eq_or_lt with rfl | h
  · simp [sinhv1_eq]
  · exact (sinhv1_pos hA hw h).le

theorem arsinh_sinhv1 {x ampl w : ℝ} (hA : 0 < ampl) (hw : 0 < w) :
    w * arsinh (sinhv1 x ampl w * sinh (1 / w) / ampl) = x := by
  have h2 : 0 < sinh (1 / w) := sinh_pos_iff.2 (by positivity)
  rw [sinhv1_eq]
  have : ampl * sinh (x / w) / sinh (1 / w) * sinh (1 / w) / ampl = sinh (x / w) := by field_simp
  rw [this, arsinh_sinh]
  field_simp

theorem sinhv1_arsinh {r ampl w : ℝ} (hA : 0 < ampl) (hw : 0 < w) :
    sinhv1 (w * arsinh (r * sinh (1 / w) / ampl)) ampl w = r := by
  have h2 : 0 < sinh (1 / w) := sinh_pos_iff.2 (by positivity)
  rw [sinhv1_eq]
  have : w * arsinh (r * sinh (1 / w) / ampl) / w = arsinh (r * sinh (1 / w) / ampl) := by field_simp
  rw [this, sinh_arsinh]
  field_simp

theorem differentiable_sinhv1 (ampl w : ℝ) : Differentiable ℝ fun t => sinhv1 t ampl w := by
  unfold sinhv1
  fun_prop

theorem differentiable_sinhv2 (n : ℕ) (ampl w slope : ℝ) : Differentiable ℝ fun t => sinhv2 n t ampl w slope := by
  unfold sinhv2
  fun_prop

theorem sinhv2_nonneg {n : ℕ} {x ampl w slope : ℝ} (hs : 0 ≤ slope) (hA : slope ≤ ampl) (hw : 0 < w) (hx : 0 ≤ x) :
    0 ≤ sinhv2 n x ampl w slope := by
  have h1 : 0 ≤ exp (x / w) - exp (-x / w) := by
    rw [sub_nonneg, exp_le_exp]; gcongr; linarith
  have h2 : 0 < exp (1 / w) - exp (-1 / w) := by
    rw [sub_pos, exp_lt_exp]; gcongr; norm_num
  have h3 : 0 ≤ ampl - slope := by linarith
  unfold sinhv2
  positivity

theorem sinhv2_pos {n : ℕ} {x ampl w slope : ℝ} (hA : 0 < ampl) (hw : 0 < w) (hs : 0 ≤ slope) (hle : slope ≤ ampl)
    (hx : 0 < x) : 0 < sinhv2 n x ampl w slope := by
  have h1 : 0 < exp (x / w) - exp (-x / w) := by
    rw [sub_pos, exp_lt_exp]; gcongr; linarith
  have h2 : 0 < exp (1 / w) - exp (-1 / w) := by
    rw [sub_pos, exp_lt_exp]; gcongr; norm_num
  unfold sinhv2
  rcases hs.eq_or_lt with rfl | h
  · have : 0 < ampl - 0 := by linarith
    positivity
  · have h3 : 0 ≤ ampl - slope := by linarith
    positivity

theorem deriv_sinhv1_pos {ampl w : ℝ} (hA : 0 < ampl) (hw : 0 < w) (x : ℝ) :
    0 < deriv (fun t => sinhv1 t ampl w) x := by
  have h2 : 0 < exp (1 / w) - exp (-1 / w) := by
    rw [sub_pos, exp_lt_exp]; gcongr; norm_num
  have hd : HasDerivAt (fun t => sinhv1 t ampl w)
      (ampl * (exp (x / w) * (1 / w) - exp (-x / w) * (-1 / w)) / (exp (1 / w) - exp (-1 / w))) x := by
    unfold sinhv1
    have e1 : HasDerivAt (fun t : ℝ => t / w) (1 / w) x := (hasDerivAt_id' x).div_const w
    have e2 : HasDerivAt (fun t : ℝ => -t / w) (-1 / w) x := (hasDerivAt_id' x).neg.div_const w
    exact ((e1.exp.sub e2.exp).const_mul ampl).div_const _
  rw [hd.deriv]
  have : 0 < exp (x / w) * (1 / w) - exp (-x / w) * (-1 / w) := by
    have a := exp_pos (x / w)
    have b := exp_pos (-x / w)
    rw [show exp (x / w) * (1 / w) - exp (-x / w) * (-1 / w) = (exp (x / w) + exp (-x / w)) * (1 / w) by ring]
    positivity
  positivity

/-! ### Polar angles -/

theorem atan2_polar {s φ : ℝ} (hs : 0 < s) (h1 : -π < φ) (h2 : φ ≤ π) : atan2 (s * sin φ) (s * cos φ) = φ := by
  unfold atan2
  have : (⟨s * cos φ, s * sin φ⟩ : ℂ) = (s : ℂ) * (Complex.cos φ + Complex.sin φ * Complex.I) := by
    apply Complex.ext <;> simp [← Complex.ofReal_cos, ← Complex.ofReal_sin]
  rw [this]
  exact Complex.arg_mul_cos_add_sin_mul_I hs ⟨h1, h2⟩

theorem cos_atan2 (x y : ℝ) : √(x ^ 2 + y ^ 2) * cos (atan2 y x) = x := by
  have h := Complex.norm_mul_cos_arg (⟨x, y⟩ : ℂ)
  have e : ‖(⟨x, y⟩ : ℂ)‖ = √(x ^ 2 + y ^ 2) := by
    rw [Complex.norm_def, Complex.normSq_mk]; ring_nf
  rw [e] at h
  exact h

theorem sin_atan2 (x y : ℝ) : √(x ^ 2 + y ^ 2) * sin (atan2 y x) = y := by
  have h := Complex.norm_mul_sin_arg (⟨x, y⟩ : ℂ)
  have e : ‖(⟨x, y⟩ : ℂ)‖ = √(x ^ 2 + y ^ 2) := by
    rw [Complex.norm_def, Complex.normSq_mk]; ring_nf
  rw [e] at h
  exact h

/-- The spherical formulas give back the point. -/
theorem spherical_cart {x y z r : ℝ} (hr : 0 < r) (h : r ^ 2 = x ^ 2 + y ^ 2 + z ^ 2) :
    r * sin (arccos (z / r)) * cos (atan2 y x) = x ∧ r * sin (arccos (z / r)) * sin (atan2 y x) = y ∧
      r * cos (arccos (z / r)) = z := by
  have hz : |z / r| ≤ 1 := by
    rw [abs_div, abs_of_pos hr, div_le_one hr]
    exact abs_le_of_sq_le_sq (by nlinarith [sq_nonneg x, sq_nonneg y]) hr.le
  have hs : r * sin (arccos (z / r)) = √(x ^ 2 + y ^ 2) := by
    rw [sin_arccos]
    have e : x ^ 2 + y ^ 2 = r ^ 2 * (1 - (z / r) ^ 2) := by
      field_simp; linarith
    rw [e, sqrt_mul (sq_nonneg r), sqrt_sq hr.le]
  refine ⟨?_, ?_, ?_⟩
  · rw [hs, cos_atan2]
  · rw [hs, sin_atan2]
  · rw [cos_arccos (abs_le.1 hz).1 (abs_le.1 hz).2]; field_simp

theorem radius_sq (p : Vec) : radius p ^ 2 = p 0 ^ 2 + p 1 ^ 2 + p 2 ^ 2 := by
  unfold radius; rw [sq_sqrt (by positivity)]

theorem radius_pos {p : Vec} (h : p ≠ 0) : 0 < radius p := by
  unfold radius
  apply sqrt_pos.2
  by_contra hc
  apply h
  have e : p 0 ^ 2 + p 1 ^ 2 + p 2 ^ 2 = 0 := le_antisymm (not_lt.1 hc) (by positivity)
  funext i
  fin_cases i <;> simp <;> nlinarith [sq_nonneg (p 0), sq_nonneg (p 1), sq_nonneg (p 2)]

/-! ### Specification -/

/-- Parameters for which the systems make sense. -/
structure ValidParams (P : CoordParams) : Prop where
  ampl : 0 < P.ampl
  w : 0 < P.w
  rmin : 0 < P.rmin
  slope : 0 ≤ P.slope
  slope_le : P.slope ≤ P.ampl
  amax : 0 < P.amax
  b : 0 < P.b
  waa : 0 < P.waa
  amplz : 0 < P.amplz
  wz : 0 < P.wz

/-- Inside the coordinate ranges of the system; every interior point of a cell-centred grid is. -/
def InDomain (c : Coords) (x : Vec) : Prop := ∀ i, c.xxmin i < x i ∧ x i < c.xxmax i

/-- `g` is the inverse of the coordinate map: on the coordinate ranges, and for all Cartesian points except the
origin. -/
def IsInverse (c : Coords) (g : Vec → Vec) : Prop :=
  (∀ x, InDomain c x → g (c.toCart x) = x) ∧ ∀ p : Vec, p ≠ 0 → c.toCart (g p) = p

/-! ### C59: round trips -/

theorem radius_spherical {r θ φ : ℝ} (hr : 0 ≤ r) (p : Vec) (h0 : p 0 = r * sin θ * cos φ) (h1 : p 1 = r * sin θ * sin φ)
    (h2 : p 2 = r * cos θ) : radius p = r := by
  unfold radius
  rw [h0, h1, h2, show (r * sin θ * cos φ) ^ 2 + (r * sin θ * sin φ) ^ 2 + (r * cos θ) ^ 2 = r ^ 2 by
    linear_combination r ^ 2 * sin θ ^ 2 * sin_sq_add_cos_sq φ + r ^ 2 * sin_sq_add_cos_sq θ, sqrt_sq hr]

theorem vec3_ext {a b : Vec} (h0 : a 0 = b 0) (h1 : a 1 = b 1) (h2 : a 2 = b 2) : a = b := by
  funext i; fin_cases i <;> assumption

theorem inverse_sphericalLike {r s : ℝ → ℝ} {lo hi : Vec} (hpos : ∀ t, lo 0 < t → 0 < r t) (hs : ∀ t, s (r t) = t)
    (hr : ∀ t, r (s t) = t) (h1 : 0 ≤ lo 1) (h1' : hi 1 ≤ π) (h2 : -π ≤ lo 2) (h2' : hi 2 ≤ π)
    (o : Option (Vec → Vec)) :
    IsInverse (sphericalLike r lo hi o) (fun p => ![s (radius p), arccos (p 2 / radius p), atan2 (p 1) (p 0)]) := by
  constructor
  · intro x hx
    have k0 := hpos _ (hx 0).1
    have k1 : 0 < x 1 := lt_of_le_of_lt h1 (hx 1).1
    have k1' : x 1 < π := lt_of_lt_of_le (hx 1).2 h1'
    have k2 : -π < x 2 := lt_of_le_of_lt h2 (hx 2).1
    have k2' : x 2 ≤ π := ((hx 2).2.le).trans h2'
    have hsin : 0 < sin (x 1) := sin_pos_of_pos_of_lt_pi k1 k1'
    have hR : radius ((sphericalLike r lo hi o).toCart x) = r (x 0) :=
      radius_spherical (θ := x 1) (φ := x 2) k0.le _ (by simp [sphericalLike]) (by simp [sphericalLike])
        (by simp [sphericalLike])
    apply vec3_ext
    · show s (radius _) = _
      rw [hR, hs]
    · show arccos (_ / radius _) = _
      rw [hR]
      have : (sphericalLike r lo hi o).toCart x 2 / r (x 0) = cos (x 1) := by
        simp only [sphericalLike]; simp; field_simp
      rw [this, arccos_cos k1.le k1'.le]
    · show atan2 _ _ = _
      have e := atan2_polar (mul_pos k0 hsin) k2 k2'
      simpa [sphericalLike] using e
  · intro p hp
    obtain ⟨a, b, c⟩ := spherical_cart (radius_pos hp) (radius_sq p)
    apply vec3_ext <;> simp [sphericalLike, hr] <;> assumption

theorem inverse_cylindricalLike {rho z s t : ℝ → ℝ} {lo hi : Vec} (hpos : ∀ x, lo 0 < x → 0 < rho x)
    (hs : ∀ x, s (rho x) = x) (hr : ∀ x, rho (s x) = x) (ht : ∀ x, t (z x) = x) (hz : ∀ x, z (t x) = x)
    (h1 : -π ≤ lo 1) (h1' : hi 1 ≤ π) (o : Option (Vec → Vec)) :
    IsInverse (cylindricalLike rho z lo hi o) (fun p => ![s (√(p 0 ^ 2 + p 1 ^ 2)), atan2 (p 1) (p 0), t (p 2)]) := by
  constructor
  · intro x hx
    have k0 := hpos _ (hx 0).1
    have k1 : -π < x 1 := lt_of_le_of_lt h1 (hx 1).1
    have k1' : x 1 ≤ π := ((hx 1).2.le).trans h1'
    apply vec3_ext
    · show s (√(_ ^ 2 + _ ^ 2)) = _
      have : (cylindricalLike rho z lo hi o).toCart x 0 ^ 2 + (cylindricalLike rho z lo hi o).toCart x 1 ^ 2
          = rho (x 0) ^ 2 := by
        simp only [cylindricalLike]; simp
        linear_combination rho (x 0) ^ 2 * sin_sq_add_cos_sq (x 1)
      rw [this, sqrt_sq k0.le, hs]
    · show atan2 _ _ = _
      simpa [cylindricalLike] using atan2_polar k0 k1 k1'
    · show t _ = _
      simp [cylindricalLike, ht]
  · intro p _
    apply vec3_ext
    · simp [cylindricalLike, hr, cos_atan2]
    · simp [cylindricalLike, hr, sin_atan2]
    · simp [cylindricalLike, hz]

theorem inverse_cartesian (lo hi : Vec) : IsInverse (cartesian lo hi) fun p => ![p 0, p 1, p 2] :=
  ⟨fun x _ => vec3_ext rfl rfl rfl, fun p _ => vec3_ext rfl rfl rfl⟩

theorem inverse_sinhCartesian {ampl w : ℝ} (hA : 0 < ampl) (hw : 0 < w) :
    IsInverse (sinhCartesian ampl w) fun p => ![w * arsinh (p 0 * sinh (1 / w) / ampl),
      w * arsinh (p 1 * sinh (1 / w) / ampl), w * arsinh (p 2 * sinh (1 / w) / ampl)] :=
  ⟨fun x _ => vec3_ext (arsinh_sinhv1 hA hw) (arsinh_sinhv1 hA hw) (arsinh_sinhv1 hA hw),
    fun p _ => vec3_ext (sinhv1_arsinh hA hw) (sinhv1_arsinh hA hw) (sinhv1_arsinh hA hw)⟩

theorem arsinh_min_nonneg {ampl w rmin : ℝ} (hA : 0 < ampl) (hw : 0 < w) (hm : 0 < rmin) :
    0 ≤ w * arsinh (rmin * sinh (1 / w) / ampl) := by
  have h2 : 0 < sinh (1 / w) := sinh_pos_iff.2 (by positivity)
  have : 0 ≤ arsinh (rmin * sinh (1 / w) / ampl) := arsinh_nonneg_iff.2 (by positivity)
  positivity

theorem inverse_upperWedge {ampl w rmin : ℝ} (hA : 0 < ampl) (hw : 0 < w) (hm : 0 < rmin) :
    IsInverse (upperWedge ampl w rmin) fun p =>
      ![w * arsinh (radius p * sinh (1 / w) / ampl), arccos (-p 0 / radius p), atan2 (p 1) (p 2)] := by
  constructor
  · intro x hx
    have h0 : 0 < x 0 := lt_of_le_of_lt (arsinh_min_nonneg hA hw hm) (hx 0).1
    have k0 := sinhv1_pos hA hw h0
    have k1 : 1 / 4 * π < x 1 := (hx 1).1
    have k1' : x 1 < 3 / 4 * π := (hx 1).2
    have k2 : -π * (1 / 4) < x 2 := (hx 2).1
    have k2' : x 2 < π * (1 / 4) := (hx 2).2
    have hπ := pi_pos
    have hsin : 0 < sin (x 1) := sin_pos_of_pos_of_lt_pi (by linarith) (by linarith)
    have hR : radius ((upperWedge ampl w rmin).toCart x) = sinhv1 (x 0) ampl w := by
      unfold radius upperWedge wedge
      simp
      rw [show (sinhv1 (x 0) ampl w * cos (x 1)) ^ 2 + (sinhv1 (x 0) ampl w * sin (x 1) * sin (x 2)) ^ 2
        + (sinhv1 (x 0) ampl w * sin (x 1) * cos (x 2)) ^ 2 = sinhv1 (x 0) ampl w ^ 2 by
          linear_combination sinhv1 (x 0) ampl w ^ 2 * sin (x 1) ^ 2 * sin_sq_add_cos_sq (x 2)
            + sinhv1 (x 0) ampl w ^ 2 * sin_sq_add_cos_sq (x 1), sqrt_sq k0.le]
    apply vec3_ext
    · show w * arsinh (radius _ * _ / _) = _
      rw [hR, arsinh_sinhv1 hA hw]
    · show arccos (-_ / radius _) = _
      rw [hR]
      have : -(upperWedge ampl w rmin).toCart x 0 / sinhv1 (x 0) ampl w = cos (x 1) := by
        simp only [upperWedge, wedge]; simp; field_simp
      rw [this, arccos_cos (by linarith) (by linarith)]
    · show atan2 _ _ = _
      simpa [upperWedge, wedge] using atan2_polar (mul_pos k0 hsin) (by linarith : -π < x 2) (by linarith)
  · intro p hp
    obtain ⟨a, b, c⟩ := spherical_cart (x := p 2) (y := p 1) (z := -p 0) (radius_pos hp)
      (by rw [radius_sq]; ring)
    apply vec3_ext
    · show -sinhv1 (w * arsinh (radius p * sinh (1 / w) / ampl)) ampl w * cos (arccos _) = _
      rw [sinhv1_arsinh hA hw]; linarith
    · show sinhv1 (w * arsinh (radius p * sinh (1 / w) / ampl)) ampl w * sin (arccos _) * sin (atan2 _ _) = _
      rw [sinhv1_arsinh hA hw]; linarith
    · show sinhv1 (w * arsinh (radius p * sinh (1 / w) / ampl)) ampl w * sin (arccos _) * cos (atan2 _ _) = _
      rw [sinhv1_arsinh hA hw]; linarith

theorem inverse_lowerWedge {ampl w rmin : ℝ} (hA : 0 < ampl) (hw : 0 < w) (hm : 0 < rmin) :
    IsInverse (lowerWedge ampl w rmin) fun p =>
      ![w * arsinh (radius p * sinh (1 / w) / ampl), arccos (p 0 / radius p), atan2 (p 1) (-p 2)] := by
  constructor
  · intro x hx
    have h0 : 0 < x 0 := lt_of_le_of_lt (arsinh_min_nonneg hA hw hm) (hx 0).1
    have k0 := sinhv1_pos hA hw h0
    have k1 : 1 / 4 * π < x 1 := (hx 1).1
    have k1' : x 1 < 3 / 4 * π := (hx 1).2
    have k2 : -π * (1 / 4) < x 2 := (hx 2).1
    have k2' : x 2 < π * (1 / 4) := (hx 2).2
    have hπ := pi_pos
    have hsin : 0 < sin (x 1) := sin_pos_of_pos_of_lt_pi (by linarith) (by linarith)
    have hR : radius ((lowerWedge ampl w rmin).toCart x) = sinhv1 (x 0) ampl w := by
      unfold radius lowerWedge wedge
      simp
      rw [show (sinhv1 (x 0) ampl w * cos (x 1)) ^ 2 + (sinhv1 (x 0) ampl w * sin (x 1) * sin (x 2)) ^ 2
        + (sinhv1 (x 0) ampl w * sin (x 1) * cos (x 2)) ^ 2 = sinhv1 (x 0) ampl w ^ 2 by
          linear_combination sinhv1 (x 0) ampl w ^ 2 * sin (x 1) ^ 2 * sin_sq_add_cos_sq (x 2)
            + sinhv1 (x 0) ampl w ^ 2 * sin_sq_add_cos_sq (x 1), sqrt_sq k0.le]
    apply vec3_ext
    · show w * arsinh (radius _ * _ / _) = _
      rw [hR, arsinh_sinhv1 hA hw]
    · show arccos (_ / radius _) = _
      rw [hR]
      have : (lowerWedge ampl w rmin).toCart x 0 / sinhv1 (x 0) ampl w = cos (x 1) := by
        simp only [lowerWedge, wedge]; simp; field_simp
      rw [this, arccos_cos (by linarith) (by linarith)]
    · show atan2 _ _ = _
      simpa [lowerWedge, wedge] using atan2_polar (mul_pos k0 hsin) (by linarith : -π < x 2) (by linarith)
  · intro p hp
    obtain ⟨a, b, c⟩ := spherical_cart (x := -p 2) (y := p 1) (z := p 0) (radius_pos hp)
      (by rw [radius_sq]; ring)
    apply vec3_ext
    · show sinhv1 (w * arsinh (radius p * sinh (1 / w) / ampl)) ampl w * cos (arccos _) = _
      rw [sinhv1_arsinh hA hw]; linarith
    · show sinhv1 (w * arsinh (radius p * sinh (1 / w) / ampl)) ampl w * sin (arccos _) * sin (atan2 _ _) = _
      rw [sinhv1_arsinh hA hw]; linarith
    · show -sinhv1 (w * arsinh (radius p * sinh (1 / w) / ampl)) ampl w * sin (arccos _) * cos (atan2 _ _) = _
      rw [sinhv1_arsinh hA hw]; linarith

/-! Prolate spheroidal coordinates -/

theorem innerRoot_eq {b : ℝ} {p : Vec} (hp : p ≠ 0) : innerRoot b p = √((radius p ^ 2 + b ^ 2) ^ 2 - 4 * b ^ 2 * p 2 ^ 2) := by
  have hr := radius_pos hp
  have hz : |p 2 / radius p| ≤ 1 := by
    rw [abs_div, abs_of_pos hr, div_le_one hr]
    exact abs_le_of_sq_le_sq (by rw [radius_sq]; nlinarith [sq_nonneg (p 0), sq_nonneg (p 1)]) hr.le
  unfold innerRoot
  rw [cos_arccos (abs_le.1 hz).1 (abs_le.1 hz).2]
  congr 1
  field_simp
  ring

/-- On the coordinate surfaces the root is rational in `AA` and the angle. -/
theorem innerRoot_toCart {a b s c : ℝ} {p : Vec} (hp : p ≠ 0) (hsc : s ^ 2 + c ^ 2 = 1)
    (hρ : p 0 ^ 2 + p 1 ^ 2 = (a * s) ^ 2) (hz : p 2 ^ 2 = (a ^ 2 + b ^ 2) * c ^ 2) :
    innerRoot b p = a ^ 2 + b ^ 2 * s ^ 2 := by
  rw [innerRoot_eq hp, radius_sq, hρ, hz]
  have hc : c ^ 2 = 1 - s ^ 2 := by linarith
  rw [show (((a * s) ^ 2 + (a ^ 2 + b ^ 2) * c ^ 2) + b ^ 2) ^ 2 - 4 * b ^ 2 * ((a ^ 2 + b ^ 2) * c ^ 2)
    = (a ^ 2 + b ^ 2 * s ^ 2) ^ 2 by rw [hc]; ring]
  exact sqrt_sq (by positivity)

theorem one_div_sqrt2_mul (x : ℝ) : √x * (1 / √2) = √(x / 2) := by
  rw [sqrt_div' _ (by norm_num)]; ring

theorem ofCartSymTP_toCart {aa : ℝ → ℝ} {b : ℝ} {hi : Vec} (hb : 0 < b) {x : Vec} (ha : 0 < aa (x 0)) (k1 : 0 < x 1)
    (k1' : x 1 < π) (k2 : -π < x 2) (k2' : x 2 ≤ π) :
    ofCartSymTP b ((symTPLike aa b hi).toCart x) = ![aa (x 0), x 1, x 2] := by
  set p := (symTPLike aa b hi).toCart x with hpdef
  have p0 : p 0 = aa (x 0) * sin (x 1) * cos (x 2) := by simp [hpdef, symTPLike]
  have p1 : p 1 = aa (x 0) * sin (x 1) * sin (x 2) := by simp [hpdef, symTPLike]
  have p2 : p 2 = √(aa (x 0) ^ 2 + b ^ 2) * cos (x 1) := by simp [hpdef, symTPLike]
  have hsin : 0 < sin (x 1) := sin_pos_of_pos_of_lt_pi k1 k1'
  have hρ : p 0 ^ 2 + p 1 ^ 2 = (aa (x 0) * sin (x 1)) ^ 2 := by
    rw [p0, p1]; linear_combination (aa (x 0) * sin (x 1)) ^ 2 * sin_sq_add_cos_sq (x 2)
  have hv : 0 < aa (x 0) ^ 2 + b ^ 2 := by positivity
  have hz : p 2 ^ 2 = (aa (x 0) ^ 2 + b ^ 2) * cos (x 1) ^ 2 := by
    rw [p2, mul_pow, sq_sqrt hv.le]
  have hp : p ≠ 0 := by
    intro h
    rw [h] at hρ
    have : 0 < (aa (x 0) * sin (x 1)) ^ 2 := by positivity
    have h0 : (0 : Vec) 0 ^ 2 + (0 : Vec) 1 ^ 2 = 0 := by simp
    rw [h0] at hρ
    linarith
  have hroot := innerRoot_toCart (b := b) hp (sin_sq_add_cos_sq (x 1)) hρ hz
  have hcos : cos (x 1) ^ 2 = 1 - sin (x 1) ^ 2 := by linarith [sin_sq_add_cos_sq (x 1)]
  have hR : radius p ^ 2 = (aa (x 0) * sin (x 1)) ^ 2 + (aa (x 0) ^ 2 + b ^ 2) * cos (x 1) ^ 2 := by
    rw [radius_sq, hρ, hz]
  unfold ofCartSymTP
  rw [hroot, hR]
  apply vec3_ext
  · show √_ * (1 / √2) = aa (x 0)
    rw [one_div_sqrt2_mul, show (-b ^ 2 + ((aa (x 0) * sin (x 1)) ^ 2 + (aa (x 0) ^ 2 + b ^ 2) * cos (x 1) ^ 2)
      + (aa (x 0) ^ 2 + b ^ 2 * sin (x 1) ^ 2)) / 2 = aa (x 0) ^ 2 by rw [hcos]; ring, sqrt_sq ha.le]
  · show arccos (_ * (√_ * (1 / √2))) = x 1
    rw [one_div_sqrt2_mul, show (1 + ((aa (x 0) * sin (x 1)) ^ 2 + (aa (x 0) ^ 2 + b ^ 2) * cos (x 1) ^ 2) / b ^ 2
      - (aa (x 0) ^ 2 + b ^ 2 * sin (x 1) ^ 2) / b ^ 2) / 2 = cos (x 1) ^ 2 by
        rw [hcos]; field_simp; ring, sqrt_sq_eq_abs]
    have hsgn : SignType.sign (p 2) = SignType.sign (cos (x 1)) := by
      rw [p2, sign_mul, sign_pos (sqrt_pos.2 hv), one_mul]
    rw [hsgn, sign_mul_abs, arccos_cos k1.le k1'.le]
  · show atan2 (p 1) (p 0) = x 2
    rw [p0, p1, atan2_polar (mul_pos ha hsin) k2 k2']

theorem symTP_ofCart {b : ℝ} {hi : Vec} (hb : 0 < b) {p : Vec} (hp : p ≠ 0) :
    (symTPLike (fun t => t) b hi).toCart (ofCartSymTP b p) = p := by
  have hroot := innerRoot_eq (b := b) hp
  set R := innerRoot b p with hRdef
  set r2 := radius p ^ 2 with hr2
  have hr2' : r2 = p 0 ^ 2 + p 1 ^ 2 + p 2 ^ 2 := radius_sq p
  have hb2 : 0 < b ^ 2 := by positivity
  have hz2 : p 2 ^ 2 ≤ r2 := by rw [hr2']; nlinarith [sq_nonneg (p 0), sq_nonneg (p 1)]
  have hdisc : (r2 - b ^ 2) ^ 2 ≤ (r2 + b ^ 2) ^ 2 - 4 * b ^ 2 * p 2 ^ 2 := by nlinarith
  have hR2 : R ^ 2 = (r2 + b ^ 2) ^ 2 - 4 * b ^ 2 * p 2 ^ 2 := by
    rw [hroot, sq_sqrt (le_trans (sq_nonneg _) hdisc)]
  have hR0 : 0 ≤ R := by rw [hroot]; exact sqrt_nonneg _
  have hRabs : |r2 - b ^ 2| ≤ R := abs_le_of_sq_le_sq (by rw [hR2]; exact hdisc) hR0
  have hRle : R ≤ r2 + b ^ 2 := by
    apply le_of_sq_le_sq (by rw [hR2]; nlinarith [sq_nonneg (p 2)])
    rw [hr2]; positivity
  have h1 := (abs_le.1 hRabs).1
  have h2 := (abs_le.1 hRabs).2
  have hA0 : 0 ≤ (-b ^ 2 + r2 + R) / 2 := by linarith
  have hC0 : 0 ≤ (1 + r2 / b ^ 2 - R / b ^ 2) / 2 := by
    rw [show (1 + r2 / b ^ 2 - R / b ^ 2) / 2 = (b ^ 2 + r2 - R) / (2 * b ^ 2) by field_simp]
    apply div_nonneg _ (by positivity); linarith
  have hC1 : (1 + r2 / b ^ 2 - R / b ^ 2) / 2 ≤ 1 := by
    rw [show (1 + r2 / b ^ 2 - R / b ^ 2) / 2 = (b ^ 2 + r2 - R) / (2 * b ^ 2) by field_simp, div_le_one (by positivity)]
    linarith
  set A := √((-b ^ 2 + r2 + R) / 2) with hA
  set C := √((1 + r2 / b ^ 2 - R / b ^ 2) / 2) with hC
  have hA2 : A ^ 2 = (-b ^ 2 + r2 + R) / 2 := sq_sqrt hA0
  have hC2 : C ^ 2 = (1 + r2 / b ^ 2 - R / b ^ 2) / 2 := sq_sqrt hC0
  have hCle : C ≤ 1 := sqrt_le_one.2 hC1
  have hCnn : 0 ≤ C := sqrt_nonneg _
  have hsg : |((SignType.sign (p 2) : SignType) : ℝ) * C| ≤ 1 := by
    rw [abs_mul, abs_of_nonneg hCnn]
    have : |((SignType.sign (p 2) : SignType) : ℝ)| ≤ 1 := by
      rcases lt_trichotomy (p 2) 0 with h | h | h
      · simp [sign_neg h]
      · simp [h]
      · simp [sign_pos h]
    nlinarith
  have hkey : (A ^ 2 + b ^ 2) * C ^ 2 = p 2 ^ 2 := by
    rw [hA2, hC2]; field_simp; nlinarith
  have hAv : √(A ^ 2 + b ^ 2) * C = |p 2| := by
    rw [← sqrt_sq hCnn, ← sqrt_mul (by positivity), hkey, sqrt_sq_eq_abs]
  have hof : ofCartSymTP b p = ![A, arccos (SignType.sign (p 2) * C), atan2 (p 1) (p 0)] := by
    unfold ofCartSymTP
    rw [one_div_sqrt2_mul, one_div_sqrt2_mul]
  rw [hof]
  have hsin : A * sin (arccos (SignType.sign (p 2) * C)) = √(p 0 ^ 2 + p 1 ^ 2) := by
    rw [sin_arccos]
    by_cases hz : p 2 = 0
    · have hR' : R = r2 + b ^ 2 := by
        rw [hroot, hz]
        rw [show (r2 + b ^ 2) ^ 2 - 4 * b ^ 2 * (0 : ℝ) ^ 2 = (r2 + b ^ 2) ^ 2 by ring]
        exact sqrt_sq (by rw [hr2]; positivity)
      have : A = √(p 0 ^ 2 + p 1 ^ 2) := by
        rw [hA, hR', hr2', hz]; congr 1; ring
      simp [hz, this]
    · have hs2 : (((SignType.sign (p 2) : SignType) : ℝ) * C) ^ 2 = C ^ 2 := by
        rcases lt_or_gt_of_ne hz with h | h
        · simp [sign_neg h]
        · simp [sign_pos h]
      have hAs : A = √(A ^ 2) := (sqrt_sq (sqrt_nonneg _)).symm
      rw [hs2, hAs, ← sqrt_mul (sq_nonneg _)]
      congr 1
      have : A ^ 2 * C ^ 2 = p 2 ^ 2 - b ^ 2 * C ^ 2 := by linarith
      rw [mul_sub, mul_one, this, hA2, hC2]
      rw [hr2']; field_simp; ring
  apply vec3_ext
  · show A * sin (arccos _) * cos (atan2 _ _) = _
    rw [hsin, cos_atan2]
  · show A * sin (arccos _) * sin (atan2 _ _) = _
    rw [hsin, sin_atan2]
  · show √(A ^ 2 + b ^ 2) * cos (arccos _) = _
    rw [cos_arccos (abs_le.1 hsg).1 (abs_le.1 hsg).2]
    rw [show √(A ^ 2 + b ^ 2) * (((SignType.sign (p 2) : SignType) : ℝ) * C)
      = ((SignType.sign (p 2) : SignType) : ℝ) * (√(A ^ 2 + b ^ 2) * C) by ring, hAv, sign_mul_abs]

end Verif.RefMetric
