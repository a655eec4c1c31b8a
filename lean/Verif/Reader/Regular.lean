import Verif.CurviBC.PartnerClaims

/-!
# C102: where `Cart_to_xx` and the scale factors are regular
-/
namespace Verif.Reader
open Verif.Py Verif.RefMetric Verif.CurviBC Real

/-- Coordinates at which the coordinate system is regular and `Cart_to_xx` is its inverse, without an upper bound on the
radius: in the Cartesian systems all, else off the axis, with angles in their ranges. -/
def Regular (name : Str) (x : Vec) : Prop :=
  if containsSub (c% "Cartesian") name then True
  else if containsSub (c% "Spherical") name || containsSub (c% "Wedge") name || containsSub (c% "SymTP") name then
    0 < x 0 ∧ (0 < x 1 ∧ x 1 < π) ∧ -π < x 2 ∧ x 2 ≤ π
  else 0 < x 0 ∧ -π < x 1 ∧ x 1 ≤ π

/-! ### Inverses -/

/-- Spherical coordinates of a point given by them. -/
theorem sph_inv {r θ φ : ℝ} (hr : 0 < r) (h1 : 0 < θ) (h1' : θ < π) (h2 : -π < φ) (h2' : φ ≤ π) {p : Vec}
    (p0 : p 0 = r * sin θ * cos φ) (p1 : p 1 = r * sin θ * sin φ) (p2 : p 2 = r * cos θ) :
    radius p = r ∧ arccos (p 2 / radius p) = θ ∧ atan2 (p 1) (p 0) = φ := by
  have e := radius_spherical hr.le p p0 p1 p2
  refine ⟨e, ?_, ?_⟩
  · rw [e, p2, mul_div_cancel_left₀ _ hr.ne', arccos_cos h1.le h1'.le]
  · rw [p0, p1]
    exact atan2_polar (mul_pos hr (sin_pos_of_pos_of_lt_pi h1 h1')) h2 h2'

/-- Cylindrical coordinates of a point given by them. -/
theorem cyl_inv {rho φ : ℝ} (hr : 0 < rho) (h2 : -π < φ) (h2' : φ ≤ π) {p : Vec} (p0 : p 0 = rho * cos φ)
    (p1 : p 1 = rho * sin φ) : √(p 0 ^ 2 + p 1 ^ 2) = rho ∧ atan2 (p 1) (p 0) = φ := by
  constructor
  · rw [p0, p1, show (rho * cos φ) ^ 2 + (rho * sin φ) ^ 2 = rho ^ 2 by
      linear_combination rho ^ 2 * sin_sq_add_cos_sq φ]
    exact sqrt_sq hr.le
  · rw [p0, p1]
    exact atan2_polar hr h2 h2'

theorem radius_perm (a b c : ℝ) : radius ![c, b, -a] = radius ![a, b, c] ∧ radius ![-c, b, a] = radius ![a, b, c] := by
  unfold radius
  constructor <;> congr 1 <;> simp <;> ring

theorem vec_eta (p : Vec) : ![p 0, p 1, p 2] = p := vec3_ext rfl rfl rfl

section
variable {P : CoordParams} (hP : ValidParams P)
include hP

theorem regular_scale {name : Str} {c : Coords} (h : choose P name = .sys c) {x : Vec} (hx : Regular name x)
    (hv : c.ofCart.isSome) : ∀ i, c.scale x i ≠ 0 := by
  have hA := hP.ampl
  have hw := hP.w
  have sph : ∀ {r : ℝ → ℝ}, (∀ t, 0 < t → 0 < r t) → (∀ t, deriv r t ≠ 0) → (0 < x 0 ∧ (0 < x 1 ∧ x 1 < π) ∧ -π < x 2 ∧ x 2 ≤ π) →
      ∀ i, (![deriv r (x 0), r (x 0), r (x 0) * sin (x 1)] : Vec) i ≠ 0 := by
    intro r hr hd ⟨k0, k1, _⟩ i
    have s := (sin_pos_of_pos_of_lt_pi k1.1 k1.2).ne'
    have r0 := (hr _ k0).ne'
    fin_cases i
    · exact hd _
    · exact r0
    · exact mul_ne_zero r0 s
  have pS : ∀ t, 0 < t → 0 < sinhv1 t P.ampl P.w := fun t ht => sinhv1_pos hA hw ht
  have dS : ∀ t, deriv (fun t => sinhv1 t P.ampl P.w) t ≠ 0 := fun t => (deriv_sinhv1_pos hA hw t).ne'
  cases known_of_choose h with
  | cartesian => intro i; fin_cases i <;> simp [cartesian]
  | sinhCartesian => intro i; fin_cases i <;> exact dS _
  | spherical => exact sph (r := fun t => t) (fun t ht => ht) (fun t => by simp) hx
  | sinhSpherical n hs hh hc =>
    have e : containsSub (c% "Cartesian") name = false := by
      rw [Bool.eq_false_iff]; exact fun t => hc ((CFunction.containsSub_iff _ _).1 t)
    have e2 : containsSub (c% "Spherical") name = true := by
      refine (CFunction.containsSub_iff _ _).2 (List.IsInfix.trans ?_ hs.isInfix)
      exact ⟨(c% "Sinh"), [], rfl⟩
    refine sph pS dS ?_
    simpa [Regular, e, e2] using hx
  | holey => exact sph pS dS hx
  | ringHoley => exact sph pS dS hx
  | sphericalv2 => cases hv
  | upper => exact sph pS dS hx
  | lower => exact sph pS dS hx
  | symTP =>
    have hx' : 0 < x 0 ∧ (0 < x 1 ∧ x 1 < π) ∧ -π < x 2 ∧ x 2 ≤ π := hx
    have s := (sin_pos_of_pos_of_lt_pi hx'.2.1.1 hx'.2.1.2).ne'
    have v1 : √(x 0 ^ 2 + (P.b * sin (x 1)) ^ 2) ≠ 0 := (sqrt_pos.2 (by have := hx'.1; positivity)).ne'
    have v2 : √(x 0 ^ 2 + P.b ^ 2) ≠ 0 := (sqrt_pos.2 (by have := hx'.1; positivity)).ne'
    intro i
    fin_cases i
    · show deriv (fun t : ℝ => t) (x 0) * _ / _ ≠ 0
      rw [show deriv (fun t : ℝ => t) (x 0) = 1 by simp, one_mul]
      exact div_ne_zero v1 v2
    · exact v1
    · exact mul_ne_zero hx'.1.ne' s
  | sinhSymTP =>
    have hx' : 0 < x 0 ∧ (0 < x 1 ∧ x 1 < π) ∧ -π < x 2 ∧ x 2 ≤ π := hx
    have k := sinhv1_pos hP.amax hP.waa hx'.1
    have s := (sin_pos_of_pos_of_lt_pi hx'.2.1.1 hx'.2.1.2).ne'
    have v1 : √(sinhv1 (x 0) P.amax P.waa ^ 2 + (P.b * sin (x 1)) ^ 2) ≠ 0 := (sqrt_pos.2 (by positivity)).ne'
    have v2 : √(sinhv1 (x 0) P.amax P.waa ^ 2 + P.b ^ 2) ≠ 0 := (sqrt_pos.2 (by positivity)).ne'
    intro i
    fin_cases i
    · exact div_ne_zero (mul_ne_zero (deriv_sinhv1_pos hP.amax hP.waa _).ne' v1) v2
    · exact v1
    · exact mul_ne_zero k.ne' s
  | cylindrical =>
    have hx' : 0 < x 0 ∧ -π < x 1 ∧ x 1 ≤ π := hx
    intro i
    fin_cases i
    · show deriv (fun t : ℝ => t) (x 0) ≠ 0; simp
    · exact hx'.1.ne'
    · show deriv (fun t : ℝ => t) (x 2) ≠ 0; simp
  | sinhCylindrical =>
    have hx' : 0 < x 0 ∧ -π < x 1 ∧ x 1 ≤ π := hx
    intro i
    fin_cases i
    · exact dS _
    · exact (pS _ hx'.1).ne'
    · exact (deriv_sinhv1_pos hP.amplz hP.wz _).ne'
  | cylindricalv2 => cases hv

theorem regular_inv {name : Str} {c : Coords} (h : choose P name = .sys c) (hn : name ≠ (c% "SinhSymTP")) {x : Vec}
    (hx : Regular name x) {g : Vec → Vec} (hg : c.ofCart = some g) : g (c.toCart x) = x := by
  have hA := hP.ampl
  have hw := hP.w
  have sph : (0 < x 0 ∧ (0 < x 1 ∧ x 1 < π) ∧ -π < x 2 ∧ x 2 ≤ π) →
      ofCartSinhSph P.ampl P.w ![sinhv1 (x 0) P.ampl P.w * sin (x 1) * cos (x 2),
        sinhv1 (x 0) P.ampl P.w * sin (x 1) * sin (x 2), sinhv1 (x 0) P.ampl P.w * cos (x 1)] = x := by
    intro ⟨k0, k1, k2⟩
    obtain ⟨e1, e2, e3⟩ := sph_inv (sinhv1_pos hA hw k0) k1.1 k1.2 k2.1 k2.2
      (p := ![sinhv1 (x 0) P.ampl P.w * sin (x 1) * cos (x 2), sinhv1 (x 0) P.ampl P.w * sin (x 1) * sin (x 2),
        sinhv1 (x 0) P.ampl P.w * cos (x 1)]) rfl rfl rfl
    unfold ofCartSinhSph
    refine vec3_ext ?_ e2 e3
    rw [e1]
    exact arsinh_sinhv1 hA hw
  cases known_of_choose h with
  | cartesian => cases hg; exact vec3_ext rfl rfl rfl
  | sinhCartesian => cases hg; exact vec3_ext (arsinh_sinhv1 hA hw) (arsinh_sinhv1 hA hw) (arsinh_sinhv1 hA hw)
  | spherical =>
    cases hg
    obtain ⟨k0, k1, k2⟩ : 0 < x 0 ∧ (0 < x 1 ∧ x 1 < π) ∧ -π < x 2 ∧ x 2 ≤ π := hx
    obtain ⟨e1, e2, e3⟩ := sph_inv k0 k1.1 k1.2 k2.1 k2.2 (p := (spherical P.rmax).toCart x) rfl rfl rfl
    exact vec3_ext e1 e2 e3
  | sinhSpherical n hs hh hc =>
    cases hg
    have e : containsSub (c% "Cartesian") name = false := by
      rw [Bool.eq_false_iff]; exact fun t => hc ((CFunction.containsSub_iff _ _).1 t)
    have e2 : containsSub (c% "Spherical") name = true := by
      refine (CFunction.containsSub_iff _ _).2 (List.IsInfix.trans ?_ hs.isInfix)
      exact ⟨(c% "Sinh"), [], rfl⟩
    exact sph (by simpa [Regular, e, e2] using hx)
  | holey => cases hg; exact sph hx
  | ringHoley => cases hg; exact sph hx
  | sphericalv2 => cases hg
  | upper =>
    cases hg
    obtain ⟨k0, k1, k2⟩ : 0 < x 0 ∧ (0 < x 1 ∧ x 1 < π) ∧ -π < x 2 ∧ x 2 ≤ π := hx
    set r := sinhv1 (x 0) P.ampl P.w with hr
    obtain ⟨e1, e2, e3⟩ := sph_inv (sinhv1_pos hA hw k0) k1.1 k1.2 k2.1 k2.2
      (p := ![r * sin (x 1) * cos (x 2), r * sin (x 1) * sin (x 2), -(-r * cos (x 1))]) rfl rfl
      (by show -(-r * cos (x 1)) = _; ring)
    have e0 := (radius_perm (-r * cos (x 1)) (r * sin (x 1) * sin (x 2)) (r * sin (x 1) * cos (x 2))).1
    rw [e0] at e1 e2
    refine vec3_ext ?_ e2 e3
    show P.w * arsinh (radius ![-r * cos (x 1), r * sin (x 1) * sin (x 2), r * sin (x 1) * cos (x 2)] * _ / _) = _
    rw [e1]
    exact arsinh_sinhv1 hA hw
  | lower =>
    cases hg
    obtain ⟨k0, k1, k2⟩ : 0 < x 0 ∧ (0 < x 1 ∧ x 1 < π) ∧ -π < x 2 ∧ x 2 ≤ π := hx
    set r := sinhv1 (x 0) P.ampl P.w with hr
    obtain ⟨e1, e2, e3⟩ := sph_inv (sinhv1_pos hA hw k0) k1.1 k1.2 k2.1 k2.2
      (p := ![-(-r * sin (x 1) * cos (x 2)), r * sin (x 1) * sin (x 2), r * cos (x 1)])
      (by show -(-r * sin (x 1) * cos (x 2)) = _; ring) rfl rfl
    have e0 := (radius_perm (r * cos (x 1)) (r * sin (x 1) * sin (x 2)) (-r * sin (x 1) * cos (x 2))).2
    rw [e0] at e1 e2
    refine vec3_ext ?_ e2 e3
    show P.w * arsinh (radius ![r * cos (x 1), r * sin (x 1) * sin (x 2), -r * sin (x 1) * cos (x 2)] * _ / _) = _
    rw [e1]
    exact arsinh_sinhv1 hA hw
  | symTP =>
    cases hg
    obtain ⟨k0, k1, k2⟩ : 0 < x 0 ∧ (0 < x 1 ∧ x 1 < π) ∧ -π < x 2 ∧ x 2 ≤ π := hx
    show ofCartSymTP P.b ((symTPLike (fun t => t) P.b _).toCart x) = x
    rw [ofCartSymTP_toCart hP.b k0 k1.1 k1.2 k2.1 k2.2]
    exact vec3_ext rfl rfl rfl
  | sinhSymTP => exact absurd rfl hn
  | cylindrical =>
    cases hg
    obtain ⟨k0, k1⟩ : 0 < x 0 ∧ -π < x 1 ∧ x 1 ≤ π := hx
    obtain ⟨e1, e2⟩ := cyl_inv k0 k1.1 k1.2 (p := (cylindrical P.rhomax P.zmin P.zmax).toCart x) rfl rfl
    exact vec3_ext e1 e2 rfl
  | sinhCylindrical =>
    cases hg
    obtain ⟨k0, k1⟩ : 0 < x 0 ∧ -π < x 1 ∧ x 1 ≤ π := hx
    obtain ⟨e1, e2⟩ := cyl_inv (sinhv1_pos hA hw k0) k1.1 k1.2
      (p := (sinhCylindrical P.ampl P.w P.amplz P.wz).toCart x) rfl rfl
    refine vec3_ext ?_ e2 (arsinh_sinhv1 hP.amplz hP.wz)
    show P.w * arsinh (√(_ ^ 2 + _ ^ 2) * _ / _) = _
    rw [e1]
    exact arsinh_sinhv1 hA hw
  | cylindricalv2 => cases hg

end

/-! ### Points of the grid -/

section
variable {P : CoordParams} (hP : ValidParams P) {name : Str} {c : Coords} (h : choose P name = .sys c) {e : Str} {eig : Coords}
  (he : eigenName name = some e) (hE : choose P e = .sys eig) {eps : ℝ} (hε : 0 < eps) {G : Grid} (hG : GoodGrid name c G)

include hP h he hE hε hG in
theorem settled_ends {p : Idx} (hp : G.Has p) (ho : G.Ghost p → Outer G (mapsOf eps G c eig) p) (d : Fin 3) :
    (p d < G.g → (outerEnds name d).1 = true) ∧ (G.n d - G.g ≤ p d → (outerEnds name d).2 = true) := by
  by_cases hg : G.Ghost p
  · exact (C67_outer hP h he hE hε hG hg).1 (ho hg) d
  · unfold Grid.Ghost at hg
    push Not at hg
    have := hg hp d
    constructor <;> intro <;> omega

theorem xx_gt_min {d : Fin 3} (hdx : 0 < dxx G c d) {j : ℤ} (hj : (G.g : ℤ) ≤ j) : c.xxmin d < xx G c d j := by
  have : (0 : ℝ) ≤ ((j - G.g : ℤ) : ℝ) := by exact_mod_cast (by omega)
  unfold xx
  nlinarith

theorem xx_lt_max {d : Fin 3} (hn : 2 * (G.g : ℤ) < G.n d) (hdx : 0 < dxx G c d) {j : ℤ} (hj : j < G.n d - G.g) :
    xx G c d j < c.xxmax d := by
  have hj' : (j : ℝ) + 1 ≤ G.n d - G.g := by exact_mod_cast hj
  have hN : (0 : ℝ) < ((G.n d - 2 * G.g : ℤ) : ℝ) := by exact_mod_cast (by omega)
  have e : c.xxmax d = c.xxmin d + ((G.n d - 2 * G.g : ℤ) : ℝ) * dxx G c d := by
    unfold dxx; field_simp; ring
  unfold xx
  rw [e]
  push_cast
  nlinarith

include hP h he hE hε hG in
/-- On a good grid of any system with a `Cart_to_xx` but the wedges, the points of the interior and of the outer boundary are regular. -/
theorem regular_settled (hv : c.ofCart.isSome) (hw : containsSub (c% "Wedge") name = false) {p : Idx} (hp : G.Has p)
    (ho : G.Ghost p → Outer G (mapsOf eps G c eig) p) : Regular name (xxAt G c p) := by
  have E := settled_ends hP h he hE hε hG hp ho
  have hdx := fun d => dxx_pos (hG.size d) (hG.range d)
  have lo : ∀ d, (outerEnds name d).1 = false → c.xxmin d < xx G c d (p d) := fun d hd => by
    refine xx_gt_min (hdx d) (le_of_not_gt fun t => ?_)
    have := (E d).1 t
    rw [hd] at this
    cases this
  have hi : ∀ d, (outerEnds name d).2 = false → xx G c d (p d) < c.xxmax d := fun d hd => by
    refine xx_lt_max (hG.size d) (hdx d) (lt_of_not_ge fun t => ?_)
    have := (E d).2 t
    rw [hd] at this
    cases this
  have full : ∀ {nm : Str}, nm = name → outerEnds nm 0 = (false, true) → outerEnds nm 1 = (false, false) →
      outerEnds nm 2 = (false, false) → c.xxmin 0 = 0 → c.xxmin 1 = 0 → c.xxmax 1 = π → c.xxmin 2 = -π → c.xxmax 2 = π →
      0 < xx G c 0 (p 0) ∧ (0 < xx G c 1 (p 1) ∧ xx G c 1 (p 1) < π) ∧ -π < xx G c 2 (p 2) ∧ xx G c 2 (p 2) ≤ π := by
    rintro nm rfl o0 o1 o2 a b b' d d'
    have k0 := lo 0 (by rw [o0])
    have k1 := lo 1 (by rw [o1])
    have k1' := hi 1 (by rw [o1])
    have k2 := lo 2 (by rw [o2])
    have k2' := hi 2 (by rw [o2])
    rw [a] at k0; rw [b] at k1; rw [b'] at k1'; rw [d] at k2; rw [d'] at k2'
    exact ⟨k0, ⟨k1, k1'⟩, k2, k2'.le⟩
  have cyl : ∀ {nm : Str}, nm = name → outerEnds nm 0 = (false, true) → outerEnds nm 1 = (false, false) → c.xxmin 0 = 0 →
      c.xxmin 1 = -π → c.xxmax 1 = π → 0 < xx G c 0 (p 0) ∧ -π < xx G c 1 (p 1) ∧ xx G c 1 (p 1) ≤ π := by
    rintro nm rfl o0 o1 a b b'
    have k0 := lo 0 (by rw [o0])
    have k1 := lo 1 (by rw [o1])
    have k1' := hi 1 (by rw [o1])
    rw [a] at k0; rw [b] at k1; rw [b'] at k1'
    exact ⟨k0, k1, k1'.le⟩
  cases known_of_choose h with
  | cartesian => trivial
  | sinhCartesian => trivial
  | spherical => exact full rfl (by decide) (by decide) (by decide) rfl rfl rfl rfl rfl
  | sinhSpherical n hs hh hc =>
    have e1 : containsSub (c% "Cartesian") name = false := by
      rw [Bool.eq_false_iff]; exact fun t => hc ((CFunction.containsSub_iff _ _).1 t)
    have e2 : containsSub (c% "Spherical") name = true := by
      refine (CFunction.containsSub_iff _ _).2 (List.IsInfix.trans ?_ hs.isInfix)
      exact ⟨(c% "Sinh"), [], rfl⟩
    have n1 : name ≠ (c% "HoleySinhSpherical") := by
      rintro rfl; exact hh List.infix_rfl
    have n2 : name ≠ (c% "RingHoleySinhSpherical") := by
      rintro rfl; exact hh ⟨(c% "Ring"), [], rfl⟩
    have e3 : eigenName name = some (c% "Spherical") := by simp [eigenName, e1, e2]
    have := full rfl (by simp [outerEnds, e3, n1, n2]) (by simp [outerEnds, e3, n1, n2]) (by simp [outerEnds, e3, n1, n2])
      rfl rfl rfl rfl rfl
    simpa [Regular, e1, e2, xxAt] using this
  | holey =>
    have k0 := xx_gt (hdx 0) (hG.hole (.inl rfl)) (hp 0).1
    exact ⟨k0, ⟨lo 1 (by decide), hi 1 (by decide)⟩, lo 2 (by decide), (hi 2 (by decide)).le⟩
  | ringHoley =>
    have k0 := xx_gt (hdx 0) (hG.hole (.inr rfl)) (hp 0).1
    have S := sphGrid_of hG (by decide) rfl rfl (fun h => absurd h (by decide)) (fun h => absurd h (by decide))
      (fun _ => ⟨rfl, rfl⟩)
    obtain ⟨-, s1, s2⟩ := S.hole1 (by decide)
    exact ⟨k0, ⟨xx_gt (hdx 1) s1 (hp 1).1, xx_lt (hdx 1) s2 (hG.size 1) (hp 1).2⟩, lo 2 (by decide), (hi 2 (by decide)).le⟩
  | sphericalv2 => cases hv
  | upper => exact absurd hw (by decide)
  | lower => exact absurd hw (by decide)
  | symTP => exact full rfl (by decide) (by decide) (by decide) rfl rfl rfl rfl rfl
  | sinhSymTP => exact full rfl (by decide) (by decide) (by decide) rfl rfl rfl rfl rfl
  | cylindrical => exact cyl rfl (by decide) (by decide) rfl rfl rfl
  | sinhCylindrical => exact cyl rfl (by decide) (by decide) rfl rfl rfl
  | cylindricalv2 => cases hv

end

end Verif.Reader
