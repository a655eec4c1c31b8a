import Verif.Diag.Points
import Verif.CurviBC.EigenClaims

/-!
Lemmas: the coordinate systems by shape.
-/
namespace Verif.Diag
open Verif.Py Verif.RefMetric Verif.CurviBC Real

/-- The five families of coordinate systems. -/
def families : List Str := [(c% "Cartesian"), (c% "Spherical"), (c% "Cylindrical"), (c% "SymTP"), (c% "Wedge")]

/-- A name that is in one family only, and that has a ring only if it is the system with a ring.  (Without this, names such
as `CylindricalSinhSpherical` are accepted.) -/
structure Plain (name : Str) : Prop where
  one : ∀ a ∈ families, ∀ b ∈ families, containsSub a name = true → containsSub b name = true → a = b
  ring : containsSub (c% "Ring") name = true → name = (c% "RingHoleySinhSpherical")

/-- The ranges of coordinates that are Cartesian are symmetric. -/
def Centred (name : Str) (c : Coords) : Prop :=
  (containsSub (c% "Cartesian") name = true → ∀ d, c.xxmin d = -c.xxmax d) ∧
    (containsSub (c% "Cylindrical") name = true → c.xxmin 2 = -c.xxmax 2)

/-- Farther from zero is mapped farther from zero. -/
def AbsMono (f : ℝ → ℝ) : Prop := ∀ a b : ℝ, |a| ≤ |b| → |f a| ≤ |f b|

theorem AbsMono.of_odd {f : ℝ → ℝ} (ho : ∀ t, f (-t) = -f t) (hn : ∀ t, 0 ≤ t → 0 ≤ f t)
    (hm : ∀ s t, 0 ≤ s → s ≤ t → f s ≤ f t) : AbsMono f := by
  have e : ∀ t, |f t| = f |t| := fun t => by
    rcases abs_cases t with ⟨e, h⟩ | ⟨e, h⟩ <;> rw [e]
    · exact abs_of_nonneg (hn t h)
    · rw [← abs_neg, ← ho]
      exact abs_of_nonneg (hn _ (by linarith))
  intro a b h
  rw [e, e]
  exact hm _ _ (abs_nonneg _) h

theorem AbsMono.id : AbsMono fun t => t := fun _ _ h => h

theorem AbsMono.sinhv1 {ampl w : ℝ} (hA : 0 < ampl) (hw : 0 < w) : AbsMono fun t => sinhv1 t ampl w := by
  refine .of_odd (sinhv1_odd ampl w) (fun t ht => sinhv1_nonneg hA hw ht) ?_
  intro s t _ h
  have h2 : 0 < sinh (1 / w) := sinh_pos_iff.2 (by positivity)
  have h3 : sinh (s / w) ≤ sinh (t / w) := sinh_le_sinh.2 (by gcongr)
  simp only [sinhv1_eq]
  gcongr

theorem AbsMono.sinhv2 {n : ℕ} (hn : n % 2 = 0) {ampl w slope : ℝ} (hw : 0 < w) (hs : 0 ≤ slope) (hle : slope ≤ ampl) :
    AbsMono fun t => sinhv2 n t ampl w slope := by
  refine .of_odd (sinhv2_odd hn ampl w slope) (fun t ht => sinhv2_nonneg hs hle hw ht) ?_
  intro s t hs0 h
  have h2 : 0 < exp (1 / w) - exp (-1 / w) := by rw [sub_pos, exp_lt_exp]; gcongr; norm_num
  have h1 : 0 ≤ exp (s / w) - exp (-s / w) := by rw [sub_nonneg, exp_le_exp]; gcongr; linarith
  have h3 : exp (s / w) - exp (-s / w) ≤ exp (t / w) - exp (-t / w) := by
    have a1 : exp (s / w) ≤ exp (t / w) := exp_le_exp.2 (by gcongr)
    have a2 : exp (-t / w) ≤ exp (-s / w) := exp_le_exp.2 (by gcongr)
    linarith
  have h4 : 0 ≤ ampl - slope := by linarith
  have h5 : s ^ n ≤ t ^ n := pow_le_pow_left₀ hs0 h n
  have h6 : 0 ≤ t ^ n := pow_nonneg (hs0.trans h) n
  simp only [RefMetric.sinhv2]
  gcongr

/-- What the coordinate systems look like. -/
inductive Shape (name : Str) (c : Coords) : Prop
  | cart (f : ℝ → ℝ) (hf : AbsMono f) (n : containsSub (c% "Cartesian") name = true)
      (n' : containsSub (c% "Cylindrical") name = false) (n'' : containsSub (c% "Spherical") name = false)
      (n3 : containsSub (c% "SymTP") name = false)
      (tc : ∀ x, c.toCart x = ![f (x 0), f (x 1), f (x 2)])
  | polar (a zz : ℝ → ℝ) (b : ℝ) (ha : AbsMono a) (hz : ∀ t, zz t ^ 2 = a t ^ 2 + b ^ 2)
      (n0 : containsSub (c% "Cartesian") name = false)
      (n1 : containsSub (c% "Cylindrical") name = false) (n2 : containsSub (c% "Wedge") name = false)
      (n : containsSub (c% "Spherical") name = true ∨
        (containsSub (c% "Spherical") name = false ∧ containsSub (c% "SymTP") name = true))
      (tc : ∀ x, c.toCart x = ![a (x 0) * sin (x 1) * cos (x 2), a (x 0) * sin (x 1) * sin (x 2), zz (x 0) * cos (x 1)])
      (r0 : 0 ≤ c.xxmin 0) (r1 : 0 ≤ c.xxmin 1) (r1' : c.xxmin 1 + c.xxmax 1 = π)
      (r1'' : containsSub (c% "Ring") name = false → c.xxmin 1 = 0 ∧ c.xxmax 1 = π)
      (ring : containsSub (c% "Ring") name = true → containsSub (c% "Spherical") name = true)
      (r2 : c.xxmin 2 = -π) (r2' : c.xxmax 2 = π)
  | cyl (ρ z : ℝ → ℝ) (hρ : AbsMono ρ) (hz : AbsMono z) (n0 : containsSub (c% "Cartesian") name = false)
      (n1 : containsSub (c% "Spherical") name = false) (n : containsSub (c% "Cylindrical") name = true)
      (n2 : containsSub (c% "Wedge") name = false) (n3 : containsSub (c% "SymTP") name = false)
      (tc : ∀ x, c.toCart x = ![ρ (x 0) * cos (x 1), ρ (x 0) * sin (x 1), z (x 2)])
      (r0 : c.xxmin 0 = 0) (r1 : c.xxmin 1 = -π) (r1' : c.xxmax 1 = π)
  | wedge (r : ℝ → ℝ) (s : ℝ) (hs : s ^ 2 = 1) (n0 : containsSub (c% "Cartesian") name = false)
      (n1 : containsSub (c% "Spherical") name = false) (n2 : containsSub (c% "Cylindrical") name = false)
      (n3 : containsSub (c% "SymTP") name = false) (n : containsSub (c% "Wedge") name = true)
      (tc : ∀ x, c.toCart x =
        ![-s * (r (x 0) * cos (x 1)), r (x 0) * sin (x 1) * sin (x 2), s * (r (x 0) * sin (x 1) * cos (x 2))])
      (r1 : c.xxmin 1 = 1 / 4 * π) (r1' : c.xxmax 1 = 3 / 4 * π) (r2 : c.xxmin 2 = -π * (1 / 4)) (r2' : c.xxmax 2 = π * (1 / 4))

theorem Plain.other {name : Str} (h : Plain name) {a : Str} (ha : a ∈ families) (k : containsSub a name = true) {b : Str}
    (hb : b ∈ families) (hab : a ≠ b) : containsSub b name = false := by
  by_contra hc
  exact hab (h.one a ha b hb k (by simpa using hc))

theorem shape_of {P : CoordParams} (hP : ValidParams P) (hz : 0 ≤ P.slopez ∧ P.slopez ≤ P.amplz) {name : Str} {c : Coords}
    (h : choose P name = .sys c) (hn : Plain name) : Shape name c := by
  have hA := hP.ampl
  have hw := hP.w
  have hπ := pi_pos
  have fC : (c% "Cartesian") ∈ families := by decide
  have fS : (c% "Spherical") ∈ families := by decide
  have fY : (c% "Cylindrical") ∈ families := by decide
  have fT : (c% "SymTP") ∈ families := by decide
  have fW : (c% "Wedge") ∈ families := by decide
  have arp : 0 ≤ P.w * arsinh (P.rmin * sinh (1 / P.w) / P.ampl) := by
    have h2 : 0 < sinh (1 / P.w) := sinh_pos_iff.2 (by positivity)
    have := hP.rmin
    exact mul_nonneg hw.le (arsinh_nonneg_iff.2 (by positivity))
  unfold choose at h
  split_ifs at h with k1 k2 k3 k4 k5
  · have o := fun {b} => hn.other (b := b) fC k1
    unfold cartesianChoice at h
    split_ifs at h with a1 a2 <;> cases h
    · exact .cart (fun t => t) .id k1 (o fY (by decide)) (o fS (by decide)) (o fT (by decide)) (fun x => rfl)
    · exact .cart _ (.sinhv1 hA hw) k1 (o fY (by decide)) (o fS (by decide)) (o fT (by decide)) (fun x => rfl)
  · have o := fun {b} => hn.other (b := b) fS k2
    have z0 : ∀ r : ℝ → ℝ, ∀ t, r t ^ 2 = r t ^ 2 + (0 : ℝ) ^ 2 := fun r t => by ring
    unfold sphericalChoice at h
    split_ifs at h with a1 a2 a3 a4 a5 a6
    · cases h
      exact .polar (fun t => t) (fun t => t) 0 .id (z0 _) (o fC (by decide)) (o fY (by decide)) (o fW (by decide)) (.inl k2)
        (fun x => rfl) le_rfl le_rfl (by show (0 : ℝ) + π = π; ring) (fun _ => ⟨rfl, rfl⟩) (fun _ => k2) rfl rfl
    · cases h
      exact .polar _ _ 0 (.sinhv1 hA hw) (z0 _) (o fC (by decide)) (o fY (by decide)) (o fW (by decide)) (.inl k2)
        (fun x => rfl) arp le_rfl (by show (0 : ℝ) + π = π; ring) (fun _ => ⟨rfl, rfl⟩) (fun _ => k2) rfl rfl
    · cases h
      exact .polar _ _ 0 (.sinhv1 hA hw) (z0 _) (o fC (by decide)) (o fY (by decide)) (o fW (by decide)) (.inl k2)
        (fun x => rfl) arp (by show (0 : ℝ) ≤ 1 / 4 * π; positivity) (by show (1 / 4 * π : ℝ) + 3 / 4 * π = π; ring)
        (fun hr => by rw [a5] at hr; exact absurd hr (by decide)) (fun _ => k2) rfl rfl
    · cases h
      exact .polar _ _ 0 (.sinhv1 hA hw) (z0 _) (o fC (by decide)) (o fY (by decide)) (o fW (by decide)) (.inl k2)
        (fun x => rfl) le_rfl le_rfl (by show (0 : ℝ) + π = π; ring) (fun _ => ⟨rfl, rfl⟩) (fun _ => k2) rfl rfl
    · split at h
      · next n hpn =>
        cases h
        exact .polar _ _ 0 (.sinhv2 (powerN_even hpn) hw hP.slope hP.slope_le) (z0 _) (o fC (by decide)) (o fY (by decide))
          (o fW (by decide)) (.inl k2)
          (fun x => rfl) le_rfl le_rfl (by show (0 : ℝ) + π = π; ring) (fun _ => ⟨rfl, rfl⟩) (fun _ => k2) rfl rfl
      · cases h
  · have o := fun {b} => hn.other (b := b) fW k3
    unfold wedgeChoice at h
    split_ifs at h with a1 a2 <;> cases h
    · exact .wedge (fun t => sinhv1 t P.ampl P.w) 1 (by norm_num) (o fC (by decide)) (o fS (by decide)) (o fY (by decide))
        (o fT (by decide)) k3 (fun x => by
          show (![_, _, _] : Vec) = _
          congr 1
          · ring
          · congr 2; ring) rfl rfl rfl rfl
    · exact .wedge (fun t => sinhv1 t P.ampl P.w) (-1) (by norm_num) (o fC (by decide)) (o fS (by decide)) (o fY (by decide))
        (o fT (by decide)) k3 (fun x => by
          show (![_, _, _] : Vec) = _
          congr 1
          · ring
          · congr 2; ring) rfl rfl rfl rfl
  · have o := fun {b} => hn.other (b := b) fT k4
    have sq : ∀ a : ℝ → ℝ, ∀ t, √(a t ^ 2 + P.b ^ 2) ^ 2 = a t ^ 2 + P.b ^ 2 := fun a t => sq_sqrt (by positivity)
    have nr : containsSub (c% "Ring") name = true → containsSub (c% "Spherical") name = true := fun hr => by
      rw [hn.ring hr] at k4; exact absurd k4 (by decide)
    unfold symTPChoice at h
    split_ifs at h with a1 a2 <;> cases h
    · exact .polar (fun t => t) (fun t => √(t ^ 2 + P.b ^ 2)) P.b .id (sq _) (o fC (by decide)) (o fY (by decide))
        (o fW (by decide)) (.inr ⟨o fS (by decide), k4⟩) (fun x => rfl) le_rfl le_rfl (by show (0 : ℝ) + π = π; ring)
        (fun _ => ⟨rfl, rfl⟩) nr rfl rfl
    · exact .polar (fun t => sinhv1 t P.amax P.waa) (fun t => √(sinhv1 t P.amax P.waa ^ 2 + P.b ^ 2)) P.b
        (.sinhv1 hP.amax hP.waa) (sq _) (o fC (by decide)) (o fY (by decide))
        (o fW (by decide)) (.inr ⟨o fS (by decide), k4⟩) (fun x => rfl) le_rfl le_rfl (by show (0 : ℝ) + π = π; ring)
        (fun _ => ⟨rfl, rfl⟩) nr rfl rfl
  · have o := fun {b} => hn.other (b := b) fY k5
    unfold cylindricalChoice at h
    split_ifs at h with a1 a2 a3
    · cases h
      exact .cyl (fun t => t) (fun t => t) .id .id (o fC (by decide)) (o fS (by decide)) k5 (o fW (by decide)) (o fT (by decide)) (fun x => rfl) rfl rfl rfl
    · cases h
      exact .cyl _ _ (.sinhv1 hA hw) (.sinhv1 hP.amplz hP.wz) (o fC (by decide)) (o fS (by decide)) k5 (o fW (by decide)) (o fT (by decide)) (fun x => rfl) rfl rfl rfl
    · split at h
      · next n hpn =>
        cases h
        exact .cyl _ _ (.sinhv2 (powerN_even hpn) hw hP.slope hP.slope_le) (.sinhv2 (powerN_even hpn) hP.wz hz.1 hz.2)
          (o fC (by decide)) (o fS (by decide)) k5 (o fW (by decide)) (o fT (by decide)) (fun x => rfl) rfl rfl rfl
      · cases h

end Verif.Diag
