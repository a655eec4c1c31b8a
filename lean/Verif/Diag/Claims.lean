import Verif.Diag.Shapes

/-!
# C104: diagnostics along an axis, in a plane, and at the centre of the grid

Specification: distances of points from an axis, a plane and the centre; `NearAxis`, `NearPlane`.
-/
namespace Verif.Diag
open Verif.Py Verif.RefMetric Verif.CurviBC Real

/-- Position of a grid point relative to the centre of the grid. -/
noncomputable def pos (G : Grid) (c : Coords) (p : Idx) : Vec := c.toCart (xxAt G c p)

/-- Not in the ghost zones. -/
def Interior (G : Grid) (p : Idx) : Prop := ∀ d, (G.g : ℤ) ≤ p d ∧ p d < G.n d - G.g

/-- Distance from the `y` axis or the `z` axis. -/
noncomputable def distAxis (axis : Str) (v : Vec) : ℝ :=
  if axis = (c% "y") then √(v 0 ^ 2 + v 2 ^ 2) else √(v 0 ^ 2 + v 1 ^ 2)

/-- Distance from the `xy` plane or the `yz` plane. -/
noncomputable def distPlane (plane : Str) (v : Vec) : ℝ := if plane = (c% "xy") then |v 2| else |v 0|

/-- The direction of the grid along which the points near an axis follow each other: for Cartesian systems the axis itself,
for the `z` axis of cylinders the third direction, otherwise the radial direction. -/
def alongDir (name axis : Str) : Fin 3 :=
  if containsSub (c% "Cartesian") name then axisIdx axis
  else if containsSub (c% "Cylindrical") name && decide (axis = (c% "z")) then 2 else 0

/-- The axis has two halves on the grid, both reached through `alongDir`. -/
def twoHalves (name axis : Str) : Bool :=
  !containsSub (c% "Cartesian") name && !containsSub (c% "Wedge") name &&
    !(containsSub (c% "Cylindrical") name && decide (axis = (c% "z")))

/-- The points are those of an axis: they are not in the ghost zones; each is nearest to the axis among all the points with
the same index in direction `dir`; every such index occurs, and on both halves of the axis. -/
structure NearAxis (G : Grid) (c : Coords) (axis : Str) (dir : Fin 3) (two : Bool) (S : Idx → Prop) : Prop where
  interior : ∀ p, S p → Interior G p
  nearest : ∀ p, S p → ∀ q, Interior G q → q dir = p dir → distAxis axis (pos G c p) ≤ distAxis axis (pos G c q)
  complete : ∀ j, (G.g : ℤ) ≤ j → j < G.n dir - G.g → ∃ p, S p ∧ p dir = j
  halves : two = true → ∀ p, S p → ∃ p', S p' ∧ p' dir = p dir ∧ pos G c p' (axisIdx axis) = -pos G c p (axisIdx axis)

/-! ### Distances -/

theorem axis_le {axis : Str} {v w : Vec} (hy : axis = (c% "y") → v 0 ^ 2 + v 2 ^ 2 ≤ w 0 ^ 2 + w 2 ^ 2)
    (hz : axis ≠ (c% "y") → v 0 ^ 2 + v 1 ^ 2 ≤ w 0 ^ 2 + w 1 ^ 2) : distAxis axis v ≤ distAxis axis w := by
  unfold distAxis
  split_ifs with h
  · exact sqrt_le_sqrt (hy h)
  · exact sqrt_le_sqrt (hz h)

theorem polar_y {a z b θ φ θ' φ' : ℝ} (hz : z ^ 2 = a ^ 2 + b ^ 2) (h1 : cos θ ^ 2 ≤ cos θ' ^ 2) (h2 : cos φ ^ 2 ≤ cos φ' ^ 2) :
    (a * sin θ * cos φ) ^ 2 + (z * cos θ) ^ 2 ≤ (a * sin θ' * cos φ') ^ 2 + (z * cos θ') ^ 2 := by
  have e : ∀ θ φ : ℝ, (a * sin θ * cos φ) ^ 2 + (z * cos θ) ^ 2 =
      a ^ 2 * (1 - (1 - cos θ ^ 2) * (1 - cos φ ^ 2)) + b ^ 2 * cos θ ^ 2 := fun θ φ => by
    rw [mul_pow, mul_pow, mul_pow, hz, sin_sq]; ring
  rw [e, e]
  have k1 : 0 ≤ 1 - cos θ' ^ 2 := by nlinarith [cos_sq_le_one θ']
  have k2 : 0 ≤ 1 - cos φ' ^ 2 := by nlinarith [cos_sq_le_one φ']
  have k3 : (1 - cos θ' ^ 2) * (1 - cos φ' ^ 2) ≤ (1 - cos θ ^ 2) * (1 - cos φ ^ 2) := by
    apply mul_le_mul <;> linarith
  gcongr

theorem polar_z {a θ φ θ' φ' : ℝ} (h1 : sin θ ^ 2 ≤ sin θ' ^ 2) :
    (a * sin θ * cos φ) ^ 2 + (a * sin θ * sin φ) ^ 2 ≤ (a * sin θ' * cos φ') ^ 2 + (a * sin θ' * sin φ') ^ 2 := by
  have e : ∀ θ φ : ℝ, (a * sin θ * cos φ) ^ 2 + (a * sin θ * sin φ) ^ 2 = a ^ 2 * sin θ ^ 2 := fun θ φ => by
    rw [mul_pow, mul_pow, mul_pow, mul_pow, ← mul_add, cos_sq_add_sin_sq, mul_one]
  rw [e, e]
  gcongr

theorem sq_le_of_abs {a b : ℝ} (h : |a| ≤ |b|) : a ^ 2 ≤ b ^ 2 := sq_le_sq.2 h

/-- Middle of a symmetric range. -/
theorem mid_near {G : Grid} {c : Coords} {d : Fin 3} (h : 2 * (G.g : ℤ) < G.n d) (hs : c.xxmin d = -c.xxmax d) {f : ℝ → ℝ}
    (hf : AbsMono f) (j : ℤ) : |f (xx G c d (G.n d / 2))| ≤ |f (xx G c d j)| := by
  have := xx_half_near (c := c) h j
  rw [hs, neg_add_cancel, zero_div, sub_zero, sub_zero] at this
  exact hf _ _ this

/-- First point of a range that starts at zero or above. -/
theorem first_near {G : Grid} {c : Coords} {d : Fin 3} (hr : c.xxmin d < c.xxmax d) (h0 : 0 ≤ c.xxmin d)
    {f : ℝ → ℝ} (hf : AbsMono f) {j : ℤ} (hj : (G.g : ℤ) ≤ j) (hj' : j < G.n d - G.g) :
    |f (xx G c d G.g)| ≤ |f (xx G c d j)| := by
  have i1 := xx_inside (c := c) hr (le_refl (G.g : ℤ)) (by omega : (G.g : ℤ) < G.n d - G.g)
  have i2 := xx_inside (c := c) hr hj hj'
  have hN : (0 : ℝ) < ((G.n d - 2 * G.g : ℤ) : ℝ) := by exact_mod_cast (by omega : 0 < G.n d - 2 * (G.g : ℤ))
  have hdx : 0 < dxx G c d := div_pos (by linarith) hN
  refine hf _ _ ?_
  rw [abs_of_pos (by linarith), abs_of_pos (by linarith)]
  unfold xx
  have : (((G.g : ℤ) - G.g : ℤ) : ℝ) ≤ ((j - G.g : ℤ) : ℝ) := by exact_mod_cast (by omega : (G.g : ℤ) - G.g ≤ j - G.g)
  gcongr

theorem half_interior {G : Grid} {d : Fin 3} (h : 2 * (G.g : ℤ) < G.n d) :
    (G.g : ℤ) ≤ G.n d / 2 ∧ G.n d / 2 < G.n d - G.g := by omega

theorem wedge_z {r s θ φ θ' φ' : ℝ} (hs : s ^ 2 = 1) (h1 : cos θ ^ 2 ≤ cos θ' ^ 2) (h2 : sin φ ^ 2 ≤ sin φ' ^ 2) :
    (-s * (r * cos θ)) ^ 2 + (r * sin θ * sin φ) ^ 2 ≤ (-s * (r * cos θ')) ^ 2 + (r * sin θ' * sin φ') ^ 2 := by
  have e : ∀ θ φ : ℝ, (-s * (r * cos θ)) ^ 2 + (r * sin θ * sin φ) ^ 2 =
      r ^ 2 * (1 - (1 - cos θ ^ 2) * (1 - sin φ ^ 2)) := fun θ φ => by
    rw [mul_pow, neg_sq, hs, mul_pow, mul_pow, mul_pow, sin_sq θ]; ring
  rw [e, e]
  have k1 : 0 ≤ 1 - cos θ' ^ 2 := by nlinarith [cos_sq_le_one θ']
  have k2 : 0 ≤ 1 - sin φ' ^ 2 := by nlinarith [sin_sq_le_one φ']
  have k3 : (1 - cos θ' ^ 2) * (1 - sin φ' ^ 2) ≤ (1 - cos θ ^ 2) * (1 - sin φ ^ 2) := by
    apply mul_le_mul <;> linarith
  gcongr

theorem ends_turn {G : Grid} {c : Coords} {d : Fin 3} (h : 2 * (G.g : ℤ) < G.n d) (h0 : c.xxmin d = 0) (h1 : c.xxmax d = π) :
    cos (xx G c d (Pt.last.eval G d)) = -cos (xx G c d (Pt.first.eval G d)) := by
  rw [← cos_pi_sub]
  congr 1
  rw [xx_mid h, xx_mid h, h0, h1]
  simp only [Pt.eval]
  push_cast
  ring

/-! ### Azimuths -/

theorem azimuth_points {G : Grid} {d : Fin 3} (h : 2 * (G.g : ℤ) < G.n d) (he : (G.n d - 2 * G.g) % 2 = 0) :
    ((G.g : ℤ) ≤ Pt.quarter.eval G d ∧ Pt.quarter.eval G d < G.n d - G.g) ∧
    ((G.g : ℤ) ≤ Pt.threeQuarters.eval G d ∧ Pt.threeQuarters.eval G d < G.n d - G.g) ∧
    Pt.quarter.eval G d ≠ Pt.threeQuarters.eval G d := by
  rw [eval_quarter (by omega), eval_threeQuarters (by omega)]
  omega

theorem azimuth_near {G : Grid} {c : Coords} {d : Fin 3} (h : 2 * (G.g : ℤ) < G.n d) (he : (G.n d - 2 * G.g) % 2 = 0)
    (h0 : c.xxmin d = -π) (h1 : c.xxmax d = π) {i : ℤ} (hi : i = Pt.quarter.eval G d ∨ i = Pt.threeQuarters.eval G d) (j : ℤ) :
    cos (xx G c d i) ^ 2 ≤ cos (xx G c d j) ^ 2 := by
  rw [eval_quarter (by omega), eval_threeQuarters (by omega)] at hi
  rw [xx_azimuth h0 h1, xx_azimuth h0 h1]
  rcases hi with rfl | rfl
  · rw [add_sub_cancel_left]
    exact cos_azimuth (by omega) he _
  · rw [add_sub_cancel_left, threeQuarters_turn he, azimuth_half (by omega) he, cos_add_pi, neg_sq]
    exact cos_azimuth (by omega) he _

theorem azimuth_turn {G : Grid} {c : Coords} {d : Fin 3} (h : 2 * (G.g : ℤ) < G.n d) (he : (G.n d - 2 * G.g) % 2 = 0)
    (h0 : c.xxmin d = -π) (h1 : c.xxmax d = π) :
    sin (xx G c d (Pt.threeQuarters.eval G d)) = -sin (xx G c d (Pt.quarter.eval G d)) := by
  rw [eval_quarter (by omega), eval_threeQuarters (by omega), xx_azimuth h0 h1, xx_azimuth h0 h1, add_sub_cancel_left,
    add_sub_cancel_left, threeQuarters_turn he, azimuth_half (by omega) he, sin_add_pi]

/-! ### The axes -/

theorem mem_vals_free {G : Grid} {L : Fin 3 → List Pt} {d : Fin 3} (h : L d = []) {j : ℤ} :
    j ∈ vals G L d ↔ (G.g : ℤ) ≤ j ∧ j < G.n d - G.g := by
  unfold vals
  rw [if_pos h, mem_counter]

theorem mem_vals_one {G : Grid} {L : Fin 3 → List Pt} {d : Fin 3} {a : Pt} (h : L d = [a]) {j : ℤ} :
    j ∈ vals G L d ↔ j = a.eval G d := by
  unfold vals
  rw [h, if_neg (by simp)]
  simp

theorem mem_vals_two {G : Grid} {L : Fin 3 → List Pt} {d : Fin 3} {a b : Pt} (h : L d = [a, b]) {j : ℤ} :
    j ∈ vals G L d ↔ j = a.eval G d ∨ j = b.eval G d := by
  unfold vals
  rw [h, if_neg (by simp)]
  simp

theorem nodup_vals_free {G : Grid} {L : Fin 3 → List Pt} {d : Fin 3} (h : L d = []) : (vals G L d).Nodup := by
  unfold vals
  rw [if_pos h]
  exact nodup_counter _ _

theorem nodup_vals_one {G : Grid} {L : Fin 3 → List Pt} {d : Fin 3} {a : Pt} (h : L d = [a]) : (vals G L d).Nodup := by
  unfold vals
  rw [h, if_neg (by simp)]
  simp

theorem nodup_vals_two {G : Grid} {L : Fin 3 → List Pt} {d : Fin 3} {a b : Pt} (h : L d = [a, b])
    (hne : a.eval G d ≠ b.eval G d) : (vals G L d).Nodup := by
  unfold vals
  rw [h, if_neg (by simp)]
  simpa using hne

theorem ffin {P : Fin 3 → Prop} (h0 : P 0) (h1 : P 1) (h2 : P 2) : ∀ d, P d := fun d => by fin_cases d <;> assumption

theorem isY {axis : Str} : axis = (c% "y") → axisIdx axis = 1 := fun h => by simp [axisIdx, h]
theorem isZ {axis : Str} : axis = (c% "z") → axisIdx axis = 2 := fun h => by subst h; decide

theorem azimuth_polar {name : Str} (m0 : containsSub (c% "Cartesian") name = false)
    (m2 : containsSub (c% "Wedge") name = false) (n : containsSub (c% "Spherical") name = true ∨
        (containsSub (c% "Spherical") name = false ∧ containsSub (c% "SymTP") name = true)) : IsAzimuth name 2 := by
  refine .inl ⟨?_, rfl⟩
  rcases n with n | ⟨n, n'⟩
  · exact .inl (by simp [eigenName, m0, n])
  · exact .inr (by simp [eigenName, m0, m2, n, n'])

theorem azimuth_cyl {name : Str} (m0 : containsSub (c% "Cartesian") name = false)
    (m1 : containsSub (c% "Spherical") name = false) (m2 : containsSub (c% "Wedge") name = false)
    (m3 : containsSub (c% "SymTP") name = false) (n : containsSub (c% "Cylindrical") name = true) : IsAzimuth name 1 :=
  .inr ⟨by simp [eigenName, m0, m1, m2, m3, n], rfl⟩

/-- The points near an axis. -/
theorem axis_points {name : Str} {c : Coords} (S : Shape name c) (hC : Centred name c) {G : Grid} (hG : GoodGrid name c G)
    {axis : Str}
    (hx : axis = (c% "y") ∨ axis = (c% "z")) (hr : ¬ (containsSub (c% "Ring") name = true ∧ axis = (c% "z")))
    (hw : ¬ (containsSub (c% "Wedge") name = true ∧ axis = (c% "y"))) :
    ∃ L, pts1D name axis = some L ∧ noPoints L = false ∧
      ((twoHalves name axis = true → axis = (c% "z") → 1 < G.n 1 - 2 * G.g) → ∀ d, (vals G L d).Nodup) ∧
      NearAxis G c axis (alongDir name axis) (twoHalves name axis) fun p => ∀ d, p d ∈ vals G L d := by
  have zy : (c% "z") ≠ (c% "y") := by decide
  have yz : (c% "y") ≠ (c% "z") := by decide
  have sz := hG.size
  have rg := hG.range
  have n0 : ∀ d, 0 ≤ G.n d := fun d => by have := sz d; omega
  have hh : ∀ d, Pt.half.eval G d = G.n d / 2 := fun d => eval_half (n0 d)
  cases S with
  | cart f hf n n' n'' n3 tc =>
    have hs := hC.1 n
    rcases hx with rfl | rfl
    · refine ⟨![[.half], [], [.half]], by simp [pts1D, n], rfl, fun _ => ffin (nodup_vals_one rfl) (nodup_vals_free rfl)
        (nodup_vals_one rfl), ?_⟩
      have hd : alongDir name (c% "y") = 1 := by simp [alongDir, n, isY]
      have ht : twoHalves name (c% "y") = false := by simp [twoHalves, n]
      rw [hd, ht]
      refine ⟨fun p hp => ?_, fun p hp q hq e => ?_, fun j h1 h2 => ?_, fun h => by cases h⟩
      · refine ffin ?_ ((mem_vals_free rfl).1 (hp 1)) ?_
        · rw [(mem_vals_one rfl).1 (hp 0), hh]; exact half_interior (sz 0)
        · rw [(mem_vals_one rfl).1 (hp 2), hh]; exact half_interior (sz 2)
      · refine axis_le (fun _ => ?_) (fun h => absurd rfl h)
        have e0 := (mem_vals_one rfl).1 (hp 0)
        have e2 := (mem_vals_one rfl).1 (hp 2)
        rw [hh] at e0 e2
        simp only [pos, tc, xxAt, Matrix.cons_val, e0, e2]
        exact add_le_add (sq_le_of_abs (mid_near (sz 0) (hs 0) hf _)) (sq_le_of_abs (mid_near (sz 2) (hs 2) hf _))
      · exact ⟨![Pt.half.eval G 0, j, Pt.half.eval G 2], ffin ((mem_vals_one rfl).2 rfl) ((mem_vals_free rfl).2 ⟨h1, h2⟩)
          ((mem_vals_one rfl).2 rfl), rfl⟩
    · refine ⟨![[.half], [.half], []], by simp [pts1D, n], rfl, fun _ => ffin (nodup_vals_one rfl) (nodup_vals_one rfl)
        (nodup_vals_free rfl), ?_⟩
      have hd : alongDir name (c% "z") = 2 := by simp [alongDir, n, isZ]
      have ht : twoHalves name (c% "z") = false := by simp [twoHalves, n]
      rw [hd, ht]
      refine ⟨fun p hp => ?_, fun p hp q hq e => ?_, fun j h1 h2 => ?_, fun h => by cases h⟩
      · refine ffin ?_ ?_ ((mem_vals_free rfl).1 (hp 2))
        · rw [(mem_vals_one rfl).1 (hp 0), hh]; exact half_interior (sz 0)
        · rw [(mem_vals_one rfl).1 (hp 1), hh]; exact half_interior (sz 1)
      · refine axis_le (fun h => absurd h zy) (fun _ => ?_)
        have e0 := (mem_vals_one rfl).1 (hp 0)
        have e1 := (mem_vals_one rfl).1 (hp 1)
        rw [hh] at e0 e1
        simp only [pos, tc, xxAt, Matrix.cons_val, e0, e1]
        exact add_le_add (sq_le_of_abs (mid_near (sz 0) (hs 0) hf _)) (sq_le_of_abs (mid_near (sz 1) (hs 1) hf _))
      · exact ⟨![Pt.half.eval G 0, Pt.half.eval G 1, j], ffin ((mem_vals_one rfl).2 rfl) ((mem_vals_one rfl).2 rfl)
          ((mem_vals_free rfl).2 ⟨h1, h2⟩), rfl⟩
  | polar a zz b ha hz m0 m1 m2 n tc r0 r1 r1' r1'' ring r2 r2' =>
    have ev := hG.even 2 (azimuth_polar m0 m2 n)
    rcases hx with rfl | rfl
    · refine ⟨![[], [.half], [.quarter, .threeQuarters]], ?_, rfl, fun _ => ffin (nodup_vals_free rfl) (nodup_vals_one rfl)
        (nodup_vals_two rfl (azimuth_points (sz 2) ev).2.2), ?_⟩
      · rcases n with n | ⟨n, n'⟩ <;> simp [pts1D, m0, m1, n, *]
      have hd : alongDir name (c% "y") = 0 := by simp [alongDir, m0, m1]
      rw [hd]
      refine ⟨fun p hp => ?_, fun p hp q hq e => ?_, fun j h1 h2 => ?_, fun _ p hp => ?_⟩
      · refine ffin ((mem_vals_free rfl).1 (hp 0)) ?_ ?_
        · rw [(mem_vals_one rfl).1 (hp 1), hh]; exact half_interior (sz 1)
        · have A := azimuth_points (sz 2) ev
          rcases (mem_vals_two rfl).1 (hp 2) with e | e <;> rw [e]
          · exact A.1
          · exact A.2.1
      · refine axis_le (fun _ => ?_) (fun h => absurd rfl h)
        have e1 := (mem_vals_one rfl).1 (hp 1)
        rw [hh] at e1
        simp only [pos, tc, xxAt, Matrix.cons_val, e1, e]
        exact polar_y (hz _) (cos_half (sz 1) (rg 1) r1' r1 (hq 1).1 (hq 1).2)
          (azimuth_near (sz 2) ev r2 r2' ((mem_vals_two rfl).1 (hp 2)) _)
      · exact ⟨![j, Pt.half.eval G 1, Pt.quarter.eval G 2], ffin ((mem_vals_free rfl).2 ⟨h1, h2⟩) ((mem_vals_one rfl).2 rfl)
          ((mem_vals_two rfl).2 (.inl rfl)), rfl⟩
      · have T := azimuth_turn (c := c) (sz 2) ev r2 r2'
        rcases (mem_vals_two rfl).1 (hp 2) with e2 | e2
        · refine ⟨![p 0, p 1, Pt.threeQuarters.eval G 2], ffin (hp 0) (hp 1) ((mem_vals_two rfl).2 (.inr rfl)), rfl, ?_⟩
          simp only [pos, tc, xxAt, isY, Matrix.cons_val, e2, T]
          ring
        · refine ⟨![p 0, p 1, Pt.quarter.eval G 2], ffin (hp 0) (hp 1) ((mem_vals_two rfl).2 (.inl rfl)), rfl, ?_⟩
          simp only [pos, tc, xxAt, isY, Matrix.cons_val, e2, T]
          ring
    · have nr : containsSub (c% "Ring") name = false := by
        by_contra h
        exact hr ⟨by simpa using h, rfl⟩
      obtain ⟨s0, s1⟩ := r1'' nr
      refine ⟨![[], [.first, .last], [.first]], ?_, rfl, ?_, ?_⟩
      · rcases n with n | ⟨n, n'⟩ <;> simp [pts1D, m0, m1, n, nr, *]
      · intro h1
        refine ffin (nodup_vals_free rfl) (nodup_vals_two rfl ?_) (nodup_vals_one rfl)
        have := h1 (by simp [twoHalves, m0, m1, m2]) rfl
        simp only [Pt.eval]
        omega
      have hd : alongDir name (c% "z") = 0 := by simp [alongDir, m0, m1]
      rw [hd]
      refine ⟨fun p hp => ?_, fun p hp q hq e => ?_, fun j h1 h2 => ?_, fun _ p hp => ?_⟩
      · refine ffin ((mem_vals_free rfl).1 (hp 0)) ?_ ?_
        · rcases (mem_vals_two rfl).1 (hp 1) with e | e <;> rw [e] <;> have := sz 1 <;> simp only [Pt.eval] <;> omega
        · rw [(mem_vals_one rfl).1 (hp 2)]; have := sz 2; simp only [Pt.eval]; omega
      · refine axis_le (fun h => absurd h zy) (fun _ => ?_)
        simp only [pos, tc, xxAt, Matrix.cons_val, e]
        refine polar_z ?_
        have E := sin_ends (c := c) s0 s1 (hq 1).1 (hq 1).2
        rcases (mem_vals_two rfl).1 (hp 1) with e | e <;> rw [e]
        · exact E.1
        · exact E.2
      · exact ⟨![j, Pt.first.eval G 1, Pt.first.eval G 2], ffin ((mem_vals_free rfl).2 ⟨h1, h2⟩)
          ((mem_vals_two rfl).2 (.inl rfl)) ((mem_vals_one rfl).2 rfl), rfl⟩
      · have T : cos (xx G c 1 (Pt.last.eval G 1)) = -cos (xx G c 1 (Pt.first.eval G 1)) := ends_turn (sz 1) s0 s1
        rcases (mem_vals_two rfl).1 (hp 1) with e1 | e1
        · refine ⟨![p 0, Pt.last.eval G 1, p 2], ffin (hp 0) ((mem_vals_two rfl).2 (.inr rfl)) (hp 2), rfl, ?_⟩
          simp only [pos, tc, xxAt, isZ, Matrix.cons_val, e1, T]
          ring
        · refine ⟨![p 0, Pt.first.eval G 1, p 2], ffin (hp 0) ((mem_vals_two rfl).2 (.inl rfl)) (hp 2), rfl, ?_⟩
          simp only [pos, tc, xxAt, isZ, Matrix.cons_val, e1, T]
          ring
  | cyl ρ z hρ hz m0 m1 n nw nt tc r0 r1 r1' =>
    have ev := hG.even 1 (azimuth_cyl m0 m1 nw nt n)
    rcases hx with rfl | rfl
    · refine ⟨![[], [.quarter, .threeQuarters], [.half]], by simp [pts1D, m0, m1, n], rfl, fun _ => ffin (nodup_vals_free rfl)
        (nodup_vals_two rfl (azimuth_points (sz 1) ev).2.2) (nodup_vals_one rfl), ?_⟩
      have hd : alongDir name (c% "y") = 0 := by simp [alongDir, m0, yz]
      rw [hd]
      refine ⟨fun p hp => ?_, fun p hp q hq e => ?_, fun j h1 h2 => ?_, fun _ p hp => ?_⟩
      · refine ffin ((mem_vals_free rfl).1 (hp 0)) ?_ ?_
        · have A := azimuth_points (sz 1) ev
          rcases (mem_vals_two rfl).1 (hp 1) with e | e <;> rw [e]
          · exact A.1
          · exact A.2.1
        · rw [(mem_vals_one rfl).1 (hp 2), hh]; exact half_interior (sz 2)
      · refine axis_le (fun _ => ?_) (fun h => absurd rfl h)
        have e2 := (mem_vals_one rfl).1 (hp 2)
        rw [hh] at e2
        simp only [pos, tc, xxAt, Matrix.cons_val, e2, e, mul_pow]
        have := azimuth_near (sz 1) ev r1 r1' ((mem_vals_two rfl).1 (hp 1)) (q 1)
        have := sq_le_of_abs (mid_near (sz 2) (hC.2 n) hz (q 2))
        gcongr
      · exact ⟨![j, Pt.quarter.eval G 1, Pt.half.eval G 2], ffin ((mem_vals_free rfl).2 ⟨h1, h2⟩)
          ((mem_vals_two rfl).2 (.inl rfl)) ((mem_vals_one rfl).2 rfl), rfl⟩
      · have T := azimuth_turn (c := c) (sz 1) ev r1 r1'
        rcases (mem_vals_two rfl).1 (hp 1) with e1 | e1
        · refine ⟨![p 0, Pt.threeQuarters.eval G 1, p 2], ffin (hp 0) ((mem_vals_two rfl).2 (.inr rfl)) (hp 2), rfl, ?_⟩
          simp only [pos, tc, xxAt, isY, Matrix.cons_val, e1, T]
          ring
        · refine ⟨![p 0, Pt.quarter.eval G 1, p 2], ffin (hp 0) ((mem_vals_two rfl).2 (.inl rfl)) (hp 2), rfl, ?_⟩
          simp only [pos, tc, xxAt, isY, Matrix.cons_val, e1, T]
          ring
    · refine ⟨![[.first], [.first], []], by simp [pts1D, m0, m1, n], rfl, fun _ => ffin (nodup_vals_one rfl)
        (nodup_vals_one rfl) (nodup_vals_free rfl), ?_⟩
      have hd : alongDir name (c% "z") = 2 := by simp [alongDir, m0, n]
      have ht : twoHalves name (c% "z") = false := by simp [twoHalves, n]
      rw [hd, ht]
      refine ⟨fun p hp => ?_, fun p hp q hq e => ?_, fun j h1 h2 => ?_, fun h => by cases h⟩
      · refine ffin ?_ ?_ ((mem_vals_free rfl).1 (hp 2))
        · rw [(mem_vals_one rfl).1 (hp 0)]; have := sz 0; simp only [Pt.eval]; omega
        · rw [(mem_vals_one rfl).1 (hp 1)]; have := sz 1; simp only [Pt.eval]; omega
      · refine axis_le (fun h => absurd h zy) (fun _ => ?_)
        have e0 := (mem_vals_one rfl).1 (hp 0)
        simp only [Pt.eval] at e0
        simp only [pos, tc, xxAt, Matrix.cons_val, e0]
        have k : ∀ r t : ℝ, (r * cos t) ^ 2 + (r * sin t) ^ 2 = r ^ 2 := fun r t => by
          rw [mul_pow, mul_pow, ← mul_add, cos_sq_add_sin_sq, mul_one]
        rw [k, k]
        exact sq_le_of_abs (first_near (rg 0) r0.ge hρ (hq 0).1 (hq 0).2)
      · exact ⟨![Pt.first.eval G 0, Pt.first.eval G 1, j], ffin ((mem_vals_one rfl).2 rfl) ((mem_vals_one rfl).2 rfl)
          ((mem_vals_free rfl).2 ⟨h1, h2⟩), rfl⟩
  | wedge r s hs m0 m1 m2 m3 n tc r1 r1' r2 r2' =>
    rcases hx with rfl | rfl
    · exact absurd ⟨n, rfl⟩ hw
    · refine ⟨![[], [.half], [.half]], by simp [pts1D, m0, m1, m2, m3, n], rfl, fun _ => ffin (nodup_vals_free rfl)
        (nodup_vals_one rfl) (nodup_vals_one rfl), ?_⟩
      have hd : alongDir name (c% "z") = 0 := by simp [alongDir, m0, m2]
      have ht : twoHalves name (c% "z") = false := by simp [twoHalves, n]
      rw [hd, ht]
      have hπ := pi_pos
      refine ⟨fun p hp => ?_, fun p hp q hq e => ?_, fun j h1 h2 => ?_, fun h => by cases h⟩
      · refine ffin ((mem_vals_free rfl).1 (hp 0)) ?_ ?_
        · rw [(mem_vals_one rfl).1 (hp 1), hh]; exact half_interior (sz 1)
        · rw [(mem_vals_one rfl).1 (hp 2), hh]; exact half_interior (sz 2)
      · refine axis_le (fun h => absurd h zy) (fun _ => ?_)
        have e1 := (mem_vals_one rfl).1 (hp 1)
        have e2 := (mem_vals_one rfl).1 (hp 2)
        rw [hh] at e1 e2
        simp only [pos, tc, xxAt, Matrix.cons_val, e1, e2, e]
        have k1 := cos_half (c := c) (sz 1) (rg 1) (by rw [r1, r1']; ring) (by rw [r1]; positivity) (hq 1).1 (hq 1).2
        have k2 := sin_half (c := c) (sz 2) (rg 2) (by rw [r2, r2']; ring) (by rw [r2]; linarith) (hq 2).1 (hq 2).2
        exact wedge_z hs k1 k2
      · exact ⟨![j, Pt.half.eval G 1, Pt.half.eval G 2], ffin ((mem_vals_free rfl).2 ⟨h1, h2⟩)
          ((mem_vals_one rfl).2 rfl) ((mem_vals_one rfl).2 rfl), rfl⟩

/-! ### The planes -/

/-- The direction of the grid in which the plane is crossed. -/
def acrossDir (name plane : Str) : Fin 3 :=
  if containsSub (c% "Cartesian") name then (if plane = (c% "xy") then 2 else 0)
  else if containsSub (c% "Cylindrical") name then (if plane = (c% "xy") then 2 else 1)
  else if containsSub (c% "Wedge") name then 1
  else if plane = (c% "xy") then 1 else 2

/-- The plane is made of two half planes on the grid: the `yz` plane where there is an azimuth. -/
def twoHalfPlanes (name plane : Str) : Bool :=
  !containsSub (c% "Cartesian") name && !containsSub (c% "Wedge") name && decide (plane = (c% "yz"))

/-- The points are those of a plane: they are not in the ghost zones; each is nearest to the plane among all the points that
differ from it only in direction `dir`; for every point there is one that differs from it only in direction `dir`, and if
there are two half planes there is one in each. -/
structure NearPlane (G : Grid) (c : Coords) (plane : Str) (dir : Fin 3) (two : Bool) (S : Idx → Prop) : Prop where
  interior : ∀ p, S p → Interior G p
  nearest : ∀ p, S p → ∀ q, Interior G q → (∀ d, d ≠ dir → q d = p d) →
    distPlane plane (pos G c p) ≤ distPlane plane (pos G c q)
  complete : ∀ q, Interior G q → ∃ p, S p ∧ ∀ d, d ≠ dir → p d = q d
  halves : two = true → ∀ p, S p → ∃ p', S p' ∧ (∀ d, d ≠ dir → p' d = p d) ∧ pos G c p' 1 = -pos G c p 1

theorem abs_mul_le {a b b' : ℝ} (h : b ^ 2 ≤ b' ^ 2) : |a * b| ≤ |a * b'| := by
  rw [abs_mul, abs_mul]
  exact mul_le_mul_of_nonneg_left (sq_le_sq.1 h) (abs_nonneg _)

theorem fne {P : Fin 3 → Prop} {e : Fin 3} (h0 : (0 : Fin 3) ≠ e → P 0) (h1 : (1 : Fin 3) ≠ e → P 1)
    (h2 : (2 : Fin 3) ≠ e → P 2) : ∀ d, d ≠ e → P d := fun d => by fin_cases d <;> assumption

/-- The points near a plane. -/
theorem plane_points {name : Str} {c : Coords} (S : Shape name c) (hC : Centred name c) {G : Grid} (hG : GoodGrid name c G)
    {plane : Str}
    (hx : plane = (c% "xy") ∨ plane = (c% "yz")) (hw : ¬ (containsSub (c% "Wedge") name = true ∧ plane = (c% "xy"))) :
    ∃ L, pts2D name plane = some L ∧ noPoints L = false ∧ (∀ d, (vals G L d).Nodup) ∧
      NearPlane G c plane (acrossDir name plane) (twoHalfPlanes name plane) fun p => ∀ d, p d ∈ vals G L d := by
  have zy : (c% "yz") ≠ (c% "xy") := by decide
  have yz : (c% "xy") ≠ (c% "yz") := by decide
  have sz := hG.size
  have rg := hG.range
  have n0 : ∀ d, 0 ≤ G.n d := fun d => by have := sz d; omega
  have hh : ∀ d, Pt.half.eval G d = G.n d / 2 := fun d => eval_half (n0 d)
  have dxy : ∀ v : Vec, distPlane (c% "xy") v = |v 2| := fun v => by simp [distPlane]
  have dyz : ∀ v : Vec, distPlane (c% "yz") v = |v 0| := fun v => by simp [distPlane, zy]
  -- the middle of one direction
  have mid : ∀ (L : Fin 3 → List Pt) (e : Fin 3), (∀ d, L d = if d = e then [.half] else []) →
      (∀ p q : Idx, p e = G.n e / 2 → Interior G q → (∀ d, d ≠ e → q d = p d) →
        distPlane plane (pos G c p) ≤ distPlane plane (pos G c q)) →
      (∀ d, (vals G L d).Nodup) ∧ NearPlane G c plane e false fun p => ∀ d, p d ∈ vals G L d := by
    intro L e hL hn
    have v1 : ∀ j, j ∈ vals G L e ↔ j = G.n e / 2 := fun j => by
      rw [mem_vals_one (a := .half) (by rw [hL, if_pos rfl]), hh]
    have v0 : ∀ d, d ≠ e → ∀ j, j ∈ vals G L d ↔ (G.g : ℤ) ≤ j ∧ j < G.n d - G.g := fun d hd j => by
      rw [mem_vals_free (by rw [hL, if_neg hd])]
    refine ⟨fun d => ?_, fun p hp d => ?_, fun p hp q hq he => hn p q ((v1 _).1 (hp e)) hq he, fun q hq => ?_,
      fun h => by cases h⟩
    · by_cases hd : d = e
      · exact nodup_vals_one (a := .half) (by rw [hL, if_pos hd])
      · exact nodup_vals_free (by rw [hL, if_neg hd])
    · by_cases hd : d = e
      · subst hd
        rw [(v1 _).1 (hp d)]
        exact half_interior (sz d)
      · exact (v0 d hd _).1 (hp d)
    · refine ⟨Function.update q e (G.n e / 2), fun d => ?_, fun d hd => Function.update_of_ne hd _ _⟩
      by_cases hd : d = e
      · subst hd
        rw [Function.update_self]
        exact (v1 _).2 rfl
      · rw [Function.update_of_ne hd]
        exact (v0 d hd _).2 (hq d)
  -- two azimuths
  have two : ∀ (L : Fin 3 → List Pt) (e : Fin 3), (∀ d, L d = if d = e then [.quarter, .threeQuarters] else []) →
      (G.n e - 2 * G.g) % 2 = 0 → c.xxmin e = -π → c.xxmax e = π →
      (∀ p q : Idx, cos (xx G c e (p e)) ^ 2 ≤ cos (xx G c e (q e)) ^ 2 → (∀ d, d ≠ e → q d = p d) →
        distPlane plane (pos G c p) ≤ distPlane plane (pos G c q)) →
      (∀ p q : Idx, sin (xx G c e (p e)) = -sin (xx G c e (q e)) → (∀ d, d ≠ e → p d = q d) → pos G c p 1 = -pos G c q 1) →
      (∀ d, (vals G L d).Nodup) ∧ NearPlane G c plane e true fun p => ∀ d, p d ∈ vals G L d := by
    intro L e hL ev h0 h1 hn ht
    have A := azimuth_points (sz e) ev
    have T := azimuth_turn (c := c) (sz e) ev h0 h1
    have v1 : ∀ j, j ∈ vals G L e ↔ j = Pt.quarter.eval G e ∨ j = Pt.threeQuarters.eval G e := fun j => by
      rw [mem_vals_two (a := .quarter) (b := .threeQuarters) (by rw [hL, if_pos rfl])]
    have v0 : ∀ d, d ≠ e → ∀ j, j ∈ vals G L d ↔ (G.g : ℤ) ≤ j ∧ j < G.n d - G.g := fun d hd j => by
      rw [mem_vals_free (by rw [hL, if_neg hd])]
    have up : ∀ (q : Idx) (j : ℤ), (∀ d, d ≠ e → q d ∈ vals G L d) → j ∈ vals G L e →
        ∀ d, Function.update q e j d ∈ vals G L d := fun q j hq hj d => by
      by_cases hd : d = e
      · subst hd
        rw [Function.update_self]
        exact hj
      · rw [Function.update_of_ne hd]
        exact hq d hd
    refine ⟨fun d => ?_, fun p hp d => ?_, fun p hp q hq he => ?_, fun q hq => ?_, fun _ p hp => ?_⟩
    · by_cases hd : d = e
      · exact nodup_vals_two (a := .quarter) (b := .threeQuarters) (by rw [hL, if_pos hd]) (by subst hd; exact A.2.2)
      · exact nodup_vals_free (by rw [hL, if_neg hd])
    · by_cases hd : d = e
      · subst hd
        rcases (v1 _).1 (hp d) with e | e <;> rw [e]
        · exact A.1
        · exact A.2.1
      · exact (v0 d hd _).1 (hp d)
    · exact hn p q (azimuth_near (sz e) ev h0 h1 ((v1 _).1 (hp e)) _) he
    · exact ⟨Function.update q e (Pt.quarter.eval G e), up _ _ (fun d hd => (v0 d hd _).2 (hq d)) ((v1 _).2 (.inl rfl)),
        fun d hd => Function.update_of_ne hd _ _⟩
    · rcases (v1 _).1 (hp e) with e2 | e2
      · refine ⟨Function.update p e (Pt.threeQuarters.eval G e), up _ _ (fun d _ => hp d) ((v1 _).2 (.inr rfl)),
          fun d hd => Function.update_of_ne hd _ _, ht _ _ ?_ fun d hd => Function.update_of_ne hd _ _⟩
        rw [Function.update_self, e2, T]
      · refine ⟨Function.update p e (Pt.quarter.eval G e), up _ _ (fun d _ => hp d) ((v1 _).2 (.inl rfl)),
          fun d hd => Function.update_of_ne hd _ _, ht _ _ ?_ fun d hd => Function.update_of_ne hd _ _⟩
        rw [Function.update_self, e2, T, neg_neg]
  cases S with
  | cart f hf n n' n'' n3 tc =>
    have hs := hC.1 n
    rcases hx with rfl | rfl
    · refine ⟨![[], [], [.half]], by simp [pts2D, n], rfl, ?_⟩
      rw [show acrossDir name (c% "xy") = 2 by simp [acrossDir, n], show twoHalfPlanes name (c% "xy") = false by
        simp [twoHalfPlanes, n]]
      refine mid _ 2 (ffin rfl rfl rfl) fun p q hp hq he => ?_
      rw [dxy, dxy]
      simp only [pos, tc, xxAt, Matrix.cons_val, hp]
      exact mid_near (sz 2) (hs 2) hf _
    · refine ⟨![[.half], [], []], by simp [pts2D, n], rfl, ?_⟩
      rw [show acrossDir name (c% "yz") = 0 by simp [acrossDir, n], show twoHalfPlanes name (c% "yz") = false by
        simp [twoHalfPlanes, n]]
      refine mid _ 0 (ffin rfl rfl rfl) fun p q hp hq he => ?_
      rw [dyz, dyz]
      simp only [pos, tc, xxAt, Matrix.cons_val, hp]
      exact mid_near (sz 0) (hs 0) hf _
  | polar a zz b ha hz m0 m1 m2 n tc r0 r1 r1' r1'' ring r2 r2' =>
    rcases hx with rfl | rfl
    · refine ⟨![[], [.half], []], ?_, rfl, ?_⟩
      · rcases n with n | ⟨n, n'⟩ <;> simp [pts2D, m0, m1, n, *]
      rw [show acrossDir name (c% "xy") = 1 by simp [acrossDir, m0, m1, m2], show twoHalfPlanes name (c% "xy") = false by
        simp [twoHalfPlanes]]
      refine mid _ 1 (ffin rfl rfl rfl) fun p q hp hq he => ?_
      rw [dxy, dxy]
      simp only [pos, tc, xxAt, Matrix.cons_val, hp, he 0 (by decide)]
      exact abs_mul_le (cos_half (sz 1) (rg 1) r1' r1 (hq 1).1 (hq 1).2)
    · refine ⟨![[], [], [.quarter, .threeQuarters]], ?_, rfl, ?_⟩
      · rcases n with n | ⟨n, n'⟩ <;> simp [pts2D, m0, m1, n, *]
      rw [show acrossDir name (c% "yz") = 2 by simp [acrossDir, m0, m1, m2], show twoHalfPlanes name (c% "yz") = true by
        simp [twoHalfPlanes, m0, m2]]
      refine two _ 2 (ffin rfl rfl rfl) (hG.even 2 (azimuth_polar m0 m2 n)) r2 r2' (fun p q hp he => ?_) fun p q hp he => ?_
      · rw [dyz, dyz]
        simp only [pos, tc, xxAt, Matrix.cons_val, he 0 (by decide), he 1 (by decide)]
        exact abs_mul_le hp
      · simp only [pos, tc, xxAt, Matrix.cons_val, he 0 (by decide), he 1 (by decide), hp]
        ring
  | cyl ρ z hρ hz m0 m1 n nw nt tc r0 r1 r1' =>
    have hs := hC.2 n
    rcases hx with rfl | rfl
    · refine ⟨![[], [], [.half]], by simp [pts2D, n], rfl, ?_⟩
      rw [show acrossDir name (c% "xy") = 2 by simp [acrossDir, m0, n], show twoHalfPlanes name (c% "xy") = false by
        simp [twoHalfPlanes]]
      refine mid _ 2 (ffin rfl rfl rfl) fun p q hp hq he => ?_
      rw [dxy, dxy]
      simp only [pos, tc, xxAt, Matrix.cons_val, hp]
      exact mid_near (sz 2) hs hz _
    · refine ⟨![[], [.quarter, .threeQuarters], []], by simp [pts2D, m0, n], rfl, ?_⟩
      rw [show acrossDir name (c% "yz") = 1 by simp [acrossDir, m0, n], show twoHalfPlanes name (c% "yz") = true by
        simp [twoHalfPlanes, m0, nw]]
      refine two _ 1 (ffin rfl rfl rfl) (hG.even 1 (azimuth_cyl m0 m1 nw nt n)) r1 r1' (fun p q hp he => ?_) fun p q hp he => ?_
      · rw [dyz, dyz]
        simp only [pos, tc, xxAt, Matrix.cons_val, he 0 (by decide)]
        exact abs_mul_le hp
      · simp only [pos, tc, xxAt, Matrix.cons_val, he 0 (by decide), hp]
        ring
  | wedge r s hs m0 m1 m2 m3 n tc r1 r1' r2 r2' =>
    have hπ := pi_pos
    rcases hx with rfl | rfl
    · exact absurd ⟨n, rfl⟩ hw
    · refine ⟨![[], [.half], []], by simp [pts2D, m0, m1, m2, m3, n], rfl, ?_⟩
      rw [show acrossDir name (c% "yz") = 1 by simp [acrossDir, m0, m2, n], show twoHalfPlanes name (c% "yz") = false by
        simp [twoHalfPlanes, n]]
      refine mid _ 1 (ffin rfl rfl rfl) fun p q hp hq he => ?_
      rw [dyz, dyz]
      simp only [pos, tc, xxAt, Matrix.cons_val, hp, he 0 (by decide), ← mul_assoc]
      exact abs_mul_le (cos_half (sz 1) (rg 1) (by rw [r1, r1']; ring) (by rw [r1]; positivity) (hq 1).1 (hq 1).2)

/-! ### The centre -/

/-- The point nearest to the centre. -/
theorem center_point {name : Str} {c : Coords} (S : Shape name c) (hC : Centred name c) {G : Grid} (hG : GoodGrid name c G)
    (hw : containsSub (c% "Wedge") name = false) :
    ∃ i, center name G = some i ∧ Interior G i ∧ ∀ q, Interior G q → radius (pos G c i) ≤ radius (pos G c q) := by
  have sz := hG.size
  have rg := hG.range
  cases S with
  | cart f hf n n' n'' n3 tc =>
    have hs := hC.1 n
    refine ⟨![G.n 0 / 2, G.n 1 / 2, G.n 2 / 2], by simp [center, n, n', n'', n3], ffin (half_interior (sz 0))
      (half_interior (sz 1)) (half_interior (sz 2)), fun q hq => sqrt_le_sqrt ?_⟩
    simp only [pos, tc, xxAt, Matrix.cons_val]
    have k0 := sq_le_of_abs (mid_near (sz 0) (hs 0) hf (q 0))
    have k1 := sq_le_of_abs (mid_near (sz 1) (hs 1) hf (q 1))
    have k2 := sq_le_of_abs (mid_near (sz 2) (hs 2) hf (q 2))
    linarith
  | polar a zz b ha hz m0 m1 m2 n tc r0 r1 r1' r1'' ring r2 r2' =>
    refine ⟨![G.g, G.n 1 / 2, G.n 2 / 2], ?_, ffin ⟨le_rfl, by have := sz 0; simp; omega⟩
      (half_interior (sz 1)) (half_interior (sz 2)), fun q hq => sqrt_le_sqrt ?_⟩
    · rcases n with n | ⟨n, n'⟩ <;> simp [center, *]
    have e : ∀ x θ φ : ℝ, (a x * sin θ * cos φ) ^ 2 + (a x * sin θ * sin φ) ^ 2 + (zz x * cos θ) ^ 2 =
        a x ^ 2 + b ^ 2 * cos θ ^ 2 := fun x θ φ => by
      rw [mul_pow (zz x), hz]
      have h1 := cos_sq_add_sin_sq φ
      have h2 := sin_sq θ
      linear_combination (a x * sin θ) ^ 2 * h1 + a x ^ 2 * h2
    simp only [pos, tc, xxAt, Matrix.cons_val]
    rw [e, e]
    have k0 := sq_le_of_abs (first_near (rg 0) r0 ha (hq 0).1 (hq 0).2)
    have k1 := cos_half (sz 1) (rg 1) r1' r1 (hq 1).1 (hq 1).2
    gcongr
  | cyl ρ z hρ hz m0 m1 n nw nt tc r0 r1 r1' =>
    have hs := hC.2 n
    refine ⟨![G.g, G.n 1 / 2, G.n 2 / 2], by simp [center, n], ffin ⟨le_rfl, by have := sz 0; simp; omega⟩
      (half_interior (sz 1)) (half_interior (sz 2)), fun q hq => sqrt_le_sqrt ?_⟩
    simp only [pos, tc, xxAt, Matrix.cons_val]
    have k : ∀ r t : ℝ, (r * cos t) ^ 2 + (r * sin t) ^ 2 = r ^ 2 := fun r t => by
      rw [mul_pow, mul_pow, ← mul_add, cos_sq_add_sin_sq, mul_one]
    rw [k, k]
    exact add_le_add (sq_le_of_abs (first_near (rg 0) r0.ge hρ (hq 0).1 (hq 0).2)) (sq_le_of_abs (mid_near (sz 2) hs hz _))
  | wedge r s hs m0 m1 m2 m3 n tc r1 r1' r2 r2' => rw [n] at hw; cases hw

end Verif.Diag
