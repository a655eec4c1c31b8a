import Verif.CurviBC.EigenProps

/-! # The partner map of each family of coordinate systems: lemmas -/
namespace Verif.CurviBC
open Verif.Py Verif.RefMetric Real

/-- The partner map is `fold`; it sends every grid point to a point of the box `[lo, hi)` that is the same point of
space, and leaves the points of the box alone.  The unit vectors at the two points differ by the signs `sg`. -/
structure Folds (eps : ℝ) (G : Grid) (orig eig : Coords) (fold : Idx → Idx) (sg : Idx → Fin 3 → ℝ) (lo hi : Idx) : Prop where
  lo_mem : ∀ d, 0 ≤ lo d ∧ lo d ≤ G.g
  hi_mem : ∀ d, G.n d - G.g ≤ hi d ∧ hi d ≤ G.n d
  box : ∀ p, G.Has p → ∀ d, lo d ≤ fold p d ∧ fold p d < hi d
  id : ∀ p, G.Has p → (∀ d, lo d ≤ p d ∧ p d < hi d) → fold p = p
  partner : ∀ p, G.Has p → partner eps G orig eig p = some (fold p)
  same : ∀ p, G.Has p → orig.toCart (xxAt G orig (fold p)) = orig.toCart (xxAt G orig p)
  signs : ∀ p k, sg p k = 1 ∨ sg p k = -1
  units : ∀ p, G.Has p → ∀ k i, orig.unit (xxAt G orig (fold p)) k i = sg p k * orig.unit (xxAt G orig p) k i
  norm : ∀ p, G.Has p → ∀ k, ∑ i, orig.unit (xxAt G orig p) k i * orig.unit (xxAt G orig p) k i = 1

theorem sgn_or (b : Bool) : sgn b = 1 ∨ sgn b = -1 := by cases b <;> simp [sgn]

theorem dxx_pos {G : Grid} {c : Coords} {d : Fin 3} (hn : 2 * (G.g : ℤ) < G.n d) (h : c.xxmin d < c.xxmax d) : 0 < dxx G c d := by
  unfold dxx
  have : (0 : ℝ) < ((G.n d - 2 * G.g : ℤ) : ℝ) := by exact_mod_cast (by omega)
  exact div_pos (by linarith) this

theorem xx_polar {G : Grid} {c : Coords} {d : Fin 3} (h0 : c.xxmin d = 0) (h1 : c.xxmax d = π) (j : ℤ) :
    xx G c d j = polar (G.n d - 2 * G.g) (j - G.g) := by
  unfold xx dxx polar
  rw [h0, h1]
  ring

theorem xx_azimuth {G : Grid} {c : Coords} {d : Fin 3} (h0 : c.xxmin d = -π) (h1 : c.xxmax d = π) (j : ℤ) :
    xx G c d j = azimuth (G.n d - 2 * G.g) (j - G.g) := by
  unfold xx dxx azimuth
  rw [h0, h1]
  ring

/-- Reflection at the lower end of a coordinate that starts at zero. -/
def foldRadius (g : ℕ) (i : ℤ) : ℤ := if i < g then 2 * g - 1 - i else i

theorem xx_foldRadius {G : Grid} {c : Coords} {d : Fin 3} (h0 : c.xxmin d = 0) (j : ℤ) :
    xx G c d (foldRadius G.g j) = sgn (decide (j < G.g)) * xx G c d j := by
  unfold foldRadius xx
  rw [h0]
  split
  · next h => simp only [h, decide_true, sgn, if_true]; push_cast; ring
  · next h => simp only [h, decide_false, sgn, Bool.false_eq_true, if_false]; ring

theorem xx_foldRadius_pos {G : Grid} {c : Coords} {d : Fin 3} (h0 : c.xxmin d = 0) (hdx : 0 < dxx G c d) (j : ℤ) :
    0 < xx G c d (foldRadius G.g j) := by
  have : (G.g : ℤ) ≤ foldRadius G.g j := by unfold foldRadius; split <;> omega
  have h : (0 : ℝ) ≤ ((foldRadius G.g j - G.g : ℤ) : ℝ) := by exact_mod_cast (by omega)
  unfold xx
  rw [h0]
  have : 0 < (((foldRadius G.g j - G.g : ℤ) : ℝ) + 1 / 2) * dxx G c d := mul_pos (by linarith) hdx
  linarith

/-! ### Spherical-like -/

/-- Signs that relate two sets of spherical coordinates of a point. -/
structure SphSigns (x y : Vec) (s t : Bool) : Prop where
  r : y 0 = sgn s * x 0
  sin1 : sin (y 1) = sgn t * sin (x 1)
  cos1 : cos (y 1) = sgn s * cos (x 1)
  sin2 : sin (y 2) = sgn s * sgn t * sin (x 2)
  cos2 : cos (y 2) = sgn s * sgn t * cos (x 2)

theorem odd_sgn {r : ℝ → ℝ} (hr : ∀ t, r (-t) = -r t) (s : Bool) (t : ℝ) : r (sgn s * t) = sgn s * r t := by
  cases s <;> simp [sgn, hr]

theorem SphSigns.toCart {x y : Vec} {s t : Bool} (h : SphSigns x y s t) {r : ℝ → ℝ} (hr : ∀ t, r (-t) = -r t)
    (lo hi : Vec) (o : Option (Vec → Vec)) : (sphericalLike r lo hi o).toCart y = (sphericalLike r lo hi o).toCart x := by
  have e := odd_sgn hr s (x 0)
  have hs := sgn_sq s
  have ht := sgn_sq t
  refine vec3_ext ?_ ?_ ?_ <;> simp [sphericalLike, h.r, h.sin1, h.cos1, h.sin2, h.cos2, e]
  · linear_combination (r (x 0) * sin (x 1) * cos (x 2)) * (sgn t * sgn t) * hs + (r (x 0) * sin (x 1) * cos (x 2)) * ht
  · linear_combination (r (x 0) * sin (x 1) * sin (x 2)) * (sgn t * sgn t) * hs + (r (x 0) * sin (x 1) * sin (x 2)) * ht
  · linear_combination (r (x 0) * cos (x 1)) * hs

theorem SphSigns.unit {x y : Vec} {s t : Bool} (h : SphSigns x y s t) (r : ℝ → ℝ) (lo hi : Vec) (o : Option (Vec → Vec))
    (k i : Fin 3) : (sphericalLike r lo hi o).unit y k i =
      (![sgn s, sgn t, sgn s * sgn t] : Vec) k * (sphericalLike r lo hi o).unit x k i := by
  have hs := sgn_sq s
  have ht := sgn_sq t
  fin_cases k <;> fin_cases i <;> simp [sphericalLike, h.sin1, h.cos1, h.sin2, h.cos2]
  · linear_combination (sgn s * sin (x 1) * cos (x 2)) * ht
  · linear_combination (sgn s * sin (x 1) * sin (x 2)) * ht
  · linear_combination (sgn t * cos (x 1) * cos (x 2)) * hs
  · linear_combination (sgn t * cos (x 1) * sin (x 2)) * hs

/-- The partner map of the spherical-like systems: `f0` if the radius starts at zero, `f1` if the polar angle covers
`[0, π]`.  Also the two signs. -/
def sphFold (f0 f1 : Bool) (G : Grid) (p : Idx) : Idx × Bool × Bool :=
  let s := f0 && decide (p 0 < G.g)
  let N1 := G.n 1 - 2 * G.g
  let b := p 1 - G.g
  let b' := if s then N1 - 1 - b else b
  let f := if f1 then foldPolar N1 b' else (b, false)
  (![if f0 then foldRadius G.g (p 0) else p 0, f.1 + G.g, foldAzimuth (G.n 2 - 2 * G.g) (p 2 - G.g) s f.2 + G.g], s, f.2)

/-- What the spherical-like systems need of a grid. -/
structure SphGrid (f0 f1 : Bool) (G : Grid) (lo hi : Vec) : Prop where
  size : ∀ d, 2 * (G.g : ℤ) < G.n d
  even : (G.n 2 - 2 * G.g) % 2 = 0
  lt : lo 0 < hi 0
  lo2 : lo 2 = -π
  hi2 : hi 2 = π
  full0 : f0 = true → lo 0 = 0 ∧ f1 = true
  hole0 : f0 = false → ((G.g : ℝ) - 1 / 2) * ((hi 0 - lo 0) / ((G.n 0 - 2 * G.g : ℤ) : ℝ)) < lo 0
  full1 : f1 = true → lo 1 = 0 ∧ hi 1 = π
  hole1 : f1 = false → lo 1 < hi 1 ∧ ((G.g : ℝ) - 1 / 2) * ((hi 1 - lo 1) / ((G.n 1 - 2 * G.g : ℤ) : ℝ)) < lo 1 ∧
    ((G.g : ℝ) - 1 / 2) * ((hi 1 - lo 1) / ((G.n 1 - 2 * G.g : ℤ) : ℝ)) < π - hi 1

theorem xx_gt {G : Grid} {c : Coords} {d : Fin 3} (hdx : 0 < dxx G c d) (h : ((G.g : ℝ) - 1 / 2) * dxx G c d < c.xxmin d)
    {j : ℤ} (hj : 0 ≤ j) : 0 < xx G c d j := by
  have : (0 : ℝ) ≤ j := by exact_mod_cast hj
  unfold xx
  push_cast
  nlinarith

theorem xx_lt {G : Grid} {c : Coords} {d : Fin 3} (hdx : 0 < dxx G c d) {u : ℝ}
    (h : ((G.g : ℝ) - 1 / 2) * dxx G c d < u - c.xxmax d) (hn : 2 * (G.g : ℤ) < G.n d) {j : ℤ} (hj : j < G.n d) :
    xx G c d j < u := by
  have hj' : (j : ℝ) + 1 ≤ G.n d := by exact_mod_cast hj
  have hN : (0 : ℝ) < ((G.n d - 2 * G.g : ℤ) : ℝ) := by exact_mod_cast (by omega)
  have e : c.xxmax d = c.xxmin d + ((G.n d - 2 * G.g : ℤ) : ℝ) * dxx G c d := by
    unfold dxx; field_simp; ring
  unfold xx
  rw [e] at h
  push_cast at h ⊢
  nlinarith

theorem sph_dxx {f0 f1 : Bool} {G : Grid} {lo hi : Vec} (hG : SphGrid f0 f1 G lo hi) (r : ℝ → ℝ) (o : Option (Vec → Vec)) :
    ∀ d, 0 < dxx G (sphericalLike r lo hi o) d := by
  have hπ := pi_pos
  intro d
  refine dxx_pos (hG.size d) ?_
  fin_cases d
  · exact hG.lt
  · show lo 1 < hi 1
    cases f1
    · exact (hG.hole1 rfl).1
    · rw [(hG.full1 rfl).1, (hG.full1 rfl).2]; exact hπ
  · show lo 2 < hi 2
    rw [hG.lo2, hG.hi2]; linarith

theorem sph_signs {f0 f1 : Bool} {G : Grid} {lo hi : Vec} (hG : SphGrid f0 f1 G lo hi) (r : ℝ → ℝ) (o : Option (Vec → Vec))
    (p : Idx) : SphSigns (xxAt G (sphericalLike r lo hi o) p) (xxAt G (sphericalLike r lo hi o) (sphFold f0 f1 G p).1)
      (sphFold f0 f1 G p).2.1 (sphFold f0 f1 G p).2.2 := by
  have N1 : 0 < G.n 1 - 2 * (G.g : ℤ) := by have := hG.size 1; omega
  have N2 : 0 < G.n 2 - 2 * (G.g : ℤ) := by have := hG.size 2; omega
  have az := foldAzimuth_trig N2 hG.even (p 2 - G.g) (sphFold f0 f1 G p).2.1 (sphFold f0 f1 G p).2.2
  have e2 : ∀ j, xx G (sphericalLike r lo hi o) 2 j = azimuth (G.n 2 - 2 * G.g) (j - G.g) := xx_azimuth hG.lo2 hG.hi2
  have q2 : (sphFold f0 f1 G p).1 2 = foldAzimuth (G.n 2 - 2 * G.g) (p 2 - G.g) (sphFold f0 f1 G p).2.1
      (sphFold f0 f1 G p).2.2 + G.g := rfl
  have h12 : ∀ t1 t2 : Bool, (sphFold f0 f1 G p).2 = (t1, t2) →
      xx G (sphericalLike r lo hi o) 0 ((sphFold f0 f1 G p).1 0) = sgn t1 * xx G (sphericalLike r lo hi o) 0 (p 0) ∧
      sin (xx G (sphericalLike r lo hi o) 1 ((sphFold f0 f1 G p).1 1)) = sgn t2 * sin (xx G (sphericalLike r lo hi o) 1 (p 1)) ∧
      cos (xx G (sphericalLike r lo hi o) 1 ((sphFold f0 f1 G p).1 1)) = sgn t1 * cos (xx G (sphericalLike r lo hi o) 1 (p 1)) := by
    cases f0 with
    | true =>
      obtain ⟨h0, rfl⟩ := hG.full0 rfl
      have e1 : ∀ j, xx G (sphericalLike r lo hi o) 1 j = polar (G.n 1 - 2 * G.g) (j - G.g) :=
        xx_polar (hG.full1 rfl).1 (hG.full1 rfl).2
      rintro t1 t2 h
      simp only [sphFold, Bool.true_and, if_true, Prod.mk.injEq] at h ⊢
      obtain ⟨rfl, rfl⟩ := h
      refine ⟨xx_foldRadius (c := sphericalLike r lo hi o) h0 (p 0), ?_⟩
      simp only [e1, Matrix.cons_val_one, Matrix.cons_val_zero, add_sub_cancel_right]
      have k := foldPolar_trig N1 (if p 0 < G.g then G.n 1 - 2 * (G.g : ℤ) - 1 - (p 1 - G.g) else p 1 - G.g)
      simp only [decide_eq_true_eq]
      rw [k.1, k.2]
      split
      · next c =>
        rw [polar_turn N1, sin_pi_sub, cos_pi_sub]
        simp [sgn, c]
      · next c => simp [sgn, c]
    | false =>
      rintro t1 t2 h
      simp only [sphFold, Bool.false_and, Bool.false_eq_true, if_false, Prod.mk.injEq] at h ⊢
      obtain ⟨rfl, rfl⟩ := h
      refine ⟨by simp [sgn], ?_⟩
      cases f1 with
      | false => simp [sgn]
      | true =>
        have e1 : ∀ j, xx G (sphericalLike r lo hi o) 1 j = polar (G.n 1 - 2 * G.g) (j - G.g) :=
          xx_polar (hG.full1 rfl).1 (hG.full1 rfl).2
        simp only [if_true, e1, Matrix.cons_val_one, Matrix.cons_val_zero, add_sub_cancel_right]
        have k := foldPolar_trig N1 (p 1 - G.g)
        rw [k.1, k.2]
        exact ⟨rfl, by simp [sgn]⟩
  obtain ⟨a, b, c⟩ := h12 _ _ rfl
  refine ⟨a, b, c, ?_, ?_⟩
  · show sin (xx _ _ 2 _) = _ * sin (xx _ _ 2 _)
    rw [e2, e2, q2, add_sub_cancel_right, az.1]
  · show cos (xx _ _ 2 _) = _ * cos (xx _ _ 2 _)
    rw [e2, e2, q2, add_sub_cancel_right, az.2]

/-- Box of the points that are their own partners. -/
def sphLo (f0 f1 : Bool) (G : Grid) : Idx := ![if f0 then (G.g : ℤ) else 0, if f1 then (G.g : ℤ) else 0, G.g]
@[inherit_doc sphLo]
def sphHi (f1 : Bool) (G : Grid) : Idx := ![G.n 0, if f1 then G.n 1 - G.g else G.n 1, G.n 2 - G.g]

theorem sph_box {f0 f1 : Bool} {G : Grid} {lo hi : Vec} (hG : SphGrid f0 f1 G lo hi) {p : Idx} (hp : G.Has p) (d : Fin 3) :
    sphLo f0 f1 G d ≤ (sphFold f0 f1 G p).1 d ∧ (sphFold f0 f1 G p).1 d < sphHi f1 G d := by
  have N0 := hG.size 0
  have N1 : 0 < G.n 1 - 2 * (G.g : ℤ) := by have := hG.size 1; omega
  have N2 : 0 < G.n 2 - 2 * (G.g : ℤ) := by have := hG.size 2; omega
  have p0 := hp 0
  have p1 := hp 1
  have p2 := hp 2
  fin_cases d
  · cases f0
    · simp [sphLo, sphHi, sphFold]; omega
    · simp [sphLo, sphHi, sphFold, foldRadius]; split <;> omega
  · have k := foldPolar_mem N1
      (if (f0 && decide (p 0 < G.g)) = true then G.n 1 - 2 * (G.g : ℤ) - 1 - (p 1 - G.g) else p 1 - G.g)
    cases f1
    · simp [sphLo, sphHi, sphFold]; omega
    · simp only [sphLo, sphHi, sphFold, if_true, Fin.mk_one, Matrix.cons_val_one, Matrix.cons_val_zero]
      omega
  · have k := foldAzimuth_mem N2 (p 2 - G.g) (sphFold f0 f1 G p).2.1 (sphFold f0 f1 G p).2.2
    show (G.g : ℤ) ≤ foldAzimuth _ _ (sphFold f0 f1 G p).2.1 (sphFold f0 f1 G p).2.2 + G.g ∧ foldAzimuth _ _ (sphFold f0 f1 G p).2.1 (sphFold f0 f1 G p).2.2 + G.g < G.n 2 - G.g
    omega

theorem sph_id {f0 f1 : Bool} {G : Grid} {p : Idx} (hp : ∀ d, sphLo f0 f1 G d ≤ p d ∧ p d < sphHi f1 G d) :
    (sphFold f0 f1 G p).1 = p := by
  have h0 := hp 0
  have h1 := hp 1
  have h2 := hp 2
  have s : (f0 && decide (p 0 < G.g)) = false := by
    cases f0 <;> simp [sphLo] at h0 ⊢
    omega
  have f : (if f1 then foldPolar (G.n 1 - 2 * G.g) (p 1 - G.g) else (p 1 - G.g, false)) = (p 1 - G.g, false) := by
    cases f1
    · rfl
    · rw [if_pos rfl, foldPolar_id] <;> simp [sphLo, sphHi] at h1 <;> omega
  simp only [sphFold, s, Bool.false_eq_true, if_false, f]
  refine idx_ext ?_ (by simp) ?_
  · cases f0
    · simp
    · simp [sphLo] at h0
      simp [foldRadius]; omega
  · simp [sphLo, sphHi] at h2
    simp [foldAzimuth_id (show 0 ≤ p 2 - (G.g : ℤ) by omega) (show p 2 - (G.g : ℤ) < G.n 2 - 2 * G.g by omega)]

theorem sph_domain {f0 f1 : Bool} {G : Grid} {lo hi : Vec} (hG : SphGrid f0 f1 G lo hi) (r : ℝ → ℝ) (o : Option (Vec → Vec))
    {p : Idx} (hp : G.Has p) :
    let y := xxAt G (sphericalLike r lo hi o) (sphFold f0 f1 G p).1
    0 < y 0 ∧ (0 < y 1 ∧ y 1 < π) ∧ -π < y 2 ∧ y 2 < π := by
  have hdx := sph_dxx hG r o
  have hb := sph_box hG hp
  have b0 := hb 0
  have b1 := hb 1
  have b2 := hb 2
  simp only []
  refine ⟨?_, ?_, ?_⟩
  · show 0 < xx G (sphericalLike r lo hi o) 0 ((sphFold f0 f1 G p).1 0)
    cases f0
    · exact xx_gt (hdx 0) (hG.hole0 rfl) b0.1
    · exact xx_foldRadius_pos (c := sphericalLike r lo hi o) (hG.full0 rfl).1 (hdx 0) _
  · show 0 < xx G (sphericalLike r lo hi o) 1 ((sphFold f0 f1 G p).1 1) ∧
      xx G (sphericalLike r lo hi o) 1 ((sphFold f0 f1 G p).1 1) < π
    cases f1
    · exact ⟨xx_gt (hdx 1) (hG.hole1 rfl).2.1 b1.1, xx_lt (hdx 1) (hG.hole1 rfl).2.2 (hG.size 1) b1.2⟩
    · rw [xx_polar (c := sphericalLike r lo hi o) (hG.full1 rfl).1 (hG.full1 rfl).2]
      simp [sphLo, sphHi] at b1
      exact polar_mem (by omega) (by omega)
  · show -π < xx G (sphericalLike r lo hi o) 2 ((sphFold f0 f1 G p).1 2) ∧
      xx G (sphericalLike r lo hi o) 2 ((sphFold f0 f1 G p).1 2) < π
    rw [xx_azimuth (c := sphericalLike r lo hi o) hG.lo2 hG.hi2]
    simp [sphLo, sphHi] at b2
    exact azimuth_mem (by omega) (by omega)

theorem sph_inverse {rmax : ℝ} {y : Vec} (hy : 0 < y 0 ∧ (0 < y 1 ∧ y 1 < π) ∧ -π < y 2 ∧ y 2 < π) :
    ![radius ((spherical rmax).toCart y), arccos ((spherical rmax).toCart y 2 / radius ((spherical rmax).toCart y)),
      atan2 ((spherical rmax).toCart y 1) ((spherical rmax).toCart y 0)] = y := by
  have h := (inverse_sphericalLike (r := fun t => t) (s := fun t => t) (lo := ![0, 0, -π]) (hi := ![y 0 + 1, π, π])
    (fun t h => h) (fun _ => rfl) (fun _ => rfl) le_rfl le_rfl le_rfl le_rfl none).1 y (by
      intro i
      fin_cases i <;> simp [sphericalLike]
      · exact hy.1
      · exact hy.2.1
      · exact hy.2.2)
  exact h

theorem Folds_sph {eps : ℝ} (he : 0 < eps) {f0 f1 : Bool} {G : Grid} {lo hi : Vec} (hG : SphGrid f0 f1 G lo hi)
    {r : ℝ → ℝ} (hr : ∀ t, r (-t) = -r t) (o : Option (Vec → Vec)) (rmax : ℝ) :
    Folds eps G (sphericalLike r lo hi o) (spherical rmax) (fun p => (sphFold f0 f1 G p).1)
      (fun p => ![sgn (sphFold f0 f1 G p).2.1, sgn (sphFold f0 f1 G p).2.2, sgn (sphFold f0 f1 G p).2.1 * sgn (sphFold f0 f1 G p).2.2])
      (sphLo f0 f1 G) (sphHi f1 G) := by
  have n0 := hG.size 0
  have n1 := hG.size 1
  have n2 := hG.size 2
  have hdx := sph_dxx hG r o
  have lom : ∀ d, 0 ≤ sphLo f0 f1 G d ∧ sphLo f0 f1 G d ≤ G.g := by
    intro d; fin_cases d <;> cases f0 <;> cases f1 <;> simp [sphLo]
  have him : ∀ d, G.n d - G.g ≤ sphHi f1 G d ∧ sphHi f1 G d ≤ G.n d := by
    intro d; fin_cases d <;> cases f1 <;> simp [sphHi]
  refine ⟨lom, him, fun p hp => sph_box hG hp, fun p hp h => sph_id h, fun p hp => ?_, fun p hp => (sph_signs hG r o p).toCart hr lo hi o,
    fun p k => ?_, fun p hp => (sph_signs hG r o p).unit r lo hi o, fun p hp k => ?_⟩
  · have hb := sph_box hG hp
    refine partner_of he hdx rfl (fun d => ⟨(lom d).1.trans (hb d).1, (hb d).2.trans_le (him d).2⟩) ?_
      ((sph_signs hG r o p).toCart hr lo hi o)
    have e : (spherical rmax).toCart (xxAt G (sphericalLike r lo hi o) p) =
        (spherical rmax).toCart (xxAt G (sphericalLike r lo hi o) (sphFold f0 f1 G p).1) :=
      ((sph_signs hG r o p).toCart (r := fun t => t) (fun t => rfl) ![0, 0, -π] ![rmax, π, π] _).symm
    rw [e]
    exact sph_inverse (sph_domain hG r o hp)
  · rcases sgn_or (sphFold f0 f1 G p).2.1 with h | h <;> rcases sgn_or (sphFold f0 f1 G p).2.2 with h' | h' <;>
      fin_cases k <;> simp [h, h']
  · have := (basis_sphericalLike (r := fun t => t) differentiable_id lo hi o (xxAt G (sphericalLike r lo hi o) p)).orthonormal k k
    rw [if_pos rfl] at this
    exact this

end Verif.CurviBC
