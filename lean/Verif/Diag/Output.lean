import Verif.Diag.Claims
import Verif.CurviBC.PartnerClaims

/-!
# C104: what the diagnostics write
-/
namespace Verif.Diag
open Verif.Py Verif.RefMetric Verif.CurviBC Real

/-- **C104.** Along an axis: for every coordinate system, on every grid, the function writes one line for each of a list of
grid points; these are the points nearest to the axis (`NearAxis`), each once; a line is the coordinate along the axis and
the values at the point; the lines are ordered along the axis; all assignments to the arrays of indices are inside. -/
theorem C104_axis_partial {P : CoordParams} (hP : ValidParams P) (hz : 0 ≤ P.slopez ∧ P.slopez ≤ P.amplz) {name : Str} {c : Coords}
    (h : choose P name = .sys c) (hn : Plain name) (hC : Centred name c) {G : Grid} (hG : GoodGrid name c G) {axis : Str}
    (hx : axis = (c% "y") ∨ axis = (c% "z")) (hr : ¬ (containsSub (c% "Ring") name = true ∧ axis = (c% "z")))
    (hw : ¬ (containsSub (c% "Wedge") name = true ∧ axis = (c% "y")))
    (h1 : twoHalves name axis = true → axis = (c% "z") → 1 < G.n 1 - 2 * G.g)
    (origin : Vec) (junk : ℤ → ℤ) (val : ℤ → List ℝ) :
    ∃ (out : List (ℝ × List ℝ) → Prop) (pts : List Idx), Prints1D G c origin name axis junk val = some out ∧
      (∃ l, out l) ∧
      (∀ l, out l → l.Perm (pts.map fun p => (pos G c p (axisIdx axis) + origin (axisIdx axis), val (G.at p))) ∧
        l.Pairwise fun a b => a.1 ≤ b.1) ∧
      pts.Nodup ∧ NearAxis G c axis (alongDir name axis) (twoHalves name axis) (· ∈ pts) ∧
      ∃ L, pts1D name axis = some L ∧ ∀ d, ∀ w ∈ ptWrites G L d, 0 ≤ w.1 ∧ w.1 < numpts G L d := by
  obtain ⟨L, e, np, nd, N⟩ := axis_points (shape_of hP hz h hn) hC hG hx hr hw
  have cmp : ∀ a b : ℝ × List ℝ, compare a b ≤ 0 ↔ a.1 ≤ b.1 := by
    intro a b
    unfold compare
    rcases lt_trichotomy a.1 b.1 with h | h | h
    · simp [h, h.le, not_lt.2 h.le]
    · simp [h]
    · simp [h, not_lt.2 h.le]
  refine ⟨_, points G L junk, by rw [Prints1D, e]; rfl, ?_, fun l (hl : Qsort _ l) => ⟨hl.1, hl.2.imp fun {a b} => (cmp a b).1⟩,
    nodup_points np hG.size junk (nd h1), ?_, L, e, fun d w hw => ptWrites_mem np hG.size d hw⟩
  · let R : ℝ × List ℝ → ℝ × List ℝ → Prop := fun a b => a.1 ≤ b.1
    classical
    have : Std.Total R := ⟨fun a b => le_total a.1 b.1⟩
    have : IsTrans (ℝ × List ℝ) R := ⟨fun a b c h h' => le_trans (a := a.1) h h'⟩
    refine ⟨(data1D G c origin axis L junk val).insertionSort R, List.perm_insertionSort R _, ?_⟩
    exact (List.pairwise_insertionSort R _).imp fun {a b} h => (cmp a b).2 h
  · have : (fun p => p ∈ points G L junk) = fun p => ∀ d, p d ∈ vals G L d := by
      funext p
      exact propext (mem_points np hG.size junk)
    rw [this]
    exact N

/-- **C104.** In a plane: likewise; a line is the two coordinates in the plane and the values at the point. -/
theorem C104_plane_partial {P : CoordParams} (hP : ValidParams P) (hz : 0 ≤ P.slopez ∧ P.slopez ≤ P.amplz) {name : Str} {c : Coords}
    (h : choose P name = .sys c) (hn : Plain name) (hC : Centred name c) {G : Grid} (hG : GoodGrid name c G) {plane : Str}
    (hx : plane = (c% "xy") ∨ plane = (c% "yz")) (hw : ¬ (containsSub (c% "Wedge") name = true ∧ plane = (c% "xy")))
    (origin : Vec) (junk : ℤ → ℤ) (val : ℤ → List ℝ) :
    ∃ pts : List Idx, lines2D G c origin name plane junk val = some (pts.map fun p =>
        if plane = (c% "xy") then (pos G c p 0 + origin 0, pos G c p 1 + origin 1, val (G.at p))
        else (pos G c p 1 + origin 1, pos G c p 2 + origin 2, val (G.at p))) ∧
      pts.Nodup ∧ NearPlane G c plane (acrossDir name plane) (twoHalfPlanes name plane) (· ∈ pts) ∧
      ∃ L, pts2D name plane = some L ∧ ∀ d, ∀ w ∈ ptWrites G L d, 0 ≤ w.1 ∧ w.1 < numpts G L d := by
  obtain ⟨L, e, np, nd, N⟩ := plane_points (shape_of hP hz h hn) hC hG hx hw
  refine ⟨points G L junk, by rw [lines2D, e]; rfl, nodup_points np hG.size junk nd, ?_, L, e,
    fun d w hw => ptWrites_mem np hG.size d hw⟩
  have : (fun p => p ∈ points G L junk) = fun p => ∀ d, p d ∈ vals G L d := by
    funext p
    exact propext (mem_points np hG.size junk)
  rw [this]
  exact N

/-- **C104.** At the centre: the line is the time and the values at a grid point that is nearest to the centre of the grid. -/
theorem C104_center {P : CoordParams} (hP : ValidParams P) (hz : 0 ≤ P.slopez ∧ P.slopez ≤ P.amplz) {name : Str} {c : Coords}
    (h : choose P name = .sys c) (hn : Plain name) (hC : Centred name c) {G : Grid} (hG : GoodGrid name c G)
    (hw : containsSub (c% "Wedge") name = false) (time : ℝ) (val : ℤ → List ℝ) :
    ∃ p, line0D name G time val = some (some (time, val (G.at p))) ∧ Interior G p ∧
      ∀ q, Interior G q → radius (pos G c p) ≤ radius (pos G c q) := by
  obtain ⟨i, e, hi, hq⟩ := center_point (shape_of hP hz h hn) hC hG hw
  refine ⟨i, ?_, hi, hq⟩
  have h0 := (hi 0).1
  have h1 := (hi 1).1
  have h2 := (hi 2).1
  rw [line0D, e, Option.map_some, if_pos ⟨by omega, by omega, by omega⟩]

/-- **C104.** Systems that do not have the centre, and axes or planes other than those named, are refused. -/
theorem C104_refused (name : Str) (G : Grid) (time : ℝ) (val : ℤ → List ℝ) :
    (containsSub (c% "Spherical") name = false → containsSub (c% "Cylindrical") name = false →
      containsSub (c% "SymTP") name = false → containsSub (c% "Cartesian") name = false → line0D name G time val = none) ∧
    (∀ axis, axis ≠ (c% "y") → axis ≠ (c% "z") → pts1D name axis = none) ∧
    (∀ plane, plane ≠ (c% "xy") → plane ≠ (c% "yz") → pts2D name plane = none) := by
  refine ⟨fun h0 h1 h2 h3 => by simp [line0D, center, *], fun axis h h' => by simp [pts1D, h, h'],
    fun plane h h' => by simp [pts2D, h, h']⟩

/-- **C104.** Where the code says that there are no points on an axis, nothing is written. -/
theorem C104_no_points {name axis : Str} {L : Fin 3 → List Pt} (h : pts1D name axis = some L) (hL : noPoints L = true)
    (G : Grid) (c : Coords) (origin : Vec) (junk : ℤ → ℤ) (val : ℤ → List ℝ) (out : List (ℝ × List ℝ) → Prop)
    (ho : Prints1D G c origin name axis junk val = some out) : ∀ l, out l → l = [] := by
  intro l hl
  rw [Prints1D, h] at ho
  cases ho
  have e : points G L junk = [] := by
    unfold points
    rw [List.map_eq_nil_iff, List.eq_nil_iff_forall_not_mem]
    intro p hp
    have := mem_loop.1 hp 0
    simp [numpts, hL] at this
    omega
  have := hl.1
  rw [data1D, e, List.map_nil] at this
  exact this.eq_nil

/-- **C104, violated.** Where there are no points on the axis (the `y` axis of wedges, the `z` axis of the ring), the arrays
of indices have no element, and the generated code assigns -1 to the first element of two of them: it writes outside of
the arrays. -/
theorem C104_bounds_violation (G : Grid) :
    (∃ L, pts1D (c% "UWedgeHSinhSph") (c% "y") = some L ∧ numpts G L 1 = 0 ∧ ((0 : ℤ), (-1 : ℤ)) ∈ ptWrites G L 1) ∧
    (∃ L, pts1D (c% "RingHoleySinhSpherical") (c% "z") = some L ∧ numpts G L 1 = 0 ∧ ((0 : ℤ), (-1 : ℤ)) ∈ ptWrites G L 1) :=
  ⟨⟨![[.none], [.none], [.none]], by decide, rfl, List.mem_singleton.2 rfl⟩,
    ⟨![[.none], [.none], [.none]], by decide, rfl, List.mem_singleton.2 rfl⟩⟩

theorem dist_wedge {A : ℝ} (hA : A ≠ 0) {φ ψ : ℝ} (h : |ψ| < |φ|) (h2 : |φ| < π / 2) : |A * cos φ| < |A * cos ψ| := by
  rw [abs_mul, abs_mul, ← cos_abs φ, ← cos_abs ψ]
  have k1 : cos |φ| < cos |ψ| := cos_lt_cos_of_nonneg_of_le_pi_div_two (abs_nonneg _) h2.le h
  have k2 : 0 < cos |φ| := cos_pos_of_mem_Ioo ⟨by linarith [abs_nonneg φ, pi_pos], h2⟩
  rw [abs_of_pos k2, abs_of_pos (k2.trans k1)]
  exact mul_lt_mul_of_pos_left k1 (abs_pos.2 hA)

/-- **C104, violated.** Wedges and the `xy` plane: the function writes the points at a quarter and three quarters of the
azimuths, as if these were a full circle.  On every wedge with at least six azimuths, points that it does not write are
strictly nearer to the plane. -/
theorem C104_wedge_violation {P : CoordParams} (hP : ValidParams P) (h0 : 0 ≤ P.rmin) {name : Str}
    (hname : name = (c% "UWedgeHSinhSph") ∨ name = (c% "LWedgeHSinhSph")) {c : Coords} (h : choose P name = .sys c) {G : Grid}
    (hG : GoodGrid name c G) (h6 : 6 ≤ G.n 2 - 2 * G.g) (junk : ℤ → ℤ) :
    ∃ L, pts2D name (c% "xy") = some L ∧ ∀ p ∈ points G L junk, ∃ q, Interior G q ∧ (∀ d, d ≠ 2 → q d = p d) ∧
      distPlane (c% "xy") (pos G c q) < distPlane (c% "xy") (pos G c p) := by
  have hc : ∃ s : ℝ, s ^ 2 = 1 ∧ (∀ x, c.toCart x 2 = s * (sinhv1 (x 0) P.ampl P.w * sin (x 1)) * cos (x 2)) ∧
      0 ≤ c.xxmin 0 ∧ c.xxmin 1 = 1 / 4 * π ∧ c.xxmax 1 = 3 / 4 * π ∧ c.xxmin 2 = -π * (1 / 4) ∧ c.xxmax 2 = π * (1 / 4) := by
    have m0 : 0 ≤ P.w * arsinh (P.rmin * sinh (1 / P.w) / P.ampl) := by
      have := hP.w
      have := hP.ampl
      have : 0 ≤ arsinh (P.rmin * sinh (1 / P.w) / P.ampl) := by
        rw [arsinh_nonneg_iff]
        have : 0 ≤ sinh (1 / P.w) := sinh_nonneg_iff.2 (by positivity)
        positivity
      positivity
    rcases hname with rfl | rfl
    · rw [show choose P (c% "UWedgeHSinhSph") = .sys (upperWedge P.ampl P.w P.rmin) from by
        simp [choose, wedgeChoice, show containsSub (c% "Cartesian") (c% "UWedgeHSinhSph") = false from by decide,
          show containsSub (c% "Spherical") (c% "UWedgeHSinhSph") = false from by decide,
          show containsSub (c% "Wedge") (c% "UWedgeHSinhSph") = true from by decide]] at h
      cases h
      refine ⟨1, by norm_num, fun x => ?_, m0, rfl, rfl, rfl, rfl⟩
      show sinhv1 (x 0) P.ampl P.w * sin (x 1) * cos (x 2) = _
      ring
    · rw [show choose P (c% "LWedgeHSinhSph") = .sys (lowerWedge P.ampl P.w P.rmin) from by
        simp [choose, wedgeChoice, show containsSub (c% "Cartesian") (c% "LWedgeHSinhSph") = false from by decide,
          show containsSub (c% "Spherical") (c% "LWedgeHSinhSph") = false from by decide,
          show containsSub (c% "Wedge") (c% "LWedgeHSinhSph") = true from by decide]] at h
      cases h
      refine ⟨-1, by norm_num, fun x => ?_, m0, rfl, rfl, rfl, rfl⟩
      show -sinhv1 (x 0) P.ampl P.w * sin (x 1) * cos (x 2) = _
      ring
  obtain ⟨s, hs, tc, r0, r1, r1', r2, r2'⟩ := hc
  have hπ := pi_pos
  refine ⟨![[], [], [.quarter, .threeQuarters]], by rcases hname with rfl | rfl <;> decide, fun p hp => ?_⟩
  have hv := (mem_points rfl hG.size junk).1 hp
  have c0 : (G.g : ℤ) ≤ p 0 ∧ p 0 < G.n 0 - G.g := mem_counter.1 (hv 0)
  have c1 : (G.g : ℤ) ≤ p 1 ∧ p 1 < G.n 1 - G.g := mem_counter.1 (hv 1)
  have c2 : p 2 = Pt.quarter.eval G 2 ∨ p 2 = Pt.threeQuarters.eval G 2 := by
    have := hv 2
    simpa [vals] using this
  rw [eval_quarter (by omega), eval_threeQuarters (by omega)] at c2
  have c2' : (G.g : ℤ) < p 2 ∧ p 2 < G.n 2 - G.g - 1 := by omega
  have sz := hG.size 2
  refine ⟨Function.update p 2 G.g, fun d => ?_, fun d hd => Function.update_of_ne hd _ _, ?_⟩
  · fin_cases d
    · exact c0
    · exact c1
    · show (G.g : ℤ) ≤ G.g ∧ (G.g : ℤ) < G.n 2 - G.g
      omega
  · have i0 := xx_inside (c := c) (hG.range 0) c0.1 c0.2
    have i1 := xx_inside (c := c) (hG.range 1) c1.1 c1.2
    rw [r1, r1'] at i1
    have i2 := xx_inside (c := c) (hG.range 2) (le_refl (G.g : ℤ)) (by omega : (G.g : ℤ) < G.n 2 - G.g)
    rw [r2, r2'] at i2
    have A : s * (sinhv1 (xx G c 0 (p 0)) P.ampl P.w * sin (xx G c 1 (p 1))) ≠ 0 := by
      have s1 : 0 < sin (xx G c 1 (p 1)) := sin_pos_of_pos_of_lt_pi (by linarith) (by linarith)
      have s0 : 0 < sinhv1 (xx G c 0 (p 0)) P.ampl P.w := by
        exact sinhv1_pos hP.ampl hP.w (by linarith)
      have s2 : s ≠ 0 := by rintro rfl; norm_num at hs
      positivity
    have e : ∀ q : Idx, distPlane (c% "xy") (pos G c q) =
        |s * (sinhv1 (xx G c 0 (q 0)) P.ampl P.w * sin (xx G c 1 (q 1))) * cos (xx G c 2 (q 2))| := fun q => by
      unfold distPlane
      rw [if_pos rfl, pos, tc]
      rfl
    rw [e, e]
    refine dist_wedge A ?_ ?_
    · have hN : (0 : ℝ) < ((G.n 2 - 2 * G.g : ℤ) : ℝ) := by exact_mod_cast (by omega : 0 < G.n 2 - 2 * (G.g : ℤ))
      have hdx : 0 < dxx G c 2 := div_pos (by linarith [hG.range 2]) hN
      have ed : ((G.n 2 - 2 * G.g : ℤ) : ℝ) * dxx G c 2 = π / 2 := by
        unfold dxx
        rw [r2, r2']
        field_simp
        ring
      have a1 : (1 : ℝ) ≤ ((p 2 - G.g : ℤ) : ℝ) := by exact_mod_cast (by omega : 1 ≤ p 2 - (G.g : ℤ))
      have a2 : ((p 2 - G.g : ℤ) : ℝ) + 2 ≤ ((G.n 2 - 2 * G.g : ℤ) : ℝ) := by
        exact_mod_cast (by omega : p 2 - (G.g : ℤ) + 2 ≤ G.n 2 - 2 * G.g)
      have b1 := mul_le_mul_of_nonneg_right a1 hdx.le
      have b2 := mul_le_mul_of_nonneg_right a2 hdx.le
      show |xx G c 2 (p 2)| < |xx G c 2 (G.g : ℤ)|
      rw [abs_of_neg (show xx G c 2 (G.g : ℤ) < 0 from ?_), abs_lt]
      · unfold xx
        rw [r2]
        simp only [sub_self, Int.cast_zero]
        constructor <;> nlinarith
      · unfold xx
        rw [r2]
        simp only [sub_self, Int.cast_zero]
        nlinarith
    · show |xx G c 2 (G.g : ℤ)| < π / 2
      rw [abs_lt]
      constructor <;> linarith

/-- **C104, violated.** One azimuth: along the `y` axis of a spherical grid, the function writes points of the ghost zone. -/
theorem C104_ghost_violation {G : Grid} (hG : ∀ d, 2 * (G.g : ℤ) < G.n d) (h1 : G.n 2 - 2 * G.g = 1) (hg : 1 ≤ G.g)
    (junk : ℤ → ℤ) :
    ∃ L, pts1D (c% "Spherical") (c% "y") = some L ∧ ∃ p ∈ points G L junk, p 2 = G.g - 1 ∧ ¬ Interior G p := by
  refine ⟨![[], [.half], [.quarter, .threeQuarters]], by decide, ?_⟩
  have e : Pt.quarter.eval G 2 = (G.g : ℤ) - 1 := by
    have hg' : (1 : ℝ) ≤ G.g := by exact_mod_cast hg
    show truncate _ = _
    rw [h1]
    unfold truncate
    rw [if_pos (by push_cast; linarith), Int.floor_eq_iff]
    push_cast
    constructor <;> linarith
  refine ⟨![G.g, Pt.half.eval G 1, Pt.quarter.eval G 2], (mem_points rfl hG junk).2 fun d => ?_, e, fun hi => ?_⟩
  · fin_cases d
    · refine mem_counter.2 ?_
      show (G.g : ℤ) ≤ G.g ∧ (G.g : ℤ) < G.n 0 - G.g
      have := hG 0
      omega
    · exact List.mem_singleton.2 rfl
    · exact List.mem_cons_self ..
  · have := (hi 2).1
    have e2 : (![(G.g : ℤ), Pt.half.eval G 1, Pt.quarter.eval G 2] : Idx) 2 = (G.g : ℤ) - 1 := e
    omega

/-- **C104, violated.** One polar angle: along the `z` axis of a spherical grid, every point is written twice. -/
theorem C104_twice_violation {G : Grid} (hG : ∀ d, 2 * (G.g : ℤ) < G.n d) (h1 : G.n 1 - 2 * G.g = 1) (junk : ℤ → ℤ) :
    ∃ L, pts1D (c% "Spherical") (c% "z") = some L ∧ ¬ (points G L junk).Nodup := by
  refine ⟨![[], [.first, .last], [.first]], by decide, fun hn => ?_⟩
  have l0 : vals G ![[], [.first, .last], [.first]] 0 ≠ [] := by
    intro h
    have : (G.g : ℤ) ∈ vals G ![[], [.first, .last], [.first]] 0 := mem_counter.2 (by
      have := hG 0
      omega)
    rw [h] at this
    cases this
  have key := List.inj_on_of_nodup_map hn
  have m : ∀ j : ℤ, 0 ≤ j → j < 2 → (![0, j, 0] : Idx) ∈ loop ![0, 0, 0] (numpts G ![[], [.first, .last], [.first]]) := by
    intro j h0 h2
    refine mem_loop.2 fun d => ?_
    have := hG 0
    fin_cases d
    · show (0 : ℤ) ≤ 0 ∧ 0 < G.n 0 - 2 * G.g
      omega
    · show (0 : ℤ) ≤ j ∧ j < 2
      omega
    · show (0 : ℤ) ≤ 0 ∧ (0 : ℤ) < 1
      omega
  have e := key (m 0 le_rfl (by norm_num)) (m 1 (by norm_num) (by norm_num)) (by
    funext d
    fin_cases d
    · rfl
    · have a0 := ptArray_eq (L := ![[], [.first, .last], [.first]]) rfl G junk 1 (k := 0) (by simp [vals])
      have a1 := ptArray_eq (L := ![[], [.first, .last], [.first]]) rfl G junk 1 (k := 1) (by simp [vals])
      refine a0.trans (Eq.trans ?_ a1.symm)
      show (G.g : ℤ) = G.n 1 - G.g - 1
      omega
    · rfl)
  have := congrFun e 1
  simp at this

/-! ### The `fprintf` statements -/

/-- Strings joined by a separator. -/
def joined (sep : Str) (l : List Str) : Str := (l.intersperse sep).flatten

/-- The conversion for a C type. -/
def conversion (type : Str) : Str := if type = (c% "int") then (c% "%d") else (c% "%.15e")

/-- A call of `fprintf` that writes one line: conversions separated by blanks, and as many arguments. -/
def fprintfCall (convs args : List Str) : Str :=
  (c% "fprintf(outfile, \"") ++ joined [' '] convs ++ (c% "\\n\", ") ++ joined (c% ", ") args ++ (c% ");\n")

theorem joined_append (sep : Str) {l : List Str} (hl : l ≠ []) (m : List Str) :
    joined sep l ++ (m.map fun x => sep ++ x).flatten = joined sep (l ++ m) := by
  induction l with
  | nil => exact absurd rfl hl
  | cons a l ih =>
    cases l with
    | nil =>
      clear ih
      induction m generalizing a with
      | nil => simp [joined]
      | cons b m ih =>
        have := ih b (by simp)
        simp only [joined, List.intersperse, List.flatten_cons, List.flatten_nil, List.append_nil, List.map_cons,
          List.cons_append, List.nil_append] at *
        rw [← this]
        cases m <;> simp
    | cons b l =>
      have := ih (by simp)
      simp only [joined, List.intersperse_cons_cons, List.flatten_cons, List.append_assoc, List.cons_append] at *
      rw [← this]

theorem addFormats_eq (keys : Keys) (s : Str) :
    addFormats keys s = s ++ (keys.map fun k => conversion k.1 ++ [' ']).flatten := by
  unfold addFormats
  induction keys generalizing s with
  | nil => simp
  | cons k l ih =>
    rw [List.foldl_cons, ih]
    simp only [List.map_cons, List.flatten_cons, conversion, ite_not, List.append_assoc]

theorem addArgs_eq (pre : Str) (keys : Keys) (s : Str) :
    addArgs pre keys s = s ++ (keys.map fun k => pre ++ k.2 ++ (c% ", ")).flatten := by
  unfold addArgs
  induction keys generalizing s with
  | nil => simp
  | cons k l ih =>
    rw [List.foldl_cons, ih]
    simp only [List.map_cons, List.flatten_cons, List.append_assoc]

/-- Dropping the last separator. -/
theorem dropEnd_sep (s sep : Str) (l : List Str) :
    dropEnd sep.length (s ++ sep ++ (l.map fun x => x ++ sep).flatten) = s ++ (l.map fun x => sep ++ x).flatten := by
  induction l generalizing s with
  | nil => simp [dropEnd]
  | cons a l ih =>
    have := ih (s ++ sep ++ a)
    simp only [List.map_cons, List.flatten_cons, List.append_assoc] at *
    rw [this]

theorem formats (s : Str) (f : List Str) (hf : f ≠ []) (keys : Keys) :
    dropEnd 1 (addFormats keys (s ++ joined [' '] f ++ [' '])) =
      s ++ joined [' '] (f ++ keys.map fun k => conversion k.1) := by
  have := dropEnd_sep (s ++ joined [' '] f) [' '] (keys.map fun k => conversion k.1)
  rw [List.map_map, List.map_map] at this
  rw [addFormats_eq, ← joined_append _ hf, List.map_map, ← List.append_assoc]
  exact this

theorem arguments (pre s : Str) (a : List Str) (ha : a ≠ []) (keys : Keys) :
    dropEnd 2 (addArgs pre keys (s ++ joined (c% ", ") a ++ (c% ", "))) =
      s ++ joined (c% ", ") (a ++ keys.map fun k => pre ++ k.2) := by
  have := dropEnd_sep (s ++ joined (c% ", ") a) (c% ", ") (keys.map fun k => pre ++ k.2)
  rw [List.map_map, List.map_map] at this
  rw [addArgs_eq, ← joined_append _ ha, List.map_map, ← List.append_assoc]
  exact this

/-- **C104.** The line at the centre: time and quantities. -/
theorem C104_print0D (keys : Keys) :
    print0D keys = fprintfCall ((c% "%e") :: keys.map fun k => conversion k.1) ((c% "time") :: keys.map fun k => k.2) := by
  have e1 := formats (c% "fprintf(outfile, \"") [(c% "%e")] (by simp) keys
  have e2 := arguments [] ((c% "fprintf(outfile, \"") ++ joined [' '] ((c% "%e") :: keys.map fun k => conversion k.1) ++
    (c% "\\n\", ")) [(c% "time")] (by simp) keys
  unfold print0D fprintfCall
  simp only [List.singleton_append, List.nil_append] at e1 e2
  rw [← e2, ← e1]
  simp [joined]

/-- **C104.** The line along an axis: coordinate and quantities. -/
theorem C104_print1D (keys : Keys) :
    print1D keys = [' ', ' '] ++ fprintfCall ((c% "%.15e") :: keys.map fun k => conversion k.1)
      ((c% "data_points[i].xCart_axis") :: keys.map fun k => (c% "data_points[i].") ++ k.2) ++ (c% "}\n") := by
  have e1 := formats (c% "  fprintf(outfile, \"") [(c% "%.15e")] (by simp) keys
  have e2 := arguments (c% "data_points[i].") ((c% "  fprintf(outfile, \"") ++ joined [' '] ((c% "%.15e") :: keys.map fun k =>
    conversion k.1) ++ (c% "\\n\", ")) [(c% "data_points[i].xCart_axis")] (by simp) keys
  unfold print1D fprintfCall
  simp only [List.singleton_append, List.nil_append] at e1 e2
  have e3 : ∀ u v w x : Str, [' ', ' '] ++ ((c% "fprintf(outfile, \"") ++ u ++ v ++ w ++ x) =
    (c% "  fprintf(outfile, \"") ++ u ++ v ++ w ++ x := fun u v w x => by simp
  rw [e3, ← e2, ← e1]
  simp [joined]

/-- **C104.** The line in a plane: the two coordinates and the quantities. -/
theorem C104_print2D {plane : Str} (hp : plane = (c% "xy") ∨ plane = (c% "yz")) (keys : Keys) :
    print2D plane keys = fprintfCall ((c% "%.15e") :: (c% "%.15e") :: keys.map fun k => conversion k.1)
      ((if plane = (c% "xy") then [(c% "xCart[0]"), (c% "xCart[1]")] else [(c% "xCart[1]"), (c% "xCart[2]")]) ++
        keys.map fun k => k.2) ++ (c% "}\n}\n") := by
  have e1 := formats (c% "fprintf(outfile, \"") [(c% "%.15e"), (c% "%.15e")] (by simp) keys
  have e2 := fun a b : Str => arguments [] ((c% "fprintf(outfile, \"") ++ joined [' '] ((c% "%.15e") :: (c% "%.15e") ::
    keys.map fun k => conversion k.1) ++ (c% "\\n\", ")) [a, b] (by simp) keys
  unfold print2D fprintfCall
  have e3 : ((c% "%.15e") :: (c% "%.15e") :: keys.map fun k => conversion k.1) =
    [(c% "%.15e"), (c% "%.15e")] ++ keys.map fun k => conversion k.1 := rfl
  simp only [List.nil_append] at e2
  rcases hp with rfl | rfl
  · rw [if_pos rfl, ← e2]
    rw [e3, ← e1]
    simp [joined]
  · rw [if_neg (by decide), ← e2]
    rw [e3, ← e1]
    simp [joined]

/-! ### The hypotheses are met -/

theorem plain_spherical : Plain (c% "Spherical") := ⟨by decide, by decide⟩

theorem centred_spherical (c : Coords) : Centred (c% "Spherical") c := ⟨fun h => absurd h (by decide), fun h => absurd h (by decide)⟩

/-- All hypotheses of `C104_axis_partial`, `C104_plane_partial` and `C104_center` are met by a spherical grid. -/
example : ValidParams demo ∧ (0 ≤ demo.slopez ∧ demo.slopez ≤ demo.amplz) ∧
    choose demo (c% "Spherical") = .sys (spherical demo.rmax) ∧ Plain (c% "Spherical") ∧
    Centred (c% "Spherical") (spherical demo.rmax) ∧ GoodGrid (c% "Spherical") (spherical demo.rmax) demoGrid ∧
    1 < demoGrid.n 1 - 2 * demoGrid.g :=
  ⟨demo_valid, by norm_num [demo], rfl, plain_spherical, centred_spherical _, demo_good, by norm_num [demoGrid]⟩

/-- Six azimuths on a wedge. -/
def wedgeGrid : Grid := ⟨![8, 8, 10], 2⟩

example : GoodGrid (c% "UWedgeHSinhSph") (upperWedge 1 1 0) wedgeGrid ∧ 6 ≤ wedgeGrid.n 2 - 2 * wedgeGrid.g := by
  have hπ := pi_pos
  refine ⟨⟨fun d => ?_, fun d => ?_, fun d hd => ?_, fun h => ?_, fun h => ?_⟩, by decide⟩
  · fin_cases d <;> simp [wedgeGrid]
  · fin_cases d
    · have : (0 : ℝ) < sinh 1 := sinh_pos_iff.2 one_pos
      simp [upperWedge, wedge]
    · simp [upperWedge, wedge]
      linarith
    · simp [upperWedge, wedge]
      linarith
  · fin_cases d <;> simp [wedgeGrid]
  · exact absurd h (by decide)
  · exact absurd h (by decide)

example : print0D [((c% "REAL"), (c% "a")), ((c% "int"), (c% "b"))] = (c% "fprintf(outfile, \"%e %.15e %d\\n\", time, a, b);\n") := by
  decide

end Verif.Diag
