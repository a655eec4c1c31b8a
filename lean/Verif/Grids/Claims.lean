import Verif.Grids.Props

/-!
# Numerical grids and time step: what a user gets (C101)
-/
namespace Verif.Grids
open Verif.Py Verif.RefMetric Real

/-! ### Cells -/

/-- `N` equal cells that divide the range from `lo` to `hi`: the end of the `j`-th cell. -/
noncomputable def cellEnd (N : ℤ) (lo hi : ℝ) (j : ℤ) : ℝ := lo + j * ((hi - lo) / N)

/-- One direction of a cell-centred grid: there are `g` ghost points on each side of `N` interior points; interior point
`j` is the midpoint of the `j`-th of `N` equal cells dividing the range, all points are `dx` apart, `dx` is the width of
a cell and `inv` its inverse. -/
structure CellCentred (g : ℕ) (N : ℤ) (lo hi dx inv : ℝ) (xs : List ℝ) : Prop where
  length : (xs.length : ℤ) = N + 2 * g
  midpoint : ∀ j : ℕ, (j : ℤ) < N → xs[g + j]? = some ((cellEnd N lo hi j + cellEnd N lo hi (j + 1)) / 2)
  first : cellEnd N lo hi 0 = lo
  last : cellEnd N lo hi N = hi
  uniform : ∀ (j : ℕ) (x y : ℝ), xs[j]? = some x → xs[j + 1]? = some y → y - x = dx
  width : dx * N = hi - lo
  inverse : inv * dx = 1
  centred : ∀ (j k : ℕ) (x y : ℝ), (j : ℤ) + k + 1 = N + 2 * g → xs[j]? = some x → xs[k]? = some y → (x + y) / 2 = (lo + hi) / 2

/-- C101, cells: for every coordinate system, resolution and factor, each direction of the grid is cell-centred. -/
theorem C101_cells {name : Str} {g : ℕ} {cf : ℝ} {Nd Nx : Fin 3 → ℤ} {b : Bool} {p : Params} {G : GridData}
    (h : gridParams name g cf Nd Nx b p = some G) {d : Fin 3} (hN : 0 < G.params.Nxx d)
    (hr : G.params.xxmin d < G.params.xxmax d) :
    CellCentred g (G.params.Nxx d) (G.params.xxmin d) (G.params.xxmax d) (G.params.dxx d) (G.params.invdxx d) (G.xx d) := by
  obtain ⟨-, -, -, -, h1, h2, h3, h4, -, -⟩ := gridParams_some h
  have hN' : (G.params.Nxx d : ℝ) ≠ 0 := by exact_mod_cast hN.ne'
  have hr' : G.params.xxmax d - G.params.xxmin d ≠ 0 := by linarith
  have hlt : ∀ {j : ℕ} {x : ℝ}, (G.xx d)[j]? = some x → (j : ℤ) < G.params.NxxG d := by
    intro j x hx
    obtain ⟨hj, -⟩ := List.getElem?_eq_some_iff.1 hx
    rw [h4, length_coordArray] at hj
    omega
  have hval : ∀ {j : ℕ} {x : ℝ}, (G.xx d)[j]? = some x → x = G.params.xxmin d + ((j : ℝ) - g + 1 / 2) * G.params.dxx d := by
    intro j x hx
    have hj := hlt hx
    rw [h4, coordArray_get hj] at hx
    exact (Option.some.inj hx).symm
  constructor
  · rw [h4, length_coordArray, h1]; omega
  · intro j hj
    rw [h4, coordArray_get (by rw [h1]; push_cast; omega), h2]
    unfold cellEnd
    push_cast
    congr 1
    ring
  · simp [cellEnd]
  · unfold cellEnd; field_simp; ring
  · intro j x y hx hy
    rw [hval hx, hval hy]
    push_cast
    ring
  · rw [h2]; field_simp
  · rw [h2, h3]; field_simp
  · intro j k x y hjk hx hy
    rw [hval hx, hval hy, h2]
    have e : (j : ℝ) + k + 1 = G.params.Nxx d + 2 * g := by exact_mod_cast hjk
    have : (j : ℝ) = G.params.Nxx d + 2 * g - k - 1 := by linarith
    rw [this]
    field_simp
    ring

/-- C101, numbers of points: those asked for if all three are given, else those of the coordinate system; multiplied by
the factor, rounded down, except in directions with two points; and ghost points on both sides. -/
theorem C101_counts {name : Str} {g : ℕ} {cf : ℝ} {Nd Nx : Fin 3 → ℤ} {b : Bool} {p : Params} {G : GridData}
    (h : gridParams name g cf Nd Nx b p = some G) (hcf : 0 ≤ cf) (d : Fin 3) {N : ℤ}
    (hN : N = if ∀ e, Nx e ≠ -1 then Nx d else Nd d) (hN0 : 0 ≤ N) :
    G.params.NxxG d = G.params.Nxx d + 2 * g ∧ (N = 2 → G.params.Nxx d = 2) ∧
      (N ≠ 2 → (G.params.Nxx d : ℝ) ≤ N * cf ∧ N * cf < G.params.Nxx d + 1) := by
  obtain ⟨-, -, -, h0, h1, -⟩ := gridParams_some h
  have e : chosenN Nd Nx d = N := by
    rw [hN]
    unfold chosenN
    simp only [Fin.forall_fin_succ, Fin.forall_fin_zero_pi, IsEmpty.forall_iff, and_true]
    rfl
  rw [h1, h0, e]
  refine ⟨rfl, fun h2 => ?_, fun h2 => ?_⟩
  · subst h2; simp [resize]
  · have : (0 : ℝ) ≤ N * cf := mul_nonneg (by exact_mod_cast hN0) hcf
    unfold resize CurviBC.truncate
    rw [if_pos h2, if_pos this]
    exact ⟨Int.floor_le _, Int.lt_floor_add_one _⟩

/-- C101, convergence tests: with the factor `k` in place of 1, the range stays the same, every direction whose number of
points is not 2 has `k` times as many points and spacing divided by `k`; and if `k` is odd, each interior point of the
coarse grid is a point of the fine grid. -/
theorem C101_refinement {name : Str} {g : ℕ} {Nd Nx : Fin 3 → ℤ} {b : Bool} {p : Params} {G H : GridData} {k : ℕ}
    (hk : 0 < k) (hG : gridParams name g 1 Nd Nx b p = some G) (hH : gridParams name g k Nd Nx b p = some H) (d : Fin 3)
    (hN : 0 < G.params.Nxx d) (hr : G.params.xxmin d < G.params.xxmax d) (h2 : G.params.Nxx d ≠ 2) :
    H.params.xxmin d = G.params.xxmin d ∧ H.params.xxmax d = G.params.xxmax d ∧ H.params.Nxx d = k * G.params.Nxx d ∧
      H.params.dxx d = G.params.dxx d / k ∧
      ∀ m, k = 2 * m + 1 → ∀ j : ℕ, (j : ℤ) < G.params.Nxx d → (H.xx d)[g + (k * j + m)]? = (G.xx d)[g + j]? := by
  obtain ⟨a1, -, -, a0, a2, a3, -, a4, a5, a6⟩ := gridParams_some hG
  obtain ⟨b1, -, -, b0, b2, b3, -, b4, b5, b6⟩ := gridParams_some hH
  have es : G.sys = H.sys := by rw [a1] at b1; exact Choice.sys.inj b1
  have hkr : (k : ℝ) ≠ 0 := by exact_mod_cast hk.ne'
  have eN : G.params.Nxx d = chosenN Nd Nx d := by
    rw [a0]; unfold resize CurviBC.truncate
    split
    · rw [mul_one]; split <;> simp
    · rfl
  have eH : H.params.Nxx d = k * G.params.Nxx d := by
    rw [b0, ← eN]; unfold resize CurviBC.truncate
    rw [if_pos h2]
    have : (0 : ℝ) ≤ G.params.Nxx d * (k : ℝ) := mul_nonneg (by exact_mod_cast hN.le) (by positivity)
    rw [if_pos this, show (G.params.Nxx d : ℝ) * (k : ℝ) = ((k * G.params.Nxx d : ℤ) : ℝ) by push_cast; ring, Int.floor_intCast]
  have elo : H.params.xxmin d = G.params.xxmin d ∧ H.params.xxmax d = G.params.xxmax d := by
    cases b with
    | true =>
      obtain ⟨u, v⟩ := a5 rfl
      obtain ⟨u', v'⟩ := b5 rfl
      rw [u, v, u', v', es]; exact ⟨rfl, rfl⟩
    | false =>
      obtain ⟨u, v⟩ := a6 rfl
      obtain ⟨u', v'⟩ := b6 rfl
      rw [u, v, u', v']; exact ⟨rfl, rfl⟩
  have edx : H.params.dxx d = G.params.dxx d / k := by
    rw [a3, b3, elo.1, elo.2, eH]
    push_cast
    rw [div_div, mul_comm]
  refine ⟨elo.1, elo.2, eH, edx, fun m hm j hj => ?_⟩
  have hj' : ((k * j + m : ℕ) : ℤ) < k * G.params.Nxx d := by
    push_cast
    have : (m : ℤ) < k := by rw [hm]; push_cast; omega
    have hh : (k : ℤ) * (j + 1) ≤ k * G.params.Nxx d := mul_le_mul_of_nonneg_left (by omega) (by positivity)
    linarith
  rw [a4, b4, coordArray_get (by rw [b2, eH]; push_cast at hj' ⊢; linarith [hj']),
    coordArray_get (by rw [a2]; push_cast; omega), elo.1, edx]
  congr 2
  have hm' : (m : ℝ) = (k - 1) / 2 := by rw [hm]; push_cast; ring
  push_cast
  rw [hm']
  field_simp
  ring

/-! ### Extent in space -/

/-- Where the ends of the coordinate ranges are in space, for a grid of size `s` with a hole of radius `hole`: the faces
of a cube; a sphere, and inside of it a smaller one or the origin; a spheroid whose foci are at a distance `b` from the
origin; a cylinder. -/
def Extent (name : Str) (s hole b : ℝ) (c : Coords) : Prop :=
  if containsSub (c% "Cartesian") name then
    ∀ x d, (x d = c.xxmin d → c.toCart x d = -s) ∧ (x d = c.xxmax d → c.toCart x d = s)
  else if containsSub (c% "Spherical") name then
    ∀ x, (x 0 = c.xxmax 0 → radius (c.toCart x) = s) ∧
      (x 0 = c.xxmin 0 → radius (c.toCart x) = if (c% "HoleySinhSpherical").isSuffixOf name then hole else 0)
  else if containsSub (c% "Wedge") name then
    ∀ x, (x 0 = c.xxmax 0 → radius (c.toCart x) = s) ∧ (x 0 = c.xxmin 0 → radius (c.toCart x) = hole)
  else if containsSub (c% "SymTP") name then
    ∀ x, x 0 = c.xxmax 0 → (c.toCart x 0 ^ 2 + c.toCart x 1 ^ 2) / s ^ 2 + c.toCart x 2 ^ 2 / (s ^ 2 + b ^ 2) = 1
  else
    ∀ x, (x 0 = c.xxmax 0 → √(c.toCart x 0 ^ 2 + c.toCart x 1 ^ 2) = s) ∧ (x 2 = c.xxmin 2 → c.toCart x 2 = -s) ∧
      (x 2 = c.xxmax 2 → c.toCart x 2 = s)

/-- Parameters that do not depend on the size of the grid are as they should be. -/
structure Widths (P : CoordParams) : Prop where
  w : 0 < P.w
  waa : 0 < P.waa
  wz : 0 < P.wz
  b : 0 < P.b

theorem sinhv1_one {ampl w : ℝ} (hw : 0 < w) : sinhv1 1 ampl w = ampl := by
  have h2 : 0 < exp (1 / w) - exp (-1 / w) := by
    rw [sub_pos, exp_lt_exp]; gcongr; norm_num
  unfold sinhv1
  rw [mul_div_assoc, div_self h2.ne', mul_one]

theorem sinhv2_one {n : ℕ} {ampl w s : ℝ} (hw : 0 < w) : sinhv2 n 1 ampl w s = ampl := by
  have h2 : 0 < exp (1 / w) - exp (-1 / w) := by
    rw [sub_pos, exp_lt_exp]; gcongr; norm_num
  unfold sinhv2
  rw [mul_div_assoc, div_self h2.ne', one_pow]
  ring

theorem sinhv1_zero (ampl w : ℝ) : sinhv1 0 ampl w = 0 := by simp [sinhv1]
theorem sinhv2_zero (n : ℕ) (ampl w s : ℝ) : sinhv2 n 0 ampl w s = 0 := by simp [sinhv2]

theorem radius_sph (r : ℝ → ℝ) (lo hi : Vec) (o : Option (Vec → Vec)) (x : Vec) (h : 0 ≤ r (x 0)) :
    radius ((sphericalLike r lo hi o).toCart x) = r (x 0) :=
  radius_spherical h _ rfl rfl rfl

theorem radius_wedge {ampl w rmin : ℝ} (x : Vec) (h : 0 ≤ sinhv1 (x 0) ampl w) :
    radius ((upperWedge ampl w rmin).toCart x) = sinhv1 (x 0) ampl w ∧
      radius ((lowerWedge ampl w rmin).toCart x) = sinhv1 (x 0) ampl w := by
  have key : ∀ p : Vec, p 0 ^ 2 + p 1 ^ 2 + p 2 ^ 2 = sinhv1 (x 0) ampl w ^ 2 → radius p = sinhv1 (x 0) ampl w :=
    fun p hp => by unfold radius; rw [hp, sqrt_sq h]
  constructor <;> apply key <;> simp only [upperWedge, lowerWedge, wedge, Matrix.cons_val_zero, Matrix.cons_val_one,
      Matrix.cons_val]
  · have a := sin_sq_add_cos_sq (x 1)
    have b := sin_sq_add_cos_sq (x 2)
    linear_combination sinhv1 (x 0) ampl w ^ 2 * (a + sin (x 1) ^ 2 * b)
  · have a := sin_sq_add_cos_sq (x 1)
    have b := sin_sq_add_cos_sq (x 2)
    linear_combination sinhv1 (x 0) ampl w ^ 2 * (a + sin (x 1) ^ 2 * b)

theorem rho_cyl (rho z : ℝ → ℝ) (lo hi : Vec) (o : Option (Vec → Vec)) (x : Vec) (h : 0 ≤ rho (x 0)) :
    √((cylindricalLike rho z lo hi o).toCart x 0 ^ 2 + (cylindricalLike rho z lo hi o).toCart x 1 ^ 2) = rho (x 0) := by
  have : (cylindricalLike rho z lo hi o).toCart x 0 ^ 2 + (cylindricalLike rho z lo hi o).toCart x 1 ^ 2 = rho (x 0) ^ 2 := by
    simp only [cylindricalLike, Matrix.cons_val_zero, Matrix.cons_val_one]
    linear_combination rho (x 0) ^ 2 * sin_sq_add_cos_sq (x 1)
  rw [this, sqrt_sq h]

theorem spheroid {aa : ℝ → ℝ} {b s : ℝ} (hi : Vec) (x : Vec) (hs : 0 < s) (h : aa (x 0) = s) :
    ((symTPLike aa b hi).toCart x 0 ^ 2 + (symTPLike aa b hi).toCart x 1 ^ 2) / s ^ 2 +
      (symTPLike aa b hi).toCart x 2 ^ 2 / (s ^ 2 + b ^ 2) = 1 := by
  have hq : 0 < s ^ 2 + b ^ 2 := by positivity
  have e := sq_sqrt hq.le
  simp only [symTPLike, Matrix.cons_val_zero, Matrix.cons_val_one, Matrix.cons_val, h, mul_pow, e]
  have a := sin_sq_add_cos_sq (x 1)
  have c := sin_sq_add_cos_sq (x 2)
  field_simp
  linear_combination sin (x 1) ^ 2 * c + a

/-- C101, extent: the ends of the coordinate ranges are where `grid_physical_size` and `grid_hole_radius` say, whatever
values the parameters of the coordinate system had before. -/
theorem C101_extent {name : Str} {g : ℕ} {cf : ℝ} {Nd Nx : Fin 3 → ℤ} {p : Params} {G : GridData}
    (h : gridParams name g cf Nd Nx true p = some G) (hw : Widths p.rfm) (hs : 0 < p.size) (hh : 0 < p.hole) :
    Extent name p.size p.hole p.rfm.b G.sys := by
  obtain ⟨h1, -⟩ := gridParams_some h
  have e1 : sinh (1 / p.rfm.w) ≠ 0 := by
    have := sinh_pos_iff.2 (one_div_pos.2 hw.w); exact this.ne'
  have w1 := hw.w
  have w2 := hw.waa
  have w3 := hw.wz
  unfold Extent
  unfold choose at h1
  by_cases c1 : containsSub (c% "Cartesian") name = true
  · rw [if_pos c1] at h1 ⊢
    unfold cartesianChoice at h1
    split_ifs at h1 with k1 k2
    · have := Choice.sys.inj h1
      rw [← this]
      intro x d
      subst k1
      have hr : rfmOf (c% "Cartesian") p = { p.rfm with lo := ![-p.size, -p.size, -p.size], hi := ![p.size, p.size, p.size] } := by
        unfold rfmOf setHole setSize
        rw [if_neg (by decide), if_pos (by decide), if_pos rfl]
      rw [hr]
      fin_cases d <;> simp [cartesian]
    · have := Choice.sys.inj h1
      rw [← this]
      intro x d
      subst k2
      have hr : rfmOf (c% "SinhCartesian") p = { p.rfm with ampl := p.size } := by
        unfold rfmOf setHole setSize
        rw [if_neg (by decide), if_pos (by decide), if_neg (by decide)]
      rw [hr]
      have o : sinhv1 (-1) p.size p.rfm.w = -p.size := by rw [CurviBC.sinhv1_odd, sinhv1_one hw.w]
      fin_cases d <;> simp +contextual [sinhCartesian, sinhv1_one hw.w, o]
  rw [if_neg c1] at h1 ⊢
  by_cases c2 : containsSub (c% "Spherical") name = true
  · rw [if_pos c2] at h1 ⊢
    unfold sphericalChoice at h1
    by_cases k1 : name = (c% "Spherical")
    · rw [if_pos k1] at h1
      have := Choice.sys.inj h1
      rw [← this]
      intro x
      subst k1
      have hr : rfmOf (c% "Spherical") p = { p.rfm with rmax := p.size } := by
        unfold rfmOf setHole setSize
        rw [if_neg (by decide), if_neg (by decide), if_pos (by decide), if_pos rfl]
      rw [hr, if_neg (by decide)]
      clear this h1
      refine ⟨fun hx => ?_, fun hx => ?_⟩
      · have hx' : x 0 = p.size := hx
        unfold spherical
        rw [radius_sph _ _ _ _ _ (by rw [hx']; exact hs.le), hx']
      · have hx' : x 0 = 0 := hx
        unfold spherical
        rw [radius_sph _ _ _ _ _ (by rw [hx']), hx']
    rw [if_neg k1] at h1
    have hsz : setSize name p.size p.rfm = { p.rfm with ampl := p.size } := by
      unfold setSize; rw [if_neg c1, if_pos c2, if_neg k1]
    have hA : (rfmOf name p).ampl = p.size := by unfold rfmOf setHole; rw [hsz]; split <;> rfl
    have hW : (rfmOf name p).w = p.rfm.w := by unfold rfmOf setHole; rw [hsz]; split <;> rfl
    have hS : (rfmOf name p).slope = p.rfm.slope := by unfold rfmOf setHole; rw [hsz]; split <;> rfl
    have top : p.rfm.w * arsinh (p.size * sinh (1 / p.rfm.w) / p.size) = 1 := by
      rw [mul_div_assoc, mul_div_assoc', mul_div_cancel_left₀ _ hs.ne', arsinh_sinh]
      field_simp
    by_cases k2 : (c% "SinhSpherical").isSuffixOf name = true
    · rw [if_pos k2] at h1
      by_cases k3 : containsSub (c% "HoleySinhSpherical") name = true
      · rw [if_pos k3] at h1
        have hole : ∀ {lo hi : Vec}, lo 0 = p.rfm.w * arsinh (p.hole * sinh (1 / p.rfm.w) / p.size) → hi 0 = 1 →
            ∀ o x, (x 0 = hi 0 → radius ((sphericalLike (fun t => sinhv1 t p.size p.rfm.w) lo hi o).toCart x) = p.size) ∧
            (x 0 = lo 0 → radius ((sphericalLike (fun t => sinhv1 t p.size p.rfm.w) lo hi o).toCart x) = p.hole) := by
          intro lo hi a b o x
          refine ⟨fun hx => ?_, fun hx => ?_⟩
          · rw [radius_sph] <;> rw [hx, b, sinhv1_one w1]
            exact hs.le
          · rw [radius_sph] <;> rw [hx, a, sinhv1_arsinh hs w1]
            exact hh.le
        by_cases k4 : name = (c% "HoleySinhSpherical")
        · rw [if_pos k4] at h1
          have := Choice.sys.inj h1
          have hM : (rfmOf name p).rmin = p.hole := by subst k4; unfold rfmOf setHole; rw [if_pos (by decide)]
          rw [← this, hA, hW, hM, if_pos (by subst k4; decide)]
          exact fun x => hole (lo := _) (hi := _) rfl top _ x
        rw [if_neg k4] at h1
        by_cases k5 : name = (c% "RingHoleySinhSpherical")
        · rw [if_pos k5] at h1
          have := Choice.sys.inj h1
          have hM : (rfmOf name p).rmin = p.hole := by subst k5; unfold rfmOf setHole; rw [if_pos (by decide)]
          rw [← this, hA, hW, hM, if_pos (by subst k5; decide)]
          exact fun x => hole (lo := _) (hi := _) rfl top _ x
        rw [if_neg k5] at h1
        cases h1
      · rw [if_neg k3] at h1
        have := Choice.sys.inj h1
        have nh : ¬ (c% "HoleySinhSpherical").isSuffixOf name = true := fun e =>
          k3 ((CFunction.containsSub_iff _ _).2 (List.isSuffixOf_iff_suffix.1 e).isInfix)
        rw [← this, hA, hW, if_neg nh]
        intro x
        refine ⟨fun hx => ?_, fun hx => ?_⟩
        · have hx' : x 0 = 1 := hx
          unfold sinhSpherical
          rw [radius_sph] <;> rw [hx', sinhv1_one w1]
          exact hs.le
        · have hx' : x 0 = 0 := hx
          unfold sinhSpherical
          rw [radius_sph] <;> rw [hx', sinhv1_zero]
    · rw [if_neg k2] at h1
      split_ifs at h1 with k3
      split at h1
      · next n hn =>
        have := Choice.sys.inj h1
        have nh : ¬ (c% "HoleySinhSpherical").isSuffixOf name = true := fun e =>
          k2 (List.isSuffixOf_iff_suffix.2 (List.IsSuffix.trans ⟨(c% "Holey"), rfl⟩ (List.isSuffixOf_iff_suffix.1 e)))
        rw [← this, hA, hW, hS, if_neg nh]
        intro x
        refine ⟨fun hx => ?_, fun hx => ?_⟩
        · have hx' : x 0 = 1 := hx
          unfold sinhSphericalv2
          rw [radius_sph] <;> rw [hx', sinhv2_one w1]
          exact hs.le
        · have hx' : x 0 = 0 := hx
          unfold sinhSphericalv2
          rw [radius_sph] <;> rw [hx', sinhv2_zero]
      · cases h1
  rw [if_neg c2] at h1 ⊢
  by_cases c3 : containsSub (c% "Wedge") name = true
  · rw [if_pos c3] at h1 ⊢
    have hsz : setSize name p.size p.rfm = { p.rfm with ampl := p.size } := by
      unfold setSize; rw [if_neg c1, if_neg c2, if_pos c3]
    have hr : rfmOf name p = { p.rfm with ampl := p.size, rmin := p.hole } := by
      unfold rfmOf setHole; rw [hsz, if_pos (by rw [c3]; simp)]
    have top : p.rfm.w * arsinh (p.size * sinh (1 / p.rfm.w) / p.size) = 1 := by
      rw [mul_div_cancel_left₀ _ hs.ne', arsinh_sinh]
      field_simp
    rw [hr] at h1
    have up : ∀ x : Vec, x 0 = p.rfm.w * arsinh (p.size * sinh (1 / p.rfm.w) / p.size) → sinhv1 (x 0) p.size p.rfm.w = p.size :=
      fun x hx => by rw [hx, top, sinhv1_one w1]
    have lo : ∀ x : Vec, x 0 = p.rfm.w * arsinh (p.hole * sinh (1 / p.rfm.w) / p.size) → sinhv1 (x 0) p.size p.rfm.w = p.hole :=
      fun x hx => by rw [hx, sinhv1_arsinh hs w1]
    unfold wedgeChoice at h1
    split_ifs at h1 with k1 k2
    · have := Choice.sys.inj h1
      rw [← this]
      refine fun x => ⟨fun hx => ?_, fun hx => ?_⟩
      · have := up x hx
        rw [(radius_wedge x (by rw [this]; exact hs.le)).1, this]
      · have := lo x hx
        rw [(radius_wedge x (by rw [this]; exact hh.le)).1, this]
    · have := Choice.sys.inj h1
      rw [← this]
      refine fun x => ⟨fun hx => ?_, fun hx => ?_⟩
      · have := up x hx
        rw [(radius_wedge x (by rw [this]; exact hs.le)).2, this]
      · have := lo x hx
        rw [(radius_wedge x (by rw [this]; exact hh.le)).2, this]
  rw [if_neg c3] at h1 ⊢
  by_cases c4 : containsSub (c% "SymTP") name = true
  · rw [if_pos c4] at h1 ⊢
    have hsz : setSize name p.size p.rfm = { p.rfm with amax := p.size } := by
      unfold setSize; rw [if_neg c1, if_neg c2, if_neg c3, if_pos c4]
    have hA : (rfmOf name p).amax = p.size := by unfold rfmOf setHole; rw [hsz]; split <;> rfl
    have hW : (rfmOf name p).waa = p.rfm.waa := by unfold rfmOf setHole; rw [hsz]; split <;> rfl
    have hb : (rfmOf name p).b = p.rfm.b := by unfold rfmOf setHole; rw [hsz]; split <;> rfl
    unfold symTPChoice at h1
    rw [hA, hW, hb] at h1
    split_ifs at h1 with k1 k2
    · have := Choice.sys.inj h1
      rw [← this]
      exact fun x hx => spheroid _ x hs hx
    · have := Choice.sys.inj h1
      rw [← this]
      refine fun x hx => spheroid _ x hs ?_
      have hx' : x 0 = 1 := hx
      rw [hx', sinhv1_one w2]
  rw [if_neg c4] at h1 ⊢
  split_ifs at h1 with c5
  unfold cylindricalChoice at h1
  by_cases k1 : name = (c% "Cylindrical")
  · rw [if_pos k1] at h1
    have := Choice.sys.inj h1
    rw [← this]
    have hr : rfmOf name p = { p.rfm with rhomax := p.size, zmin := -p.size, zmax := p.size } := by
      subst k1
      unfold rfmOf setHole setSize
      rw [if_neg (by decide), if_neg (by decide), if_neg (by decide), if_neg (by decide), if_neg (by decide), if_pos rfl]
    rw [hr]
    refine fun x => ⟨fun hx => ?_, fun hx => hx, fun hx => hx⟩
    have hx' : x 0 = p.size := hx
    unfold cylindrical
    rw [rho_cyl _ _ _ _ _ _ (by rw [hx']; exact hs.le), hx']
  rw [if_neg k1] at h1
  have hsz : setSize name p.size p.rfm = { p.rfm with ampl := p.size, amplz := p.size } := by
    unfold setSize; rw [if_neg c1, if_neg c2, if_neg c3, if_neg c4, if_neg k1]
  have hA : (rfmOf name p).ampl = p.size := by unfold rfmOf setHole; rw [hsz]; split <;> rfl
  have hZ : (rfmOf name p).amplz = p.size := by unfold rfmOf setHole; rw [hsz]; split <;> rfl
  have hW : (rfmOf name p).w = p.rfm.w := by unfold rfmOf setHole; rw [hsz]; split <;> rfl
  have hV : (rfmOf name p).wz = p.rfm.wz := by unfold rfmOf setHole; rw [hsz]; split <;> rfl
  rw [hA, hZ, hW, hV] at h1
  split_ifs at h1 with k2 k3
  · have := Choice.sys.inj h1
    rw [← this]
    refine fun x => ⟨fun hx => ?_, fun hx => ?_, fun hx => ?_⟩
    · have hx' : x 0 = 1 := hx
      unfold sinhCylindrical
      rw [rho_cyl] <;> rw [hx', sinhv1_one w1]
      exact hs.le
    · have hx' : x 2 = -1 := hx
      show sinhv1 (x 2) p.size p.rfm.wz = -p.size
      rw [hx', CurviBC.sinhv1_odd, sinhv1_one w3]
    · have hx' : x 2 = 1 := hx
      show sinhv1 (x 2) p.size p.rfm.wz = p.size
      rw [hx', sinhv1_one w3]
  · split at h1
    · next n hn =>
      have := Choice.sys.inj h1
      rw [← this]
      refine fun x => ⟨fun hx => ?_, fun hx => ?_, fun hx => ?_⟩
      · have hx' : x 0 = 1 := hx
        unfold sinhCylindricalv2
        rw [rho_cyl] <;> rw [hx', sinhv2_one w1]
        exact hs.le
      · have hx' : x 2 = -1 := hx
        show sinhv2 n (x 2) p.size p.rfm.wz _ = -p.size
        rw [hx', CurviBC.sinhv2_odd (CurviBC.powerN_even hn), sinhv2_one w3]
      · have hx' : x 2 = 1 := hx
        show sinhv2 n (x 2) p.size p.rfm.wz _ = p.size
        rw [hx', sinhv2_one w3]
    · cases h1

end Verif.Grids
