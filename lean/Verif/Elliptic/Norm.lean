import Verif.Elliptic.Claims
import Verif.Grids.TimestepClaims
import Verif.RefMetric.HattedProps

/-!
# Wave speed and norm of the residual (C109)
-/
namespace Verif.Elliptic
open Verif.Py Verif.RefMetric Verif.Grids Real

/-! ### Loops over the grid -/

theorem mem_plane {lo n0 n1 i2 : ℕ} {i : Idx} :
    i ∈ plane lo n0 n1 i2 ↔ (lo ≤ i.1 ∧ i.1 < lo + n0) ∧ (lo ≤ i.2.1 ∧ i.2.1 < lo + n1) ∧ i.2.2 = i2 := by
  obtain ⟨a, b, c⟩ := i
  simp only [plane, List.mem_flatMap, List.mem_map, List.mem_range, Prod.mk.injEq]
  constructor
  · rintro ⟨x, hx, y, hy, rfl, rfl, rfl⟩; omega
  · rintro ⟨h1, h2, rfl⟩
    exact ⟨b - lo, by omega, a - lo, by omega, by omega, by omega, rfl⟩

theorem nodup_plane (lo n0 n1 i2 : ℕ) : (plane lo n0 n1 i2).Nodup := by
  unfold plane
  rw [List.nodup_flatMap]
  refine ⟨fun x _ => List.nodup_range.map fun a b h => by simpa using h, ?_⟩
  refine List.nodup_range.imp fun {a b} hab => ?_
  rw [Function.onFun, List.disjoint_left]
  intro i hi hj
  simp only [List.mem_map, List.mem_range] at hi hj
  obtain ⟨x, -, rfl⟩ := hi
  obtain ⟨y, -, e⟩ := hj
  simp at e
  omega

/-- Points that are not ghost points. -/
def Interior (g : ℕ) (G : GridData) (i : Idx) : Prop :=
  ∀ d, (g : ℤ) ≤ comp i d ∧ (comp i d : ℤ) < g + G.params.Nxx d

theorem mem_interior {g : ℕ} {G : GridData} {i : Idx} : i ∈ interior g G ↔ Interior g G i := by
  unfold interior Interior
  simp only [List.mem_flatMap, List.mem_range, mem_plane, Fin.forall_fin_succ, comp]
  constructor
  · rintro ⟨a, h0, h1, h2, h3⟩
    simp
    omega
  · simp
    intro h0 h0' h1 h1' h2 h2'
    exact ⟨i.2.2 - g, by omega, by omega, by omega, by omega⟩

theorem nodup_interior (g : ℕ) (G : GridData) : (interior g G).Nodup := by
  unfold interior
  rw [List.nodup_flatMap]
  refine ⟨fun x _ => nodup_plane _ _ _ _, List.nodup_range.imp fun {a b} hab => ?_⟩
  rw [Function.onFun, List.disjoint_left]
  intro i hi hj
  rw [mem_plane] at hi hj
  omega

theorem mem_allPoints {G : GridData} {i : Idx} : i ∈ allPoints G ↔ G.HasPoint i := by
  unfold allPoints GridData.HasPoint
  simp only [List.mem_flatMap, List.mem_range, mem_plane]
  constructor
  · rintro ⟨a, h0, h1, h2, h3⟩; omega
  · rintro ⟨h0, h1, h2⟩
    exact ⟨i.2.2, by omega, by omega, by omega, rfl⟩

theorem assign_eq (f : Idx → ℝ) : ∀ (l : List Idx) (A : Arr) (i : Idx), assign f l A i = if i ∈ l then f i else A i
  | [], A, i => by simp [assign]
  | j :: l, A, i => by
    show assign f l (Function.update A j (f j)) i = _
    rw [assign_eq f l]
    by_cases h : i = j
    · subst h; simp
    · simp [h, Function.update_of_ne h]

/-- C109, start: at every point, ghost points included, both fields are zero and the background fields have the values of their
expressions at the point. -/
theorem C109_start {g : ℕ} {M dt : ℝ} {psi add : Vec → ℝ} (G : GridData) (y : Arr × Arr) (A : Aux) {i : Idx} (hi : G.HasPoint i) :
    (initialGuess G y).1 i = 0 ∧ (initialGuess G y).2 i = 0 ∧ (initAux g M dt psi add G A).psi i = psi (G.point i) ∧
      (initAux g M dt psi add G A).ADDAUU i = add (G.point i) := by
  have := mem_allPoints.2 hi
  refine ⟨?_, ?_, ?_, ?_⟩
  · show assign _ _ _ _ = _
    rw [assign_eq, if_pos this]
  · show assign _ _ _ _ = _
    rw [assign_eq, if_pos this]
  · show assign _ _ _ _ = _
    rw [assign_eq, if_pos this]
  · show assign _ _ _ _ = _
    rw [assign_eq, if_pos this]

/-! ### Interior points lie inside the ranges of the coordinates -/

section
variable {g : ℕ} {cf : ℝ} {s : Spec} {G : GridData} (h : s.setUp g cf = some G) (hR : Regular g G)
include h hR

theorem interior_hasPoint {i : Idx} (hi : Interior g G i) : G.HasPoint i := by
  obtain ⟨-, -, -, -, a2, -⟩ := gridParams_some h
  have h0 := hi 0
  have h1 := hi 1
  have h2 := hi 2
  simp only [comp, Matrix.cons_val_zero, Matrix.cons_val_one, Matrix.cons_val] at h0 h1 h2
  unfold GridData.HasPoint
  rw [a2, a2, a2]
  omega

theorem interior_domain {i : Idx} (hi : Interior g G i) : InDomain G.sys (G.point i) ∧ ∀ d, 0 < G.params.dxx d := by
  obtain ⟨-, -, -, -, a2, a3, -, -, a5, -⟩ := gridParams_some h
  obtain ⟨u, v⟩ := a5 rfl
  have hN : ∀ d, (0 : ℝ) < G.params.Nxx d := fun d => by exact_mod_cast hR.count d
  have hdx : ∀ d, 0 < G.params.dxx d := fun d => by
    rw [a3, u, v]; exact div_pos (sub_pos.2 (hR.range d)) (hN d)
  refine ⟨fun d => ?_, hdx⟩
  rw [(point_eq h (interior_hasPoint h hR hi) d).1]
  unfold CurviBC.xx
  rw [← (point_eq h (interior_hasPoint h hR hi) d).2]
  have e : G.params.dxx d * G.params.Nxx d = G.sys.xxmax d - G.sys.xxmin d := by
    rw [a3, u, v]; field_simp [(hN d).ne']
  obtain ⟨h1, h2⟩ := hi d
  have h1' : (g : ℝ) ≤ comp i d := by exact_mod_cast h1
  have h2' : (comp i d : ℝ) + 1 ≤ g + G.params.Nxx d := by exact_mod_cast h2
  have := hdx d
  unfold gridOf
  push_cast
  constructor <;> nlinarith

/-- In the interior all scale factors are positive, and the first component of `xxSph` is the distance from the origin. -/
theorem interior_scale {i : Idx} (hi : Interior g G i) :
    (∀ d, 0 < G.sys.scale (G.point i) d) ∧ G.sys.sph (G.point i) 0 = radius (G.sys.toCart (G.point i)) := by
  obtain ⟨a1, a0, ar, -⟩ := gridParams_some h
  obtain ⟨hD, -⟩ := interior_domain h hR hi
  have hV := hR.valid
  have hA := hV.ampl
  have hw := hV.w
  have hS := hR.slopes
  rw [ar] at hV hA hw hS
  rw [a0] at hS
  generalize rfmOf s.name _ = P at a1 hV hA hw hS
  generalize G.sys = c at *
  generalize G.point i = x at *
  generalize s.name = nm at *
  have hπ := pi_pos
  have hmin := arsinh_min_nonneg hA hw hV.rmin
  have sph : ∀ (r : ℝ → ℝ) (lo hi : Vec) (o : Option (Vec → Vec)), 0 < deriv r (x 0) → 0 < r (x 0) → 0 < sin (x 1) →
      (∀ d, 0 < (sphericalLike r lo hi o).scale x d) ∧
        (sphericalLike r lo hi o).sph x 0 = radius ((sphericalLike r lo hi o).toCart x) := by
    intro r lo hi o h0 h1 h2
    refine ⟨fun d => ?_, ?_⟩
    · fin_cases d
      · exact h0
      · exact h1
      · exact mul_pos h1 h2
    · rw [radius_sph r lo hi o x h1.le]; rfl
  have cyl : ∀ (r z : ℝ → ℝ) (lo hi : Vec) (o : Option (Vec → Vec)), 0 < deriv r (x 0) → 0 < r (x 0) → 0 < deriv z (x 2) →
      (∀ d, 0 < (cylindricalLike r z lo hi o).scale x d) ∧
        (cylindricalLike r z lo hi o).sph x 0 = radius ((cylindricalLike r z lo hi o).toCart x) := by
    intro r z lo hi o h0 h1 h2
    refine ⟨fun d => ?_, ?_⟩
    · fin_cases d
      · exact h0
      · exact h1
      · exact h2
    · have k := sin_sq_add_cos_sq (x 1)
      simp only [cylindricalLike, radius, Matrix.cons_val_zero, Matrix.cons_val_one, Matrix.cons_val]
      congr 1
      linear_combination (-r (x 0) ^ 2) * k
  have tp : ∀ (aa : ℝ → ℝ) (b : ℝ) (hi : Vec), 0 < deriv aa (x 0) → 0 < aa (x 0) → 0 < sin (x 1) →
      (∀ d, 0 < (symTPLike aa b hi).scale x d) ∧ (symTPLike aa b hi).sph x 0 = radius ((symTPLike aa b hi).toCart x) := by
    intro aa b hi h0 h1 h2
    have v1 : 0 < √(aa (x 0) ^ 2 + (b * sin (x 1)) ^ 2) := sqrt_pos.2 (by positivity)
    have v2 : 0 < √(aa (x 0) ^ 2 + b ^ 2) := sqrt_pos.2 (by positivity)
    refine ⟨fun d => ?_, ?_⟩
    · fin_cases d
      · exact div_pos (mul_pos h0 v1) v2
      · exact v1
      · exact mul_pos h1 h2
    · have k := sin_sq_add_cos_sq (x 2)
      simp only [symTPLike, radius, Matrix.cons_val_zero, Matrix.cons_val_one, Matrix.cons_val]
      congr 1
      linear_combination (-(aa (x 0) * sin (x 1)) ^ 2) * k
  have d0 := hD 0
  have d1 := hD 1
  cases known_of_choose a1 with
  | cartesian => exact ⟨fun d => by fin_cases d <;> simp [cartesian], rfl⟩
  | sinhCartesian =>
    have := fun t => deriv_sinhv1_pos hA hw t
    exact ⟨fun d => by fin_cases d <;> exact this _, rfl⟩
  | spherical => exact sph _ _ _ _ (by simp) d0.1 (sin_pos_of_pos_of_lt_pi d1.1 d1.2)
  | sinhSpherical => exact sph _ _ _ _ (deriv_sinhv1_pos hA hw _) (sinhv1_pos hA hw d0.1) (sin_pos_of_pos_of_lt_pi d1.1 d1.2)
  | holey =>
    exact sph _ _ _ _ (deriv_sinhv1_pos hA hw _) (sinhv1_pos hA hw (lt_of_le_of_lt hmin d0.1)) (sin_pos_of_pos_of_lt_pi d1.1 d1.2)
  | ringHoley =>
    have e1 : 1 / 4 * π < x 1 := d1.1
    have e2 : x 1 < 3 / 4 * π := d1.2
    exact sph _ _ _ _ (deriv_sinhv1_pos hA hw _) (sinhv1_pos hA hw (lt_of_le_of_lt hmin d0.1))
      (sin_pos_of_pos_of_lt_pi (by linarith) (by linarith))
  | sphericalv2 _ n hp hn =>
    obtain ⟨k1, k2, k3⟩ := hS (by rw [hn]; simp)
    exact sph _ _ _ _ (deriv_sinhv2_pos (CurviBC.powerN_even hn) hw k1 hV.slope_le _)
      (sinhv2_pos hA hw hV.slope hV.slope_le d0.1) (sin_pos_of_pos_of_lt_pi d1.1 d1.2)
  | upper =>
    have e1 : 1 / 4 * π < x 1 := d1.1
    have e2 : x 1 < 3 / 4 * π := d1.2
    have k0 := deriv_sinhv1_pos hA hw (x 0)
    have k1 : 0 < sinhv1 (x 0) P.ampl P.w := sinhv1_pos hA hw (lt_of_le_of_lt hmin d0.1)
    have k2 : 0 < sin (x 1) := sin_pos_of_pos_of_lt_pi (by linarith) (by linarith)
    exact ⟨fun d => by fin_cases d; exacts [k0, k1, mul_pos k1 k2], by
      rw [(radius_wedge x k1.le).1]; rfl⟩
  | lower =>
    have e1 : 1 / 4 * π < x 1 := d1.1
    have e2 : x 1 < 3 / 4 * π := d1.2
    have k0 := deriv_sinhv1_pos hA hw (x 0)
    have k1 : 0 < sinhv1 (x 0) P.ampl P.w := sinhv1_pos hA hw (lt_of_le_of_lt hmin d0.1)
    have k2 : 0 < sin (x 1) := sin_pos_of_pos_of_lt_pi (by linarith) (by linarith)
    exact ⟨fun d => by fin_cases d; exacts [k0, k1, mul_pos k1 k2], by
      rw [(radius_wedge x k1.le).2]; rfl⟩
  | symTP => exact tp _ _ _ (by simp) d0.1 (sin_pos_of_pos_of_lt_pi d1.1 d1.2)
  | sinhSymTP =>
    exact tp _ _ _ (deriv_sinhv1_pos hV.amax hV.waa _) (sinhv1_pos hV.amax hV.waa d0.1) (sin_pos_of_pos_of_lt_pi d1.1 d1.2)
  | cylindrical => exact cyl _ _ _ _ _ (by simp) d0.1 (by simp)
  | sinhCylindrical =>
    exact cyl _ _ _ _ _ (deriv_sinhv1_pos hA hw _) (sinhv1_pos hA hw d0.1) (deriv_sinhv1_pos hV.amplz hV.wz _)
  | cylindricalv2 _ n hp hn =>
    obtain ⟨k1, k2, k3⟩ := hS (by rw [hn]; simp)
    exact cyl _ _ _ _ _ (deriv_sinhv2_pos (CurviBC.powerN_even hn) hw k1 hV.slope_le _)
      (sinhv2_pos hA hw hV.slope hV.slope_le d0.1) (deriv_sinhv2_pos (CurviBC.powerN_even hn) hV.wz k2 k3 _)

/-- The spacing at an interior point is the product in the code. -/
theorem interior_spacing {i : Idx} (hi : Interior g G i) (d : Fin 3) :
    G.sys.scale (G.point i) d * G.params.dxx d = spacing G i d ∧ 0 < spacing G i d := by
  obtain ⟨e, k⟩ := ds_eq h hR (interior_hasPoint h hR hi) d
  refine ⟨?_, k⟩
  rw [← e]
  unfold GridData.ds
  rw [abs_of_pos]
  exact mul_pos ((interior_scale h hR hi).1 d) ((interior_domain h hR hi).2 d)

/-- C109, wave speed: at every interior point the Courant number of the wave (speed times time step, divided by the spacing) is at
most `MINIMUM_GLOBAL_WAVESPEED` in each direction, and equal to it in one. -/
theorem C109_wavespeed {M dt : ℝ} (hM : 0 ≤ M) (hdt : 0 < dt) {psi add : Vec → ℝ} (A : Aux) {i : Idx} (hi : Interior g G i) :
    (∀ d, (initAux g M dt psi add G A).wavespeed i * dt / spacing G i d ≤ M) ∧
      ∃ d, (initAux g M dt psi add G A).wavespeed i * dt / spacing G i d = M := by
  have e : (initAux g M dt psi add G A).wavespeed i * dt = M * min (spacing G i 0) (min (spacing G i 1) (spacing G i 2)) := by
    show assign _ _ _ _ * dt = _
    rw [assign_eq, if_pos (mem_interior.2 hi)]
    unfold wavespeedAt
    dsimp only
    simp only [cMin_eq, (interior_spacing h hR hi _).1]
    field_simp
  rw [e]
  have hp := fun d => (interior_spacing h hR hi d).2
  constructor
  · intro d
    rw [div_le_iff₀ (hp d)]
    refine mul_le_mul_of_nonneg_left ?_ hM
    fin_cases d
    · exact min_le_left _ _
    · exact (min_le_right _ _).trans (min_le_left _ _)
    · exact (min_le_right _ _).trans (min_le_right _ _)
  · rcases min_choice (spacing G i 0) (min (spacing G i 1) (spacing G i 2)) with k | k
    · exact ⟨0, by rw [k, mul_div_cancel_right₀ _ (hp 0).ne']⟩
    · rcases min_choice (spacing G i 1) (spacing G i 2) with k' | k'
      · exact ⟨1, by rw [k, k', mul_div_cancel_right₀ _ (hp 1).ne']⟩
      · exact ⟨2, by rw [k, k', mul_div_cancel_right₀ _ (hp 2).ne']⟩

/-- C109, wave speed at the outer boundary: the point where the radiation boundary condition takes the speed is in the interior, where
the speed has been set. -/
theorem C109_outer_point : Interior g G (outerIdx g G) := by
  obtain ⟨-, -, -, -, a2, -⟩ := gridParams_some h
  have h0 := hR.count 0
  have h1 := hR.count 1
  have h2 := hR.count 2
  intro d
  fin_cases d <;> simp [comp, outerIdx, a2] <;> omega

end

/-- C109, smallest wave speed: with the time step of the grids (C101) and a Courant factor of at most 1, the speed is nowhere below
`MINIMUM_GLOBAL_WAVESPEED`. -/
theorem C109_minimum {g : ℕ} {big : ℝ} {sched : GridData → List (List ℕ)} {specs : List Spec} {first : Bool} {C C' : Common}
    {Gs : List GridData} (h : numericalGrids g big sched specs first C = some (C', Gs)) (hC : 0 < C.CFL_FACTOR)
    (hC1 : C.CFL_FACTOR ≤ 1) (hb : (1e38 : ℝ) ≤ big) (hs : ∀ G ∈ Gs, G.Scheduled (sched G)) (hR : ∀ G ∈ Gs, Regular g G)
    (hlim : ∃ G ∈ Gs, ∃ i d, G.HasPoint i ∧ spacing G i d < 1e38 ∧ C.CFL_FACTOR * spacing G i d < 1e30)
    {G : GridData} (hG : G ∈ Gs) {M : ℝ} (hM : 0 ≤ M) {psi add : Vec → ℝ} (A : Aux) {i : Idx} (hi : Interior g G i) :
    M ≤ (initAux g M C'.dt psi add G A).wavespeed i := by
  obtain ⟨hl, hpos⟩ := C101_timestep h hC hb hs hR hlim
  obtain ⟨s, -, hset⟩ := (numericalGrids_some h).2.1 G hG
  obtain ⟨d, hd⟩ := (C109_wavespeed hset (hR G hG) hM hpos (psi := psi) (add := add) A hi).2
  have hp := (interior_spacing hset (hR G hG) hi d).2
  have hle := hl.2 ⟨G, hG, i, d, interior_hasPoint hset (hR G hG) hi, rfl⟩
  rw [div_eq_iff hp.ne'] at hd
  have : M * C'.dt ≤ (initAux g M C'.dt psi add G A).wavespeed i * C'.dt := by
    rw [hd]
    refine mul_le_mul_of_nonneg_left (hle.trans ?_) hM
    nlinarith
  exact le_of_mul_le_mul_right this hpos

end Verif.Elliptic
