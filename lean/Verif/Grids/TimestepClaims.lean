import Verif.Grids.Claims

/-!
# The time step (C101)
-/
namespace Verif.Grids
open Verif.Py Verif.RefMetric Real

/-! ### No grid point is a coordinate singularity -/

/-- The systems around whose origin there is a hole, and those that stay away from the axis. -/
def hasHole (name : Str) : Prop :=
  name = (c% "HoleySinhSpherical") ∨ name = (c% "RingHoleySinhSpherical") ∨ name = (c% "UWedgeHSinhSph") ∨ name = (c% "LWedgeHSinhSph")
@[inherit_doc hasHole]
def offAxis (name : Str) : Prop :=
  name = (c% "RingHoleySinhSpherical") ∨ name = (c% "UWedgeHSinhSph") ∨ name = (c% "LWedgeHSinhSph")

/-- A grid that can be used: at least one interior point in each direction, ranges that are not empty, parameters as they
should be; ghost points do not reach through the hole to the origin, or past the axis if it is not part of the grid. -/
structure Regular (g : ℕ) (G : GridData) : Prop where
  count : ∀ d, 0 < G.params.Nxx d
  range : ∀ d, G.sys.xxmin d < G.sys.xxmax d
  valid : ValidParams G.params.rfm
  slopes : powerN G.name ≠ none → 0 < G.params.rfm.slope ∧ 0 < G.params.rfm.slopez ∧ G.params.rfm.slopez ≤ G.params.rfm.amplz
  hole : hasHole G.name → ((g : ℝ) - 1 / 2) * G.params.dxx 0 < G.sys.xxmin 0
  axis : offAxis G.name → 2 * (g : ℤ) ≤ G.params.Nxx 1

theorem scale_sph {r : ℝ → ℝ} {lo hi : Vec} {o : Option (Vec → Vec)} {x : Vec} (h0 : deriv r (x 0) ≠ 0) (h1 : r (x 0) ≠ 0)
    (h2 : sin (x 1) ≠ 0) (d : Fin 3) : (sphericalLike r lo hi o).scale x d ≠ 0 := by
  fin_cases d <;> simp [sphericalLike, h0, h1, h2]

theorem scale_cyl {r z : ℝ → ℝ} {lo hi : Vec} {o : Option (Vec → Vec)} {x : Vec} (h0 : deriv r (x 0) ≠ 0) (h1 : r (x 0) ≠ 0)
    (h2 : deriv z (x 2) ≠ 0) (d : Fin 3) : (cylindricalLike r z lo hi o).scale x d ≠ 0 := by
  fin_cases d <;> simp [cylindricalLike, h0, h1, h2]

theorem scale_tp {aa : ℝ → ℝ} {b : ℝ} {hi : Vec} {x : Vec} (h0 : deriv aa (x 0) ≠ 0) (h1 : aa (x 0) ≠ 0)
    (h2 : sin (x 1) ≠ 0) (d : Fin 3) : (symTPLike aa b hi).scale x d ≠ 0 := by
  have hq : 0 < aa (x 0) ^ 2 := by positivity
  have v1 : √(aa (x 0) ^ 2 + (b * sin (x 1)) ^ 2) ≠ 0 := (sqrt_pos.2 (by positivity)).ne'
  have v2 : √(aa (x 0) ^ 2 + b ^ 2) ≠ 0 := (sqrt_pos.2 (by positivity)).ne'
  fin_cases d <;> simp only [symTPLike, Fin.zero_eta, Fin.mk_one, Fin.reduceFinMk, Matrix.cons_val_zero,
    Matrix.cons_val_one, Matrix.cons_val]
  · exact div_ne_zero (mul_ne_zero h0 v1) v2
  · exact v1
  · exact mul_ne_zero h1 h2

/-- The size of the grid as the boundary conditions know it. -/
def gridOf (g : ℕ) (G : GridData) : CurviBC.Grid := ⟨G.params.NxxG, g⟩

/-- The index of a point in a direction. -/
def comp (i : ℕ × ℕ × ℕ) (d : Fin 3) : ℕ := ![i.1, i.2.1, i.2.2] d

section
variable {g : ℕ} {cf : ℝ} {s : Spec} {G : GridData} (h : s.setUp g cf = some G)
include h

/-- The grid has the points and spacings that the model of the boundary conditions has. -/
theorem point_eq {i : ℕ × ℕ × ℕ} (hi : G.HasPoint i) (d : Fin 3) :
    G.point i d = CurviBC.xx (gridOf g G) G.sys d (comp i d) ∧ G.params.dxx d = CurviBC.dxx (gridOf g G) G.sys d := by
  obtain ⟨-, -, -, -, a2, a3, -, a4, a5, -⟩ := gridParams_some h
  obtain ⟨u, v⟩ := a5 rfl
  have ed : ∀ d, G.params.dxx d = CurviBC.dxx (gridOf g G) G.sys d := fun d => by
    unfold CurviBC.dxx gridOf
    rw [a3, u, v]
    dsimp only
    rw [a2]
    congr 2
    omega
  refine ⟨?_, ed d⟩
  have key : ∀ d (j : ℕ), (j : ℤ) < G.params.NxxG d → ((G.xx d)[j]?).getD 0 = CurviBC.xx (gridOf g G) G.sys d j := by
    intro d j hj
    rw [a4, coordArray_get hj, Option.getD_some, ed, u]
    unfold CurviBC.xx gridOf
    push_cast
    rfl
  obtain ⟨h0, h1, h2⟩ := hi
  fin_cases d
  · exact key 0 _ h0
  · exact key 1 _ h1
  · exact key 2 _ h2

/-- C101, no singular points: at every grid point, ghost points included, no scale factor is zero. -/
theorem C101_regular (hR : Regular g G) {i : ℕ × ℕ × ℕ} (hi : G.HasPoint i) (d : Fin 3) :
    G.sys.scale (G.point i) d ≠ 0 := by
  obtain ⟨a1, a0, ar, -, a2, -⟩ := gridParams_some h
  have hx := fun d => (point_eq h hi d).1
  have hd := fun d => (point_eq h hi d).2
  have hn : ∀ d, 2 * ((gridOf g G).g : ℤ) < (gridOf g G).n d := fun d => by
    have := hR.count d
    show 2 * (g : ℤ) < G.params.NxxG d
    rw [a2]; omega
  have hdx : ∀ d, 0 < CurviBC.dxx (gridOf g G) G.sys d := fun d => CurviBC.dxx_pos (hn d) (hR.range d)
  have hN : ∀ d, (gridOf g G).n d - 2 * (gridOf g G).g = G.params.Nxx d := fun d => by
    show G.params.NxxG d - 2 * (g : ℤ) = _
    rw [a2]; omega
  have hj : ∀ d, (comp i d : ℤ) < (gridOf g G).n d := fun d => by
    fin_cases d
    · exact hi.1
    · exact hi.2.1
    · exact hi.2.2
  have rad : G.sys.xxmin 0 = 0 → G.point i 0 ≠ 0 := fun e => by
    rw [hx]; exact CurviBC.xx_ne_zero e (hdx 0) _
  have pol : G.sys.xxmin 1 = 0 → G.sys.xxmax 1 = π → sin (G.point i 1) ≠ 0 := fun e e' => by
    rw [hx, CurviBC.xx_polar e e']
    unfold CurviBC.polar
    exact sin_polar_ne (by rw [hN]; exact hR.count 1) _
  have out : hasHole G.name → G.point i 0 ≠ 0 := fun e => by
    have := hR.hole e
    rw [hd] at this
    rw [hx]
    exact (CurviBC.xx_gt (hdx 0) this (by positivity)).ne'
  have wed : offAxis G.name → G.sys.xxmin 1 = 1 / 4 * π → G.sys.xxmax 1 = 3 / 4 * π → sin (G.point i 1) ≠ 0 := fun e e1 e2 => by
    have k := hR.axis e
    have k' : (2 * g : ℝ) ≤ G.params.Nxx 1 := by exact_mod_cast k
    have hN' : (0 : ℝ) < G.params.Nxx 1 := by exact_mod_cast hR.count 1
    have hπ := pi_pos
    have key : ((g : ℝ) - 1 / 2) * CurviBC.dxx (gridOf g G) G.sys 1 < 1 / 4 * π := by
      unfold CurviBC.dxx
      rw [hN, e1, e2, mul_div_assoc', div_lt_iff₀ hN']
      nlinarith
    rw [hx]
    refine (sin_pos_of_pos_of_lt_pi (CurviBC.xx_gt (hdx 1) ?_ (by positivity)) (CurviBC.xx_lt (hdx 1) ?_ (hn 1) (hj 1))).ne'
    · rw [e1]; exact key
    · rw [e2]; show ((g : ℝ) - 1 / 2) * _ < _; linarith
  have hV := hR.valid
  have hA := hV.ampl
  have hw := hV.w
  have hS := hR.slopes
  rw [ar] at hV hA hw hS
  rw [a0] at out wed hS
  generalize rfmOf s.name _ = P at a1 hV hA hw hS
  generalize G.sys = c at *
  generalize G.point i = x at *
  generalize s.name = nm at *
  cases known_of_choose a1 with
  | cartesian => fin_cases d <;> simp [cartesian]
  | sinhCartesian =>
    have := fun t => (deriv_sinhv1_pos hA hw t).ne'
    fin_cases d <;> simp [sinhCartesian, this]
  | spherical => exact scale_sph (by simp) (rad rfl) (pol rfl rfl) d
  | sinhSpherical => exact scale_sph (deriv_sinhv1_pos hA hw _).ne' (sinhv1_ne hA hw (rad rfl)) (pol rfl rfl) d
  | holey => exact scale_sph (deriv_sinhv1_pos hA hw _).ne' (sinhv1_ne hA hw (out (.inl rfl))) (pol rfl rfl) d
  | ringHoley =>
    exact scale_sph (deriv_sinhv1_pos hA hw _).ne' (sinhv1_ne hA hw (out (.inr (.inl rfl)))) (wed (.inl rfl) rfl rfl) d
  | sphericalv2 _ n hp hn =>
    obtain ⟨k1, k2, k3⟩ := hS (by rw [hn]; simp)
    exact scale_sph (deriv_sinhv2_pos (CurviBC.powerN_even hn) hw k1 hV.slope_le _).ne'
      (sinhv2_ne (CurviBC.powerN_even hn) hA hw hV.slope hV.slope_le (rad rfl)) (pol rfl rfl) d
  | upper =>
    have k0 := (deriv_sinhv1_pos hA hw (x 0)).ne'
    have k1 := sinhv1_ne hA hw (out (.inr (.inr (.inl rfl))))
    have k2 := wed (.inr (.inl rfl)) rfl rfl
    fin_cases d <;> simp [upperWedge, wedge, k0, k1, k2]
  | lower =>
    have k0 := (deriv_sinhv1_pos hA hw (x 0)).ne'
    have k1 := sinhv1_ne hA hw (out (.inr (.inr (.inr rfl))))
    have k2 := wed (.inr (.inr rfl)) rfl rfl
    fin_cases d <;> simp [lowerWedge, wedge, k0, k1, k2]
  | symTP => exact scale_tp (by simp) (rad rfl) (pol rfl rfl) d
  | sinhSymTP =>
    exact scale_tp (deriv_sinhv1_pos hV.amax hV.waa _).ne' (sinhv1_ne hV.amax hV.waa (rad rfl)) (pol rfl rfl) d
  | cylindrical => exact scale_cyl (by simp) (rad rfl) (by simp) d
  | sinhCylindrical =>
    exact scale_cyl (deriv_sinhv1_pos hA hw _).ne' (sinhv1_ne hA hw (rad rfl)) (deriv_sinhv1_pos hV.amplz hV.wz _).ne' d
  | cylindricalv2 _ n hp hn =>
    obtain ⟨k1, k2, k3⟩ := hS (by rw [hn]; simp)
    exact scale_cyl (deriv_sinhv2_pos (CurviBC.powerN_even hn) hw k1 hV.slope_le _).ne'
      (sinhv2_ne (CurviBC.powerN_even hn) hA hw hV.slope hV.slope_le (rad rfl))
      (deriv_sinhv2_pos (CurviBC.powerN_even hn) hV.wz k2 k3 _).ne' d

end

/-! ### The time step -/

/-- The speed of the point in space when the coordinate `d` moves at speed 1. -/
noncomputable def lineSpeed (c : Coords) (x : Vec) (d : Fin 3) : ℝ :=
  √(∑ a, deriv (fun t => c.toCart (Function.update x d t) a) (x d) ^ 2)

/-- The spacing of a grid at a point: speed along the coordinate line times the step of the coordinate. -/
noncomputable def spacing (G : GridData) (i : ℕ × ℕ × ℕ) (d : Fin 3) : ℝ := lineSpeed G.sys (G.point i) d * G.params.dxx d

theorem lineSpeed_eq {c : Coords} {x : Vec} (h : IsBasis c x) (d : Fin 3) : lineSpeed c x d = |c.scale x d| := by
  unfold lineSpeed
  have e : ∑ a, deriv (fun t => c.toCart (Function.update x d t) a) (x d) ^ 2 = c.scale x d ^ 2 := by
    have := h.orthonormal d d
    rw [if_pos rfl] at this
    calc _ = ∑ a, (c.scale x d * c.unit x d a) ^ 2 := Finset.sum_congr rfl fun a _ => by rw [(h.deriv a d).deriv]
      _ = c.scale x d ^ 2 * ∑ a, c.unit x d a * c.unit x d a := by
        rw [Finset.mul_sum]; exact Finset.sum_congr rfl fun a _ => by ring
      _ = _ := by rw [this, mul_one]
  rw [e, sqrt_sq_eq_abs]

theorem ds_eq {g : ℕ} {cf : ℝ} {s : Spec} {G : GridData} (h : s.setUp g cf = some G) (hR : Regular g G)
    {i : ℕ × ℕ × ℕ} (hi : G.HasPoint i) (d : Fin 3) : G.ds i d = spacing G i d ∧ 0 < spacing G i d := by
  obtain ⟨a1, -, ar, -, a2, a3, -, -, a5, -⟩ := gridParams_some h
  obtain ⟨u, v⟩ := a5 rfl
  have hdx : 0 < G.params.dxx d := by
    rw [a3, u, v]
    exact div_pos (sub_pos.2 (hR.range d)) (by exact_mod_cast hR.count d)
  have hb : (rfmOf s.name { s.defaults with size := s.size }).b ≠ 0 := by
    rw [← ar]; exact hR.valid.b.ne'
  have hB := C60_basis hb a1 (G.point i) (C101_regular h hR hi 1)
  have e : G.ds i d = spacing G i d := by
    unfold GridData.ds spacing
    rw [abs_mul, abs_of_pos hdx, lineSpeed_eq hB]
  exact ⟨e, e ▸ abs_pos.2 (mul_ne_zero (C101_regular h hR hi d) hdx.ne')⟩

theorem timestep_spec {CFL big : ℝ} (hC : 0 < CFL) (hb : (1e38 : ℝ) ≤ big) {sched : GridData → List (List ℕ)} (Gs : List GridData)
    (hs : ∀ G ∈ Gs, G.Scheduled (sched G)) :
    (∀ G ∈ Gs, ∀ i d, G.HasPoint i → timestep CFL big sched Gs ≤ CFL * G.ds i d) ∧ timestep CFL big sched Gs ≤ 1e30 ∧
      (timestep CFL big sched Gs = 1e30 ∨ timestep CFL big sched Gs = CFL * 1e38 ∨
        ∃ G ∈ Gs, ∃ i d, G.HasPoint i ∧ timestep CFL big sched Gs = CFL * G.ds i d) := by
  have e : timestep CFL big sched Gs = Gs.foldl (fun dt G => min dt (G.dsMin big (sched G) * CFL)) 1e30 := by
    unfold timestep cflTimestep
    simp only [cMin_eq]
  rw [e]
  obtain ⟨a1, a2, a3⟩ := foldl_min_le (fun G : GridData => G.dsMin big (sched G) * CFL) Gs 1e30
  refine ⟨fun G hG i d hi => ?_, a1, ?_⟩
  · refine (a2 G hG).trans ?_
    rw [mul_comm]
    exact mul_le_mul_of_nonneg_left ((dsMin_spec hb (hs G hG)).1 i d hi) hC.le
  · rcases a3 with h | ⟨G, hG, h⟩
    · exact .inl h
    · rw [h]
      rcases (dsMin_spec hb (hs G hG)).2.1 with k | ⟨i, d, hi, k⟩
      · exact .inr (.inl (by rw [k, mul_comm]))
      · exact .inr (.inr ⟨G, hG, i, d, hi, by rw [k, mul_comm]⟩)

section
variable {g : ℕ} {big : ℝ} {sched : GridData → List (List ℕ)} {specs : List Spec} {first : Bool} {C C' : Common}
  {Gs : List GridData} (h : numericalGrids g big sched specs first C = some (C', Gs))
include h

theorem numericalGrids_some : C'.dt = timestep C.CFL_FACTOR big sched Gs ∧
    (∀ G ∈ Gs, ∃ s ∈ specs, s.setUp g C.convergence_factor = some G) ∧
    C'.CFL_FACTOR = C.CFL_FACTOR ∧ C'.convergence_factor = C.convergence_factor := by
  unfold numericalGrids at h
  cases hm : specs.mapM (Spec.setUp g C.convergence_factor) with
  | none => rw [hm] at h; cases h
  | some l =>
    rw [hm] at h
    cases h
    refine ⟨?_, mapM_some hm, ?_, ?_⟩ <;> unfold Common.firstCall <;> split <;> rfl

/-- C101, time step: it is the Courant factor times the smallest spacing, over all grids, all points (ghost points
included) and all directions, however the loop is distributed over threads; and it is positive.  The last hypothesis says
that the grids are not so coarse that the bounds 1e30 and 1e38 of the code come in. -/
theorem C101_timestep (hC : 0 < C.CFL_FACTOR) (hb : (1e38 : ℝ) ≤ big) (hs : ∀ G ∈ Gs, G.Scheduled (sched G))
    (hR : ∀ G ∈ Gs, Regular g G)
    (hlim : ∃ G ∈ Gs, ∃ i d, G.HasPoint i ∧ spacing G i d < 1e38 ∧ C.CFL_FACTOR * spacing G i d < 1e30) :
    IsLeast {t | ∃ G ∈ Gs, ∃ i d, G.HasPoint i ∧ t = C.CFL_FACTOR * spacing G i d} C'.dt ∧ 0 < C'.dt := by
  obtain ⟨e, hset, -⟩ := numericalGrids_some h
  obtain ⟨b1, b2, b3⟩ := timestep_spec (big := big) (sched := sched) hC hb Gs hs
  have hds : ∀ G ∈ Gs, ∀ i d, G.HasPoint i → G.ds i d = spacing G i d ∧ 0 < spacing G i d := fun G hG i d hi => by
    obtain ⟨s, -, hs⟩ := hset G hG
    exact ds_eq hs (hR G hG) hi d
  have key : IsLeast {t | ∃ G ∈ Gs, ∃ i d, G.HasPoint i ∧ t = C.CFL_FACTOR * spacing G i d} C'.dt := by
    rw [e]
    constructor
    · obtain ⟨G, hG, i, d, hi, k1, k2⟩ := hlim
      have k3 := b1 G hG i d hi
      rw [(hds G hG i d hi).1] at k3
      rcases b3 with q | q | ⟨G', hG', i', d', hi', q⟩
      · rw [q] at k3; linarith
      · rw [q] at k3
        have := mul_lt_mul_of_pos_left k1 hC
        linarith
      · exact ⟨G', hG', i', d', hi', by rw [q, (hds G' hG' i' d' hi').1]⟩
    · rintro t ⟨G, hG, i, d, hi, rfl⟩
      rw [← (hds G hG i d hi).1]
      exact b1 G hG i d hi
  refine ⟨key, ?_⟩
  obtain ⟨G, hG, i, d, hi, k⟩ := key.1
  rw [k]
  exact mul_pos hC (hds G hG i d hi).2

/-- C101, one grid for each coordinate system, in the order given. -/
theorem C101_grids : List.Forall₂ (fun s G => s.setUp g C.convergence_factor = some G) specs Gs := by
  unfold numericalGrids at h
  cases hm : specs.mapM (Spec.setUp g C.convergence_factor) with
  | none => rw [hm] at h; cases h
  | some l =>
    rw [hm] at h
    cases h
    exact mapM_forall hm

/-- C101, clock: the time and the iteration numbers are set to zero in the first call and left alone in later ones. -/
theorem C101_clock : (first = true → C'.time = 0 ∧ C'.t_0 = 0 ∧ C'.nn = 0 ∧ C'.nn_0 = 0) ∧
    (first = false → C'.time = C.time ∧ C'.t_0 = C.t_0 ∧ C'.nn = C.nn ∧ C'.nn_0 = C.nn_0) := by
  unfold numericalGrids at h
  cases hm : specs.mapM (Spec.setUp g C.convergence_factor) with
  | none => rw [hm] at h; cases h
  | some l =>
    rw [hm] at h
    cases h
    refine ⟨?_, ?_⟩ <;> rintro rfl <;> (simp [Common.firstCall]; try norm_num)

end

/-! ### The grid of a chare -/

/-- C101, chares: the coordinates of a chare are those of the points of the whole grid that it owns and of the ghost
points around them, with the same spacing, and `xxmin` is the lower end of its first cell. -/
theorem C101_chare {name : Str} {g : ℕ} {cf : ℝ} {Nd Nx : Fin 3 → ℤ} {b : Bool} {p pc : Params} {G H : GridData}
    (hG : gridParams name g cf Nd Nx b p = some G) {Nchare ch : Fin 3 → ℕ} (hch : ∀ d, ch d < Nchare d)
    (hN : ∀ d, 0 < G.params.Nxx d) (hH : gridChare g Nchare ch G pc = some H) (d : Fin 3) :
    H.params.Nxx d * Nchare d = G.params.Nxx d ∧ ((H.xx d).length : ℤ) = H.params.Nxx d + 2 * g ∧
      (∀ j : ℕ, (j : ℤ) < H.params.Nxx d + 2 * g → (H.xx d)[j]? = (G.xx d)[j + (H.params.Nxx d).toNat * ch d]?) ∧
      H.params.dxx d = G.params.dxx d ∧ H.params.invdxx d = G.params.invdxx d ∧
      H.params.xxmin d = cellEnd (G.params.Nxx d) (G.params.xxmin d) (G.params.xxmax d) (H.params.Nxx d * ch d) := by
  obtain ⟨-, -, -, -, h1, h2, -, h4, -, -⟩ := gridParams_some hG
  unfold gridChare at hH
  split at hH
  · cases hH
  next e1 =>
  split at hH
  · cases hH
  next e2 =>
  dsimp only at hH
  split at hH
  · next c hc =>
    cases hH
    have k : G.params.Nxx d % Nchare d = 0 := by
      by_contra hne; exact e1 ⟨d, hne⟩
    have hm : G.params.Nxx d / Nchare d * Nchare d = G.params.Nxx d := Int.ediv_mul_cancel (Int.dvd_of_emod_eq_zero k)
    have hc0 := hch d
    have hq : 0 ≤ G.params.Nxx d / Nchare d := Int.ediv_nonneg (hN d).le (by positivity)
    refine ⟨hm, ?_, fun j hj => ?_, rfl, rfl, ?_⟩
    · simp only [List.length_map, List.length_range]
      omega
    · dsimp only at hj ⊢
      generalize G.params.Nxx d / Nchare d = q at hm hq hj
      have hb : q * (ch d + 1) ≤ G.params.Nxx d := by
        rw [← hm]; exact mul_le_mul_of_nonneg_left (by omega) hq
      have hqn : ((q.toNat : ℕ) : ℤ) = q := Int.toNat_of_nonneg hq
      rw [h4, coordArray_get (by push_cast; rw [hqn, h1]; linarith), List.getElem?_map, List.getElem?_range (by omega)]
      simp only [Option.map_some, Option.some.injEq]
      have hqr : ((q.toNat : ℕ) : ℝ) = q := by exact_mod_cast hqn
      push_cast
      rw [hqr]
      norm_num
      left
      ring
    · unfold cellEnd
      dsimp only
      rw [h2]
      push_cast
      ring
  · cases hH

/-- C101, chares, a defect: `xxmax` of a chare is not the upper end of its last cell, but is moved by as much as `xxmin` from
the upper end of the whole grid: it is beyond the grid in all chares but the first, and beyond the chare in all. -/
theorem C101_chare_xxmax_violation {name : Str} {g : ℕ} {cf : ℝ} {Nd Nx : Fin 3 → ℤ} {b : Bool} {p pc : Params} {G H : GridData}
    (hG : gridParams name g cf Nd Nx b p = some G) {Nchare ch : Fin 3 → ℕ} (hch : ∀ d, ch d < Nchare d)
    (hN : ∀ d, 0 < G.params.Nxx d) (hr : ∀ d, G.params.xxmin d < G.params.xxmax d)
    (hH : gridChare g Nchare ch G pc = some H) {d : Fin 3} (h2 : 2 ≤ Nchare d) :
    cellEnd (G.params.Nxx d) (G.params.xxmin d) (G.params.xxmax d) (H.params.Nxx d * (ch d + 1)) < H.params.xxmax d := by
  obtain ⟨a1, -, -, -, -, -⟩ := C101_chare hG hch hN hH d
  obtain ⟨-, -, -, -, h1, h3, -⟩ := gridParams_some hG
  have hx : H.params.xxmax d = G.params.xxmax d + G.params.dxx d * ((H.params.Nxx d * ch d : ℤ) : ℝ) := by
    unfold gridChare at hH
    split at hH
    · cases hH
    split at hH
    · cases hH
    dsimp only at hH
    split at hH
    · cases hH; rfl
    · cases hH
  have hq : 0 < H.params.Nxx d := by
    have := hN d
    rw [← a1] at this
    have hc : (0 : ℤ) ≤ Nchare d := by positivity
    by_contra hn
    nlinarith
  have hlt : H.params.Nxx d < G.params.Nxx d := by
    rw [← a1]
    have : (2 : ℤ) ≤ Nchare d := by exact_mod_cast h2
    nlinarith
  have hN' : (0 : ℝ) < G.params.Nxx d := by exact_mod_cast hN d
  have hdx : 0 < (G.params.xxmax d - G.params.xxmin d) / (G.params.Nxx d : ℝ) := div_pos (sub_pos.2 (hr d)) hN'
  have e : G.params.xxmax d = G.params.xxmin d + (G.params.xxmax d - G.params.xxmin d) / (G.params.Nxx d : ℝ) * G.params.Nxx d := by
    field_simp; ring
  have hlt' : (H.params.Nxx d : ℝ) < G.params.Nxx d := by exact_mod_cast hlt
  rw [hx, h3]
  unfold cellEnd
  push_cast
  have := mul_lt_mul_of_pos_left hlt' hdx
  nlinarith

/-! ### A concrete grid -/

/-- A spherical grid of radius 10 with 4 × 3 × 2 points, defaults of all parameters. -/
noncomputable def exSpec : Spec :=
  ⟨(c% "Spherical"), 10, ![4, 3, 2], ⟨fun _ => 0, fun _ => 0, 0, 0, 0, 0, demo, 1, 1⟩⟩

theorem truncate_int (n : ℤ) : CurviBC.truncate n = n := by unfold CurviBC.truncate; split <;> simp

theorem ex_setUp : ∃ G, exSpec.setUp 3 2 = some G ∧ Regular 3 G ∧ G.params.Nxx = ![8, 6, 2] ∧ G.params.dxx 0 = 5 / 4 ∧
    G.sys = spherical 10 := by
  have hr : rfmOf (c% "Spherical") { exSpec.defaults with size := exSpec.size } = { demo with rmax := 10 } := by
    unfold rfmOf setHole setSize exSpec
    rw [if_neg (by decide), if_neg (by decide), if_pos (by decide), if_pos rfl]
  have hc := CurviBC.choose_spherical (rfmOf (c% "Spherical") { exSpec.defaults with size := exSpec.size })
  have hex : ∃ G, exSpec.setUp 3 2 = some G := by
    rw [← Option.isSome_iff_exists]
    unfold Spec.setUp gridParams
    dsimp only
    have : exSpec.name = (c% "Spherical") := rfl
    rw [this]
    unfold rfmOf at hc
    rw [hc]
    rfl
  obtain ⟨G, hG⟩ := hex
  obtain ⟨a1, a0, ar, an, a2, a3, -, -, a5, -⟩ := gridParams_some hG
  have hs : G.sys = spherical 10 := by
    have : exSpec.name = (c% "Spherical") := rfl
    rw [this, hc, hr] at a1
    exact (Choice.sys.inj a1).symm
  have hN : G.params.Nxx = ![8, 6, 2] := by
    funext d
    rw [an]
    fin_cases d
    · show resize 2 4 = 8
      unfold resize; rw [if_pos (by norm_num), show ((4 : ℤ) : ℝ) * 2 = ((8 : ℤ) : ℝ) by norm_num, truncate_int]
    · show resize 2 3 = 6
      unfold resize; rw [if_pos (by norm_num), show ((3 : ℤ) : ℝ) * 2 = ((6 : ℤ) : ℝ) by norm_num, truncate_int]
    · show resize 2 2 = 2
      unfold resize; rw [if_neg (by norm_num)]
  obtain ⟨u, v⟩ := a5 rfl
  have hπ := pi_pos
  refine ⟨G, hG, ⟨?_, ?_, ?_, ?_, ?_, ?_⟩, hN, ?_, hs⟩
  · intro d; rw [hN]; fin_cases d <;> norm_num
  · intro d; rw [hs]; fin_cases d <;> simp [spherical, sphericalLike] <;> linarith
  · rw [ar]
    have : exSpec.name = (c% "Spherical") := rfl
    rw [this, hr]
    constructor <;> norm_num [demo]
  · rw [a0]; intro hp; exact absurd (by decide) hp
  · rw [a0]; intro hh; rcases hh with e | e | e | e <;> exact absurd e (by decide)
  · rw [a0]; intro hh; rcases hh with e | e | e <;> exact absurd e (by decide)
  · rw [a3, u, v, hs, hN]; norm_num [spherical, sphericalLike]

/-- The theorem about the time step applies to it, with the loop distributed over three threads. -/
example : ∃ sched C' Gs, numericalGrids 3 1e99 sched [exSpec] true ⟨2, 1 / 2, 0, 7, 7, 7, 7⟩ = some (C', Gs) ∧ Gs ≠ [] ∧
    C'.time = 0 ∧ 0 < C'.dt := by
  obtain ⟨G, hG, hR, hN, hdx, hs⟩ := ex_setUp
  let sched : GridData → List (List ℕ) := fun _ => [[0, 1, 2], [6, 7], [3, 4, 5]]
  have hres : numericalGrids 3 1e99 sched [exSpec] true ⟨2, 1 / 2, 0, 7, 7, 7, 7⟩ =
      some (({ (⟨2, 1 / 2, 0, 7, 7, 7, 7⟩ : Common) with dt := timestep (1 / 2) 1e99 sched [G] }).firstCall true, [G]) := by
    unfold numericalGrids
    simp [hG]
  obtain ⟨-, -, -, -, a2, -⟩ := gridParams_some hG
  have hp : ∀ G' ∈ [G], G'.Scheduled (sched G') := by
    intro G' hG'
    rw [List.mem_singleton] at hG'
    subst hG'
    unfold GridData.Scheduled
    rw [a2, hN]
    decide
  have hpt : G.HasPoint (3, 3, 3) := by
    unfold GridData.HasPoint
    rw [a2, a2, a2, hN]
    decide
  have hsp : spacing G (3, 3, 3) 0 = 5 / 4 := by
    rw [← (ds_eq hG hR hpt 0).1]
    unfold GridData.ds
    rw [hdx, hs]
    simp [spherical, sphericalLike]
    norm_num
  have := C101_timestep hres (by norm_num) (by norm_num) hp
    (fun G' hG' => by rw [List.mem_singleton] at hG'; subst hG'; exact hR)
    ⟨G, List.mem_singleton_self G, (3, 3, 3), 0, hpt, by rw [hsp]; norm_num, by rw [hsp]; norm_num⟩
  exact ⟨sched, _, _, hres, by simp, ((C101_clock hres).1 rfl).1, this.2⟩

/-- The theorem about chares, and the defect, apply to it: 2 × 1 × 1 chares. -/
example : ∃ G pc H, exSpec.setUp 3 2 = some G ∧ gridChare 3 ![2, 1, 1] ![1, 0, 0] G pc = some H ∧
    H.params.xxmin 0 = 5 ∧ H.params.xxmax 0 = 15 := by
  obtain ⟨G, hG, hR, hN, hdx, hs⟩ := ex_setUp
  obtain ⟨-, a0, -, -, -, -, -, -, a5, -⟩ := gridParams_some hG
  obtain ⟨u, v⟩ := a5 rfl
  have hc := CurviBC.choose_spherical (setSize (c% "Spherical") exSpec.defaults.size exSpec.defaults.rfm)
  have hn : G.name = (c% "Spherical") := a0
  have hex : ∃ H, gridChare 3 ![2, 1, 1] ![1, 0, 0] G exSpec.defaults = some H ∧
      H.params.xxmin 0 = G.params.xxmin 0 + G.params.dxx 0 * ((G.params.Nxx 0 / 2 * 1 : ℤ) : ℝ) ∧
      H.params.xxmax 0 = G.params.xxmax 0 + G.params.dxx 0 * ((G.params.Nxx 0 / 2 * 1 : ℤ) : ℝ) := by
    unfold gridChare
    rw [if_neg, if_neg]
    · rw [hn]
      dsimp only
      rw [hc]
      exact ⟨_, rfl, rfl, rfl⟩
    · rw [hN]; rintro ⟨d, h1, h2⟩; fin_cases d <;> revert h1 h2 <;> decide
    · rw [hN]; rintro ⟨d, h1⟩; fin_cases d <;> revert h1 <;> decide
  obtain ⟨H, h1, h2, h3⟩ := hex
  refine ⟨G, _, H, hG, h1, ?_, ?_⟩
  · rw [h2, u, hs, hdx, hN]; norm_num [spherical, sphericalLike]
  · rw [h3, v, hs, hdx, hN]; norm_num [spherical, sphericalLike]

end Verif.Grids
