import Verif.TOV.Interp

/-!
# C93: consequences and examples
-/
namespace Verif.TOV
open Real

/-- If the driver follows a solution, the arrays hold its values: those that the interpolation uses are the values of one function of the isotropic
radius, the `v` of `C92_star`, continued to negative radii as an even function. -/
theorem C93_samples_partial (e : Eos) (rhoC h : ℝ) (N : ℕ) (drv : Driver) (hh : 0 < h) (Y : ℝ → State) (h0 : Y 0 = (initialCondition e rhoC).1)
    (hP : ∀ t, 0 ≤ (Y t).P) (hY : ∀ i t t' calls y, drv i t t' (Y t) = some (calls, y) → y = Y t') (s : Solver)
    (hs : loop e rhoC drv N 0 (start e rhoC h) = .ok s) (h11 : 11 ≤ s.rows.length) (R : ℝ) (hR : (s.rows.map (·.r_Schw)).getLast? = some R) (v : ℝ → Values)
    (hv : ∀ r ∈ s.rows.map (·.r_Schw), v (normalized R (Y R) r (Y r)).1 =
      ⟨energy e (Y r).P, (Y r).P, (normalized R (Y R) r (Y r)).2.1, (normalized R (Y R) r (Y r)).2.2⟩) :
    ∃ A, finish s = .ok A ∧ ∀ k < s.rows.length + 11, (⟨(A.entry k).rho_energy, (A.entry k).P, (A.entry k).expnu, (A.entry k).exp4phi⟩ : Values) =
      v (if k < 11 then -(A.entry k).r_iso else (A.entry k).r_iso) := by
  have hrows := C93_follows e rhoC h N drv Y h0 hP hY s hs
  have hsaved : Saved e N s.rows ∧ s.rows.length + 11 ≤ s.alloced := by
    rcases C93_loop e rhoC h N drv hh with h1 | ⟨s', h1, h2, h3, _⟩
    · rw [hs] at h1; cases h1
    · rw [hs] at h1; cases h1; exact ⟨h2, h3⟩
  obtain ⟨hsv, hal⟩ := hsaved
  obtain ⟨A, hA, _, a1, a2⟩ := C93_arrays s hal h11
  have hl : s.rows.length - 1 < s.rows.length := by omega
  have hlast : s.rows[s.rows.length - 1].r_Schw = R := by
    rw [List.getLast?_map, List.getLast?_eq_getElem?, List.getElem?_eq_getElem hl] at hR
    exact Option.some.inj hR
  have hstate : ∀ row ∈ s.rows, row.state = Y row.r_Schw := hrows
  have hen : ∀ row ∈ s.rows, row.rho_energy = energy e row.P := fun row hrow => by
    rw [energy_saved e (hsv.pressure row hrow), hsv.energy row hrow, hsv.baryon row hrow]
    rfl
  have hhigh : ∀ k (hk : k < s.rows.length), (⟨(A.entry (11 + k)).rho_energy, (A.entry (11 + k)).P, (A.entry (11 + k)).expnu, (A.entry (11 + k)).exp4phi⟩ : Values) =
      v (A.entry (11 + k)).r_iso := fun k hk => by
    have hmem := List.getElem_mem hk
    have hv' := hv s.rows[k].r_Schw (List.mem_map_of_mem hmem)
    have hPk : s.rows[k].P = (Y s.rows[k].r_Schw).P := by rw [← hstate _ hmem]; rfl
    rw [a1 k hk]
    simp only [Row.entry, hstate _ hmem, hstate _ (List.getElem_mem hl), hlast, hv', hen _ hmem, hPk]
  refine ⟨A, hA, fun k hk => ?_⟩
  by_cases hk' : k < 11
  · rw [if_pos hk']
    have := a2 (10 - k) (by omega)
    rw [show 10 - (10 - k) = k by omega] at this
    rw [this]
    simp only [neg_neg]
    exact hhigh (10 - k) (by omega)
  · rw [if_neg hk']
    have := hhigh (k - 11) (by omega)
    rwa [show 11 + (k - 11) = k by omega] at this

/-- The number of steps can be used up before the surface: `TOVola_solve` then returns arrays in which the pressure is positive everywhere, without any
error. -/
theorem C93_surface_violation (e : Eos) (hK : 0 < e.K) (rhoC h : ℝ) (hρ : 0 < rhoC) (hh : 0 < h) (N : ℕ) (hN : 11 ≤ N) :
    ∃ drv A, solve e rhoC h N drv = .ok A ∧ A.Size (N + 11) ∧ ∀ k < N + 11, 0 < (A.entry k).P := by
  let drv : Driver := fun _ _ _ y => some ([], y)
  obtain ⟨s, hs⟩ := C93_loop_returns e rhoC h N drv fun _ _ _ _ h => by cases h
  have hpos : 0 < (initialCondition e rhoC).1.P := mul_pos hK (rpow_pos_of_pos hρ _)
  have hrows := C93_follows e rhoC h N drv (fun _ => (initialCondition e rhoC).1) rfl (fun _ => hpos.le) (fun i t t' calls y h => by cases h; rfl) s hs
  have hp : ∀ row ∈ s.rows, 0 < row.P := fun row hrow => by
    have : row.P = (initialCondition e rhoC).1.P := congrArg State.P (hrows row hrow)
    rw [this]; exact hpos
  obtain ⟨hsv, hal⟩ : Saved e N s.rows ∧ s.rows.length + 11 ≤ s.alloced := by
    rcases C93_loop e rhoC h N drv hh with h1 | ⟨s', h1, h2, h3, _⟩
    · rw [hs] at h1; cases h1
    · rw [hs] at h1; cases h1; exact ⟨h2, h3⟩
  have hlen : s.rows.length = N := by
    rcases hsv.surface with h1 | ⟨row, h1, h2⟩
    · exact h1
    · exact absurd h2 (hp row (List.mem_of_getLast? h1)).ne'
  obtain ⟨A, hA, hsz, a1, a2⟩ := C93_arrays s hal (by omega)
  refine ⟨drv, A, by unfold solve; rw [hs]; exact hA, by rw [← hlen]; exact hsz, fun k hk => ?_⟩
  have hhigh : ∀ k, k < s.rows.length → 0 < (A.entry (11 + k)).P := fun k hk => by
    rw [a1 k hk]
    exact hp _ (List.getElem_mem hk)
  by_cases hk' : k < 11
  · have := a2 (10 - k) (by omega)
    rw [show 10 - (10 - k) = k by omega] at this
    rw [this]
    exact hhigh (10 - k) (by omega)
  · have := hhigh (k - 11) (by omega)
    rwa [show 11 + (k - 11) = k by omega] at this

/-- With fewer than five points in the stencil, the point can be outside of the stencil although there are radii on both sides of it: for the radii
`-10, ..., 10` and the point `0.4`, the last radius of the stencil is at most `0`. -/
theorem C93_small_stencil_violation (s : ℕ) (h1 : 1 ≤ s) (h4 : s ≤ 4) :
    let arr := (List.range 21).map fun (k : ℕ) => (k : ℝ) - 10
    arr.Pairwise (· < ·) ∧ ∃ mid i : ℕ, bisect arr 0.4 = .ok mid ∧ idxmin arr.length s mid = i ∧ i + s ≤ arr.length ∧ arr.getD (i + s - 1) 0 < 0.4 := by
  intro arr
  have hlen : arr.length = 21 := by simp [arr]
  have hval : ∀ k, k < 21 → arr.getD k 0 = (k : ℝ) - 10 := fun k hk => range_getD 21 _ hk
  have hp : arr.Pairwise (· < ·) := by
    rw [List.pairwise_map]
    refine List.pairwise_lt_range.imp fun {a b} hab => ?_
    have : (a : ℝ) < b := by exact_mod_cast hab
    linarith
  obtain ⟨mid, hb, hm, hn⟩ := C93_bisection arr hp (by omega) 0.4 (by rw [hval 0 (by omega)]; norm_num) (by rw [hlen, hval 20 (by omega)]; norm_num)
  rw [hlen] at hm
  have hmid : mid = 10 := by
    have a1 := hn 10 (by omega)
    rw [hval mid hm, hval 10 (by omega)] at a1
    have a2 : |(0.4 : ℝ) - (((10 : ℕ) : ℝ) - 10)| = 0.4 := by norm_num
    rw [a2, abs_le] at a1
    have b1 : (mid : ℝ) < 11 := by linarith [a1.1]
    have b2 : (9 : ℝ) < mid := by linarith [a1.2]
    have c1 : mid < 11 := by exact_mod_cast b1
    have c2 : 9 < mid := by exact_mod_cast b2
    omega
  subst hmid
  refine ⟨hp, 10, (idxmin arr.length s 10).toNat, hb, by rw [hlen]; unfold idxmin; omega, by rw [hlen]; unfold idxmin; omega, ?_⟩
  have : (idxmin arr.length s 10).toNat + s - 1 ≤ 10 := by rw [hlen]; unfold idxmin; omega
  rw [hval _ (by omega)]
  have : (((idxmin arr.length s 10).toNat + s - 1 : ℕ) : ℝ) ≤ 10 := by exact_mod_cast this
  norm_num
  linarith

/-! ## The hypotheses are met -/

/-- Eleven rows of a star of mass `0.1` and radius `11`. -/
noncomputable def sample : Solver :=
  { current_position := 11, y := ⟨0, 0, 0.1, 11⟩, rho_baryon := 0, r_lengthscale := 1,
    rows := (List.range 11).map fun (k : ℕ) => ⟨k + 1, 0.01, 0.01, 10 - k, 0.1, 0, k + 1⟩, alloced := 1024 }

theorem sample_inc : (0 :: sample.rows.map (·.r_iso)).Pairwise (· < ·) := by
  rw [List.pairwise_cons]
  constructor
  · intro x hx
    simp only [sample, List.map_map, List.mem_map, Function.comp] at hx
    obtain ⟨k, _, rfl⟩ := hx
    positivity
  · simp only [sample, List.map_map]
    rw [List.pairwise_map]
    refine List.pairwise_lt_range.imp fun {a b} hab => ?_
    have : (a : ℝ) < b := by exact_mod_cast hab
    simp only [Function.comp]
    linarith

theorem sample_last (row : Row) (h : sample.rows.getLast? = some row) : 0 < row.r_Schw ∧ 2 * row.M < row.r_Schw := by
  have : row = ⟨10 + 1, 0.01, 0.01, 10 - 10, 0.1, 0, 10 + 1⟩ := by
    simp only [sample, List.getLast?_map, List.getLast?_range] at h
    simpa using h.symm
  subst this
  norm_num

/-- The hypotheses of `C93_arrays`, `C93_increasing`, `C93_mass_violation`, `C93_interpolation` (at the center, with the default sizes of the stencil),
`C93_stencil_size` and `C93_outside` are met. -/
example : ∃ A, finish sample = .ok A ∧ 11 ≤ sample.rows.length ∧ sample.rows.length + 11 ≤ sample.alloced ∧ A.Size 22 ∧ A.r_iso.Pairwise (· < ·) ∧
    (A.entry 0).r_iso ≤ 0 ∧ 0 < (A.entry 21).r_iso ∧ ∀ h : 0 < sample.rows.length, (sample.rows[0]).M ≠ 0 := by
  have hlen : sample.rows.length = 11 := by simp [sample]
  obtain ⟨A, hA, h1, h2, _, h4⟩ := C93_increasing sample (by rw [hlen]; simp [sample]) hlen.ge sample_inc sample_last
  obtain ⟨B, hB, b1, _, _⟩ := C93_arrays sample (by rw [hlen]; simp [sample]) hlen.ge
  rw [hA] at hB
  cases hB
  rw [hlen] at b1
  have hsz := b1.2.2.2.2.2.2.2
  refine ⟨A, hA, hlen.ge, by rw [hlen]; simp [sample], b1, h1, h2.le, ?_, fun h => ?_⟩
  · exact h4.trans (increasing_of_pairwise h1 11 21 (by omega) (by omega))
  · simp [sample]
    norm_num

/-- The hypotheses of `C93_samples_partial` are met: an exact driver for a solution with constant pressure. -/
example : ∃ (drv : Driver) (Y : ℝ → State) (s : Solver), Y 0 = (initialCondition ⟨1, 2⟩ 0.1).1 ∧ (∀ t, 0 ≤ (Y t).P) ∧
    (∀ i t t' calls y, drv i t t' (Y t) = some (calls, y) → y = Y t') ∧ loop ⟨1, 2⟩ 0.1 drv 20 0 (start ⟨1, 2⟩ 0.1 1e-3) = .ok s := by
  let Y : ℝ → State := fun t => ⟨(initialCondition ⟨1, 2⟩ 0.1).1.P, 0, t, t⟩
  let drv : Driver := fun _ _ t' _ => some ([], Y t')
  obtain ⟨s, hs⟩ := C93_loop_returns ⟨1, 2⟩ 0.1 1e-3 20 drv fun _ _ _ _ h => by cases h
  refine ⟨drv, Y, s, rfl, fun t => ?_, fun i t t' calls y h => by cases h; rfl, hs⟩
  show (0 : ℝ) ≤ 1 * 0.1 ^ (2 : ℝ)
  positivity

end Verif.TOV
