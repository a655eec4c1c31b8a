import Verif.TOV.SolveModel
import Mathlib.Data.List.Sort

/-!
# C93: what the driver of TOVola saves
-/
namespace Verif.TOV
open Real

/-! ## Specification -/

/-- What the rows that were saved satisfy: the radii increase from zero; pressures are not negative, and the densities are those of the equation of
state; the pressure is positive in every row but the last; and it is zero in the last one unless the number of steps was used up. -/
structure Saved (e : Eos) (N : ℕ) (rows : List Row) : Prop where
  radii : (0 :: rows.map (·.r_Schw)).Pairwise (· < ·)
  pressure : ∀ row ∈ rows, 0 ≤ row.P
  baryon : ∀ row ∈ rows, row.rho_baryon = (row.P / e.K) ^ (1 / e.Gamma)
  energy : ∀ row ∈ rows, row.rho_energy = if row.P = 0 then 0 else row.rho_baryon * (1 + (cold e row.rho_baryon).2)
  inside : ∀ row ∈ rows.dropLast, 0 < row.P
  steps : rows.length ≤ N
  surface : rows.length = N ∨ ∃ row, rows.getLast? = some row ∧ row.P = 0

/-! ## One step -/

variable {e : Eos} {rhoC : ℝ} {drv : Driver}

theorem handler_nonneg (y : State) : 0 ≤ (exceptionHandler y).P := by
  unfold exceptionHandler
  split_ifs with h
  · exact le_rfl
  · exact not_lt.1 h

theorem odeLength_pos (r : ℝ) (y : State) {L : ℝ} (h : 0 < L) : 0 < odeLength e r y L := by
  unfold odeLength
  split_ifs with h1 h2
  · exact h
  · exact abs_pos.2 (div_ne_zero h2.1.ne' (abs_pos.1 h2.2))
  · exact h

theorem foldl_pos (calls : List (ℝ × State)) {L : ℝ} (h : 0 < L) : 0 < calls.foldl (fun L c => odeLength e c.1 c.2 L) L := by
  induction calls generalizing L with
  | nil => exact h
  | cons c calls ih => exact ih (odeLength_pos _ _ h)

/-- The step in radius. -/
noncomputable def dr (rhoC : ℝ) (s : Solver) : ℝ := if s.rho_baryon < 0.05 * rhoC then 1e-6 * s.r_lengthscale else 0.01 * s.r_lengthscale

theorem dr_pos {s : Solver} (h : 0 < s.r_lengthscale) : 0 < dr rhoC s := by
  unfold dr
  split_ifs <;> positivity

/-- The state after a step. -/
noncomputable def next (e : Eos) (rhoC : ℝ) (s : Solver) (calls : List (ℝ × State)) (y' : State) : Solver :=
  let y := exceptionHandler y'
  { current_position := s.current_position + dr rhoC s
    y := y
    rho_baryon := (densities e y.P).1
    r_lengthscale := calls.foldl (fun L c => odeLength e c.1 c.2 L) s.r_lengthscale
    rows := s.rows ++ [⟨s.current_position + dr rhoC s, energy e y.P, (densities e y.P).1, y.P, y.M, y.nu, y.riso⟩]
    alloced := grow s.rows.length s.alloced }

/-- The arrays are large enough for the rows, and for the extension. -/
def Fits (s : Solver) : Prop := 1024 ≤ s.alloced ∧ s.rows.length + 12 ≤ s.alloced ∧ (s.alloced = 1024 ∨ 2 * s.alloced ≤ 3 * (s.rows.length + 12))

theorem fits_lt {s : Solver} (h : Fits s) : s.rows.length < grow s.rows.length s.alloced := by
  obtain ⟨h1, h2, _⟩ := h
  unfold grow buffer
  split_ifs <;> omega

theorem fits_next {s : Solver} (h : Fits s) (calls : List (ℝ × State)) (y' : State) : Fits (next e rhoC s calls y') := by
  obtain ⟨h1, h2, h3⟩ := h
  unfold Fits next grow buffer
  simp only [List.length_append, List.length_singleton]
  split_ifs <;> omega

theorem step_eq {i : ℕ} {s : Solver} (h : Fits s) : step e rhoC drv i s =
    match drv i s.current_position (s.current_position + dr rhoC s) (exceptionHandler s.y) with
    | none => .error .solver
    | some (calls, y') => .ok (next e rhoC s calls y', decide ((exceptionHandler y').P ≤ 0)) := by
  unfold step
  show (match drv i s.current_position (s.current_position + dr rhoC s) (exceptionHandler s.y) with
    | none => _
    | some (calls, y') => _) = _
  rcases drv i s.current_position (s.current_position + dr rhoC s) (exceptionHandler s.y) with _ | ⟨calls, y'⟩
  · rfl
  · simp only [if_pos (fits_lt h)]
    rfl

/-- Induction over the loop: `Q` holds of the states from which the loop goes on, and `R` of the states with which it returns. -/
theorem loop_ind {Q : ℕ → Solver → Prop} {R : Solver → Prop}
    (hstep : ∀ k i s calls y', Q (k + 1) s → Fits s → drv i s.current_position (s.current_position + dr rhoC s) (exceptionHandler s.y) = some (calls, y') →
      (0 < (exceptionHandler y').P → Q k (next e rhoC s calls y')) ∧ ((exceptionHandler y').P = 0 → R (next e rhoC s calls y')))
    (hend : ∀ s, Q 0 s → R s) :
    ∀ k i s, Q k s → Fits s → (loop e rhoC drv k i s = .error .solver ∨ ∃ s', loop e rhoC drv k i s = .ok s' ∧ R s' ∧ Fits s') := by
  intro k
  induction k with
  | zero => exact fun i s hs hf => .inr ⟨s, rfl, hend s hs, hf⟩
  | succ k ih =>
    intro i s hs hf
    rw [loop, step_eq hf]
    rcases hd : drv i s.current_position (s.current_position + dr rhoC s) (exceptionHandler s.y) with _ | ⟨calls, y'⟩
    · exact .inl rfl
    · obtain ⟨h1, h2⟩ := hstep k i s calls y' hs hf hd
      show (if decide ((exceptionHandler y').P ≤ 0) = true then Except.ok (next e rhoC s calls y') else loop e rhoC drv k (i + 1) (next e rhoC s calls y')) = _ ∨
        ∃ s', (if decide ((exceptionHandler y').P ≤ 0) = true then Except.ok (next e rhoC s calls y') else loop e rhoC drv k (i + 1) (next e rhoC s calls y')) = _ ∧ _
      by_cases hp : (exceptionHandler y').P ≤ 0
      · rw [if_pos (by simpa using hp)]
        exact .inr ⟨_, rfl, h2 (le_antisymm hp (handler_nonneg y')), fits_next hf calls y'⟩
      · rw [if_neg (by simpa using hp)]
        exact ih (i + 1) _ (h1 (not_le.1 hp)) (fits_next hf calls y')

theorem start_fits (e : Eos) (rhoC h : ℝ) : Fits (start e rhoC h) := by
  simp [Fits, start]

/-! ## The loop -/

theorem energy_saved (e : Eos) {P : ℝ} (h : 0 ≤ P) :
    energy e P = if P = 0 then 0 else (densities e P).1 * (1 + (cold e (densities e P).1).2) := by
  rcases h.eq_or_lt with h | h
  · simp [energy, densities, ← h]
  · simp only [energy, densities, if_pos h, if_neg h.ne']
    rfl

/-- What holds while the loop goes on. -/
structure Going (e : Eos) (N k : ℕ) (s : Solver) : Prop where
  pos : 0 < s.r_lengthscale
  here : ∀ x ∈ 0 :: s.rows.map (·.r_Schw), x ≤ s.current_position
  radii : (0 :: s.rows.map (·.r_Schw)).Pairwise (· < ·)
  pressure : ∀ row ∈ s.rows, 0 < row.P
  baryon : ∀ row ∈ s.rows, row.rho_baryon = (row.P / e.K) ^ (1 / e.Gamma)
  energy : ∀ row ∈ s.rows, row.rho_energy = if row.P = 0 then 0 else row.rho_baryon * (1 + (cold e row.rho_baryon).2)
  count : s.rows.length + k = N

theorem Going.next {N k : ℕ} {s : Solver} (h : Going e N (k + 1) s) (calls : List (ℝ × State)) (y' : State) :
    let t := next e rhoC s calls y'
    0 < t.r_lengthscale ∧ (∀ x ∈ 0 :: t.rows.map (·.r_Schw), x ≤ t.current_position) ∧ (0 :: t.rows.map (·.r_Schw)).Pairwise (· < ·) ∧
    (∀ row ∈ t.rows, row.rho_baryon = (row.P / e.K) ^ (1 / e.Gamma)) ∧
    (∀ row ∈ t.rows, row.rho_energy = if row.P = 0 then 0 else row.rho_baryon * (1 + (cold e row.rho_baryon).2)) ∧
    t.rows.length + k = N := by
  intro t
  have hdr : 0 < dr rhoC s := dr_pos h.pos
  have hmap : 0 :: t.rows.map (·.r_Schw) = (0 :: s.rows.map (·.r_Schw)) ++ [s.current_position + dr rhoC s] := by
    simp [t, TOV.next]
  refine ⟨foldl_pos _ h.pos, ?_, ?_, ?_, ?_, ?_⟩
  · rw [hmap]
    intro x hx
    show x ≤ s.current_position + dr rhoC s
    rcases List.mem_append.1 hx with hx | hx
    · linarith [h.here x hx]
    · rw [List.mem_singleton.1 hx]
  · rw [hmap, List.pairwise_append]
    refine ⟨h.radii, List.pairwise_singleton _ _, fun a ha b hb => ?_⟩
    rw [List.mem_singleton.1 hb]
    linarith [h.here a ha]
  · intro row hrow
    rcases List.mem_append.1 hrow with hrow | hrow
    · exact h.baryon row hrow
    · rw [List.mem_singleton.1 hrow]
      rfl
  · intro row hrow
    rcases List.mem_append.1 hrow with hrow | hrow
    · exact h.energy row hrow
    · rw [List.mem_singleton.1 hrow]
      exact energy_saved e (handler_nonneg y')
  · have := h.count
    simp only [t, TOV.next, List.length_append, List.length_singleton]
    omega

/-- The loop, for a driver that does what it likes: it ends with an error of the driver, or the rows are as specified and memory suffices. -/
theorem C93_loop (e : Eos) (rhoC h : ℝ) (N : ℕ) (drv : Driver) (hh : 0 < h) :
    loop e rhoC drv N 0 (start e rhoC h) = .error .solver ∨
    ∃ s, loop e rhoC drv N 0 (start e rhoC h) = .ok s ∧ Saved e N s.rows ∧ s.rows.length + 11 ≤ s.alloced ∧
      (s.alloced ≤ 1024 ∨ 2 * s.alloced ≤ 3 * (s.rows.length + 12)) := by
  have key := loop_ind (e := e) (rhoC := rhoC) (drv := drv) (Q := Going e N) (R := fun s => Saved e N s.rows) (fun k i s calls y' hs _ _ => ?_) (fun s hs => ?_)
    N 0 (start e rhoC h) ⟨hh, by simp [start], by simp [start], by simp [start], by simp [start], by simp [start], by simp [start]⟩ (start_fits e rhoC h)
  · rcases key with key | ⟨s, h1, h2, h3⟩
    · exact .inl key
    · refine .inr ⟨s, h1, h2, by have := h3.2.1; omega, h3.2.2.imp le_of_eq id⟩
  · obtain ⟨a1, a2, a3, a4, a5, a6⟩ := hs.next (rhoC := rhoC) calls y'
    constructor
    · intro hp
      refine ⟨a1, a2, a3, fun row hrow => ?_, a4, a5, a6⟩
      rcases List.mem_append.1 hrow with hrow | hrow
      · exact hs.pressure row hrow
      · rw [List.mem_singleton.1 hrow]
        exact hp
    · intro hp
      refine ⟨a3, fun row hrow => ?_, a4, a5, fun row hrow => ?_, by omega, .inr ⟨_, List.getLast?_concat, hp⟩⟩
      · rcases List.mem_append.1 hrow with hrow | hrow
        · exact (hs.pressure row hrow).le
        · rw [List.mem_singleton.1 hrow]
          exact hp.ge
      · simp only [next, List.dropLast_concat] at hrow
        exact hs.pressure row hrow
  · exact ⟨hs.radii, fun row hrow => (hs.pressure row hrow).le, hs.baryon, hs.energy,
      fun row hrow => hs.pressure row (List.mem_of_mem_dropLast hrow), by have := hs.count; omega, .inl (by have := hs.count; omega)⟩

/-- If the driver never fails, the loop returns. -/
theorem C93_loop_returns (e : Eos) (rhoC h : ℝ) (N : ℕ) (drv : Driver) (hd : ∀ i t t' y, drv i t t' y ≠ none) :
    ∃ s, loop e rhoC drv N 0 (start e rhoC h) = .ok s := by
  suffices H : ∀ k i s, Fits s → ∃ s', loop e rhoC drv k i s = .ok s' from H N 0 _ (start_fits e rhoC h)
  intro k
  induction k with
  | zero => exact fun i s _ => ⟨s, rfl⟩
  | succ k ih =>
    intro i s hf
    rw [loop, step_eq hf]
    rcases hdr : drv i s.current_position (s.current_position + dr rhoC s) (exceptionHandler s.y) with _ | ⟨calls, y'⟩
    · exact absurd hdr (hd _ _ _ _)
    · show ∃ s', (if decide ((exceptionHandler y').P ≤ 0) = true then Except.ok (next e rhoC s calls y') else loop e rhoC drv k (i + 1) (next e rhoC s calls y')) = _
      split_ifs
      · exact ⟨_, rfl⟩
      · exact ih _ _ (fits_next hf calls y')

/-- If the driver follows a solution that starts at the initial condition and whose pressure is not negative, every row is a point of that solution. -/
theorem C93_follows (e : Eos) (rhoC h : ℝ) (N : ℕ) (drv : Driver) (Y : ℝ → State) (h0 : Y 0 = (initialCondition e rhoC).1) (hP : ∀ t, 0 ≤ (Y t).P)
    (hY : ∀ i t t' calls y, drv i t t' (Y t) = some (calls, y) → y = Y t') (s : Solver) (hs : loop e rhoC drv N 0 (start e rhoC h) = .ok s) :
    ∀ row ∈ s.rows, (⟨row.P, row.nu, row.M, row.r_iso⟩ : State) = Y row.r_Schw := by
  have hid : ∀ t, exceptionHandler (Y t) = Y t := fun t => if_neg (not_lt.2 (hP t))
  have key := loop_ind (e := e) (rhoC := rhoC) (drv := drv)
    (Q := fun _ s => s.y = Y s.current_position ∧ ∀ row ∈ s.rows, (⟨row.P, row.nu, row.M, row.r_iso⟩ : State) = Y row.r_Schw)
    (R := fun s => ∀ row ∈ s.rows, (⟨row.P, row.nu, row.M, row.r_iso⟩ : State) = Y row.r_Schw) (fun k i s calls y' hs _ hd => ?_) (fun s hs => hs.2)
    N 0 (start e rhoC h) ⟨h0.symm, by simp [start]⟩ (start_fits e rhoC h)
  · rcases key with key | ⟨s', h1, h2, _⟩
    · rw [hs] at key
      cases key
    · rw [hs] at h1
      cases h1
      exact h2
  · rw [hs.1, hid] at hd
    have hy := hY _ _ _ _ _ hd
    have hrow : ∀ row ∈ (next e rhoC s calls y').rows, (⟨row.P, row.nu, row.M, row.r_iso⟩ : State) = Y row.r_Schw := fun row hrow => by
      rcases List.mem_append.1 hrow with hrow | hrow
      · exact hs.2 row hrow
      · rw [List.mem_singleton.1 hrow, hy]
        simp only [hid]
    exact ⟨fun _ => ⟨by show exceptionHandler y' = _; rw [hy, hid]; rfl, hrow⟩, fun _ => hrow⟩

end Verif.TOV
