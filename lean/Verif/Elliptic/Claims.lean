import Verif.Elliptic.Model

/-!
# The relaxation loop of NRPyElliptic (C109)
-/
namespace Verif.Elliptic

section
variable {Y : Type} (P : Prog Y)

/-! ### When a run ends -/

/-- Conditions under which a run that started at iteration `nn` with data `y` has reason to end after `k` steps: the
iterations are used up, the residual of the data before the last step is below the tolerance, or the final time is reached. -/
def Done (nn : ℤ) (y : Y) (k : ℕ) : Prop :=
  P.nnMax ≤ nn + k ∨ (∃ r, P.norm (P.mol^[k - 1] y) = some r ∧ r < P.tol) ∨ P.tFinal ≤ (nn + k) * P.dt

/-- The result `s'` of a run from `s` that takes `n` steps. -/
structure Result (s s' : State Y) (n : ℕ) : Prop where
  nn : s'.core.nn = s.core.nn + n
  y : s'.core.y = P.mol^[n] s.core.y
  time : s'.core.time = if n = 0 then s.core.time else (s.core.nn + n) * P.dt
  res : s'.core.res = if n = 0 then s.core.res else P.norm (P.mol^[n - 1] s.core.y)
  lines : s'.lines = (if s.core.nn = 0 ∧ 0 < n then [] else s.lines) ++ (List.range n).map fun k : ℕ =>
    (s.core.nn + (k : ℤ), (if k = 0 then s.core.time else (s.core.nn + k) * P.dt), P.norm (P.mol^[k] s.core.y))
  dumps : s'.dumps = s.dumps ++ ((List.range n).map fun k : ℕ => s.core.nn + (k : ℤ)).filter fun m => m.tmod P.outEvery = 0

variable {P}

theorem cLt_iff {a : Option ℝ} {b : ℝ} : cLt a b = true ↔ ∃ r, a = some r ∧ r < b := by
  cases a <;> simp [cLt]

theorem checkStop_stop (c : Core Y) : (checkStop P c).stop = true ↔ c.stop = true ∨ P.nnMax ≤ c.nn ∨ cLt c.res P.tol = true := by
  unfold checkStop
  split <;> simp_all

theorem checkStop_eq (c : Core Y) : checkStop P c = { c with stop := (checkStop P c).stop } := by
  unfold checkStop; split <;> rfl

theorem writeCheckpoint_core (s : State Y) : (writeCheckpoint P s).core = s.core := by unfold writeCheckpoint; split <;> rfl
theorem writeCheckpoint_lines (s : State Y) : (writeCheckpoint P s).lines = s.lines := by unfold writeCheckpoint; split <;> rfl
theorem writeCheckpoint_dumps (s : State Y) : (writeCheckpoint P s).dumps = s.dumps := by unfold writeCheckpoint; split <;> rfl

/-- The data after one pass. -/
noncomputable def next (P : Prog Y) (c : Core Y) : Core Y := checkStop P (step P (measure P c))

theorem iteration_cont {s : State Y} (h : (next P s.core).stop = false) :
    (iteration P s).2 = true ∧ (iteration P s).1.core = next P s.core ∧ (iteration P s).1.lines = (diagnostics P s).lines ∧
      (iteration P s).1.dumps = (diagnostics P s).dumps ∧ (iteration P s).1.chk = (writeCheckpoint P (diagnostics P s)).chk := by
  unfold iteration
  simp only [writeCheckpoint_core]
  have h' : (checkStop P (step P (diagnostics P s).core)).stop = false := h
  rw [if_neg (by simp [h'])]
  exact ⟨rfl, rfl, writeCheckpoint_lines _, writeCheckpoint_dumps _, rfl⟩

theorem iteration_stop {s : State Y} (h : (next P s.core).stop = true) :
    (iteration P s).2 = false ∧ (iteration P s).1.core = { next P s.core with every := 1e-4 * P.dt } ∧
      (iteration P s).1.lines = (diagnostics P s).lines ∧ (iteration P s).1.dumps = (diagnostics P s).dumps := by
  unfold iteration
  simp only [writeCheckpoint_core]
  have h' : (checkStop P (step P (diagnostics P s).core)).stop = true := h
  rw [if_pos h']
  refine ⟨rfl, ?_, ?_, ?_⟩
  · rw [writeCheckpoint_core]; rfl
  · rw [writeCheckpoint_lines]; exact writeCheckpoint_lines _
  · rw [writeCheckpoint_dumps]; exact writeCheckpoint_dumps _

theorem next_eq (c : Core Y) : next P c = ⟨c.nn + 1, ((c.nn + 1 : ℤ) : ℝ) * P.dt, P.norm c.y, (next P c).stop, c.every, P.mol c.y⟩ := by
  unfold next
  conv_lhs => rw [checkStop_eq]
  rfl

theorem next_stop (c : Core Y) : (next P c).stop = true ↔ c.stop = true ∨ P.nnMax ≤ c.nn + 1 ∨ cLt (P.norm c.y) P.tol = true := by
  unfold next
  rw [checkStop_stop]
  rfl

/-- One pass is a run of one step. -/
theorem result_one {s s' : State Y} (hc : s'.core.nn = (next P s.core).nn ∧ s'.core.y = (next P s.core).y ∧
    s'.core.time = (next P s.core).time ∧ s'.core.res = (next P s.core).res) (hl : s'.lines = (diagnostics P s).lines)
    (hd : s'.dumps = (diagnostics P s).dumps) : Result P s s' 1 := by
  rw [next_eq] at hc
  obtain ⟨a, b, c, d⟩ := hc
  refine ⟨by simpa using a, by simpa using b, by simpa using c, by simpa using d, ?_, ?_⟩
  · rw [hl]
    unfold diagnostics measure
    dsimp only
    by_cases h : s.core.nn = 0 <;> simp [h]
  · rw [hd]
    unfold diagnostics measure
    dsimp only
    split <;> simp_all

/-- Runs can be put together. -/
theorem Result.trans {s s' s'' : State Y} {n m : ℕ} (h : Result P s s' n) (h' : Result P s' s'' m) (hn : 0 < n)
    (h0 : 0 ≤ s.core.nn) : Result P s s'' (n + m) := by
  have hn' : n ≠ 0 := hn.ne'
  have hnn : s'.core.nn ≠ 0 := by rw [h.nn]; omega
  refine ⟨?_, ?_, ?_, ?_, ?_, ?_⟩
  · rw [h'.nn, h.nn]; push_cast; ring
  · rw [h'.y, h.y, ← Function.iterate_add_apply, add_comm]
  · rw [h'.time, h.time, h.nn]
    rw [if_neg hn', if_neg (show ¬ n + m = 0 by omega)]
    split
    · subst_vars; simp
    · push_cast; ring
  · rw [h'.res, h.res, h.y, if_neg hn', if_neg (show ¬ n + m = 0 by omega)]
    split
    · subst_vars; simp
    · rw [← Function.iterate_add_apply]
      congr 2
      omega
  · rw [h'.lines, h.lines, if_neg (by tauto), List.append_assoc, List.range_add, List.map_append, List.map_map]
    have e : (s.core.nn = 0 ∧ 0 < n + m) ↔ (s.core.nn = 0 ∧ 0 < n) := by constructor <;> rintro ⟨a, b⟩ <;> exact ⟨a, by omega⟩
    simp only [e]
    congr 2
    refine List.map_congr_left fun k _ => ?_
    simp only [Function.comp_apply, h.nn, h.time, h.y, if_neg hn', ← Function.iterate_add_apply]
    refine Prod.ext (by push_cast; ring) (Prod.ext ?_ (by rw [add_comm k n]))
    dsimp only
    rw [if_neg (show ¬ n + k = 0 by omega)]
    split
    · subst_vars; simp
    · push_cast; ring
  · rw [h'.dumps, h.dumps, List.append_assoc, List.range_add, List.map_append, List.filter_append, List.map_map]
    congr 3
    refine List.map_congr_left fun k _ => ?_
    simp only [Function.comp_apply, h.nn]
    push_cast; ring

/-- What the theorem says of a run from `s` that ends in `s'`. -/
structure Ends (P : Prog Y) (s s' : State Y) : Prop where
  intro ::
  run : ∃ n : ℕ, Result P s s' n ∧ n ≤ max 1 (P.nnMax - s.core.nn) ∧ (n = 0 ↔ P.tFinal ≤ s.core.time) ∧
    (n ≠ 0 → Done P s.core.nn s.core.y n) ∧ (∀ k, 0 < k → k < n → ¬ Done P s.core.nn s.core.y k) ∧
    (s'.core.stop = true ↔ n ≠ 0 ∧ (P.nnMax ≤ s.core.nn + n ∨ ∃ r, P.norm (P.mol^[n - 1] s.core.y) = some r ∧ r < P.tol))
  stored : 0 < P.dt → s'.core.stop = true → s'.chk = some s'.core

theorem test_small {t dt : ℝ} (h : 0 < dt) : BHaH.outputTest t dt (1e-4 * dt) := by
  unfold BHaH.outputTest
  have hp : (0 : ℝ) < 1e-4 * dt := by positivity
  have key : |((BHaH.cround (t / (1e-4 * dt)) : ℤ) : ℝ) - t / (1e-4 * dt)| ≤ 1 / 2 := by
    generalize t / (1e-4 * dt) = x
    unfold BHaH.cround
    split
    · have a := Int.floor_le (x + 1 / 2)
      have b := Int.lt_floor_add_one (x + 1 / 2)
      rw [abs_le]; constructor <;> linarith
    · have a := Int.floor_le (-x + 1 / 2)
      have b := Int.lt_floor_add_one (-x + 1 / 2)
      push_cast
      rw [abs_le]; constructor <;> linarith
  have e : ((BHaH.cround (t / (1e-4 * dt)) : ℤ) : ℝ) * (1e-4 * dt) - t =
      (((BHaH.cround (t / (1e-4 * dt)) : ℤ) : ℝ) - t / (1e-4 * dt)) * (1e-4 * dt) := by
    rw [sub_mul, div_mul_cancel₀ _ hp.ne']
  rw [e, abs_mul, abs_of_pos hp]
  calc _ ≤ 1 / 2 * (1e-4 * dt) := mul_le_mul_of_nonneg_right key hp.le
    _ < 0.5 * dt := by norm_num; nlinarith

theorem iteration_stored {s : State Y} (h : (next P s.core).stop = true) (hd : 0 < P.dt) :
    (iteration P s).1.chk = some (iteration P s).1.core := by
  obtain ⟨-, hc, -, -⟩ := iteration_stop h
  rw [hc]
  unfold iteration
  simp only [writeCheckpoint_core]
  have h' : (checkStop P (step P (diagnostics P s).core)).stop = true := h
  rw [if_pos h']
  dsimp only
  conv_lhs => unfold writeCheckpoint
  rw [if_pos (test_small hd)]
  rfl

theorem ends_aux : ∀ (m : ℕ) (s : State Y), s.core.stop = false → 0 ≤ s.core.nn → (max 1 (P.nnMax - s.core.nn)).toNat ≤ m →
    ∃ s', (∀ f, m < f → loop P f s = some s') ∧ Ends P s s'
  | 0, s, _, _, hm => by omega
  | m + 1, s, hs, h0, hm => by
    by_cases ht : s.core.time < P.tFinal
    · have hnum : P.tFinal ≤ (((s.core.nn + 1 : ℤ)) : ℝ) * P.dt ↔ P.tFinal ≤ ((s.core.nn : ℝ) + (1 : ℕ)) * P.dt := by push_cast; rfl
      by_cases hn : (next P s.core).stop = true
      · obtain ⟨a, b, c, d⟩ := iteration_stop hn
        refine ⟨(iteration P s).1, fun f hf => ?_, ⟨1, ?_, ?_, ?_, ?_, ?_, ?_⟩, fun hd _ => iteration_stored hn hd⟩
        · obtain ⟨f, rfl⟩ : ∃ k, f = k + 1 := ⟨f - 1, by omega⟩
          rw [loop, if_pos ht]
          dsimp only
          rw [a]
          rfl
        · exact result_one (by rw [b]; exact ⟨rfl, rfl, rfl, rfl⟩) c d
        · push_cast; exact le_max_left _ _
        · simp [ht]
        · intro _
          rw [next_stop, hs] at hn
          rcases hn with hn | hn | hn
          · cases hn
          · exact .inl (by simpa using hn)
          · exact .inr (.inl (by simpa [cLt_iff] using hn))
        · intro k k1 k2; omega
        · rw [b]
          dsimp only
          rw [next_stop, hs, cLt_iff]
          simp
      · have hn' : (next P s.core).stop = false := by simpa using hn
        obtain ⟨a, b, c, d, -⟩ := iteration_cont hn'
        rw [next_stop, not_or, not_or, not_le, cLt_iff] at hn
        obtain ⟨-, h1, h2⟩ := hn
        have e1 : (iteration P s).1.core.nn = s.core.nn + 1 := by rw [b, next_eq]
        have e2 : (iteration P s).1.core.y = P.mol s.core.y := by rw [b, next_eq]
        have e3 : (iteration P s).1.core.time = ((s.core.nn + 1 : ℤ) : ℝ) * P.dt := by rw [b, next_eq]
        have e4 : (iteration P s).1.core.res = P.norm s.core.y := by rw [b, next_eq]
        obtain ⟨s', hl, ⟨n, hr, r1, r2, r3, r4, r5⟩, hst⟩ := ends_aux m (iteration P s).1 (by rw [b]; exact hn') (by rw [e1]; omega)
          (by rw [e1]; omega)
        have hone : Result P s (iteration P s).1 1 :=
          result_one (by rw [b]; exact ⟨rfl, rfl, rfl, rfl⟩) c d
        have hdone : ∀ k, 0 < k → (Done P (iteration P s).1.core.nn (iteration P s).1.core.y k ↔ Done P s.core.nn s.core.y (1 + k)) := by
          intro k hk
          unfold Done
          rw [e1, e2, ← Function.iterate_succ_apply, show (k - 1).succ = 1 + k - 1 by omega]
          push_cast
          rw [add_assoc, add_assoc]
        refine ⟨s', fun f hf => ?_, ⟨1 + n, hone.trans hr one_pos h0, ?_, ?_, ?_, ?_, ?_⟩, hst⟩
        · obtain ⟨f, rfl⟩ : ∃ k, f = k + 1 := ⟨f - 1, by omega⟩
          rw [loop, if_pos ht]
          dsimp only
          rw [a, if_pos rfl]
          exact hl f (by omega)
        · rw [e1] at r1
          push_cast
          omega
        · simp [ht]
        · intro _
          by_cases hz : n = 0
          · subst hz
            refine .inr (.inr ?_)
            have := r2.1 rfl
            rw [e3] at this
            push_cast at this ⊢
            simpa using this
          · exact (hdone n (by omega)).1 (r3 hz)
        · intro k k1 k2
          by_cases hk : k = 1
          · subst hk
            have hz : ¬ P.tFinal ≤ (iteration P s).1.core.time := fun h => by have := r2.2 h; omega
            rw [e3] at hz
            rintro (u | u | u)
            · push_cast at u; omega
            · exact h2 (by simpa using u)
            · exact hz (hnum.2 u)
          · obtain ⟨j, rfl⟩ : ∃ j, k = 1 + j := ⟨k - 1, by omega⟩
            exact fun h => r4 j (by omega) (by omega) ((hdone j (by omega)).2 h)
        · rw [r5, e1, e2]
          by_cases hz : n = 0
          · subst hz
            simp only [ne_eq, not_true_eq_false, false_and, false_iff, not_and, not_or]
            intro _
            exact ⟨by push_cast; omega, by simpa using h2⟩
          · rw [← Function.iterate_succ_apply, show (n - 1).succ = 1 + n - 1 by omega]
            push_cast
            rw [add_assoc]
            simp [hz]
    · refine ⟨s, fun f hf => ?_, ⟨0, ⟨by simp, rfl, rfl, rfl, by simp, by simp⟩, ?_, ?_, ?_, ?_, ?_⟩, fun _ h => ?_⟩
      · obtain ⟨f, rfl⟩ : ∃ k, f = k + 1 := ⟨f - 1, by omega⟩
        rw [loop, if_neg ht]
      · push_cast; exact le_max_of_le_left zero_le_one
      · simpa using ht
      · simp
      · intro k k1 k2; omega
      · simp [hs]
      · rw [hs] at h; cases h

/-- C109, end of the run: whatever the data, the equations, the time step (which may be zero or negative) and the final time, the
run ends after at most `nn_max - nn` steps (one, if that is not positive).  It takes the smallest positive number of
steps after which there is reason to end (none, if the final time has been reached before), the data are those after
so many steps, the residual that is reported is that of the data one step before; the file of residuals has one line for each
step, with number, time and residual of the data before it, and replaces a file left by an earlier run; 1D and 2D files are
written in the iterations that are multiples of the period; and, if one of the two stop conditions is met, the checkpoint holds the
final data. -/
theorem C109_run (s : State Y) (hs : s.core.stop = false) (h0 : 0 ≤ s.core.nn) :
    ∃ s', (∀ fuel, (max 1 (P.nnMax - s.core.nn)).toNat < fuel → loop P fuel s = some s') ∧ Ends P s s' :=
  ends_aux _ s hs h0 le_rfl

/-- C109, restart after the end: a run that was ended by one of the stop conditions and is started again from its checkpoint
makes exactly one step and stops, whatever the number of iterations that are left and the residual. -/
theorem C109_restart_one_step (s : State Y) (hs : s.core.stop = true) (ht : s.core.time < P.tFinal) (fuel : ℕ) :
    ∃ s', loop P (fuel + 1) s = some s' ∧ s'.core.nn = s.core.nn + 1 ∧ s'.core.y = P.mol s.core.y ∧ s'.core.stop = true := by
  have hn : (next P s.core).stop = true := (next_stop _).2 (.inl hs)
  obtain ⟨a, b, -, -⟩ := iteration_stop hn
  refine ⟨(iteration P s).1, ?_, ?_, ?_, ?_⟩
  · rw [loop, if_pos ht]
    dsimp only
    rw [a]
    rfl
  · rw [b, next_eq]
  · rw [b, next_eq]
  · rw [b]; exact hn

/-! ### Crash and restart -/

/-- States at the head of the loop in a run from `s`. -/
inductive Head (P : Prog Y) (s : State Y) : State Y → Prop
  | refl : Head P s s
  | pass {t} : Head P s t → t.core.time < P.tFinal → (iteration P t).2 = true → Head P s (iteration P t).1

/-- Files that a run from `s` leaves when it is killed before it ends: as they were at the head of the loop, or after the regular checkpoint. -/
inductive Killed (P : Prog Y) (s : State Y) : State Y → Prop
  | head {t} : Head P s t → Killed P s t
  | mid {t} : Head P s t → t.core.time < P.tFinal → Killed P s (writeCheckpoint P (diagnostics P t))

theorem next_measure (c : Core Y) : next P (measure P c) = next P c := rfl

theorem iteration_core {a b : State Y} (h : next P a.core = next P b.core) :
    (iteration P a).1.core = (iteration P b).1.core ∧ (iteration P a).2 = (iteration P b).2 := by
  cases hn : (next P b.core).stop with
  | true =>
    obtain ⟨a1, a2, -⟩ := iteration_stop (h ▸ hn : (next P a.core).stop = true)
    obtain ⟨b1, b2, -⟩ := iteration_stop hn
    exact ⟨by rw [a2, b2, h], by rw [a1, b1]⟩
  | false =>
    obtain ⟨a1, a2, -⟩ := iteration_cont (h ▸ hn : (next P a.core).stop = false)
    obtain ⟨b1, b2, -⟩ := iteration_cont hn
    exact ⟨by rw [a2, b2, h], by rw [a1, b1]⟩

theorem loop_core : ∀ (f : ℕ) {a b : State Y}, a.core = b.core → (loop P f a).map State.core = (loop P f b).map State.core
  | 0, _, _, _ => rfl
  | f + 1, a, b, h => by
    obtain ⟨h1, h2⟩ := iteration_core (P := P) (congrArg (next P) h)
    rw [loop, loop, h]
    split
    · dsimp only
      rw [h2]
      split
      · exact loop_core f h1
      · simp [h1]
    · simp [h]

theorem loop_measure {f : ℕ} {a b : State Y} (h : a.core = measure P b.core) (ht : b.core.time < P.tFinal) :
    (loop P f a).map State.core = (loop P f b).map State.core := by
  cases f with
  | zero => rfl
  | succ f =>
    obtain ⟨h1, h2⟩ := iteration_core (P := P) (a := a) (b := b) (by rw [h, next_measure])
    have ha : a.core.time < P.tFinal := by rw [h]; exact ht
    rw [loop, loop, if_pos ha, if_pos ht]
    dsimp only
    rw [h2]
    split
    · exact loop_core f h1
    · simp [h1]

theorem head_loop {s t : State Y} (h : Head P s t) {f : ℕ} {s' : State Y} (hf : loop P f s = some s') :
    ∃ f', loop P f' t = some s' := by
  induction h with
  | refl => exact ⟨f, hf⟩
  | @pass t _ ht hc ih =>
    obtain ⟨f', hf'⟩ := ih
    cases f' with
    | zero => cases hf'
    | succ f' =>
      rw [loop, if_pos ht] at hf'
      dsimp only at hf'
      rw [hc, if_pos rfl] at hf'
      exact ⟨f', hf'⟩

theorem chk_of_write {t : State Y} {c : Core Y} (h : (writeCheckpoint P (diagnostics P t)).chk = some c) :
    c = measure P t.core ∨ t.chk = some c := by
  unfold writeCheckpoint at h
  split at h
  · exact .inl (Option.some.inj h).symm
  · exact .inr h

theorem iteration_true {s : State Y} (h : (iteration P s).2 = true) : (next P s.core).stop = false := by
  cases hn : (next P s.core).stop with
  | true => rw [(iteration_stop hn).1] at h; cases h
  | false => rfl

theorem head_chk {s t : State Y} (h : Head P s t) (h0 : s.chk = none) {c : Core Y} (hc : t.chk = some c) :
    ∃ u, Head P s u ∧ u.core.time < P.tFinal ∧ c = measure P u.core := by
  induction h with
  | refl => rw [h0] at hc; cases hc
  | @pass t hh ht hi ih =>
    rw [(iteration_cont (iteration_true hi)).2.2.2.2] at hc
    rcases chk_of_write hc with e | e
    · exact ⟨t, hh, ht, e⟩
    · exact ih e

/-- C109, crash and restart: wherever a run is killed before it ends, starting the program again with the files it left ends with the data, the
number of iterations, the residual and the stop flag of the run that was not killed. -/
theorem C109_resume {every : ℝ} {guess : Y} {files t s' : State Y} (h0 : files.chk = none)
    (ht : Killed P (start every guess files) t) {f : ℕ} (hs : loop P f (start every guess files) = some s') :
    ∃ f' r', loop P f' (start every guess t) = some r' ∧ r'.core = s'.core := by
  have e0 : start every guess files = { files with core := ⟨0, 0, some 1, false, every, guess⟩ } := by
    unfold start; rw [h0]
  have hn : (start every guess files).chk = none := by rw [e0]; exact h0
  have key : (∀ c, t.chk = some c → ∃ u, Head P (start every guess files) u ∧ u.core.time < P.tFinal ∧ c = measure P u.core) := by
    intro c hc
    cases ht with
    | head h => exact head_chk h hn hc
    | @mid t h hlt =>
      rcases chk_of_write hc with e | e
      · exact ⟨t, h, hlt, e⟩
      · exact head_chk h hn e
  cases hk : t.chk with
  | none =>
    refine ⟨f, ?_⟩
    have := loop_core (P := P) f (a := start every guess t) (b := start every guess files) (by
      rw [e0]; unfold start; rw [hk])
    rw [hs] at this
    simpa [Option.map_eq_some_iff] using this
  | some c =>
    obtain ⟨u, hu, hlt, rfl⟩ := key c hk
    obtain ⟨f', hf'⟩ := head_loop hu hs
    refine ⟨f', ?_⟩
    have := loop_measure (P := P) (f := f') (a := start every guess t) (b := u) (by unfold start; rw [hk]) hlt
    rw [hf'] at this
    simpa [Option.map_eq_some_iff] using this

end

/-! ### The reported residual -/

/-- A program whose data are numbers; a step adds one, the logarithm of the residual is `f`. -/
noncomputable def toy (f : ℤ → ℝ) : Prog ℤ := ⟨1, 100, 10, -15, 2, fun n => n + 1, fun n => some (f n)⟩

/-- C109 does not hold as users read it: the run may end because of the tolerance with data whose residual is not below the tolerance, since
the residual is computed before the step and compared after it. -/
theorem C109_final_residual_violation :
    ∃ (P : Prog ℤ) (s' : State ℤ) (r : ℝ), (∃ fuel, loop P fuel (start 1 0 ⟨⟨0, 0, some 1, false, 1, 0⟩, [], [], none⟩) = some s') ∧
      s'.core.nn < P.nnMax ∧ s'.core.stop = true ∧ (∃ q, s'.core.res = some q ∧ q < P.tol) ∧ P.norm s'.core.y = some r ∧ P.tol ≤ r := by
  obtain ⟨s', hl, ⟨n, hr, r1, r2, r3, r4, r5⟩, -⟩ := C109_run (P := toy fun n => if n = 3 then -16 else 0)
    (start 1 0 ⟨⟨0, 0, some 1, false, 1, 0⟩, [], [], none⟩) rfl le_rfl
  have it : ∀ k : ℕ, (toy fun n => if n = 3 then -16 else 0).mol^[k] (0 : ℤ) = k := by
    intro k
    induction k with
    | zero => rfl
    | succ k ih => rw [Function.iterate_succ_apply', ih]; simp [toy]
  have hd : ∀ k : ℕ, Done (toy fun n => if n = 3 then -16 else 0) 0 0 k ↔ 10 ≤ k ∨ k = 4 ∨ 100 ≤ k := by
    intro k
    unfold Done
    rw [it]
    have e1 : (toy fun n => if n = 3 then -16 else 0).nnMax ≤ 0 + (k : ℤ) ↔ 10 ≤ k := by
      show (10 : ℤ) ≤ _ ↔ _; omega
    have e2 : (∃ r, (toy fun n => if n = 3 then -16 else 0).norm ((k - 1 : ℕ) : ℤ) = some r ∧
        r < (toy fun n => if n = 3 then -16 else 0).tol) ↔ k = 4 := by
      show (∃ r, some (if ((k - 1 : ℕ) : ℤ) = 3 then (-16 : ℝ) else 0) = some r ∧ r < -15) ↔ _
      by_cases hk : k = 4
      · subst hk; simp; norm_num
      · rw [if_neg (by omega)]
        simp [hk]
    have e3 : (toy fun n => if n = 3 then -16 else 0).tFinal ≤ (((0 : ℤ) : ℝ) + k) * (toy fun n => if n = 3 then -16 else 0).dt ↔ 100 ≤ k := by
      show (100 : ℝ) ≤ (((0 : ℤ) : ℝ) + k) * 1 ↔ _
      rw [Int.cast_zero, zero_add, mul_one]
      exact_mod_cast Iff.rfl
    rw [e1, e2, e3]
  have hn0 : n ≠ 0 := fun h => by
    have := r2.1 h
    simp only [toy, start] at this
    norm_num at this
  have hn : n = 4 := by
    have a := (hd n).1 (r3 hn0)
    by_contra hne
    have hgt : 4 < n := by omega
    exact r4 4 (by norm_num) hgt ((hd 4).2 (.inr (.inl rfl)))
  subst hn
  refine ⟨_, s', 0, ⟨_, hl _ (Nat.lt_succ_self _)⟩, ?_, ?_, ⟨-16, ?_, ?_⟩, ?_, ?_⟩
  · rw [hr.nn]; simp [toy, start]
  · rw [r5]
    refine ⟨by norm_num, .inr ⟨-16, ?_, ?_⟩⟩
    · show (toy _).norm ((toy _).mol^[3] (0 : ℤ)) = _
      rw [it]; simp [toy]
    · simp [toy]; norm_num
  · rw [hr.res, if_neg (by norm_num)]
    show (toy _).norm ((toy _).mol^[3] (0 : ℤ)) = _
    rw [it]; simp [toy]
  · simp [toy]; norm_num
  · rw [hr.y]
    show (toy _).norm ((toy _).mol^[4] (0 : ℤ)) = _
    rw [it]; simp [toy]
  · simp [toy]

/-- The theorem about restarts applies: this run is killed after the checkpoint of its first pass. -/
example : Killed (toy fun _ => 0) (start 1 0 ⟨⟨0, 0, some 1, false, 1, 0⟩, [], [], none⟩)
    (writeCheckpoint (toy fun _ => 0) (diagnostics (toy fun _ => 0) (start 1 0 ⟨⟨0, 0, some 1, false, 1, 0⟩, [], [], none⟩))) :=
  .mid .refl (by simp [toy, start])

end Verif.Elliptic
