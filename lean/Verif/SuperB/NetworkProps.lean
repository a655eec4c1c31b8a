import Verif.SuperB.Network
import Verif.SuperB.HaloProps
import Mathlib.Logic.Relation
import Mathlib.Algebra.BigOperators.Group.Finset.Basic
import Mathlib.Algebra.Order.BigOperators.Group.Finset
import Mathlib.Data.Fintype.Basic
import Mathlib.Data.Fintype.Pi
import Mathlib.Data.Fintype.Prod
import Mathlib.Order.WellFounded
import Mathlib.Data.Fin.VecNotation
import Mathlib.Data.Prod.Lex

/-!
# C58: the result of the distributed time stepping does not depend on the schedule
-/
namespace Verif.SuperB

variable {C Ty D M : Type} [DecidableEq C]

/-! ## Specification: all chares in lockstep -/

/-- What the message of the neighbour on side `s` does to a chare, when the chares hold `X`. -/
def Net.half (N : Net C Ty D M) (dir : Fin 3) (ty : Ty) (s : Side) (X : C → D) (c : C) (x : D) : D :=
  match N.nbr c dir s with
  | some c' => N.unpack dir s (N.pack dir s.flip ty (X c')) x
  | none => x

/-- One step of the program on all chares at once. -/
def Net.sync1 (N : Net C Ty D M) (X : C → D) : Instr C Ty D → C → D
  | .comp f => fun c => f c (X c)
  | .exch dir ty => fun c => N.half dir ty .low X c (N.half dir ty .high X c (X c))

/-- The whole program on all chares at once. -/
def Net.sync (N : Net C Ty D M) (prog : List (Instr C Ty D)) (X : C → D) : C → D := prog.foldl N.sync1 X

/-- `c` is above `c'` iff `c'` is below `c`. -/
def Net.Symm (N : Net C Ty D M) : Prop := ∀ c c' dir s, N.nbr c dir s = some c' ↔ N.nbr c' dir s.flip = some c

/-- All chares are at the end of the program. -/
def St.Done (st : St C D M) (prog : List (Instr C Ty D)) : Prop := ∀ c, st.pc c = prog.length

/-! ## Messages of a channel -/

theorem Side.flip_flip (s : Side) : s.flip.flip = s := by cases s <;> rfl

/-- Lockstep data before step `k`. -/
def Net.hist (N : Net C Ty D M) (prog : List (Instr C Ty D)) (D0 : C → D) (k : Nat) : C → D :=
  N.sync (prog.take k) D0

/-- The message chare `c` sends to side `s` along `dir` in step `k`. -/
def Net.msg (N : Net C Ty D M) (prog : List (Instr C Ty D)) (D0 : C → D) (c : C) (dir : Fin 3) (s : Side)
    (k : Nat) : Option M :=
  match prog[k]? with
  | some (.exch d ty) => if d = dir then some (N.pack dir s ty (N.hist prog D0 k c)) else none
  | _ => none

/-- The messages of the first `n` steps. -/
def Net.msgs (N : Net C Ty D M) (prog : List (Instr C Ty D)) (D0 : C → D) (c : C) (dir : Fin 3) (s : Side)
    (n : Nat) : List M := (List.range n).filterMap (N.msg prog D0 c dir s)

theorem hist_succ (N : Net C Ty D M) (prog : List (Instr C Ty D)) (D0 : C → D) {k : Nat} {i : Instr C Ty D}
    (h : prog[k]? = some i) : N.hist prog D0 (k + 1) = N.sync1 (N.hist prog D0 k) i := by
  unfold Net.hist Net.sync
  rw [List.take_add_one, h]
  simp [List.foldl_append]

theorem msgs_succ (N : Net C Ty D M) (prog : List (Instr C Ty D)) (D0 : C → D) (c : C) (dir : Fin 3) (s : Side)
    (n : Nat) : N.msgs prog D0 c dir s (n + 1) = N.msgs prog D0 c dir s n ++ (N.msg prog D0 c dir s n).toList := by
  unfold Net.msgs
  rw [List.range_succ, List.filterMap_append]
  rcases h : N.msg prog D0 c dir s n with _ | m <;> simp [h]

theorem msgs_mono (N : Net C Ty D M) (prog : List (Instr C Ty D)) (D0 : C → D) (c : C) (dir : Fin 3) (s : Side)
    {a b : Nat} (h : a ≤ b) : ∃ l, N.msgs prog D0 c dir s b = N.msgs prog D0 c dir s a ++ l := by
  obtain ⟨k, rfl⟩ := Nat.exists_eq_add_of_le h
  induction k with
  | zero => exact ⟨[], by simp⟩
  | succ k ih =>
    obtain ⟨l, hl⟩ := ih (by omega)
    refine ⟨l ++ (N.msg prog D0 c dir s (a + k)).toList, ?_⟩
    rw [← Nat.add_assoc, msgs_succ, hl, List.append_assoc]

/-- Number of steps whose sends the chare has done. -/
def St.sent (st : St C D M) (c : C) : Nat := if st.stage c = .start then st.pc c else st.pc c + 1

/-- Number of steps whose message from side `s` the chare has processed. -/
def St.got (st : St C D M) (c : C) (s : Side) : Nat :=
  if s = .high ∧ st.stage c = .wait .low then st.pc c + 1 else st.pc c

/-! ## Invariant -/

/-- Data of a chare in the middle of step `pc`. -/
def Net.expect (N : Net C Ty D M) (prog : List (Instr C Ty D)) (D0 : C → D) (st : St C D M) (c : C) : Prop :=
  match st.stage c with
  | .start => st.data c = N.hist prog D0 (st.pc c) c
  | .wait .high => (∃ dir ty, prog[st.pc c]? = some (.exch dir ty)) ∧ st.data c = N.hist prog D0 (st.pc c) c
  | .wait .low => ∃ dir ty, prog[st.pc c]? = some (.exch dir ty) ∧
      st.data c = N.half dir ty .high (N.hist prog D0 (st.pc c)) c (N.hist prog D0 (st.pc c) c)

structure Inv (N : Net C Ty D M) (prog : List (Instr C Ty D)) (D0 : C → D) (st : St C D M) : Prop where
  pcle : ∀ c, st.pc c ≤ prog.length
  data : ∀ c, N.expect prog D0 st c
  chan : ∀ c dir s c', N.nbr c dir s = some c' →
    N.msgs prog D0 c' dir s.flip (st.sent c') =
      N.msgs prog D0 c' dir s.flip (st.got c s) ++ st.inbox c dir s ++ st.flight c dir s

theorem inv_init (N : Net C Ty D M) (prog : List (Instr C Ty D)) (D0 : C → D) :
    Inv N prog D0 (St.init D0) := by
  constructor
  · intro c; exact Nat.zero_le _
  · intro c; rfl
  · intro c dir s c' h
    have : (St.init D0 : St C D M).got c s = 0 := by
      unfold St.got St.init
      split <;> simp_all
    rw [this]
    simp [St.init, St.sent, Net.msgs]

/-- No message in a step that is not an exchange along the direction. -/
theorem msgs_skip (N : Net C Ty D M) (prog : List (Instr C Ty D)) (D0 : C → D) (c : C) (dir : Fin 3) (s : Side)
    (n : Nat) (h : ∀ ty, prog[n]? ≠ some (.exch dir ty)) :
    N.msgs prog D0 c dir s (n + 1) = N.msgs prog D0 c dir s n := by
  rw [msgs_succ]
  have : N.msg prog D0 c dir s n = none := by
    unfold Net.msg
    split
    · rename_i d ty e
      rw [if_neg]
      rintro rfl
      exact h ty e
    · rfl
  rw [this]
  simp

theorem msgs_exch (N : Net C Ty D M) (prog : List (Instr C Ty D)) (D0 : C → D) (c : C) (dir : Fin 3) (s : Side)
    (n : Nat) (ty : Ty) (h : prog[n]? = some (.exch dir ty)) :
    N.msgs prog D0 c dir s (n + 1) =
      N.msgs prog D0 c dir s n ++ [N.pack dir s ty (N.hist prog D0 n c)] := by
  rw [msgs_succ]
  have : N.msg prog D0 c dir s n = some (N.pack dir s ty (N.hist prog D0 n c)) := by
    unfold Net.msg
    rw [h]
    simp
  rw [this]
  rfl

/-- The message at the head of the inbox is the one of the step the chare is at. -/
theorem head_msg {N : Net C Ty D M} {prog : List (Instr C Ty D)} {D0 : C → D} {st : St C D M}
    (hI : Inv N prog D0 st) {c c' : C} {dir : Fin 3} {s : Side} {ty : Ty} {m : M} {rest : List M}
    (hi : prog[st.pc c]? = some (.exch dir ty)) (hg : st.got c s = st.pc c) (hn : N.nbr c dir s = some c')
    (hq : st.inbox c dir s = m :: rest) : m = N.pack dir s.flip ty (N.hist prog D0 (st.pc c) c') := by
  have h := hI.chan c dir s c' hn
  rw [hg, hq] at h
  have hlt : st.pc c + 1 ≤ st.sent c' := by
    by_contra hle
    obtain ⟨l, hl⟩ := msgs_mono N prog D0 c' dir s.flip (show st.sent c' ≤ st.pc c by omega)
    have e := congrArg List.length h
    rw [hl] at e
    simp at e
  obtain ⟨l, hl⟩ := msgs_mono N prog D0 c' dir s.flip hlt
  rw [hl, msgs_exch N prog D0 c' dir s.flip _ ty hi] at h
  simp only [List.append_assoc, List.cons_append, List.nil_append] at h
  have := List.append_cancel_left h
  exact (List.cons.inj this).1.symm

/-- Effect of passing a `when`. -/
theorem inv_advance {N : Net C Ty D M} {prog : List (Instr C Ty D)} {D0 : C → D} {st : St C D M}
    (hI : Inv N prog D0 st) {c : C} {dir : Fin 3} {s : Side} {ty : Ty}
    (hi : prog[st.pc c]? = some (.exch dir ty)) (hs : st.stage c = .wait s) (x : D)
    (hx : x = N.half dir ty s (N.hist prog D0 (st.pc c)) c (st.data c))
    (box : C → Fin 3 → Side → List M)
    (hbox : ∀ c₁ d₁ s₁, ¬ (c₁ = c ∧ d₁ = dir ∧ s₁ = s) → box c₁ d₁ s₁ = st.inbox c₁ d₁ s₁)
    (hpop : ∀ c', N.nbr c dir s = some c' →
      N.pack dir s.flip ty (N.hist prog D0 (st.pc c) c') :: box c dir s = st.inbox c dir s) :
    Inv N prog D0 (St.advance { st with data := Function.update st.data c x, inbox := box } c s) := by
  have hlt : st.pc c < prog.length := (List.getElem?_eq_some_iff.1 hi).1
  generalize hst' : St.advance { st with data := Function.update st.data c x, inbox := box } c s = st'
  have hsent : ∀ c', st'.sent c' = st.sent c' := by
    intro c'
    subst hst'
    by_cases e : c' = c
    · subst e
      cases s <;> simp [St.advance, St.sent, hs]
    · cases s <;> simp [St.advance, St.sent, Function.update_of_ne e]
  have hgot : ∀ c' s', st'.got c' s' = if c' = c ∧ s' = s then st.pc c + 1 else st.got c' s' := by
    intro c' s'
    subst hst'
    by_cases e : c' = c
    · subst e
      cases s <;> cases s' <;> simp [St.advance, St.got, hs]
    · rw [if_neg (fun h => e h.1)]
      cases s <;> simp [St.advance, St.got, Function.update_of_ne e]
  have hg : st.got c s = st.pc c := by
    unfold St.got
    rw [hs]
    cases s <;> simp
  have hother : ∀ c', c' ≠ c → N.expect prog D0 st' c' := by
    intro c' e
    subst hst'
    have := hI.data c'
    cases s <;> simpa [Net.expect, St.advance, Function.update_of_ne e] using this
  have hflight : st'.flight = st.flight := by subst hst'; cases s <;> rfl
  have hinbox : st'.inbox = box := by subst hst'; cases s <;> rfl
  constructor
  · intro c'
    subst hst'
    by_cases e : c' = c
    · subst e
      cases s
      · simp [St.advance]; omega
      · exact hI.pcle _
    · have := hI.pcle c'
      cases s
      · simpa [St.advance, Function.update_of_ne e] using this
      · exact this
  · intro c'
    by_cases e : c' = c
    · subst e
      have hd := hI.data c'
      subst hst'
      cases s
      · unfold Net.expect at hd
        rw [hs] at hd
        obtain ⟨dir', ty', hi', hd⟩ := hd
        rw [hi] at hi'
        cases hi'
        unfold Net.expect
        simp only [St.advance, Function.update_self]
        rw [hist_succ N prog D0 hi, hx, hd]
        rfl
      · unfold Net.expect at hd
        rw [hs] at hd
        obtain ⟨-, hd⟩ := hd
        unfold Net.expect
        simp only [St.advance, Function.update_self]
        exact ⟨dir, ty, hi, by rw [hx, hd]⟩
    · exact hother c' e
  · intro c₁ d₁ s₁ c' hn
    have h := hI.chan c₁ d₁ s₁ c' hn
    rw [hsent, hgot, hflight, hinbox, h]
    by_cases e : c₁ = c ∧ s₁ = s
    · obtain ⟨rfl, rfl⟩ := e
      rw [if_pos ⟨rfl, rfl⟩, hg]
      by_cases ed : d₁ = dir
      · subst ed
        rw [msgs_exch N prog D0 c' d₁ s₁.flip _ ty hi, ← hpop c' hn]
        simp
      · rw [msgs_skip N prog D0 c' d₁ s₁.flip _ (fun ty' h' => ?_), hbox _ _ _ (fun h' => ed h'.2.1)]
        rw [hi] at h'
        cases h'
        exact ed rfl
    · rw [if_neg e, hbox _ _ _ (fun h' => e ⟨h'.1, h'.2.2⟩)]

theorem inv_step {N : Net C Ty D M} (hN : N.Symm) {prog : List (Instr C Ty D)} {D0 : C → D} {st st' : St C D M}
    (hI : Inv N prog D0 st) (h : Step N True prog st st') : Inv N prog D0 st' := by
  cases h with
  | comp c f hi hs =>
    have hlt : st.pc c < prog.length := (List.getElem?_eq_some_iff.1 hi).1
    have hno : ∀ (d : Fin 3) (ty : Ty), prog[st.pc c]? ≠ some (.exch d ty) := by
      intro d ty h'
      rw [hi] at h'
      cases h'
    constructor
    · intro c'
      by_cases e : c' = c
      · subst e; simp; omega
      · simpa [Function.update_of_ne e] using hI.pcle c'
    · intro c'
      by_cases e : c' = c
      · subst e
        have hd := hI.data c'
        unfold Net.expect at hd ⊢
        rw [hs] at hd
        simp only [hs, Function.update_self]
        rw [hist_succ N prog D0 hi, hd]
        rfl
      · simpa [Net.expect, Function.update_of_ne e] using hI.data c'
    · intro c₁ d₁ s₁ c' hn
      have h := hI.chan c₁ d₁ s₁ c' hn
      have hsent : N.msgs prog D0 c' d₁ s₁.flip (St.sent { st with
          pc := Function.update st.pc c (st.pc c + 1)
          data := Function.update st.data c (f c (st.data c)) } c') =
          N.msgs prog D0 c' d₁ s₁.flip (st.sent c') := by
        by_cases e : c' = c
        · subst e
          simp only [St.sent, hs, if_true, Function.update_self]
          exact msgs_skip _ _ _ _ _ _ _ (hno d₁)
        · simp [St.sent, Function.update_of_ne e]
      have hgot : N.msgs prog D0 c' d₁ s₁.flip (St.got { st with
          pc := Function.update st.pc c (st.pc c + 1)
          data := Function.update st.data c (f c (st.data c)) } c₁ s₁) =
          N.msgs prog D0 c' d₁ s₁.flip (st.got c₁ s₁) := by
        by_cases e : c₁ = c
        · subst e
          simp only [St.got, hs, Function.update_self, reduceCtorEq, and_false, if_false]
          exact msgs_skip _ _ _ _ _ _ _ (hno d₁)
        · simp [St.got, Function.update_of_ne e]
      rw [hsent, hgot, h]
  | send c dir ty hi hs =>
    constructor
    · exact hI.pcle
    · intro c'
      by_cases e : c' = c
      · subst e
        have hd := hI.data c'
        unfold Net.expect at hd ⊢
        rw [hs] at hd
        simp only [Function.update_self]
        exact ⟨⟨dir, ty, hi⟩, hd⟩
      · simpa [Net.expect, Function.update_of_ne e] using hI.data c'
    · intro c₁ d₁ s₁ c' hn
      have h := hI.chan c₁ d₁ s₁ c' hn
      have hd : st.data c = N.hist prog D0 (st.pc c) c := by
        have hd := hI.data c
        unfold Net.expect at hd
        rwa [hs] at hd
      have hgot : St.got { st with
          stage := Function.update st.stage c (.wait .high)
          flight := fun c' d s =>
            if d = dir ∧ N.nbr c dir s.flip = some c' then
              st.flight c' d s ++ [N.pack dir s.flip ty (st.data c)]
            else st.flight c' d s } c₁ s₁ = st.got c₁ s₁ := by
        by_cases e : c₁ = c
        · subst e; simp [St.got, hs]
        · simp [St.got, Function.update_of_ne e]
      rw [hgot]
      by_cases e : c' = c
      · subst e
        have hsent : St.sent { st with
          stage := Function.update st.stage c' (.wait .high)
          flight := fun c'' d s =>
            if d = dir ∧ N.nbr c' dir s.flip = some c'' then
              st.flight c'' d s ++ [N.pack dir s.flip ty (st.data c')]
            else st.flight c'' d s } c' = st.pc c' + 1 := by simp [St.sent]
        have hsent0 : st.sent c' = st.pc c' := by simp [St.sent, hs]
        rw [hsent]
        rw [hsent0] at h
        by_cases ed : d₁ = dir
        · subst ed
          rw [msgs_exch N prog D0 c' d₁ s₁.flip _ ty hi, h]
          simp only [true_and]
          rw [if_pos ((hN c₁ c' d₁ s₁).1 hn), hd]
          simp
        · rw [msgs_skip N prog D0 c' d₁ s₁.flip _ (fun ty' h' => ?_), h]
          · simp only
            rw [if_neg (fun h' => ed h'.1)]
          · rw [hi] at h'
            cases h'
            exact ed rfl
      · have hsent : St.sent { st with
          stage := Function.update st.stage c (.wait .high)
          flight := fun c'' d s =>
            if d = dir ∧ N.nbr c dir s.flip = some c'' then
              st.flight c'' d s ++ [N.pack dir s.flip ty (st.data c)]
            else st.flight c'' d s } c' = st.sent c' := by simp [St.sent, Function.update_of_ne e]
        rw [hsent, h]
        simp only
        rw [if_neg]
        rintro ⟨rfl, h'⟩
        have h3 := (hN c c₁ d₁ s₁.flip).1 h'
        rw [Side.flip_flip, hn] at h3
        exact e (Option.some.inj h3)
  | deliver c dir s l1 l2 m hq hf =>
    have hl1 : l1 = [] := hf trivial
    subst hl1
    refine ⟨hI.pcle, hI.data, ?_⟩
    intro c₁ d₁ s₁ c' hn
    have h := hI.chan c₁ d₁ s₁ c' hn
    show N.msgs prog D0 c' d₁ s₁.flip (st.sent c') = N.msgs prog D0 c' d₁ s₁.flip (st.got c₁ s₁) ++ _ ++ _
    rw [h]
    simp only
    by_cases e : c₁ = c ∧ d₁ = dir ∧ s₁ = s
    · rw [if_pos e, if_pos e]
      obtain ⟨rfl, rfl, rfl⟩ := e
      rw [hq]
      simp
    · rw [if_neg e, if_neg e]
  | recv c dir ty s m rest hi hs hn hq =>
    obtain ⟨c', hn⟩ := Option.isSome_iff_exists.1 hn
    have hg : st.got c s = st.pc c := by
      unfold St.got
      rw [hs]
      cases s <;> simp
    have hm := head_msg hI hi hg hn hq
    refine inv_advance hI hi hs _ ?_ _ ?_ ?_
    · unfold Net.half
      rw [hn, hm]
    · intro c₁ d₁ s₁ hne
      exact if_neg hne
    · intro c'' hn'
      rw [hn] at hn'
      cases hn'
      simp only [and_self, if_true]
      rw [hq, hm]
  | skip c dir ty s hi hs hn =>
    have := inv_advance hI hi hs (st.data c) (by unfold Net.half; rw [hn]) st.inbox (fun _ _ _ _ => rfl)
      (fun c' h' => by rw [hn] at h'; cases h')
    have e : ({ st with data := Function.update st.data c (st.data c), inbox := st.inbox } : St C D M) = st := by
      rw [Function.update_eq_self]
    rw [e] at this
    exact this

theorem inv_reach {N : Net C Ty D M} (hN : N.Symm) {prog : List (Instr C Ty D)} {D0 : C → D} {st : St C D M}
    (h : Relation.ReflTransGen (Step N True prog) (St.init D0) st) : Inv N prog D0 st := by
  induction h with
  | refl => exact inv_init N prog D0
  | tail _ h ih => exact inv_step hN ih h

/-! ## The property -/

/-- **C58** (result): with channels that keep the order of messages, a chare that has reached the end of the
program holds the data of the lockstep execution, whatever the schedule. -/
theorem C58_result_partial (N : Net C Ty D M) (hN : N.Symm) (prog : List (Instr C Ty D)) (D0 : C → D) (st : St C D M)
    (h : Relation.ReflTransGen (Step N True prog) (St.init D0) st) (c : C) (hc : st.pc c = prog.length) :
    st.data c = N.sync prog D0 c := by
  have hd := (inv_reach hN h).data c
  have hnone : prog[st.pc c]? = none := by rw [hc]; simp
  unfold Net.expect at hd
  split at hd
  · rw [hd, hc]
    unfold Net.hist
    rw [List.take_length]
  · obtain ⟨⟨d, ty, h'⟩, -⟩ := hd
    rw [hnone] at h'
    cases h'
  · obtain ⟨d, ty, h', -⟩ := hd
    rw [hnone] at h'
    cases h'

/-- **C58** (no deadlock): unless all chares are at the end, some step is possible. -/
theorem C58_progress (N : Net C Ty D M) (hN : N.Symm) (prog : List (Instr C Ty D)) (D0 : C → D) (st : St C D M)
    (h : Relation.ReflTransGen (Step N True prog) (St.init D0) st) (hnd : ¬ st.Done prog) :
    ∃ st', Step N True prog st st' := by
  have hI := inv_reach hN h
  let rank : C → Nat := fun c => 3 * st.pc c +
    match st.stage c with | .start => 0 | .wait .high => 1 | .wait .low => 2
  -- a chare that is behind all others
  have hne : ∃ c : C, st.pc c ≠ prog.length := by
    unfold St.Done at hnd
    push_neg at hnd
    exact hnd
  obtain ⟨c0, hc0⟩ := hne
  obtain ⟨c, hmin⟩ : ∃ c, ∀ c', rank c ≤ rank c' :=
    let ⟨c, _, h⟩ := WellFounded.has_min (measure rank).wf Set.univ ⟨c0, trivial⟩
    ⟨c, fun c' => Nat.le_of_not_lt (h c' trivial)⟩
  have hrank : ∀ c, 3 * st.pc c ≤ rank c ∧ rank c ≤ 3 * st.pc c + 2 := by
    intro c
    simp only [rank]
    split <;> omega
  have hlt : st.pc c < prog.length := by
    have h1 := hmin c0
    have h2 := hrank c
    have h3 := hrank c0
    have := hI.pcle c0
    omega
  obtain ⟨i, hi⟩ : ∃ i, prog[st.pc c]? = some i := ⟨prog[st.pc c], by simp [hlt]⟩
  have hd := hI.data c
  -- at a `when`
  have wait : ∀ s, st.stage c = .wait s → ∀ dir ty, prog[st.pc c]? = some (.exch dir ty) →
      ∃ st', Step N True prog st st' := by
    intro s hs dir ty hi
    rcases hn : N.nbr c dir s with _ | c'
    · exact ⟨_, Step.skip st c dir ty s hi hs hn⟩
    · have hg : st.got c s = st.pc c := by
        unfold St.got
        rw [hs]
        cases s <;> simp
      have hsent : st.pc c + 1 ≤ st.sent c' := by
        have h1 := hmin c'
        have hr : 3 * st.pc c + 1 ≤ rank c := by
          simp only [rank, hs]
          cases s <;> simp
        have h3 := hrank c'
        unfold St.sent
        split
        · rename_i hst
          have : rank c' = 3 * st.pc c' := by simp [rank, hst]
          omega
        · omega
      have hch := hI.chan c dir s c' hn
      obtain ⟨l, hl⟩ := msgs_mono N prog D0 c' dir s.flip hsent
      rw [hl, msgs_exch N prog D0 c' dir s.flip _ ty hi, hg] at hch
      simp only [List.append_assoc] at hch
      have hch := List.append_cancel_left hch
      rcases hib : st.inbox c dir s with _ | ⟨m, rest⟩
      · rcases hfl : st.flight c dir s with _ | ⟨m, rest⟩
        · rw [hib, hfl] at hch
          cases hch
        · exact ⟨_, Step.deliver st c dir s [] rest m (by simpa using hfl) (fun _ => rfl)⟩
      · exact ⟨_, Step.recv st c dir ty s m rest hi hs (by simp [hn]) hib⟩
  rcases hs : st.stage c with _ | s
  · cases i with
    | comp f => exact ⟨_, Step.comp st c f hi hs⟩
    | exch dir ty => exact ⟨_, Step.send st c dir ty hi hs⟩
  · unfold Net.expect at hd
    cases s
    · rw [hs] at hd
      obtain ⟨dir, ty, hi', -⟩ := hd
      exact wait _ hs dir ty hi'
    · rw [hs] at hd
      obtain ⟨⟨dir, ty, hi'⟩, -⟩ := hd
      exact wait _ hs dir ty hi'

/-- Steps left to a chare. -/
def St.left (prog : List (Instr C Ty D)) (st : St C D M) (c : C) : Nat :=
  3 * (prog.length - st.pc c) - match st.stage c with | .start => 0 | .wait .high => 1 | .wait .low => 2

theorem left_lt [Fintype C] {prog : List (Instr C Ty D)} {st st' : St C D M} (c : C)
    (h : ∀ c', c' ≠ c → st'.left prog c' = st.left prog c') (hc : st'.left prog c < st.left prog c) :
    ∑ c, st'.left prog c < ∑ c, st.left prog c := by
  apply Finset.sum_lt_sum
  · intro c' _
    by_cases e : c' = c
    · rw [e]; exact hc.le
    · rw [h c' e]
  · exact ⟨c, Finset.mem_univ _, hc⟩

theorem left_advance (prog : List (Instr C Ty D)) (st : St C D M) (c : C) (s : Side)
    (hs : st.stage c = .wait s) (hlt : st.pc c < prog.length) :
    (∀ c', c' ≠ c → (st.advance c s).left prog c' = st.left prog c') ∧
      (st.advance c s).left prog c < st.left prog c := by
  constructor
  · intro c' e
    cases s <;> simp [St.left, St.advance, Function.update_of_ne e]
  · cases s
    · simp [St.left, St.advance, hs]
      omega
    · simp [St.left, St.advance, hs]
      omega

theorem left_congr (prog : List (Instr C Ty D)) {st st' : St C D M} (h1 : st'.pc = st.pc)
    (h2 : st'.stage = st.stage) : st'.left prog = st.left prog := by
  funext c
  unfold St.left
  rw [h1, h2]

/-- **C58** (end): there is no infinite run. -/
theorem C58_terminates [Fintype C] (N : Net C Ty D M) (prog : List (Instr C Ty D)) (fifo : Prop) :
    WellFounded fun st' st : St C D M => Step N fifo prog st st' := by
  let key : St C D M → Nat ×ₗ Nat := fun st => toLex (∑ c, st.left prog c,
    ∑ x : C × Fin 3 × Bool, (st.flight x.1 x.2.1 (if x.2.2 then .high else .low)).length)
  refine Subrelation.wf (r := InvImage (· < ·) key) ?_ (InvImage.wf key wellFounded_lt)
  intro st' st h
  show key st' < key st
  have less : ∑ c, st'.left prog c < ∑ c, st.left prog c → key st' < key st := by
    intro h
    exact Prod.Lex.toLex_lt_toLex.2 (Or.inl h)
  cases h with
  | comp c f hi hs =>
    have hlt : st.pc c < prog.length := (List.getElem?_eq_some_iff.1 hi).1
    apply less
    apply left_lt c
    · intro c' e
      simp [St.left, Function.update_of_ne e]
    · simp only [St.left, Function.update_self, hs]
      omega
  | send c dir ty hi hs =>
    have hlt : st.pc c < prog.length := (List.getElem?_eq_some_iff.1 hi).1
    apply less
    apply left_lt c
    · intro c' e
      simp [St.left, Function.update_of_ne e]
    · simp only [St.left, Function.update_self, hs]
      omega
  | deliver c dir s l1 l2 m hq hf =>
    refine Prod.Lex.toLex_lt_toLex.2 (Or.inr ⟨?_, ?_⟩)
    · rfl
    · apply Finset.sum_lt_sum
      · intro x _
        generalize (if x.2.2 = true then Side.high else Side.low) = t
        dsimp only
        by_cases e : x.1 = c ∧ x.2.1 = dir ∧ t = s
        · rw [if_pos e]
          obtain ⟨e1, e2, e3⟩ := e
          rw [e1, e2, e3, hq]
          simp
        · rw [if_neg e]
      · refine ⟨(c, dir, decide (s = .high)), Finset.mem_univ _, ?_⟩
        have : (if decide (s = .high) = true then Side.high else Side.low) = s := by cases s <;> rfl
        simp only [this, and_self, if_true, hq]
        simp
  | recv c dir ty s m rest hi hs hn hq =>
    have hlt : st.pc c < prog.length := (List.getElem?_eq_some_iff.1 hi).1
    apply less
    have e := left_congr prog (st := st) (st' := { st with
        data := Function.update st.data c (N.unpack dir s m (st.data c))
        inbox := fun c' d s' => if c' = c ∧ d = dir ∧ s' = s then rest else st.inbox c' d s' }) rfl rfl
    have := left_advance prog { st with
        data := Function.update st.data c (N.unpack dir s m (st.data c))
        inbox := fun c' d s' => if c' = c ∧ d = dir ∧ s' = s then rest else st.inbox c' d s' } c s hs hlt
    rw [e] at this
    exact left_lt c this.1 this.2
  | skip c dir ty s hi hs hn =>
    have hlt : st.pc c < prog.length := (List.getElem?_eq_some_iff.1 hi).1
    have := left_advance prog st c s hs hlt
    exact less (left_lt c this.1 this.2)

/-- **C58** (whole): every run of finitely many chares can be continued to an end, and a run that cannot be
continued has brought all chares to the end of the program with the data of the lockstep execution and has
consumed all messages. -/
theorem C58_schedule [Fintype C] (N : Net C Ty D M) (hN : N.Symm) (prog : List (Instr C Ty D)) (D0 : C → D)
    (st : St C D M) (h : Relation.ReflTransGen (Step N True prog) (St.init D0) st) :
    (∃ st', Relation.ReflTransGen (Step N True prog) st st' ∧ ∀ st'', ¬ Step N True prog st' st'') ∧
    ((∀ st', ¬ Step N True prog st st') → (∀ c, st.pc c = prog.length ∧ st.data c = N.sync prog D0 c) ∧
      ∀ c dir s, (N.nbr c dir s).isSome → st.inbox c dir s = [] ∧ st.flight c dir s = []) := by
  constructor
  · clear h
    induction st using (C58_terminates N prog True).induction with
    | _ st ih =>
      by_cases hex : ∃ st', Step N True prog st st'
      · obtain ⟨st', hs⟩ := hex
        obtain ⟨s2, h1, h2⟩ := ih st' hs
        exact ⟨s2, Relation.ReflTransGen.head hs h1, h2⟩
      · exact ⟨st, .refl, fun s2 h2 => hex ⟨s2, h2⟩⟩
  · intro hstuck
    have hdone : st.Done prog := by
      by_contra hnd
      obtain ⟨st', hs⟩ := C58_progress N hN prog D0 st h hnd
      exact hstuck st' hs
    refine ⟨fun c => ⟨hdone c, C58_result_partial N hN prog D0 st h c (hdone c)⟩, ?_⟩
    intro c dir s hn
    obtain ⟨c', hn⟩ := Option.isSome_iff_exists.1 hn
    have hI := inv_reach hN h
    have hstart : ∀ c, st.stage c = .start := by
      intro c
      have hd := hI.data c
      have hnone : prog[st.pc c]? = none := by rw [hdone c]; simp
      unfold Net.expect at hd
      split at hd
      · assumption
      · obtain ⟨⟨d, ty, h'⟩, -⟩ := hd
        rw [hnone] at h'
        cases h'
      · obtain ⟨d, ty, h', -⟩ := hd
        rw [hnone] at h'
        cases h'
    have hch := hI.chan c dir s c' hn
    have e1 : st.sent c' = prog.length := by simp [St.sent, hstart, hdone c']
    have e2 : st.got c s = prog.length := by simp [St.got, hstart, hdone c]
    rw [e1, e2, List.append_assoc] at hch
    have := List.append_cancel_left (hch.symm.trans (List.append_nil _).symm)
    exact List.append_eq_nil_iff.1 this

/-! ## The chares of a decomposition -/

theorem nbr_symm (P : Params) (ch ch' : Fin 3 → Nat) (hch : P.IsChare ch) (dir : Fin 3) (s : Side)
    (h : P.nbr ch dir s = some ch') : P.nbr ch' dir s.flip = some ch := by
  have hN := hch dir
  cases s
  · rw [nbr_low] at h
    split at h
    · rename_i hpos
      cases h
      show P.nbr _ dir .high = _
      rw [nbr_high]
      simp only [if_true]
      rw [if_pos (by omega)]
      congr 1
      funext i
      split
      · rename_i e; rw [e]; omega
      · rfl
    · cases h
  · rw [nbr_high] at h
    split at h
    · cases h
      show P.nbr _ dir .low = _
      rw [nbr_low]
      simp only [if_true]
      rw [if_pos (by omega)]
      congr 1
      funext i
      split
      · rename_i e; rw [e]; omega
      · rfl
    · cases h

/-- The chares. -/
abbrev Params.Chare (P : Params) := (i : Fin 3) → Fin (P.d i).Nchare

/-- Position of a chare (`thisIndex`). -/
def Params.pos (P : Params) (c : P.Chare) : Fin 3 → Nat := fun i => (c i).val

theorem pos_isChare (P : Params) (c : P.Chare) : P.IsChare (P.pos c) := fun i => (c i).isLt

/-- The chare at a position. -/
def Params.chareAt (P : Params) (ch : Fin 3 → Nat) (h : P.IsChare ch) : P.Chare := fun i => ⟨ch i, h i⟩

theorem pos_chareAt (P : Params) (ch : Fin 3 → Nat) (h : P.IsChare ch) : P.pos (P.chareAt ch h) = ch := rfl

theorem pos_inj (P : Params) {c c' : P.Chare} (h : P.pos c = P.pos c') : c = c' := by
  funext i
  exact Fin.ext (congrFun h i)

/-- The net with exactly the chares of the decomposition. -/
noncomputable def Params.chares (P : Params) {V Ty : Type} [DecidableEq Ty] (junk : V) (buf : Mem V)
    (sync : Ty → Sync) : Net P.Chare Ty (Ty → Mem V) (Ty × List V) :=
  open Classical in
  { nbr c dir s := (P.nbr (P.pos c) dir s).bind fun c' => if h : P.IsChare c' then some (P.chareAt c' h) else none
    pack := (P.net junk buf sync).pack
    unpack := (P.net junk buf sync).unpack }

theorem chares_nbr (P : Params) {V Ty : Type} [DecidableEq Ty] (junk : V) (buf : Mem V) (sync : Ty → Sync)
    (c : P.Chare) (dir : Fin 3) (s : Side) :
    P.nbr (P.pos c) dir s = ((P.chares junk buf sync).nbr c dir s).map P.pos := by
  unfold Params.chares
  simp only
  rcases h : P.nbr (P.pos c) dir s with _ | c'
  · rfl
  · have := nbr_isChare (pos_isChare P c) h
    simp [this, pos_chareAt]

theorem chares_symm (P : Params) {V Ty : Type} [DecidableEq Ty] (junk : V) (buf : Mem V) (sync : Ty → Sync) :
    (P.chares junk buf sync).Symm := by
  have one : ∀ c c' dir s, (P.chares junk buf sync).nbr c dir s = some c' →
      (P.chares junk buf sync).nbr c' dir s.flip = some c := by
    intro c c' dir s h
    have h1 := chares_nbr P junk buf sync c dir s
    rw [h] at h1
    have h2 := nbr_symm P _ _ (pos_isChare P c) dir s h1
    rw [chares_nbr P junk buf sync] at h2
    obtain ⟨x, hx, e⟩ := Option.map_eq_some_iff.1 h2
    rw [hx, pos_inj P e]
  intro c c' dir s
  refine ⟨one c c' dir s, fun h => ?_⟩
  have := one _ _ _ _ h
  rwa [Side.flip_flip] at this

/-- The lockstep exchange of the net is the exchange of `C57`. -/
theorem half_receive (P : Params) {V Ty : Type} [DecidableEq Ty] (junk : V) (buf : Mem V) (sync : Ty → Sync)
    (dir : Fin 3) (ty : Ty) (X : P.Chare → Ty → Mem V) (Y : (Fin 3 → Nat) → Mem V)
    (h : ∀ c : P.Chare, Y (P.pos c) = X c ty) (s : Side) (c : P.Chare) (x : Ty → Mem V) :
    (P.chares junk buf sync).half dir ty s X c x ty =
      P.receive junk buf dir (sync ty) s Y (P.pos c) (x ty) := by
  unfold Net.half Params.receive
  rcases hn : (P.chares junk buf sync).nbr c dir s with _ | c'
  · rw [chares_nbr P junk buf sync, hn]
    rfl
  · rw [chares_nbr P junk buf sync, hn]
    cases s <;> simp [Params.chares, Params.net, Side.flip, h]

theorem sync1_exchange (P : Params) {V Ty : Type} [DecidableEq Ty] (junk : V) (buf : Mem V) (sync : Ty → Sync)
    (dir : Fin 3) (ty : Ty) (X : P.Chare → Ty → Mem V) (Y : (Fin 3 → Nat) → Mem V)
    (h : ∀ c : P.Chare, Y (P.pos c) = X c ty) (c : P.Chare) :
    P.exchange junk buf dir (sync ty) Y (P.pos c) =
      (P.chares junk buf sync).sync1 X (.exch dir ty) c ty := by
  unfold Params.exchange Net.sync1
  simp only
  rw [half_receive P junk buf sync dir ty X Y h, half_receive P junk buf sync dir ty X Y h, h]

/-- **C58** with **C57**: any run of the exchanges along x, y and z that cannot be continued leaves the values
of the global field on all points of all chares. -/
theorem C58_exchange (P : Params) (hP : P.Ok) {V Ty : Type} [DecidableEq Ty] (junk : V) (buf : Mem V)
    (sync : Ty → Sync) (ty : Ty) (hs : (sync ty).Nodup) (F : Nat → (Fin 3 → Nat) → V)
    (D0 : P.Chare → Ty → Mem V)
    (h0 : ∀ c : P.Chare, ∀ l, P.IsLocal l → (∀ i, l i ∈ (P.d i).locals P.G (c i)) →
      ∀ g ∈ sync ty, P.at (D0 c ty) g l = F g (P.glob (P.pos c) l))
    (st : St P.Chare (Ty → Mem V) (Ty × List V))
    (hrun : Relation.ReflTransGen (Step (P.chares junk buf sync) True [.exch 0 ty, .exch 1 ty, .exch 2 ty])
      (St.init D0) st)
    (hend : ∀ st', ¬ Step (P.chares junk buf sync) True [.exch 0 ty, .exch 1 ty, .exch 2 ty] st st') :
    ∀ c : P.Chare, ∀ l, P.IsLocal l → ∀ g ∈ sync ty, P.at (st.data c ty) g l = F g (P.glob (P.pos c) l) := by
  classical
  intro c l hl g hg
  have hres := ((C58_schedule _ (chares_symm P junk buf sync) _ D0 st hrun).2 hend).1 c
  rw [hres.2]
  let Y0 : (Fin 3 → Nat) → Mem V := fun ch => if h : P.IsChare ch then D0 (P.chareAt ch h) ty else fun _ => junk
  have hY0 : ∀ c : P.Chare, Y0 (P.pos c) = D0 c ty := by
    intro c
    simp only [Y0]
    rw [dif_pos (pos_isChare P c)]
    rfl
  have h1 := sync1_exchange P junk buf sync 0 ty D0 Y0 hY0
  have h2 := sync1_exchange P junk buf sync 1 ty _ _ h1
  have h3 := sync1_exchange P junk buf sync 2 ty _ _ h2
  have e : (P.chares junk buf sync).sync [.exch 0 ty, .exch 1 ty, .exch 2 ty] D0 c ty =
      P.exchange3 junk buf (sync ty) Y0 (P.pos c) := (h3 c).symm
  rw [e]
  refine C57_exchange P hP junk buf (sync ty) hs F Y0 ?_ _ (pos_isChare P c) l hl g hg
  intro ch hch l hl ho g hg
  have := h0 (P.chareAt ch hch) l hl ho g hg
  rw [← hY0] at this
  exact this

/-- Runs that cannot be continued exist, from any data. -/
example (D0 : exP.Chare → Bool → Mem Nat) : ∃ st,
    Relation.ReflTransGen (Step (exP.chares 0 (fun _ => 0) fun b => if b then [4, 1] else [2]) True
      [.exch 0 true, .exch 1 true, .exch 2 true]) (St.init D0) st ∧
    ∀ st', ¬ Step (exP.chares 0 (fun _ => 0) fun b => if b then [4, 1] else [2]) True
      [.exch 0 true, .exch 1 true, .exch 2 true] st st' :=
  (C58_schedule _ (chares_symm _ _ _ _) _ D0 _ .refl).1

/-! ## Without ordered channels -/

/-- Two chares along x, `false` below `true`; the data are the own value and the ghost value. -/
def twoNet : Net Bool Unit (Nat × Nat) Nat where
  nbr c dir s := if dir = 0 then
      match c, s with
      | false, .high => some true
      | true, .low => some false
      | _, _ => none
    else none
  pack _ _ _ d := d.1
  unpack _ _ m d := (d.1, m)

/-- Exchange, computation, exchange. -/
def twoProg : List (Instr Bool Unit (Nat × Nat)) := [.exch 0 (), .comp fun _ d => (d.1 + 1, d.2), .exch 0 ()]

theorem twoNet_symm : twoNet.Symm := by
  intro c c' dir s
  unfold twoNet
  by_cases h : dir = 0
  · simp only [h, if_true]
    cases c <;> cases c' <;> cases s <;> decide
  · simp [h]

/-- In lockstep both ghost values end as the neighbour's value after the computation. -/
example : twoNet.sync twoProg (fun c => if c then (20, 0) else (10, 0)) = fun c => if c then (21, 11) else (11, 21) := by
  funext c
  cases c <;> rfl

/-- **C58** fails without ordered channels: the `when` clauses carry no reference number, so if the two messages
of chare `true` arrive in the other order, chare `false` ends with the ghost value of the first exchange. -/
theorem C58_unordered : ∃ st : St Bool (Nat × Nat) Nat,
    Relation.ReflTransGen (Step twoNet False twoProg) (St.init fun c => if c then (20, 0) else (10, 0)) st ∧
    st.Done twoProg ∧ st.data false = (11, 20) ∧
    twoNet.sync twoProg (fun c => if c then (20, 0) else (10, 0)) false = (11, 21) := by
  refine ⟨?w, ?run, ?fin, ?dat, rfl⟩
  case run =>
    refine .head (Step.send _ false 0 () rfl rfl) ?_
    refine .head (Step.send _ true 0 () rfl rfl) ?_
    refine .head (Step.skip _ true 0 () .high rfl rfl rfl) ?_
    refine .head (Step.deliver _ true 0 .low [] [] 10 rfl (fun _ => rfl)) ?_
    refine .head (Step.recv _ true 0 () .low 10 [] rfl rfl rfl rfl) ?_
    refine .head (Step.comp _ true _ rfl rfl) ?_
    refine .head (Step.send _ true 0 () rfl rfl) ?_
    -- both messages are in flight; the second arrives first
    refine .head (Step.deliver _ false 0 .high [20] [] 21 rfl (fun h => h.elim)) ?_
    refine .head (Step.deliver _ false 0 .high [] [] 20 rfl (fun h => h.elim)) ?_
    refine .head (Step.recv _ false 0 () .high 21 [20] rfl rfl rfl rfl) ?_
    refine .head (Step.skip _ false 0 () .low rfl rfl rfl) ?_
    refine .head (Step.comp _ false _ rfl rfl) ?_
    refine .head (Step.send _ false 0 () rfl rfl) ?_
    refine .head (Step.recv _ false 0 () .high 20 [] rfl rfl rfl rfl) ?_
    refine .head (Step.skip _ false 0 () .low rfl rfl rfl) ?_
    refine .head (Step.skip _ true 0 () .high rfl rfl rfl) ?_
    refine .head (Step.deliver _ true 0 .low [] [] 11 rfl (fun h => h.elim)) ?_
    refine .head (Step.recv _ true 0 () .low 11 [] rfl rfl rfl rfl) ?_
    exact .refl
  case fin =>
    intro c
    cases c <;> rfl
  case dat => rfl

end Verif.SuperB
