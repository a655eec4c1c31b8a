import Verif.SuperB.InnerProps
import Verif.SuperB.InnerRounds
import Mathlib.Data.List.Perm.Basic

/-!
# Inner boundary conditions on a distributed grid (C111)
-/
namespace Verif.SuperB.Inner

/-! ### Specification -/

/-- Every point belongs to one chare, and different points of a chare have different local indices. -/
structure Own.Ok (O : Own) (n : ℕ) : Prop where
  lt : ∀ p < n, O.chare p < O.tot
  inj : ∀ p < n, ∀ q < n, O.chare p = O.chare q → O.loc p = O.loc q → p = q

/-- Inner boundary points: each one listed once, points of the grid, and no partner is itself an inner boundary point. -/
structure PtsOk (n : ℕ) (pts : List Entry) : Prop where
  nodup : (pts.map (·.dst)).Nodup
  lt : ∀ e ∈ pts, e.dst < n ∧ e.src < n
  src : ∀ e ∈ pts, ∀ e' ∈ pts, e.src ≠ e'.dst

/-- One start of the program and one round, from the gridfunctions `y` of the chares to `y'`.  Requests and data arrive in any order. -/
structure Run (O : Own) (pts : List Entry) (types : ℕ → Fin 10) (all sync : List ℕ) (ty : ℕ) (y y' : ℕ → GFs) where
  bc : ℕ → Bc
  set_up : ∀ a < O.tot, setUp O pts a = some (bc a)
  asked : ℕ → List (ℕ × (ℕ × List ℕ))
  ask : ∀ a < O.tot, requests a (bc a) = some (asked a)
  arrived : ℕ → List (ℕ × List ℕ)
  arrive : ∀ b < O.tot, (arrived b).Perm (mail ((List.range O.tot).flatMap asked) b)
  tosend : ℕ → ℕ → ℕ → Option ℕ
  process : ∀ b < O.tot, processRequests (bc b) (arrived b) = some (tosend b)
  sendbuf : ℕ → ℕ → ℕ → ℝ
  sent : ℕ → List (ℕ × Msg)
  send : ∀ b < O.tot, sendData O b (bc b) (tosend b) ty sync (applyLocal all types (bc b).locals (y b)) (sendbuf b) = some (sent b)
  got : ℕ → List Msg
  get : ∀ a < O.tot, (got a).Perm (mail ((List.range O.tot).flatMap sent) a)
  recvbuf : ℕ → ℕ → ℕ → ℝ
  finish : ∀ a < O.tot, finishRound (bc a) types sync (recvbuf a) (got a) (applyLocal all types (bc a).locals (y a)) = some (y' a)

section
variable {O : Own} {n : ℕ} {pts : List Entry}

/-- The entry of a point is unique. -/
theorem entry_unique (hO : O.Ok n) (hp : PtsOk n pts) {e e' : Entry} (he : e ∈ pts) (he' : e' ∈ pts)
    (hc : O.chare e.dst = O.chare e'.dst) (hl : O.loc e.dst = O.loc e'.dst) : e = e' :=
  List.inj_on_of_nodup_map hp.nodup he he' (hO.inj _ (hp.lt e he).1 _ (hp.lt e' he').1 hc hl)

theorem mem_localEntries {a : ℕ} {f : Entry} : f ∈ localEntries O a pts ↔
    ∃ e ∈ pts, O.chare e.dst = a ∧ O.chare e.src = a ∧ f = ⟨O.loc e.dst, O.loc e.src, e.parity⟩ := by
  unfold localEntries
  rw [List.mem_filterMap]
  constructor
  · rintro ⟨e, he, h⟩
    by_cases h1 : O.chare e.dst = a
    · by_cases h2 : O.chare e.src = a
      · simp only [h1, h2, if_true, Option.some.injEq] at h
        exact ⟨e, he, h1, h2, h.symm⟩
      · simp [h1, h2] at h
    · simp [h1] at h
  · rintro ⟨e, he, h1, h2, rfl⟩
    exact ⟨e, he, by simp [h1, h2]⟩

theorem localEntries_nodup (hO : O.Ok n) (a : ℕ) : ∀ (l : List Entry), PtsOk n l → ((localEntries O a l).map (·.dst)).Nodup
  | [], _ => by simp [localEntries]
  | e :: l, hp => by
    have hp' : PtsOk n l := ⟨by have := hp.nodup; rw [List.map_cons, List.nodup_cons] at this; exact this.2,
      fun e he => hp.lt e (by simp [he]), fun e he e' he' => hp.src e (by simp [he]) e' (by simp [he'])⟩
    have ih := localEntries_nodup hO a l hp'
    by_cases h1 : O.chare e.dst = a
    · by_cases h2 : O.chare e.src = a
      · have : localEntries O a (e :: l) = ⟨O.loc e.dst, O.loc e.src, e.parity⟩ :: localEntries O a l := by
          simp [localEntries, h1, h2]
        rw [this, List.map_cons, List.nodup_cons]
        refine ⟨fun hm => ?_, ih⟩
        obtain ⟨f, hf, hd⟩ := List.mem_map.1 hm
        obtain ⟨e', he', h3, _, rfl⟩ := mem_localEntries.1 hf
        have := entry_unique hO hp (e := e') (e' := e) (by simp [he']) (by simp) (h3.trans h1.symm) hd
        subst this
        have hn := hp.nodup
        rw [List.map_cons, List.nodup_cons] at hn
        exact hn.1 (List.mem_map.2 ⟨_, he', rfl⟩)
      · have : localEntries O a (e :: l) = localEntries O a l := by simp [localEntries, h1, h2]
        rw [this]; exact ih
    · have : localEntries O a (e :: l) = localEntries O a l := by simp [localEntries, h1]
      rw [this]; exact ih

/-- The local part on a chare. -/
theorem local_part (hO : O.Ok n) (hp : PtsOk n pts) (types : ℕ → Fin 10) (all : List ℕ) (a : ℕ) (y : GFs) :
    (∀ g p, p < n → O.chare p = a → (∀ e ∈ pts, e.dst = p → O.chare e.src ≠ a) →
      applyLocal all types (localEntries O a pts) y g (O.loc p) = y g (O.loc p)) ∧
    ∀ g ∈ all, ∀ e ∈ pts, O.chare e.dst = a → O.chare e.src = a →
      applyLocal all types (localEntries O a pts) y g (O.loc e.dst) = ((e.parity (types g) : ℤ) : ℝ) * y g (O.loc e.src) := by
  obtain ⟨h1, h2⟩ := applyLocal_ok types (localEntries O a pts) (localEntries_nodup hO a pts hp) (by
    intro f hf f' hf'
    obtain ⟨e, he, e1, e2, rfl⟩ := mem_localEntries.1 hf
    obtain ⟨e', he', e1', e2', rfl⟩ := mem_localEntries.1 hf'
    intro heq
    exact hp.src e he e' he' (hO.inj _ (hp.lt e he).2 _ (hp.lt e' he').1 (e2.trans e1'.symm) heq)) y all
  refine ⟨fun g p hpn hpa hnd => h1 g _ (.inr fun f hf heq => ?_), fun g hg e he e1 e2 => ?_⟩
  · obtain ⟨e, he, e1, e2, rfl⟩ := mem_localEntries.1 hf
    exact hnd e he (hO.inj _ (hp.lt e he).1 _ hpn (e1.trans hpa.symm) heq) e2
  · exact h2 g hg ⟨O.loc e.dst, O.loc e.src, e.parity⟩ (mem_localEntries.2 ⟨e, he, e1, e2, rfl⟩)

variable (hO : O.Ok n) (hp : PtsOk n pts)
include hO hp

theorem src_lt : ∀ e ∈ pts, O.chare e.src < O.tot := fun e he => hO.lt _ (hp.lt e he).2

/-- All steps after each other: whatever the orders of arrival, the next step completes, and with the values of the specification. -/
theorem round_steps (types : ℕ → Fin 10) (all sync : List ℕ) (ty : ℕ) (y : ℕ → GFs) (bc : ℕ → Bc)
    (h1 : ∀ a < O.tot, setUp O pts a = some (bc a)) :
    (∀ a < O.tot, BcOk O a pts (bc a)) ∧
    (∀ a < O.tot, ∃ r, requests a (bc a) = some r) ∧
    ∀ asked, (∀ a < O.tot, requests a (bc a) = some (asked a)) → ∀ b < O.tot, ∀ ms,
      ms.Perm (mail ((List.range O.tot).flatMap asked) b) →
      ∃ ts, processRequests (bc b) ms = some ts ∧ ∀ d a, (bc b).dst.idx[d]? = some a → ∀ k, k < (sub O a b pts).length →
        ts d k = ((sub O a b pts)[k]?).map (·.src) := by
  have hb : ∀ a < O.tot, BcOk O a pts (bc a) := fun a ha => by
    obtain ⟨B, e1, e2⟩ := setUp_ok O a (src_lt hO hp)
    rw [h1 a ha] at e1
    cases e1
    exact e2
  refine ⟨hb, fun a ha => ⟨_, requests_eq (hb a ha)⟩, fun asked h2 b hbt ms hms => ?_⟩
  refine tosend_ok (hb b hbt) ?_
  rw [mail_flatMap O.tot asked (fun a => (bc a).src.idx) (fun a c => (a, (sub O a c pts).map (·.src))) b fun a ha =>
    ⟨Option.some.inj (by rw [← h2 a ha, requests_eq (hb a ha)]), (hb a ha).src.nodup⟩] at hms
  refine hms.trans (List.Perm.of_eq ?_)
  congr 1
  refine List.filter_congr fun a ha => ?_
  rw [List.mem_range] at ha
  simp only [decide_eq_decide, (hb a ha).src_mem, hbt, true_and]

/-- The data: what is sent, and what the chare holds afterwards. -/
theorem data_steps (types : ℕ → Fin 10) (all sync : List ℕ) (ty : ℕ) (y : ℕ → GFs) (bc : ℕ → Bc)
    (hb : ∀ a < O.tot, BcOk O a pts (bc a)) (ts : ℕ → ℕ → ℕ → Option ℕ)
    (hts : ∀ b < O.tot, ∀ d a, (bc b).dst.idx[d]? = some a → ∀ k, k < (sub O a b pts).length →
        ts b d k = ((sub O a b pts)[k]?).map (·.src)) (sendbuf : ℕ → ℕ → ℕ → ℝ) :
    (∀ b < O.tot, ∃ s, sendData O b (bc b) (ts b) ty sync (applyLocal all types (bc b).locals (y b)) (sendbuf b) = some s) ∧
    ∀ sent, (∀ b < O.tot, sendData O b (bc b) (ts b) ty sync (applyLocal all types (bc b).locals (y b)) (sendbuf b) = some (sent b)) →
      ∀ a < O.tot, ∀ ms, ms.Perm (mail ((List.range O.tot).flatMap sent) a) → ∀ recvbuf,
      ∃ z, finishRound (bc a) types sync recvbuf ms (applyLocal all types (bc a).locals (y a)) = some z ∧
        (∀ g p, p < n → O.chare p = a → (∀ e ∈ pts, e.dst ≠ p) → z g (O.loc p) = y a g (O.loc p)) ∧
        (∀ g, g ∉ sync → ∀ e ∈ pts, O.chare e.dst = a → O.chare e.src ≠ a → z g (O.loc e.dst) = y a g (O.loc e.dst)) ∧
        (∀ g ∈ sync, ∀ e ∈ pts, O.chare e.dst = a → O.chare e.src ≠ a →
          z g (O.loc e.dst) = ((e.parity (types g) : ℤ) : ℝ) * y (O.chare e.src) g (O.loc e.src)) ∧
        ∀ g ∈ all, ∀ e ∈ pts, O.chare e.dst = a → O.chare e.src = a →
          z g (O.loc e.dst) = ((e.parity (types g) : ℤ) : ℝ) * y (O.chare e.src) g (O.loc e.src) := by
  have hV : ∀ b, ∃ V : ℕ → ℕ → ℝ, b < O.tot →
      sendData O b (bc b) (ts b) ty sync (applyLocal all types (bc b).locals (y b)) (sendbuf b) =
        some ((bc b).dst.idx.map fun a => (a, ⟨b, ty, sync.length * (sub O a b pts).length, V a⟩)) ∧
      ∀ a ∈ (bc b).dst.idx, ∀ (w g k : ℕ) (e : Entry), sync[w]? = some g → (sub O a b pts)[k]? = some e →
        V a (k + (sub O a b pts).length * w) = applyLocal all types (bc b).locals (y b) g (O.loc e.src) := by
    intro b
    by_cases h : b < O.tot
    · obtain ⟨V, e1, e2⟩ := sendData_ok (hb b h) (hts b h) ty sync (applyLocal all types (bc b).locals (y b)) (sendbuf b)
      exact ⟨V, fun _ => ⟨e1, e2⟩⟩
    · exact ⟨fun _ _ => 0, fun h' => absurd h' h⟩
  choose V hV using hV
  refine ⟨fun b h => ⟨_, (hV b h).1⟩, fun sent hs a ha ms hms recvbuf => ?_⟩
  rw [mail_flatMap O.tot sent (fun b => (bc b).dst.idx) (fun b a => (⟨b, ty, sync.length * (sub O a b pts).length, V b a⟩ : Msg)) a fun b h =>
    ⟨Option.some.inj (by rw [← hs b h, (hV b h).1]), (hb b h).dst.nodup⟩] at hms
  obtain ⟨r, r1, r2⟩ := recv_ok (hb a ha) ty sync (fun b => V b a) (ms := ms) (hms.trans (List.Perm.of_eq (by
    congr 1
    refine List.filter_congr fun b h => ?_
    rw [List.mem_range] at h
    simp only [decide_eq_decide, (hb b h).dst_mem, ha, true_and]))) recvbuf
  classical
  have hex : ∀ g q, ∃ v : ℝ, ∀ e ∈ pts, O.chare e.dst = a → O.chare e.src ≠ a → O.loc e.dst = q →
      v = ((e.parity (types g) : ℤ) : ℝ) * y (O.chare e.src) g (O.loc e.src) := by
    intro g q
    by_cases h : ∃ e ∈ pts, O.chare e.dst = a ∧ O.chare e.src ≠ a ∧ O.loc e.dst = q
    · obtain ⟨e, he, e1, e2, e3⟩ := h
      refine ⟨((e.parity (types g) : ℤ) : ℝ) * y (O.chare e.src) g (O.loc e.src), fun e' he' e1' e2' e3' => ?_⟩
      · rw [entry_unique hO hp he he' (e1.trans e1'.symm) (e3.trans e3'.symm)]
    · exact ⟨0, fun e he e1 e2 e3 => absurd ⟨e, he, e1, e2, e3⟩ h⟩
  choose W hW using hex
  have hloc : ∀ b < O.tot, (bc b).locals = localEntries O b pts := fun b h => (hb b h).locals
  obtain ⟨z, z1, z2, z3⟩ := applyNonlocal_ok (hb a ha) types sync r W (by
    intro s c w g k e hsc hw hk
    have hc := ((hb a ha).src_mem c).1 (List.mem_of_getElem? hsc)
    have hmem := (mem_sub O).1 (List.mem_of_getElem? hk)
    have hklt : k < (sub O a c pts).length := by
      by_contra hcn
      rw [List.getElem?_eq_none (by omega)] at hk
      simp at hk
    have hwlt : w < sync.length := by
      by_contra hcn
      rw [List.getElem?_eq_none (by omega)] at hw
      simp at hw
    rw [r2 s c hsc w k hwlt hklt, (hV c hc.1).2 a (((hb c hc.1).dst_mem a).2 ⟨ha, Ne.symm hc.2.1, hc.2.2⟩) w g k e hw hk,
      hloc c hc.1, (local_part hO hp types all c (y c)).1 g e.src (hp.lt e hmem.1).2 hmem.2.2
        fun e' he' heq => absurd heq.symm (hp.src e hmem.1 e' he'),
      hW g _ e hmem.1 hmem.2.1 (by rw [hmem.2.2]; exact hc.2.1) rfl, hmem.2.2]) (applyLocal all types (bc a).locals (y a))
  have lp := local_part hO hp types all a (y a)
  rw [← hloc a ha] at lp
  refine ⟨z, ?_, fun g p hpn hpa hnd => ?_, fun g hg e he e1 e2 => ?_, fun g hg e he e1 e2 => ?_, fun g hg e he e1 e2 => ?_⟩
  · rw [finishRound, r1]; exact z1
  · rw [z2 g _ (.inr fun e he e1 _ heq => hnd e he (hO.inj _ (hp.lt e he).1 _ hpn (e1.trans hpa.symm) heq)),
      lp.1 g p hpn hpa fun e he heq => absurd heq (hnd e he)]
  · rw [z2 g _ (.inl hg), lp.1 g e.dst (hp.lt e he).1 e1 fun e' he' heq => by
      rw [entry_unique hO hp he' he (by rw [heq]) (by rw [heq])]; exact e2]
  · have hin : O.chare e.src ∈ (bc a).src.idx := ((hb a ha).src_mem _).2
      ⟨src_lt hO hp e he, e2, fun h => by
        have : e ∈ sub O a (O.chare e.src) pts := (mem_sub O).2 ⟨he, e1, rfl⟩
        rw [h] at this; simp at this⟩
    rw [z3 g hg _ hin e ((mem_sub O).2 ⟨he, e1, rfl⟩), hW g _ e he e1 e2 rfl]
  · rw [z2 g _ (.inr fun e' he' e1' e2' heq => by
      have := entry_unique hO hp he' he (e1'.trans e1.symm) heq
      subst this
      exact e2' e2), lp.2 g hg e he e1 e2, e2]

/-! ### Claims -/

/-- **C111** (nothing is missing): for every distribution of the points, all gridfunctions and every order in which requests and data arrive, the round
completes: no array is left and no message lacks a place. -/
theorem C111_completes (types : ℕ → Fin 10) (all sync : List ℕ) (ty : ℕ) (y : ℕ → GFs)
    (order₁ : ℕ → List (ℕ × List ℕ) → List (ℕ × List ℕ)) (order₂ : ℕ → List Msg → List Msg)
    (ho₁ : ∀ b l, (order₁ b l).Perm l) (ho₂ : ∀ a l, (order₂ a l).Perm l) :
    ∃ (y' : ℕ → GFs) (R : Run O pts types all sync ty y y'),
      (∀ b, R.arrived b = order₁ b (mail ((List.range O.tot).flatMap R.asked) b)) ∧
      ∀ a, R.got a = order₂ a (mail ((List.range O.tot).flatMap R.sent) a) := by
  have h1 : ∀ a, ∃ B, a < O.tot → setUp O pts a = some B := fun a => by
    obtain ⟨B, e1, -⟩ := setUp_ok O a (src_lt hO hp)
    exact ⟨B, fun _ => e1⟩
  choose bc h1 using h1
  obtain ⟨hb, h2, h3⟩ := round_steps hO hp types all sync ty y bc h1
  have h2' : ∀ a, ∃ r, a < O.tot → requests a (bc a) = some r := fun a => by
    by_cases h : a < O.tot
    · obtain ⟨r, hr⟩ := h2 a h; exact ⟨r, fun _ => hr⟩
    · exact ⟨[], fun h' => absurd h' h⟩
  choose asked hask using h2'
  have h3' : ∀ b, ∃ ts, b < O.tot → processRequests (bc b) (order₁ b (mail ((List.range O.tot).flatMap asked) b)) = some ts ∧
      ∀ d a, (bc b).dst.idx[d]? = some a → ∀ k, k < (sub O a b pts).length → ts d k = ((sub O a b pts)[k]?).map (·.src) := fun b => by
    by_cases h : b < O.tot
    · obtain ⟨t, ht⟩ := h3 asked hask b h _ (ho₁ b _); exact ⟨t, fun _ => ht⟩
    · exact ⟨fun _ _ => none, fun h' => absurd h' h⟩
  choose ts hts using h3'
  obtain ⟨d1, d2⟩ := data_steps hO hp types all sync ty y bc hb ts (fun b h => (hts b h).2) fun _ _ _ => 0
  have d1' : ∀ b, ∃ s, b < O.tot → sendData O b (bc b) (ts b) ty sync (applyLocal all types (bc b).locals (y b)) (fun _ _ => 0) = some s :=
    fun b => by
      by_cases h : b < O.tot
      · obtain ⟨s, hs⟩ := d1 b h; exact ⟨s, fun _ => hs⟩
      · exact ⟨[], fun h' => absurd h' h⟩
  choose sent hsent using d1'
  have d2' : ∀ a, ∃ z, a < O.tot → finishRound (bc a) types sync (fun _ _ => 0) (order₂ a (mail ((List.range O.tot).flatMap sent) a))
      (applyLocal all types (bc a).locals (y a)) = some z := fun a => by
    by_cases h : a < O.tot
    · obtain ⟨z, hz, -⟩ := d2 sent hsent a h _ (ho₂ a _) fun _ _ => 0; exact ⟨z, fun _ => hz⟩
    · exact ⟨fun _ _ => 0, fun h' => absurd h' h⟩
  choose y' hy' using d2'
  exact ⟨y', ⟨bc, h1, asked, hask, _, fun b _ => ho₁ b _, ts, fun b h => (hts b h).1, fun _ _ _ => 0, sent, hsent, _,
    fun a _ => ho₂ a _, fun _ _ _ => 0, hy'⟩, fun _ => rfl, fun _ => rfl⟩

/-- **C111** (values): after any such round every inner boundary point holds the value its partner had, wherever the partner is stored, times the
parity of the gridfunction; all other points are as they were. -/
theorem C111_values (types : ℕ → Fin 10) (all sync : List ℕ) (ty : ℕ) (y y' : ℕ → GFs) (R : Run O pts types all sync ty y y')
    (hsync : ∀ g ∈ sync, g ∈ all) :
    (∀ g ∈ sync, ∀ e ∈ pts, y' (O.chare e.dst) g (O.loc e.dst) =
      ((e.parity (types g) : ℤ) : ℝ) * y (O.chare e.src) g (O.loc e.src)) ∧
    ∀ g p, p < n → (∀ e ∈ pts, e.dst ≠ p) → y' (O.chare p) g (O.loc p) = y (O.chare p) g (O.loc p) := by
  obtain ⟨hb, -, h3⟩ := round_steps hO hp types all sync ty y R.bc R.set_up
  obtain ⟨-, d2⟩ := data_steps hO hp types all sync ty y R.bc hb R.tosend (fun b h => by
    obtain ⟨ts, e1, e2⟩ := h3 R.asked R.ask b h _ (R.arrive b h)
    rw [R.process b h] at e1
    cases e1
    exact e2) R.sendbuf
  have key : ∀ a < O.tot, _ := fun a ha => d2 R.sent R.send a ha _ (R.get a ha) (R.recvbuf a)
  refine ⟨fun g hg e he => ?_, fun g p hpn hnd => ?_⟩
  · have ha := hO.lt _ (hp.lt e he).1
    obtain ⟨z, z1, z2, z3, z4, z5⟩ := key _ ha
    rw [R.finish _ ha] at z1
    cases z1
    by_cases h : O.chare e.src = O.chare e.dst
    · exact z5 g (hsync g hg) e he rfl h
    · exact z4 g hg e he rfl h
  · have ha := hO.lt p hpn
    obtain ⟨z, z1, z2, z3, z4, z5⟩ := key _ ha
    rw [R.finish _ ha] at z1
    cases z1
    exact z2 g p hpn rfl hnd

end

/-- The distribution of the points made by `chare_communication_maps.py` (C44). -/
def ownOf (P : Params) : Own :=
  ⟨(P.d 0).Nchare * (P.d 1).Nchare * (P.d 2).Nchare, fun g => (P.chareOf g).getD 0, fun g => (P.localOf g).getD 0⟩

/-- **C111** (the distribution of the program): the arrays of the program give every point one chare and a local index of its own. -/
theorem C111_own (P : Params) (hP : P.Ok) : (ownOf P).Ok P.ntot := by
  constructor
  · intro p hpn
    obtain ⟨ch, m, h1, h2, h3, h4, h5⟩ := C44_global P hP p hpn
    show (P.chareOf p).getD 0 < _
    rw [h3, Option.getD_some]
    exact idx3_lt (h1 0) (h1 1) (h1 2)
  · intro p hpn q hqn hc hl
    obtain ⟨ch, m, h1, h2, h3, h4, h5⟩ := C44_global P hP p hpn
    obtain ⟨ch', m', h1', h2', h3', h4', h5'⟩ := C44_global P hP q hqn
    change (P.chareOf p).getD 0 = (P.chareOf q).getD 0 at hc
    change (P.localOf p).getD 0 = (P.localOf q).getD 0 at hl
    rw [h3, h3', Option.getD_some, Option.getD_some] at hc
    rw [h4, h4', Option.getD_some, Option.getD_some] at hl
    obtain ⟨c0, c1, c2⟩ := idx3_inj (h1 0) (h1 1) (h1' 0) (h1' 1) hc
    have : ch = ch' := by funext t; match t with
      | 0 => exact c0
      | 1 => exact c1
      | 2 => exact c2
    rw [this, hl, h5'] at h5
    exact (Option.some.inj h5).symm

/-- Four points on two chares: point 0 of chare 0 has its partner, point 3, on chare 1; point 2 of chare 1 has point 1 of chare 0. -/
def exOwn : Own := ⟨2, fun p => p / 2, fun p => p % 2⟩

def exPts : List Entry := [⟨0, 3, fun _ => -1⟩, ⟨2, 1, fun _ => 1⟩]

theorem exOwn_ok : exOwn.Ok 4 :=
  ⟨fun p hp => by show p / 2 < 2; omega, fun p _ q _ h1 h2 => by
    change p / 2 = q / 2 at h1
    change p % 2 = q % 2 at h2
    omega⟩

theorem exPts_ok : PtsOk 4 exPts := ⟨by simp [exPts], by simp [exPts], by simp [exPts]⟩

example : ∃ (y' : ℕ → GFs) (_ : Run exOwn exPts (fun _ => 0) [0] [0] 0 (fun a _ q => 2 * a + q) y'), y' 0 0 0 = -3 ∧ y' 1 0 0 = 1 := by
  obtain ⟨y', R, -⟩ := C111_completes exOwn_ok exPts_ok (fun _ => 0) [0] [0] 0 (fun a _ q => 2 * a + q) (fun _ l => l.reverse)
    (fun _ l => l) (fun _ l => l.reverse_perm) (fun _ _ => List.Perm.refl _)
  refine ⟨y', R, ?_, ?_⟩
  · have := (C111_values exOwn_ok exPts_ok _ _ _ _ _ _ R (by simp)).1 0 (by simp) ⟨0, 3, fun _ => -1⟩ (by simp [exPts])
    simp [exOwn] at this
    rw [this]; norm_num
  · have := (C111_values exOwn_ok exPts_ok _ _ _ _ _ _ R (by simp)).1 0 (by simp) ⟨2, 1, fun _ => 1⟩ (by simp [exPts])
    simp [exOwn] at this
    rw [this]

/-! ### Consecutive rounds -/

/-- Each round uses the messages of this round, one from each source. -/
def RoundsOk (src : ℕ → List ℕ) (N : Net) : Prop :=
  ∀ c r l, (c, r, l) ∈ N.log → l.Perm ((src c).map fun b => (b, r))

/-- Sources of four chares, as on a spherical grid that is cut in two in `θ` and in `φ`: partners lie across the axis (other half in `φ`) and
across the centre (other halves in `θ` and `φ`). -/
def exSrc : ℕ → List ℕ
  | 0 => [1, 2]
  | 1 => [0, 3]
  | 2 => [3, 0]
  | 3 => [2, 1]
  | _ => []

/-- **C111** (violation): with two sources per chare a round can take two messages of one chare, the second of the next round, and none of the other. -/
theorem C111_rounds_violation : ∃ N, Reachable exSrc N ∧ (0, 0, [(1, 0), (1, 1)]) ∈ N.log ∧ ¬ RoundsOk exSrc N := by
  have key : ∃ N, Reachable exSrc N ∧ (0, 0, [(1, 0), (1, 1)]) ∈ N.log := by
    refine ⟨_, Relation.ReflTransGen.tail (Relation.ReflTransGen.tail (Relation.ReflTransGen.tail (Relation.ReflTransGen.tail
      (Relation.ReflTransGen.tail (Relation.ReflTransGen.tail (Relation.ReflTransGen.tail (Relation.ReflTransGen.tail
      (Relation.ReflTransGen.tail (Relation.ReflTransGen.tail Relation.ReflTransGen.refl
        (Step.start _ 0 ?_)) (Step.start _ 1 ?_)) (Step.start _ 3 ?_)) (Step.take _ 1 0 0 [] ?_ ?_ ?_)) (Step.take _ 1 3 0 [] ?_ ?_ ?_))
        (Step.finish _ 1 ?_ ?_)) (Step.start _ 1 ?_)) (Step.take _ 0 1 0 [1] ?_ ?_ ?_)) (Step.take _ 0 1 1 [] ?_ ?_ ?_))
        (Step.finish _ 0 ?_ ?_), ?_⟩
    all_goals simp [Net.init, exSrc, Function.update]
  obtain ⟨N, h1, h2⟩ := key
  refine ⟨N, h1, h2, fun h => ?_⟩
  have := (h 0 0 _ h2).subset (a := (1, 1)) (by simp)
  simp [exSrc] at this

/-- **C111** (partial: at most one source per chare; missing: several sources, which is false): every round uses the message of this round. -/
theorem C111_rounds_partial (src : ℕ → List ℕ) (h1 : ∀ c, (src c).length ≤ 1) (N : Net) (hN : Reachable src N) : RoundsOk src N := by
  -- the rounds on their way from `b` to `c` are those that `b` has begun and `c` has not taken
  have inv : (∀ b c, b ∈ src c → ∃ k, (if N.waiting c then N.started c - 1 + (N.got c).length else N.started c) + k = N.started b ∧
        N.q b c = List.range' (if N.waiting c then N.started c - 1 + (N.got c).length else N.started c) k) ∧
      (∀ b c, b ∉ src c → N.q b c = []) ∧ (∀ c, N.waiting c = true → 0 < N.started c ∧ N.got c <+: (src c).map fun b => (b, N.started c - 1)) ∧
      RoundsOk src N := by
    induction hN with
    | refl =>
      refine ⟨fun b c _ => ⟨0, by simp [Net.init], by simp [Net.init]⟩, fun b c _ => rfl, fun c h => by simp [Net.init] at h, fun c r l h => by
        simp [Net.init] at h⟩
    | @tail N N' _ hs ih =>
      obtain ⟨i1, i2, i3, i4⟩ := ih
      cases hs with
      | start x hw =>
        refine ⟨fun b c hb => ?_, fun b c hb => ?_, fun c hc => ?_, i4⟩
        · obtain ⟨k, e1, e2⟩ := i1 b c hb
          dsimp only
          have hT : (if (Function.update N.waiting x true c) = true then Function.update N.started x (N.started x + 1) c - 1 +
              (Function.update N.got x [] c).length else Function.update N.started x (N.started x + 1) c) =
              (if N.waiting c = true then N.started c - 1 + (N.got c).length else N.started c) := by
            by_cases hc : c = x
            · subst hc; simp [hw]
            · simp [Function.update_of_ne hc]
          rw [hT]
          by_cases hbx : b = x
          · subst hbx
            refine ⟨k + 1, by rw [Function.update_self]; omega, ?_⟩
            rw [Function.update_self, if_pos hb, e2, List.range'_concat]
            simp only [Nat.one_mul]
            rw [e1]
          · exact ⟨k, by rw [Function.update_of_ne hbx]; exact e1, by rw [Function.update_of_ne hbx]; exact e2⟩
        · dsimp only
          by_cases hbx : b = x
          · subst hbx; rw [Function.update_self, if_neg hb]; exact i2 b c hb
          · rw [Function.update_of_ne hbx]; exact i2 b c hb
        · dsimp only at hc ⊢
          by_cases hcx : c = x
          · subst hcx; simp
          · rw [Function.update_of_ne hcx] at hc
            rw [Function.update_of_ne hcx, Function.update_of_ne hcx]
            exact i3 c hc
      | take x b' r l hw hlen hq =>
        have hb' : b' ∈ src x := by
          by_contra h
          rw [i2 b' x h] at hq
          simp at hq
        have hsrc : src x = [b'] := by
          have := h1 x
          match hm : src x with
          | [] => rw [hm] at hb'; simp at hb'
          | [d] => rw [hm] at hb'; simp at hb'; rw [hb']
          | d :: d' :: t => rw [hm] at this; simp at this
        have hgot : N.got x = [] := by
          rw [hsrc] at hlen
          exact List.length_eq_zero_iff.1 (by simpa using hlen)
        obtain ⟨k, e1, e2⟩ := i1 b' x hb'
        rw [hw, hgot] at e1 e2
        simp only [if_true, List.length_nil, Nat.add_zero] at e1 e2
        rw [hq] at e2
        obtain ⟨k, rfl⟩ : ∃ k', k = k' + 1 := by
          cases k with
          | zero => simp at e2
          | succ k => exact ⟨k, rfl⟩
        rw [List.range'_succ, List.cons.injEq] at e2
        obtain ⟨hr, hl⟩ := e2
        refine ⟨fun b c hb => ?_, fun b c hb => ?_, fun c hc => ?_, i4⟩
        · dsimp only
          by_cases hcx : c = x
          · subst hcx
            rw [hsrc, List.mem_singleton] at hb
            subst hb
            refine ⟨k, ?_, ?_⟩
            · rw [Function.update_self, hw, hgot]; simp; omega
            · rw [Function.update_self, Function.update_self, hw, hgot, hl]; simp
          · obtain ⟨k', f1, f2⟩ := i1 b c hb
            rw [Function.update_of_ne hcx]
            refine ⟨k', f1, ?_⟩
            by_cases hbb : b = b'
            · subst hbb; rw [Function.update_self, Function.update_of_ne hcx]; exact f2
            · rw [Function.update_of_ne hbb]; exact f2
        · dsimp only
          by_cases hbb : b = b'
          · subst hbb
            rw [Function.update_self]
            by_cases hcx : c = x
            · subst hcx; exact absurd hb' hb
            · rw [Function.update_of_ne hcx]; exact i2 b c hb
          · rw [Function.update_of_ne hbb]; exact i2 b c hb
        · dsimp only at hc ⊢
          by_cases hcx : c = x
          · subst hcx
            refine ⟨(i3 c hc).1, ?_⟩
            rw [Function.update_self, hgot, hsrc, hr]
            simp
          · rw [Function.update_of_ne hcx]; exact i3 c hc
      | finish x hw hlen =>
        obtain ⟨hpos, hpre⟩ := i3 x hw
        have hgot : N.got x = (src x).map fun b => (b, N.started x - 1) := hpre.eq_of_length (by rw [hlen]; simp)
        refine ⟨fun b c hb => ?_, i2, fun c hc => ?_, fun c r l hm => ?_⟩
        · obtain ⟨k, f1, f2⟩ := i1 b c hb
          dsimp only
          by_cases hcx : c = x
          · subst hcx
            have hone : (src c).length = 1 := by
              have := h1 c
              have := List.length_pos_of_mem hb
              omega
            rw [hw, hlen, hone] at f1 f2
            simp only [Function.update_self, if_true, Bool.false_eq_true, if_false] at f1 f2 ⊢
            rw [Nat.sub_add_cancel hpos] at f1 f2
            exact ⟨k, f1, f2⟩
          · simp only [Function.update_of_ne hcx]; exact ⟨k, f1, f2⟩
        · dsimp only at hc
          by_cases hcx : c = x
          · subst hcx; simp at hc
          · rw [Function.update_of_ne hcx] at hc
            exact i3 c hc
        · rcases List.mem_append.1 hm with hm | hm
          · exact i4 c r l hm
          · simp only [List.mem_singleton, Prod.mk.injEq] at hm
            obtain ⟨rfl, rfl, rfl⟩ := hm
            rw [hgot]
  exact inv.2.2.2

/-- Two chares that are each other's source (as on a spherical grid cut in two in `φ`): a round is completed, after a chare has gone ahead. -/
example : ∃ N, Reachable (fun c => if c < 2 then [1 - c] else []) N ∧ (0, 0, [(1, 0)]) ∈ N.log ∧ N.started 1 = 2 := by
  refine ⟨_, Relation.ReflTransGen.tail (Relation.ReflTransGen.tail (Relation.ReflTransGen.tail (Relation.ReflTransGen.tail
      (Relation.ReflTransGen.tail (Relation.ReflTransGen.tail (Relation.ReflTransGen.tail Relation.ReflTransGen.refl
        (Step.start _ 0 ?_)) (Step.start _ 1 ?_)) (Step.take _ 1 0 0 [] ?_ ?_ ?_))
        (Step.finish _ 1 ?_ ?_)) (Step.start _ 1 ?_)) (Step.take _ 0 1 0 [1] ?_ ?_ ?_)) 
        (Step.finish _ 0 ?_ ?_), ?_⟩
  all_goals simp [Net.init, Function.update]

/-! ### Moving a chare -/

/-- **C111** (violation): after a chare has been moved (or restarted from a checkpoint) it reads outside an array when data arrive. -/
theorem C111_migration_violation : ∃ B m bufs, setUp exOwn exPts 0 = some B ∧ receive B bufs m ≠ none ∧ receive (migrate B) bufs m = none := by
  obtain ⟨B, h1, h2⟩ := setUp_ok exOwn 0 (src_lt exOwn_ok exPts_ok)
  have hmem : ∀ c, c ∈ B.src.idx ↔ c = 1 := by
    intro c
    rw [h2.src_mem]
    constructor
    · rintro ⟨h3, h4, -⟩
      change c < 2 at h3
      omega
    · rintro rfl
      refine ⟨by decide, by decide, ?_⟩
      intro h
      have : (⟨0, 3, fun _ => -1⟩ : Entry) ∈ sub exOwn 0 1 exPts := (mem_sub _).2 ⟨by simp [exPts], by decide, by decide⟩
      rw [h] at this
      simp at this
  have hidx : B.src.idx = [1] := by
    have hn := h2.src.nodup
    match h : B.src.idx with
    | [] => have := (hmem 1).2 rfl; rw [h] at this; simp at this
    | [c] => have := (hmem c).1 (by rw [h]; simp); rw [this]
    | c :: d :: t =>
      have e1 := (hmem c).1 (by rw [h]; simp)
      have e2 := (hmem d).1 (by rw [h]; simp)
      rw [h, e1, e2] at hn
      simp at hn
  have hid : B.src.id 1 = some 0 := (h2.src.id 1 0).2 (by rw [hidx]; rfl)
  refine ⟨B, ⟨1, 0, 0, fun _ => 0⟩, fun _ _ => 0, h1, ?_, ?_⟩
  · simp [receive, hid]
  · simp [receive, migrate, hidx]

/-- **C111** (partial: chares whose sources have the lowest numbers; missing: all others, for which it is false): data are taken as before the move. -/
theorem C111_migration_partial (B : Bc) (h : ∀ c ∈ B.src.idx, c < B.src.idx.length) (m : Msg) (hm : m.sender ∈ B.src.idx)
    (bufs : ℕ → ℕ → ℝ) : receive (migrate B) bufs m = receive B bufs m := by
  simp [receive, migrate, h _ hm]

end Verif.SuperB.Inner
