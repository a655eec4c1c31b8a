import Verif.BHaH.Heap
import Mathlib.Tactic.Tauto
import Mathlib.Data.Finset.Insert

/-!
# C117: all memory of a run is freed once
-/
namespace Verif.BHaH.Heap

/-! ## Specification -/

/-- The program runs without undefined behaviour and leaves `n` blocks allocated. -/
def Leaves (p : List Op) (n : ℕ) : Prop := ∃ m, run .empty p = some m ∧ m.live.card = n

/-! ## Invariant -/

/-- The pointers in `S` hold different allocated blocks; the other allocated blocks are `L`, and no pointer in `S` holds one of them. -/
structure Holds (m : Mem) (S : Set Slot) (L : Finset ℕ) : Prop where
  set : ∀ s ∈ S, ∃ b, m.ptr s = some b
  inj : ∀ s ∈ S, ∀ s' ∈ S, m.ptr s = m.ptr s' → s = s'
  live : ∀ b, b ∈ m.live ↔ (∃ s ∈ S, m.ptr s = some b) ∨ b ∈ L
  lost : ∀ s ∈ S, ∀ b ∈ L, m.ptr s ≠ some b
  next : ∀ b ∈ m.live, b < m.next

theorem Holds.empty : Holds .empty ∅ ∅ := ⟨by simp, by simp, by simp [Mem.empty], by simp, by simp [Mem.empty]⟩

theorem Holds.ptr_live {m : Mem} {S : Set Slot} {L : Finset ℕ} (h : Holds m S L) {s : Slot} (hs : s ∈ S) {b : ℕ} (hb : m.ptr s = some b) : b ∈ m.live :=
  (h.live b).mpr (Or.inl ⟨s, hs, hb⟩)

theorem Holds.ptr_ne_next {m : Mem} {S : Set Slot} {L : Finset ℕ} (h : Holds m S L) {s : Slot} (hs : s ∈ S) : m.ptr s ≠ some m.next :=
  fun e => absurd (h.next _ (h.ptr_live hs e)) (Nat.lt_irrefl _)

theorem Holds.malloc {m : Mem} {S : Set Slot} {L : Finset ℕ} (h : Holds m S L) {s : Slot} (hs : s ∉ S) : Holds (m.malloc s) (insert s S) L := by
  have ne : ∀ x ∈ S, x ≠ s := fun x hx e => hs (e ▸ hx)
  have keep : ∀ x ∈ S, (m.malloc s).ptr x = m.ptr x := fun x hx => by simp [Mem.malloc, Function.update_apply, ne x hx]
  have new : (m.malloc s).ptr s = some m.next := by simp [Mem.malloc]
  have notL : m.next ∉ L := fun e => absurd (h.next _ ((h.live _).mpr (Or.inr e))) (Nat.lt_irrefl _)
  refine ⟨?_, ?_, ?_, ?_, ?_⟩
  · intro x hx
    rcases hx with rfl | hx
    · exact ⟨_, new⟩
    · rw [keep x hx]; exact h.set x hx
  · intro x hx z hz e
    rcases hx with rfl | hx <;> rcases hz with rfl | hz
    · rfl
    · rw [new, keep z hz] at e; exact absurd e.symm (h.ptr_ne_next hz)
    · rw [new, keep x hx] at e; exact absurd e (h.ptr_ne_next hx)
    · rw [keep x hx, keep z hz] at e; exact h.inj x hx z hz e
  · intro b
    show b ∈ insert m.next m.live ↔ _
    rw [Finset.mem_insert, h.live b]
    constructor
    · rintro (rfl | ⟨x, hx, e⟩ | hb)
      · exact Or.inl ⟨s, Set.mem_insert _ _, new⟩
      · exact Or.inl ⟨x, Set.mem_insert_of_mem _ hx, (keep x hx).trans e⟩
      · exact Or.inr hb
    · rintro (⟨x, rfl | hx, e⟩ | hb)
      · rw [new] at e; exact Or.inl (Option.some.inj e).symm
      · rw [keep x hx] at e; exact Or.inr (Or.inl ⟨x, hx, e⟩)
      · exact Or.inr (Or.inr hb)
  · intro x hx b hb
    rcases hx with rfl | hx
    · rw [new]; exact fun e => notL (Option.some.inj e ▸ hb)
    · rw [keep x hx]; exact h.lost x hx b hb
  · intro b hb
    rcases Finset.mem_insert.mp hb with rfl | hb
    · exact Nat.lt_succ_self _
    · exact (h.next b hb).trans (Nat.lt_succ_self _)

/-- A block whose only pointer is overwritten is lost. -/
theorem Holds.forget {m : Mem} {S : Set Slot} {L : Finset ℕ} (h : Holds m S L) {s : Slot} (hs : s ∈ S) :
    ∃ b, b ∉ L ∧ Holds m (S \ {s}) (insert b L) := by
  obtain ⟨b, hb⟩ := h.set s hs
  refine ⟨b, fun e => h.lost s hs b e hb, ?_, ?_, ?_, ?_, h.next⟩
  · exact fun x hx => h.set x hx.1
  · exact fun x hx z hz => h.inj x hx.1 z hz.1
  · intro b'
    rw [h.live b', Finset.mem_insert]
    constructor
    · rintro (⟨x, hx, e⟩ | hL)
      · by_cases hxs : x = s
        · subst hxs; rw [hb] at e; exact Or.inr (Or.inl (Option.some.inj e).symm)
        · exact Or.inl ⟨x, ⟨hx, hxs⟩, e⟩
      · exact Or.inr (Or.inr hL)
    · rintro (⟨x, hx, e⟩ | rfl | hL)
      · exact Or.inl ⟨x, hx.1, e⟩
      · exact Or.inl ⟨s, hs, hb⟩
      · exact Or.inr hL
  · intro x hx b' hb' e
    rcases Finset.mem_insert.mp hb' with rfl | hb'
    · exact hx.2 (h.inj x hx.1 s hs (e.trans hb.symm))
    · exact h.lost x hx.1 b' hb' e

theorem Holds.free {m : Mem} {S : Set Slot} {L : Finset ℕ} (h : Holds m S L) {s : Slot} (hs : s ∈ S) :
    ∃ m', exec m (.free s) = some m' ∧ Holds m' (S \ {s}) L ∧ m'.cap = m.cap := by
  obtain ⟨b, hb⟩ := h.set s hs
  have hl := h.ptr_live hs hb
  refine ⟨{ m with live := m.live.erase b }, ?_, ⟨?_, ?_, ?_, ?_, ?_⟩, rfl⟩
  · simp only [exec, hb, hl, if_true]
  · exact fun x hx => h.set x hx.1
  · exact fun x hx z hz => h.inj x hx.1 z hz.1
  · intro b'
    show b' ∈ m.live.erase b ↔ _
    rw [Finset.mem_erase, h.live b']
    constructor
    · rintro ⟨hne, ⟨x, hx, e⟩ | hL⟩
      · refine Or.inl ⟨x, ⟨hx, fun hxs => hne ?_⟩, e⟩
        rw [Set.mem_singleton_iff] at hxs
        subst hxs; rw [hb] at e; exact (Option.some.inj e).symm
      · exact Or.inr hL
    · rintro (⟨x, hx, e⟩ | hL)
      · refine ⟨fun hbb => hx.2 (h.inj x hx.1 s hs ?_), Or.inl ⟨x, hx.1, e⟩⟩
        rw [hb]; subst hbb; exact e
      · exact ⟨fun hbb => h.lost s hs b' hL (hbb ▸ hb), Or.inr hL⟩
  · exact fun x hx b' hb' => h.lost x hx.1 b' hb'
  · exact fun b' hb' => h.next b' (Finset.mem_of_mem_erase hb')

/-! ## Programs -/

/-- From pointers `S` and `n` lost blocks the program leads to pointers `S'` and `n'` lost blocks; `griddata` has `cap` structs. -/
def Tri (cap : ℕ) (S : Set Slot) (n : ℕ) (p : List Op) (S' : Set Slot) (n' : ℕ) : Prop :=
  ∀ m L, Holds m S L → L.card = n → m.cap = cap → ∃ m' L', run m p = some m' ∧ Holds m' S' L' ∧ L'.card = n' ∧ m'.cap = cap

variable {cap : ℕ} {S S' S'' : Set Slot} {n n' n'' : ℕ}

theorem run_append (p q : List Op) : ∀ m, run m (p ++ q) = (run m p).bind (run · q) := by
  induction p with
  | nil => exact fun m => rfl
  | cons o p ih =>
    intro m
    simp only [List.cons_append, run]
    cases exec m o with
    | none => rfl
    | some m' => exact ih m'

theorem Tri.nil : Tri cap S n [] S n := fun m L h hn hc => ⟨m, L, rfl, h, hn, hc⟩

theorem Tri.append {p q : List Op} (h1 : Tri cap S n p S' n') (h2 : Tri cap S' n' q S'' n'') : Tri cap S n (p ++ q) S'' n'' := by
  intro m L h hn hc
  obtain ⟨m1, L1, e1, a1, b1, c1⟩ := h1 m L h hn hc
  obtain ⟨m2, L2, e2, a2, b2, c2⟩ := h2 m1 L1 a1 b1 c1
  exact ⟨m2, L2, by rw [run_append, e1]; exact e2, a2, b2, c2⟩

theorem Tri.malloc {s : Slot} (hs : s ∉ S) : Tri cap S n [.malloc s] (insert s S) n :=
  fun m L h hn hc => ⟨m.malloc s, L, rfl, h.malloc hs, hn, hc⟩

theorem Tri.free {s : Slot} (hs : s ∈ S) : Tri cap S n [.free s] (S \ {s}) n := by
  intro m L h hn hc
  obtain ⟨m', e, h', c'⟩ := h.free hs
  exact ⟨m', L, by simp [run, e], h', hn, c'.trans hc⟩

/-- `malloc` into a pointer that holds a block loses the block. -/
theorem Tri.malloc_again {s : Slot} (hs : s ∈ S) : Tri cap S n [.malloc s] S (n + 1) := by
  intro m L h hn hc
  obtain ⟨b, hb, h'⟩ := h.forget hs
  have := h'.malloc (s := s) (by simp)
  rw [Set.insert_diff_singleton, Set.insert_eq_of_mem hs] at this
  exact ⟨m.malloc s, insert b L, rfl, this, by rw [Finset.card_insert_of_notMem hb, hn], hc⟩

theorem Tri.touch {g : ℕ} (hs : Slot.griddata ∈ S) (hg : g < cap) : Tri cap S n [.touch g] S n := by
  intro m L h hn hc
  obtain ⟨b, hb⟩ := h.set _ hs
  refine ⟨m, L, ?_, h, hn, hc⟩
  simp [run, exec, hb, h.ptr_live hs hb, hc, hg]

theorem Tri.mallocs : ∀ (l : List Slot) (S : Set Slot), l.Nodup → (∀ s ∈ l, s ∉ S) → Tri cap S n (l.map .malloc) (S ∪ {s | s ∈ l}) n
  | [], S, _, _ => by simpa using Tri.nil
  | s :: l, S, nd, hd => by
    have ih := Tri.mallocs l (insert s S) (List.nodup_cons.mp nd).2 fun x hx hxS => by
      rcases hxS with rfl | hxS
      · exact (List.nodup_cons.mp nd).1 hx
      · exact hd x (List.mem_cons_of_mem _ hx) hxS
    have := (Tri.malloc (cap := cap) (n := n) (hd s List.mem_cons_self)).append ih
    have e : insert s S ∪ {x | x ∈ l} = S ∪ {x | x ∈ s :: l} := by
      ext x; simp only [Set.mem_union, Set.mem_insert_iff, Set.mem_setOf_eq, List.mem_cons]; tauto
    rw [e] at this
    exact this

theorem Tri.frees : ∀ (l : List Slot) (S : Set Slot), l.Nodup → (∀ s ∈ l, s ∈ S) → Tri cap S n (l.map .free) (S \ {s | s ∈ l}) n
  | [], S, _, _ => by simpa using Tri.nil
  | s :: l, S, nd, hd => by
    have ih := Tri.frees l (S \ {s}) (List.nodup_cons.mp nd).2 fun x hx =>
      ⟨hd x (List.mem_cons_of_mem _ hx), fun e => (List.nodup_cons.mp nd).1 (e ▸ hx)⟩
    have := (Tri.free (cap := cap) (n := n) (hd s List.mem_cons_self)).append ih
    have e : (S \ {s}) \ {x | x ∈ l} = S \ {x | x ∈ s :: l} := by
      ext x; simp only [Set.mem_diff, Set.mem_singleton_iff, Set.mem_setOf_eq, List.mem_cons]; tauto
    rw [e] at this
    exact this

/-- A loop over the grids. -/
theorem Tri.grids (N : ℕ) (body : ℕ → List Op) (T : ℕ → Set Slot) (k : ℕ → ℕ) (hN : N ≤ cap) (hg : ∀ g, Slot.griddata ∈ T g)
    (hb : ∀ g < N, Tri cap (T g) (k g) (body g) (T (g + 1)) (k (g + 1))) : Tri cap (T 0) (k 0) (forGrids N body) (T N) (k N) := by
  unfold forGrids
  induction N with
  | zero => exact Tri.nil
  | succ N ih =>
    rw [List.range_succ, List.flatMap_append]
    refine (ih (by omega) fun g hg => hb g (by omega)).append ?_
    rw [List.flatMap_singleton]
    exact (Tri.touch (hg N) (by omega)).append (hb N (by omega))

/-- Pointers of the grids below `N`. -/
def below (N : ℕ) (slots : ℕ → List Slot) : Set Slot := {s | ∃ g < N, s ∈ slots g}

theorem below_succ (N : ℕ) (slots : ℕ → List Slot) : below (N + 1) slots = below N slots ∪ {s | s ∈ slots N} := by
  ext s
  simp only [below, Set.mem_setOf_eq, Set.mem_union]
  constructor
  · rintro ⟨g, hg, h⟩
    rcases Nat.lt_succ_iff_lt_or_eq.mp hg with hg | rfl
    · exact Or.inl ⟨g, hg, h⟩
    · exact Or.inr h
  · rintro (⟨g, hg, h⟩ | h)
    · exact ⟨g, by omega, h⟩
    · exact ⟨N, by omega, h⟩

theorem below_zero (slots : ℕ → List Slot) : below 0 slots = ∅ := by ext s; simp [below]

/-- The grid to which a pointer belongs. -/
def owner : Slot → Option ℕ
  | .xx g _ => some g | .rfm g _ => some g | .inner g => some g | .outer g _ => some g | .y g => some g | .non g _ => some g
  | _ => none

theorem Tri.mallocGrids (N : ℕ) (slots : ℕ → List Slot) (hN : N ≤ cap) (hg : Slot.griddata ∈ S) (nd : ∀ g, (slots g).Nodup)
    (ho : ∀ g, ∀ s ∈ slots g, owner s = some g) (hd : ∀ g, ∀ s ∈ slots g, s ∉ S) :
    Tri cap S n (forGrids N fun g => (slots g).map .malloc) (S ∪ below N slots) n := by
  have := Tri.grids (cap := cap) N (fun g => (slots g).map .malloc) (fun g => S ∪ below g slots) (fun _ => n) hN (fun g => Or.inl hg) ?_
  · simpa [below_zero] using this
  · intro g _
    rw [below_succ, ← Set.union_assoc]
    refine Tri.mallocs _ _ (nd g) fun s hs h => ?_
    rcases h with h | ⟨g', hg', h⟩
    · exact hd g s hs h
    · have := Option.some.inj ((ho g s hs).symm.trans (ho g' s h))
      omega

theorem Tri.freeGrids (N : ℕ) (slots : ℕ → List Slot) (hN : N ≤ cap) (hg : Slot.griddata ∈ S) (nd : ∀ g, (slots g).Nodup)
    (ho : ∀ g, ∀ s ∈ slots g, owner s = some g) (hd : ∀ g < N, ∀ s ∈ slots g, s ∈ S) :
    Tri cap S n (forGrids N fun g => (slots g).map .free) (S \ below N slots) n := by
  have := Tri.grids (cap := cap) N (fun g => (slots g).map .free) (fun g => S \ below g slots) (fun _ => n) hN (fun g => ⟨hg, ?_⟩) ?_
  · simpa [below_zero] using this
  · rintro ⟨g', _, h⟩
    exact absurd (ho g' _ h) (by simp [owner])
  · intro g hgN
    rw [below_succ, ← Set.diff_diff]
    refine Tri.frees _ _ (nd g) fun s hs => ⟨hd g hgN s hs, ?_⟩
    rintro ⟨g', hg', h⟩
    have := Option.some.inj ((ho g s hs).symm.trans (ho g' s h))
    omega

theorem below_append (N : ℕ) (a b : ℕ → List Slot) : below N (fun g => a g ++ b g) = below N a ∪ below N b := by
  ext s
  simp only [below, Set.mem_setOf_eq, Set.mem_union, List.mem_append]
  constructor
  · rintro ⟨g, hg, h | h⟩
    · exact Or.inl ⟨g, hg, h⟩
    · exact Or.inr ⟨g, hg, h⟩
  · rintro (⟨g, hg, h⟩ | ⟨g, hg, h⟩)
    · exact ⟨g, hg, Or.inl h⟩
    · exact ⟨g, hg, Or.inr h⟩

theorem below_nil (N : ℕ) : below N (fun _ => []) = ∅ := by ext s; simp [below]

section
variable (c : Config)

theorem bcsOf_eq (g : ℕ) : bcsOf c g = Slot.inner g :: (List.range (c.ng * 3)).map (Slot.outer g) := by
  unfold bcsOf
  congr 1
  induction c.ng with
  | zero => rfl
  | succ k ih =>
    rw [List.range_succ, List.flatMap_append, ih, Nat.add_mul, Nat.one_mul]
    simp [List.range_succ, Nat.mul_comm]

theorem nodup_bcs (g : ℕ) : (bcsOf c g).Nodup := by
  rw [bcsOf_eq, List.nodup_cons]
  refine ⟨by simp, List.Nodup.map (fun a b h => by simpa using h) List.nodup_range⟩

theorem nodup_rfms (g : ℕ) : (rfms c g).Nodup := List.Nodup.map (fun a b h => by simpa using h) List.nodup_range
theorem nodup_nons (g : ℕ) : (nons c g).Nodup := List.Nodup.map (fun a b h => by simpa using h) List.nodup_range
theorem nodup_xxs (g : ℕ) : (xxs g).Nodup := by simp [xxs]

/-- The kind of a pointer. -/
def kind : Slot → ℕ
  | .xx .. => 1 | .rfm .. => 2 | .inner .. => 3 | .outer .. => 3 | .y .. => 4 | .non .. => 5 | _ => 0

theorem mem_xxs {g : ℕ} {s : Slot} (h : s ∈ xxs g) : owner s = some g ∧ kind s = 1 := by
  simp only [xxs, List.mem_cons, List.not_mem_nil, or_false] at h
  rcases h with rfl | rfl | rfl <;> exact ⟨rfl, rfl⟩
theorem mem_rfms {g : ℕ} {s : Slot} (h : s ∈ rfms c g) : owner s = some g ∧ kind s = 2 := by
  simp only [rfms, List.mem_map] at h
  obtain ⟨k, _, rfl⟩ := h
  exact ⟨rfl, rfl⟩
theorem mem_bcs {g : ℕ} {s : Slot} (h : s ∈ bcsOf c g) : owner s = some g ∧ kind s = 3 := by
  rw [bcsOf_eq, List.mem_cons, List.mem_map] at h
  rcases h with rfl | ⟨k, _, rfl⟩ <;> exact ⟨rfl, rfl⟩
theorem mem_nons {g : ℕ} {s : Slot} (h : s ∈ nons c g) : owner s = some g ∧ kind s = 5 := by
  simp only [nons, List.mem_map] at h
  obtain ⟨k, _, rfl⟩ := h
  exact ⟨rfl, rfl⟩
theorem mem_ys {g : ℕ} {s : Slot} (h : s ∈ [Slot.y g]) : owner s = some g ∧ kind s = 4 := by
  rw [List.mem_singleton] at h
  subst h
  exact ⟨rfl, rfl⟩

/-- The pointers of a grid that `numerical_grids_and_timestep` sets. -/
def setup (g : ℕ) : List Slot := xxs g ++ ((if c.rfm then rfms c g else []) ++ (if c.bcs then bcsOf c g else []))

theorem kind_setup {g : ℕ} {s : Slot} (h : s ∈ setup c g) : owner s = some g ∧ 1 ≤ kind s ∧ kind s ≤ 3 := by
  unfold setup at h
  rw [List.mem_append, List.mem_append] at h
  rcases h with h | h | h
  · have := mem_xxs h; exact ⟨this.1, by omega, by omega⟩
  · split at h
    · have := mem_rfms c h; exact ⟨this.1, by omega, by omega⟩
    · simp at h
  · split at h
    · have := mem_bcs c h; exact ⟨this.1, by omega, by omega⟩
    · simp at h

theorem numericalGrids_tri (hN : c.grids ≤ cap) (hg : Slot.griddata ∈ S) (h0 : ∀ s ∈ S, kind s = 0) :
    Tri cap S n (numericalGrids c) (S ∪ below c.grids (setup c)) n := by
  unfold numericalGrids
  have h1 : Tri cap S n (forGrids c.grids fun g => (xxs g).map .malloc) (S ∪ below c.grids xxs) n :=
    Tri.mallocGrids _ _ hN hg nodup_xxs (fun g s h => (mem_xxs h).1) fun g s h hs => by
      have := (mem_xxs h).2; rw [h0 s hs] at this; exact absurd this (by decide)
  have h2 : Tri cap (S ∪ below c.grids xxs) n (if c.rfm then forGrids c.grids fun g => (rfms c g).map .malloc else [])
      (S ∪ below c.grids xxs ∪ below c.grids (fun g => if c.rfm then rfms c g else [])) n := by
    cases c.rfm with
    | false => simpa [below_nil] using Tri.nil
    | true =>
      refine Tri.mallocGrids _ _ hN (Or.inl hg) (nodup_rfms c) (fun g s h => (mem_rfms c h).1) fun g s h hs => ?_
      have hk := (mem_rfms c h).2
      rcases hs with hs | ⟨g', _, hs⟩
      · rw [h0 s hs] at hk; exact absurd hk (by decide)
      · rw [(mem_xxs hs).2] at hk; exact absurd hk (by decide)
  have h3 : Tri cap (S ∪ below c.grids xxs ∪ below c.grids (fun g => if c.rfm then rfms c g else [])) n
      (if c.bcs then forGrids c.grids fun g => (bcsOf c g).map .malloc else [])
      (S ∪ below c.grids xxs ∪ below c.grids (fun g => if c.rfm then rfms c g else []) ∪ below c.grids (fun g => if c.bcs then bcsOf c g else [])) n := by
    cases c.bcs with
    | false => simpa [below_nil] using Tri.nil
    | true =>
      refine Tri.mallocGrids _ _ hN (Or.inl (Or.inl hg)) (nodup_bcs c) (fun g s h => (mem_bcs c h).1) fun g s h hs => ?_
      have hk := (mem_bcs c h).2
      rcases hs with (hs | ⟨g', _, hs⟩) | ⟨g', _, hs⟩
      · rw [h0 s hs] at hk; exact absurd hk (by decide)
      · rw [(mem_xxs hs).2] at hk; exact absurd hk (by decide)
      · split at hs
        · rw [(mem_rfms c hs).2] at hk; exact absurd hk (by decide)
        · simp at hs
  have e : S ∪ below c.grids (setup c) =
      S ∪ below c.grids xxs ∪ below c.grids (fun g => if c.rfm then rfms c g else []) ∪ below c.grids (fun g => if c.bcs then bcsOf c g else []) := by
    unfold setup
    rw [below_append, below_append, Set.union_assoc, Set.union_assoc]
  rw [e]
  exact (h1.append h2).append h3

theorem initialData_tri (hN : c.grids ≤ cap) (hg : Slot.griddata ∈ S) (hy : ∀ g < c.grids, Slot.y g ∈ S) (hi : Slot.indices ∉ S) (hc : Slot.compact ∉ S) :
    Tri cap S n (initialData c) S (n + if c.restart then c.grids else 0) := by
  unfold initialData
  cases c.restart with
  | false => exact Tri.nil
  | true =>
    refine Tri.grids (cap := cap) c.grids readGrid (fun _ => S) (fun g => n + g) hN (fun _ => hg) fun g hgN => ?_
    have h1 : Tri cap S (n + g) [.malloc .indices] (insert .indices S) (n + g) := Tri.malloc hi
    have h2 : Tri cap (insert .indices S) (n + g) [.malloc .compact] (insert .compact (insert .indices S)) (n + g) := Tri.malloc (by simp [hc])
    have h3 : Tri cap (insert .compact (insert .indices S)) (n + g) [.malloc (.y g)] (insert .compact (insert .indices S)) (n + g + 1) :=
      Tri.malloc_again (by simp [hy g hgN])
    have h4 := Tri.free (cap := cap) (n := n + g + 1) (S := insert .compact (insert .indices S)) (s := .indices) (by simp)
    have h5 := Tri.free (cap := cap) (n := n + g + 1) (S := insert .compact (insert .indices S) \ {.indices}) (s := .compact) (by simp)
    have e : (insert Slot.compact (insert Slot.indices S) \ {.indices}) \ {.compact} = S := by
      ext x
      by_cases x1 : x = .indices <;> by_cases x2 : x = .compact <;> simp_all
    rw [e] at h5
    exact (((h1.append h2).append h3).append h4).append h5

theorem writeGrid_tri {g : ℕ} (hy : Slot.y g ∈ S) (hi : Slot.indices ∉ S) (hc : Slot.compact ∉ S) : Tri cap S n (writeGrid g) S n := by
  have h0 := Tri.free (cap := cap) (n := n) hy
  have h1 := Tri.malloc (cap := cap) (n := n) (S := S \ {.y g}) (s := .indices) (by simp [hi])
  have h2 := Tri.malloc (cap := cap) (n := n) (S := insert .indices (S \ {.y g})) (s := .compact) (by simp [hc])
  have h3 := Tri.free (cap := cap) (n := n) (S := insert .compact (insert .indices (S \ {.y g}))) (s := .indices) (by simp)
  have h4 := Tri.free (cap := cap) (n := n) (S := insert .compact (insert .indices (S \ {.y g})) \ {.indices}) (s := .compact) (by simp)
  have h5 := Tri.malloc (cap := cap) (n := n) (S := (insert .compact (insert .indices (S \ {.y g})) \ {.indices}) \ {.compact}) (s := .y g) (by simp)
  have e : insert (Slot.y g) ((insert .compact (insert .indices (S \ {.y g})) \ {.indices}) \ {.compact}) = S := by
    ext x
    by_cases x1 : x = .indices <;> by_cases x2 : x = .compact <;> by_cases x3 : x = .y g <;> simp_all
  rw [e] at h5
  exact ((((h0.append h1).append h2).append h3).append h4).append h5

theorem evolve_tri (hN : c.grids ≤ cap) (hg : Slot.griddata ∈ S) (hy : ∀ g < c.grids, Slot.y g ∈ S) (hi : Slot.indices ∉ S) (hc : Slot.compact ∉ S) :
    Tri cap S n (evolve c) S n := by
  unfold evolve
  induction c.steps with
  | nil => exact Tri.nil
  | cons b l ih =>
    rw [List.flatMap_cons]
    refine Tri.append ?_ ih
    cases b with
    | false => exact Tri.nil
    | true => exact Tri.grids (cap := cap) c.grids writeGrid (fun _ => S) (fun _ => n) hN (fun _ => hg) fun g hgN => writeGrid_tri (hy g hgN) hi hc

/-- All pointers of a grid. -/
def all (g : ℕ) : List Slot := setup c g ++ [.y g] ++ nons c g

/-- The pointers after the gridfunctions are allocated. -/
theorem memory_tri (hN : c.grids ≤ cap) (hg : Slot.griddata ∈ S) (h0 : ∀ s ∈ S, kind s = 0) (hi : Slot.indices ∉ S) (hc : Slot.compact ∉ S) :
    Tri cap S n (numericalGrids c ++ forGrids c.grids (fun g => [.malloc (.y g)]) ++
      (if c.auxFirst then forGrids c.grids (fun g => (nons c g).map .malloc) ++ initialData c
        else initialData c ++ forGrids c.grids (fun g => (nons c g).map .malloc)) ++ evolve c)
      (S ∪ below c.grids (all c)) (n + if c.restart then c.grids else 0) := by
  have eq : S ∪ below c.grids (all c) = S ∪ below c.grids (setup c) ∪ below c.grids (fun g => [.y g]) ∪ below c.grids (nons c) := by
    unfold all
    rw [below_append, below_append, Set.union_assoc, Set.union_assoc, Set.union_assoc]
  have notIn : ∀ x : Slot, kind x = 0 → x ∉ S → x ∉ S ∪ below c.grids (setup c) ∪ below c.grids (fun g => [.y g]) := by
    rintro x hx hxS ((h | ⟨g, _, h⟩) | ⟨g, _, h⟩)
    · exact hxS h
    · have := (kind_setup c h).2.1; omega
    · have := (mem_ys h).2; omega
  have notIn' : ∀ x : Slot, kind x = 0 → x ∉ S → x ∉ S ∪ below c.grids (setup c) ∪ below c.grids (fun g => [.y g]) ∪ below c.grids (nons c) := by
    rintro x hx hxS (h | ⟨g, _, h⟩)
    · exact notIn x hx hxS h
    · have := (mem_nons c h).2; omega
  have hyB : ∀ g < c.grids, Slot.y g ∈ S ∪ below c.grids (setup c) ∪ below c.grids (fun g => [.y g]) := fun g hgN => Or.inr ⟨g, hgN, by simp⟩
  have h1 := numericalGrids_tri (n := n) c hN hg h0
  have h2 : Tri cap (S ∪ below c.grids (setup c)) n (forGrids c.grids fun g => [.malloc (.y g)])
      (S ∪ below c.grids (setup c) ∪ below c.grids (fun g => [.y g])) n := by
    refine Tri.mallocGrids c.grids (fun g => [.y g]) hN (Or.inl hg) (fun g => by simp) (fun g s h => (mem_ys h).1) fun g s h hs => ?_
    have hk := (mem_ys h).2
    rcases hs with hs | ⟨g', _, hs⟩
    · rw [h0 s hs] at hk; exact absurd hk (by decide)
    · have := (kind_setup c hs).2.2; omega
  have h3 : ∀ k, Tri cap (S ∪ below c.grids (setup c) ∪ below c.grids (fun g => [.y g])) k (forGrids c.grids fun g => (nons c g).map .malloc)
      (S ∪ below c.grids (setup c) ∪ below c.grids (fun g => [.y g]) ∪ below c.grids (nons c)) k := by
    intro k
    refine Tri.mallocGrids c.grids (nons c) hN (Or.inl (Or.inl hg)) (nodup_nons c) (fun g s h => (mem_nons c h).1) fun g s h hs => ?_
    have hk := (mem_nons c h).2
    rcases hs with (hs | ⟨g', _, hs⟩) | ⟨g', _, hs⟩
    · rw [h0 s hs] at hk; exact absurd hk (by decide)
    · have := (kind_setup c hs).2.2; omega
    · have := (mem_ys hs).2; omega
  rw [eq]
  have h4 := fun k => evolve_tri (n := k) c hN (Or.inl (Or.inl (Or.inl hg)) :
      Slot.griddata ∈ S ∪ below c.grids (setup c) ∪ below c.grids (fun g => [.y g]) ∪ below c.grids (nons c))
    (fun g hgN => Or.inl (hyB g hgN)) (notIn' _ rfl hi) (notIn' _ rfl hc)
  refine Tri.append (Tri.append (h1.append h2) ?_) (h4 _)
  cases c.auxFirst with
  | true =>
    exact (h3 n).append (initialData_tri c hN (Or.inl (Or.inl (Or.inl hg))) (fun g hgN => Or.inl (hyB g hgN)) (notIn' _ rfl hi) (notIn' _ rfl hc))
  | false =>
    exact (initialData_tri c hN (Or.inl (Or.inl hg)) hyB (notIn _ rfl hi) (notIn _ rfl hc)).append (h3 _)

theorem nodup_kind {a b : List Slot} (ha : a.Nodup) (hb : b.Nodup) (h : ∀ x ∈ a, ∀ z ∈ b, kind x ≠ kind z) : (a ++ b).Nodup := by
  rw [List.nodup_append]
  exact ⟨ha, hb, fun x hx z hz e => h x hx z hz (by rw [e])⟩

/-- What `griddata_free` frees of a grid is all, if it is generated with the same choices as the grids. -/
theorem mem_freed (hr : c.freeRfm = c.rfm) (hb : c.freeBcs = c.bcs) (g : ℕ) (s : Slot) :
    s ∈ ((if c.freeRfm then rfms c g else []) ++ (if c.freeBcs then Slot.inner g :: (List.range (c.ng * 3)).map (Slot.outer g) else []) ++
      [Slot.y g] ++ nons c g ++ xxs g) ↔ s ∈ all c g := by
  unfold all setup
  rw [hr, hb, ← bcsOf_eq]
  simp only [List.mem_append]
  tauto

theorem nodup_freed (g : ℕ) : ((if c.freeRfm then rfms c g else []) ++ (if c.freeBcs then Slot.inner g :: (List.range (c.ng * 3)).map (Slot.outer g) else []) ++
      [Slot.y g] ++ nons c g ++ xxs g).Nodup := by
  rw [← bcsOf_eq]
  have k2 : ∀ x ∈ (if c.freeRfm then rfms c g else []), kind x = 2 := by
    intro x hx
    split at hx
    · exact (mem_rfms c hx).2
    · simp at hx
  have k3 : ∀ x ∈ (if c.freeBcs then bcsOf c g else []), kind x = 3 := by
    intro x hx
    split at hx
    · exact (mem_bcs c hx).2
    · simp at hx
  have n2 : (if c.freeRfm then rfms c g else []).Nodup := by split; exacts [nodup_rfms c g, List.nodup_nil]
  have n3 : (if c.freeBcs then bcsOf c g else []).Nodup := by split; exacts [nodup_bcs c g, List.nodup_nil]
  refine nodup_kind (nodup_kind (nodup_kind (nodup_kind n2 n3 ?_) (by simp) ?_) (nodup_nons c g) ?_) (nodup_xxs g) ?_
  · intro x hx z hz; rw [k2 x hx, k3 z hz]; decide
  · intro x hx z hz
    rw [(mem_ys hz).2]
    rcases List.mem_append.mp hx with hx | hx
    · rw [k2 x hx]; decide
    · rw [k3 x hx]; decide
  · intro x hx z hz
    rw [(mem_nons c hz).2]
    rcases List.mem_append.mp hx with hx | hx
    · rcases List.mem_append.mp hx with hx | hx
      · rw [k2 x hx]; decide
      · rw [k3 x hx]; decide
    · rw [(mem_ys hx).2]; decide
  · intro x hx z hz
    rw [(mem_xxs hz).2]
    rcases List.mem_append.mp hx with hx | hx
    · rcases List.mem_append.mp hx with hx | hx
      · rcases List.mem_append.mp hx with hx | hx
        · rw [k2 x hx]; decide
        · rw [k3 x hx]; decide
      · rw [(mem_ys hx).2]; decide
    · rw [(mem_nons c hx).2]; decide

theorem owner_all {g : ℕ} {s : Slot} (h : s ∈ all c g) : owner s = some g := by
  unfold all at h
  rw [List.mem_append, List.mem_append] at h
  rcases h with (h | h) | h
  · exact (kind_setup c h).1
  · exact (mem_ys h).1
  · exact (mem_nons c h).1

theorem start_alloc (k : ℕ) : ∃ m, run .empty [.alloc k] = some m ∧ Holds m {Slot.griddata} ∅ ∧ m.cap = k := by
  refine ⟨_, rfl, ?_, rfl⟩
  have h := Holds.empty.malloc (s := .griddata) (by simp)
  rw [insert_empty_eq] at h
  exact ⟨h.set, h.inj, h.live, h.lost, h.next⟩

theorem main_leaves (hr : c.freeRfm = c.rfm) (hb : c.freeBcs = c.bcs) (hN : c.grids ≤ c.maxGrids) :
    Leaves (mainProg c) (if c.restart then c.grids else 0) := by
  obtain ⟨m0, e0, h0, c0⟩ := start_alloc c.maxGrids
  have h1 := memory_tri (S := {Slot.griddata}) (n := 0) c hN rfl (by simp [kind]) (by simp) (by simp)
  have hfree : Tri c.maxGrids ({Slot.griddata} ∪ below c.grids (all c)) (0 + if c.restart then c.grids else 0) (griddataFree c) ∅
      (0 + if c.restart then c.grids else 0) := by
    unfold griddataFree
    have h2 := Tri.freeGrids (cap := c.maxGrids) (n := 0 + if c.restart then c.grids else 0) (S := {Slot.griddata} ∪ below c.grids (all c)) c.grids
      (fun g => (if c.freeRfm then rfms c g else []) ++ (if c.freeBcs then Slot.inner g :: (List.range (c.ng * 3)).map (Slot.outer g) else []) ++
        [Slot.y g] ++ nons c g ++ xxs g) hN (Or.inl rfl) (nodup_freed c)
      (fun g s hs => owner_all c ((mem_freed c hr hb g s).mp hs)) (fun g hg s hs => Or.inr ⟨g, hg, (mem_freed c hr hb g s).mp hs⟩)
    have e : ({Slot.griddata} ∪ below c.grids (all c)) \ below c.grids (fun g => (if c.freeRfm then rfms c g else []) ++
        (if c.freeBcs then Slot.inner g :: (List.range (c.ng * 3)).map (Slot.outer g) else []) ++ [Slot.y g] ++ nons c g ++ xxs g) = {Slot.griddata} := by
      ext s
      simp only [Set.mem_diff, Set.mem_union, Set.mem_singleton_iff]
      constructor
      · rintro ⟨h | ⟨g, hg, h⟩, hn⟩
        · exact h
        · exact absurd ⟨g, hg, (mem_freed c hr hb g s).mpr h⟩ hn
      · rintro rfl
        refine ⟨Or.inl rfl, ?_⟩
        rintro ⟨g, _, h⟩
        exact absurd (owner_all c ((mem_freed c hr hb g _).mp h)) (by simp [owner])
    rw [e] at h2
    have h3 := Tri.free (cap := c.maxGrids) (n := 0 + if c.restart then c.grids else 0) (S := {Slot.griddata}) (s := .griddata) rfl
    rw [Set.diff_self] at h3
    exact h2.append h3
  obtain ⟨m, L, e, hm, hL, _⟩ := (h1.append hfree) m0 ∅ h0 rfl c0
  refine ⟨m, ?_, ?_⟩
  · have : mainProg c = [.alloc c.maxGrids] ++ (numericalGrids c ++ forGrids c.grids (fun g => [.malloc (.y g)]) ++
        (if c.auxFirst then forGrids c.grids (fun g => (nons c g).map .malloc) ++ initialData c
          else initialData c ++ forGrids c.grids (fun g => (nons c g).map .malloc)) ++ evolve c ++ griddataFree c) := by
      simp [mainProg, List.append_assoc]
    rw [this, run_append, e0]
    exact e
  · have : m.live = L := by
      ext b
      rw [hm.live b]
      simp
    rw [this, hL, Nat.zero_add]

/-- **C117** (main): a run that does not start from a checkpoint frees every block it allocates once, and only such blocks, and uses only structs that
exist, for any number of grids, boundary layers, arrays and gridfunctions, any number of steps and any checkpoints written. Missing for the full
property: runs that start from a checkpoint. -/
theorem C117_main_partial (hr : c.freeRfm = c.rfm) (hb : c.freeBcs = c.bcs) (hN : c.grids ≤ c.maxGrids) (h : c.restart = false) :
    Leaves (mainProg c) 0 := by
  have := main_leaves c hr hb hN
  rw [h] at this
  exact this

/-- **C117** (main, finding): a run that starts from a checkpoint loses one array of all evolved gridfunctions for each grid. -/
theorem C117_restart_violation (hr : c.freeRfm = c.rfm) (hb : c.freeBcs = c.bcs) (hN : c.grids ≤ c.maxGrids) (h : c.restart = true) :
    Leaves (mainProg c) c.grids := by
  have := main_leaves c hr hb hN
  rw [h] at this
  exact this

/-! ### The library -/

/-- The number of allocated blocks. -/
theorem Holds.card : ∀ (l : List Slot) (m : Mem) (L : Finset ℕ), l.Nodup → Holds m {s | s ∈ l} L → m.live.card = l.length + L.card
  | [], m, L, _, h => by
    have : m.live = L := by ext b; rw [h.live b]; simp
    simp [this]
  | s :: l, m, L, nd, h => by
    obtain ⟨b, hb⟩ := h.set s List.mem_cons_self
    have hl := h.ptr_live (s := s) List.mem_cons_self hb
    obtain ⟨m', e, h', _⟩ := h.free (s := s) List.mem_cons_self
    have es : ({x | x ∈ s :: l} \ {s} : Set Slot) = {x | x ∈ l} := by
      ext x
      simp only [Set.mem_diff, Set.mem_setOf_eq, List.mem_cons, Set.mem_singleton_iff]
      constructor
      · rintro ⟨h | h, hn⟩
        · exact absurd h hn
        · exact h
      · exact fun h => ⟨Or.inr h, fun e => (List.nodup_cons.mp nd).1 (e ▸ h)⟩
    rw [es] at h'
    have ih := Holds.card l m' L (List.nodup_cons.mp nd).2 h'
    have em : m' = { m with live := m.live.erase b } := by
      simp only [exec, hb, hl, if_true, Option.some.injEq] at e
      exact e.symm
    rw [em, Finset.card_erase_of_mem hl] at ih
    have := Finset.card_pos.mpr ⟨b, hl⟩
    simp only [List.length_cons]
    omega

/-- Pointers that `bhah_finalize` leaves. -/
def kept (g : ℕ) : List Slot := xxs g ++ (if c.bcs then bcsOf c g else [])

theorem kept_kind {g : ℕ} {s : Slot} (h : s ∈ kept c g) : owner s = some g ∧ (kind s = 1 ∨ kind s = 3) := by
  unfold kept at h
  rcases List.mem_append.mp h with h | h
  · exact ⟨(mem_xxs h).1, Or.inl (mem_xxs h).2⟩
  · split at h
    · exact ⟨(mem_bcs c h).1, Or.inr (mem_bcs c h).2⟩
    · simp at h

theorem nodup_kept : ((List.range c.grids).flatMap (kept c)).Nodup := by
  rw [List.nodup_flatMap]
  refine ⟨fun g _ => ?_, ?_⟩
  · refine nodup_kind (nodup_xxs g) (by split; exacts [nodup_bcs c g, List.nodup_nil]) fun x hx z hz => ?_
    split at hz
    · rw [(mem_xxs hx).2, (mem_bcs c hz).2]; decide
    · simp at hz
  · refine List.Pairwise.imp ?_ (List.nodup_range (n := c.grids))
    intro a b hab s ha hb
    exact hab (Option.some.inj ((kept_kind c ha).1.symm.trans (kept_kind c hb).1))

theorem start_lib (k : ℕ) : ∃ m, run .empty [.malloc .handle, .malloc .common, .alloc k] = some m ∧
    Holds m {Slot.griddata, Slot.common, Slot.handle} ∅ ∧ m.cap = k := by
  refine ⟨_, rfl, ?_, rfl⟩
  have h := ((Holds.empty.malloc (s := .handle) (by simp)).malloc (s := .common) (by simp)).malloc (s := .griddata) (by simp)
  rw [insert_empty_eq] at h
  exact ⟨h.set, h.inj, h.live, h.lost, h.next⟩

theorem mallocs_pair (g : ℕ) : [Op.malloc (.y g)] ++ (nons c g).map .malloc = ([Slot.y g] ++ nons c g).map .malloc := rfl

theorem lib_leaves (hr : c.rfm = true) : Leaves (libProg c c.grids)
    (((List.range c.grids).flatMap (kept c)).length + if c.restart then c.grids else 0) := by
  obtain ⟨m0, e0, h0, c0⟩ := start_lib c.grids
  let S : Set Slot := {Slot.griddata, Slot.common, Slot.handle}
  have hS : ∀ s ∈ S, kind s = 0 := by rintro s (rfl | rfl | rfl) <;> rfl
  have hg : Slot.griddata ∈ S := Or.inl rfl
  have hi : Slot.indices ∉ S := by rintro (h | h | h) <;> exact absurd h (by simp)
  have hc : Slot.compact ∉ S := by rintro (h | h | h) <;> exact absurd h (by simp)
  have eq : S ∪ below c.grids (all c) = S ∪ below c.grids (setup c) ∪ below c.grids (fun g => [Slot.y g] ++ nons c g) := by
    unfold all
    rw [below_append, below_append, below_append, Set.union_assoc, Set.union_assoc]
  have notIn : ∀ x : Slot, kind x = 0 → x ∉ S → x ∉ S ∪ below c.grids (all c) := by
    rintro x hx hxS (h | ⟨g, _, h⟩)
    · exact hxS h
    · have := owner_all c h
      cases x <;> simp [kind, owner] at hx this
  have hy : ∀ g < c.grids, Slot.y g ∈ S ∪ below c.grids (all c) := fun g h => Or.inr ⟨g, h, by simp [all]⟩
  have h1 := numericalGrids_tri (cap := c.grids) (n := 0) c (le_refl _) hg hS
  have h2 : Tri c.grids (S ∪ below c.grids (setup c)) 0 (forGrids c.grids fun g => [.malloc (.y g)] ++ (nons c g).map .malloc)
      (S ∪ below c.grids (all c)) 0 := by
    rw [eq]
    refine Tri.mallocGrids c.grids (fun g => [Slot.y g] ++ nons c g) (le_refl _) (Or.inl hg) (fun g => ?_) (fun g s h => ?_) fun g s h hs => ?_
    · exact nodup_kind (by simp) (nodup_nons c g) fun x hx z hz => by rw [(mem_ys hx).2, (mem_nons c hz).2]; decide
    · rcases List.mem_append.mp h with h | h
      · exact (mem_ys h).1
      · exact (mem_nons c h).1
    · have hk : 4 ≤ kind s := by
        rcases List.mem_append.mp h with h | h
        · rw [(mem_ys h).2]
        · rw [(mem_nons c h).2]; decide
      rcases hs with hs | ⟨g', _, hs⟩
      · rw [hS s hs] at hk; omega
      · have := (kind_setup c hs).2.2; omega
  have h3 := initialData_tri (cap := c.grids) (n := 0) c (le_refl _) (Or.inl hg : Slot.griddata ∈ S ∪ below c.grids (all c)) hy
    (notIn _ rfl hi) (notIn _ rfl hc)
  have h4 := evolve_tri (cap := c.grids) (n := 0 + if c.restart then c.grids else 0) c (le_refl _)
    (Or.inl hg : Slot.griddata ∈ S ∪ below c.grids (all c)) hy (notIn _ rfl hi) (notIn _ rfl hc)
  have memF : ∀ g s, s ∈ ([Slot.y g] ++ nons c g ++ rfms c g) → s ∈ all c g := by
    intro g s h
    simp only [all, setup, hr, if_true, List.mem_append] at h ⊢
    tauto
  have kindF : ∀ g s, s ∈ ([Slot.y g] ++ nons c g ++ rfms c g) → kind s = 4 ∨ kind s = 5 ∨ kind s = 2 := by
    intro g s h
    rcases List.mem_append.mp h with h | h
    · rcases List.mem_append.mp h with h | h
      · exact Or.inl (mem_ys h).2
      · exact Or.inr (Or.inl (mem_nons c h).2)
    · exact Or.inr (Or.inr (mem_rfms c h).2)
  have h5 := Tri.freeGrids (cap := c.grids) (n := 0 + if c.restart then c.grids else 0) (S := S ∪ below c.grids (all c)) c.grids
    (fun g => [Slot.y g] ++ nons c g ++ rfms c g) (le_refl _) (Or.inl hg) (fun g => by
      refine nodup_kind (nodup_kind (by simp) (nodup_nons c g) ?_) (nodup_rfms c g) ?_
      · intro x hx z hz; rw [(mem_ys hx).2, (mem_nons c hz).2]; decide
      · intro x hx z hz
        rw [(mem_rfms c hz).2]
        rcases List.mem_append.mp hx with hx | hx
        · rw [(mem_ys hx).2]; decide
        · rw [(mem_nons c hx).2]; decide)
    (fun g s h => owner_all c (memF g s h)) (fun g hg s h => Or.inr ⟨g, hg, memF g s h⟩)
  have e5 : (S ∪ below c.grids (all c)) \ below c.grids (fun g => [Slot.y g] ++ nons c g ++ rfms c g) = S ∪ below c.grids (kept c) := by
    ext s
    constructor
    · rintro ⟨h | ⟨g, hg, h⟩, hn⟩
      · exact Or.inl h
      · refine Or.inr ⟨g, hg, ?_⟩
        by_contra hk
        refine hn ⟨g, hg, ?_⟩
        simp only [all, setup, hr, if_true, kept, List.mem_append] at h hk ⊢
        tauto
    · rintro (h | ⟨g, hg, h⟩)
      · refine ⟨Or.inl h, ?_⟩
        rintro ⟨g, _, h'⟩
        have := kindF g s h'
        rw [hS s h] at this
        omega
      · refine ⟨Or.inr ⟨g, hg, ?_⟩, ?_⟩
        · simp only [all, setup, kept, List.mem_append] at h ⊢
          tauto
        · rintro ⟨g', _, h'⟩
          have := kindF g' s h'
          have := (kept_kind c h).2
          omega
  rw [e5] at h5
  have out : ∀ s ∈ S, s ∉ below c.grids (kept c) := by
    rintro s hs ⟨g, _, h⟩
    have := (kept_kind c h).2
    rw [hS s hs] at this
    omega
  have h6 := Tri.frees (cap := c.grids) (n := 0 + if c.restart then c.grids else 0) [.common, .griddata, .handle] (S ∪ below c.grids (kept c)) (by decide)
    (by simp [S])
  have e6 : (S ∪ below c.grids (kept c)) \ {s | s ∈ [Slot.common, .griddata, .handle]} = {s | s ∈ (List.range c.grids).flatMap (kept c)} := by
    ext s
    simp only [Set.mem_diff, Set.mem_union, Set.mem_setOf_eq, List.mem_cons, List.not_mem_nil, or_false, List.mem_flatMap, List.mem_range]
    constructor
    · rintro ⟨h | h, hn⟩
      · refine absurd ?_ hn
        rcases h with rfl | rfl | rfl <;> simp
      · exact h
    · intro h
      refine ⟨Or.inr h, fun hs => out s ?_ h⟩
      rcases hs with rfl | rfl | rfl <;> simp [S]
  rw [e6] at h6
  obtain ⟨m, L, e, hm, hL, _⟩ := (((((h1.append h2).append h3).append h4).append h5).append h6) m0 ∅ h0 rfl c0
  refine ⟨m, ?_, ?_⟩
  · have : libProg c c.grids = [.malloc .handle, .malloc .common, .alloc c.grids] ++ (numericalGrids c ++
        forGrids c.grids (fun g => [.malloc (.y g)] ++ (nons c g).map .malloc) ++ initialData c ++ evolve c ++
        forGrids c.grids (fun g => ([Slot.y g] ++ nons c g ++ rfms c g).map .free) ++ [Slot.common, .griddata, .handle].map .free) := by
      simp [libProg, List.append_assoc]
    rw [this, run_append, e0]
    exact e
  · rw [Holds.card _ m L (nodup_kept c) hm, hL, Nat.zero_add]

/-- **C117** (library, finding): `bhah_finalize` leaves the coordinate arrays of all grids and the arrays of the boundary conditions, and, after a start
from a checkpoint, an array of gridfunctions for each grid. -/
theorem C117_library_violation (hr : c.rfm = true) : Leaves (libProg c c.grids)
    (c.grids * (3 + (if c.bcs then 1 + c.ng * 3 else 0)) + if c.restart then c.grids else 0) := by
  have := lib_leaves c hr
  have e : ((List.range c.grids).flatMap (kept c)).length = c.grids * (3 + (if c.bcs then 1 + c.ng * 3 else 0)) := by
    rw [List.length_flatMap]
    have : ∀ g, (kept c g).length = 3 + (if c.bcs then 1 + c.ng * 3 else 0) := by
      intro g
      unfold kept
      rw [List.length_append]
      split
      · simp [bcsOf_eq, xxs, Nat.add_comm]
      · simp [xxs]
    simp [this]
  rw [e] at this
  exact this

/-- **C117** (library, finding): if `numerical_grids_and_timestep` sets more grids than the default of `NUMGRIDS`, structs are used that do not exist. -/
theorem C117_library_bounds_violation (n0 : ℕ) (h : n0 < c.grids) : run .empty (libProg c n0) = none := by
  obtain ⟨m0, e0, h0, c0⟩ := start_lib n0
  let S : Set Slot := {Slot.griddata, Slot.common, Slot.handle}
  have hS : ∀ s ∈ S, kind s = 0 := by rintro s (rfl | rfl | rfl) <;> rfl
  have h1 : Tri n0 S 0 (forGrids n0 fun g => (xxs g).map .malloc) (S ∪ below n0 xxs) 0 :=
    Tri.mallocGrids _ _ (le_refl _) (Or.inl rfl) nodup_xxs (fun g s h => (mem_xxs h).1) fun g s h hs => by
      have := (mem_xxs h).2; rw [hS s hs] at this; exact absurd this (by decide)
  obtain ⟨m, L, e, hm, _, hcap⟩ := h1 m0 ∅ h0 rfl c0
  have ht : exec m (.touch n0) = none := by
    obtain ⟨b, hb⟩ := hm.set .griddata (Or.inl (Or.inl rfl))
    simp [exec, hb, hcap]
  have split : forGrids c.grids (fun g => (xxs g).map Op.malloc) = forGrids n0 (fun g => (xxs g).map Op.malloc) ++
      Op.touch n0 :: ((xxs n0).map Op.malloc ++ ((List.range' (n0 + 1) (c.grids - n0 - 1)).flatMap fun g => Op.touch g :: (xxs g).map Op.malloc)) := by
    unfold forGrids
    have : List.range c.grids = List.range n0 ++ n0 :: List.range' (n0 + 1) (c.grids - n0 - 1) := by
      rw [List.range_eq_range', List.range_eq_range', ← List.range'_succ, ]
      have := List.range'_append (s := 0) (m := n0) (n := c.grids - n0 - 1 + 1) (step := 1)
      rw [Nat.one_mul, Nat.zero_add] at this
      rw [this]
      congr 1
      omega
    rw [this, List.flatMap_append, List.flatMap_cons]
    rfl
  have : libProg c n0 = [.malloc .handle, .malloc .common, .alloc n0] ++ (forGrids n0 (fun g => (xxs g).map Op.malloc) ++ Op.touch n0 ::
      ((xxs n0).map Op.malloc ++ ((List.range' (n0 + 1) (c.grids - n0 - 1)).flatMap fun g => Op.touch g :: (xxs g).map Op.malloc) ++
      (if c.rfm then forGrids c.grids fun g => (rfms c g).map .malloc else []) ++
      (if c.bcs then forGrids c.grids fun g => (bcsOf c g).map .malloc else []) ++
      forGrids n0 (fun g => [.malloc (.y g)] ++ (nons c g).map .malloc) ++ initialData c ++ evolve c ++
      forGrids c.grids (fun g => ([Slot.y g] ++ nons c g ++ rfms c g).map .free) ++
      [.free .common, .free .griddata, .free .handle])) := by
    unfold libProg numericalGrids
    rw [split]
    simp [List.append_assoc]
  rw [this, run_append, e0]
  show run m0 (_ ++ _) = none
  rw [run_append, e]
  show run m (_ :: _) = none
  simp [run, ht]

end

/-- Two grids with boundary conditions, three steps with one checkpoint. -/
def exConfig : Config := ⟨2, 15, 3, true, true, true, true, fun _ => 4, 2, false, false, [false, true, false]⟩

example : exConfig.freeRfm = exConfig.rfm ∧ exConfig.freeBcs = exConfig.bcs ∧ exConfig.grids ≤ exConfig.maxGrids ∧ exConfig.restart = false ∧
    (mainProg exConfig).length = 108 := by decide

end Verif.BHaH.Heap
