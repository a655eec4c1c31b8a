import Verif.CurviBC.Lists

/-! # C64: every ghost point is in exactly one list of boundary points -/
namespace Verif.CurviBC
open Verif.Loop

/-- A ghost point: in the grid and not in its interior. -/
def Grid.Ghost (G : Grid) (p : Idx) : Prop := G.Has p ∧ ¬ ∀ d, (G.g : ℤ) ≤ p d ∧ p d < G.n d - G.g

theorem inInterior_iff {G : Grid} {p : Idx} :
    G.inInterior p = true ↔ ∀ d, (G.g : ℤ) ≤ p d ∧ p d < G.n d - G.g := by
  unfold Grid.inInterior
  simp only [Bool.and_eq_true, decide_eq_true_eq, ge_iff_le]
  constructor
  · rintro ⟨⟨h0, h1⟩, h2⟩ d
    fin_cases d
    · exact h0
    · exact h1
    · exact h2
  · intro h
    exact ⟨⟨h 0, h 1⟩, h 2⟩

theorem ghost_iff {G : Grid} {p : Idx} : G.Ghost p ↔ p ∈ loop ![0, 0, 0] G.n ∧ G.inInterior p = false := by
  unfold Grid.Ghost
  rw [Bool.eq_false_iff, Ne, inInterior_iff, mem_loop]
  refine and_congr_left fun _ => forall_congr' fun d => ?_
  fin_cases d <;> exact Iff.rfl

/-! ### Inner points -/

theorem countInner_eq {G : Grid} {m : Maps} : ∀ {l : List Idx} {k : ℕ} {a : List InnerPt}, countInner G m l = some k →
    fillInner G m l = some a → a.length = k
  | [], k, a, h1, h2 => by cases h1; cases h2; rfl
  | p :: l, k, a, h1, h2 => by
    simp only [countInner, fillInner] at h1 h2
    split at h1
    · next hi => rw [if_pos hi] at h2; exact countInner_eq h1 h2
    · next hi =>
      rw [if_neg hi] at h2
      obtain ⟨q, hq, h1⟩ := Option.bind_eq_some_iff.1 h1
      obtain ⟨k', hk, h1⟩ := Option.map_eq_some_iff.1 h1
      rw [hq] at h2
      simp only [Option.bind_some] at h2
      split at h2
      · next e => rw [if_pos e] at h1; subst h1; exact countInner_eq hk h2
      · next e =>
        rw [if_neg e] at h1; subst h1
        obtain ⟨par, hpar, h2⟩ := Option.bind_eq_some_iff.1 h2
        obtain ⟨r, hr, h2⟩ := Option.map_eq_some_iff.1 h2
        subst h2
        rw [List.length_cons, countInner_eq hk hr]

/-- The entry of `inner_bc_array` made for the point `p`. -/
def IsEntry (G : Grid) (m : Maps) (p : Idx) (e : InnerPt) : Prop :=
  ∃ q par, m.partner p = some q ∧ q ≠ p ∧ m.parity p q = some par ∧ e = ⟨G.at p, G.at q, par⟩

/-- `inner_bc_array` holds the entries of the inner points in the order of the loop. -/
theorem fillInner_spec {G : Grid} {m : Maps} : ∀ {l : List Idx} {a : List InnerPt}, fillInner G m l = some a →
    List.Forall₂ (IsEntry G m) (l.filter fun p => !G.inInterior p && decide (m.partner p ≠ some p)) a ∧
    ∀ p ∈ l, G.inInterior p = false → ∃ q, m.partner p = some q
  | [], a, h => by cases h; exact ⟨.nil, by simp⟩
  | p :: l, a, h => by
    simp only [fillInner] at h
    split at h
    · next hi =>
      obtain ⟨f, t⟩ := fillInner_spec h
      refine ⟨by simpa [List.filter_cons, hi] using f, ?_⟩
      intro p' hp' hi'
      rcases List.mem_cons.1 hp' with rfl | hp'
      · rw [hi] at hi'; cases hi'
      · exact t p' hp' hi'
    · next hi =>
      obtain ⟨q, hq, h⟩ := Option.bind_eq_some_iff.1 h
      have tot : ∀ t, (∀ p ∈ l, G.inInterior p = false → ∃ q, m.partner p = some q) → t ∈ p :: l →
          G.inInterior t = false → ∃ q, m.partner t = some q := by
        intro t ht hm hi'
        rcases List.mem_cons.1 hm with rfl | hm
        · exact ⟨q, hq⟩
        · exact ht t hm hi'
      split at h
      · next e =>
        rw [idx_eq_iff] at e; subst e
        obtain ⟨f, t⟩ := fillInner_spec h
        exact ⟨by simpa [List.filter_cons, hi, hq] using f, fun p' => tot p' t⟩
      · next e =>
        rw [idx_eq_iff] at e
        obtain ⟨par, hpar, h⟩ := Option.bind_eq_some_iff.1 h
        obtain ⟨r, hr, h⟩ := Option.map_eq_some_iff.1 h
        subst h
        obtain ⟨f, t⟩ := fillInner_spec hr
        refine ⟨?_, fun p' => tot p' t⟩
        have hne : m.partner p ≠ some p := by rw [hq]; intro c; exact e (Option.some.inj c).symm
        rw [List.filter_cons_of_pos (by simp [hi, hne])]
        exact .cons ⟨q, par, hq, fun c => e c.symm, hpar, rfl⟩ f

theorem fillInner_some {G : Grid} {m : Maps} : ∀ {l : List Idx},
    (∀ p ∈ l, G.inInterior p = false → ∃ q, m.partner p = some q ∧ (q ≠ p → ∃ par, m.parity p q = some par)) →
    ∃ k a, countInner G m l = some k ∧ fillInner G m l = some a
  | [], _ => ⟨0, [], rfl, rfl⟩
  | p :: l, h => by
    obtain ⟨k, a, hk, ha⟩ := fillInner_some (l := l) fun p' hp' => h p' (List.mem_cons_of_mem _ hp')
    simp only [countInner, fillInner]
    by_cases hi : G.inInterior p = true
    · exact ⟨k, a, by rw [if_pos hi, hk], by rw [if_pos hi, ha]⟩
    · obtain ⟨q, hq, hpar⟩ := h p List.mem_cons_self (by simpa using hi)
      rw [if_neg hi, if_neg hi, hq, hk]
      by_cases e : p 0 = q 0 ∧ p 1 = q 1 ∧ p 2 = q 2
      · exact ⟨k, a, by simp [e], by simp [e, ha]⟩
      · obtain ⟨par, hp⟩ := hpar fun c => e (idx_eq_iff.2 c.symm)
        exact ⟨k + 1, ⟨G.at p, G.at q, par⟩ :: a, by simp [e], by simp [e, ha, hp]⟩

/-! ### Outer points -/

theorem corners_eq (G : Grid) : ∀ gz : ℕ, corners G gz =
    ((![G.g - gz, G.g - gz, G.g - gz] : Idx), ![G.n 0 - G.g + gz, G.n 1 - G.g + gz, G.n 2 - G.g + gz])
  | 0 => by simp [corners]
  | gz + 1 => by
    simp only [corners, corners_eq G gz, zoneRanges, Prod.mk.injEq]
    constructor <;> (apply idx_ext <;> simp <;> ring)

/-- A face of the shell number `gz`: the coordinate `d` is fixed, those before it range over the shell, those after it
over what the shell surrounds. -/
def OnFace (G : Grid) (gz : ℕ) (d : Fin 3) (upper : Bool) (p : Idx) : Prop :=
  (if upper then p d = G.n d - G.g + gz else p d = G.g - gz - 1) ∧
  (∀ e, e < d → (G.g : ℤ) - gz - 1 ≤ p e ∧ p e < G.n e - G.g + gz + 1) ∧
  ∀ e, d < e → (G.g : ℤ) - gz ≤ p e ∧ p e < G.n e - G.g + gz

theorem mem_lower {G : Grid} {gz : ℕ} {d : Fin 3} {p : Idx} :
    p ∈ loop (faceRanges G gz d).1.lo (faceRanges G gz d).1.hi ↔ OnFace G gz d false p := by
  rw [mem_loop]
  unfold faceRanges OnFace
  rw [corners_eq]
  fin_cases d <;> simp [zoneRanges, Fin.forall_fin_succ] <;> omega

theorem mem_upper {G : Grid} {gz : ℕ} {d : Fin 3} {p : Idx} :
    p ∈ loop (faceRanges G gz d).2.lo (faceRanges G gz d).2.hi ↔ OnFace G gz d true p := by
  rw [mem_loop]
  unfold faceRanges OnFace
  rw [corners_eq]
  fin_cases d <;> simp [zoneRanges, Fin.forall_fin_succ] <;> omega

theorem exists_face {G : Grid} {p : Idx} (h : G.Ghost p) : ∃ gz < G.g, ∃ d u, OnFace G gz d u p := by
  obtain ⟨h0, h1⟩ := h
  have a0 := h0 0
  have a1 := h0 1
  have a2 := h0 2
  have h1 : ¬ (((G.g : ℤ) ≤ p 0 ∧ p 0 < G.n 0 - G.g) ∧ ((G.g : ℤ) ≤ p 1 ∧ p 1 < G.n 1 - G.g) ∧
      ((G.g : ℤ) ≤ p 2 ∧ p 2 < G.n 2 - G.g)) := by
    intro h; apply h1; intro d; fin_cases d
    · exact h.1
    · exact h.2.1
    · exact h.2.2
  set x0 := max ((G.g : ℤ) - p 0) (p 0 - (G.n 0 - G.g) + 1)
  set x1 := max ((G.g : ℤ) - p 1) (p 1 - (G.n 1 - G.g) + 1)
  set x2 := max ((G.g : ℤ) - p 2) (p 2 - (G.n 2 - G.g) + 1)
  by_cases c2 : x0 ≤ x2 ∧ x1 ≤ x2
  · refine ⟨(x2 - 1).toNat, by omega, 2, decide (p 2 - (G.n 2 - G.g) + 1 = x2), ?_⟩
    unfold OnFace
    simp only [Fin.forall_fin_succ, decide_eq_true_eq]
    split <;> simp <;> omega
  by_cases c1 : x0 ≤ x1
  · refine ⟨(x1 - 1).toNat, by omega, 1, decide (p 1 - (G.n 1 - G.g) + 1 = x1), ?_⟩
    unfold OnFace
    simp only [Fin.forall_fin_succ, decide_eq_true_eq]
    split <;> simp <;> omega
  · refine ⟨(x0 - 1).toNat, by omega, 0, decide (p 0 - (G.n 0 - G.g) + 1 = x0), ?_⟩
    unfold OnFace
    simp only [Fin.forall_fin_succ, decide_eq_true_eq]
    split <;> simp <;> omega

theorem face_unique {G : Grid} (hn : ∀ d, 2 * (G.g : ℤ) ≤ G.n d) {p : Idx} {gz gz' : ℕ} {d d' : Fin 3} {u u' : Bool}
    (hz : gz < G.g) (hz' : gz' < G.g) (h : OnFace G gz d u p) (h' : OnFace G gz' d' u' p) :
    gz = gz' ∧ d = d' ∧ u = u' := by
  have n0 := hn 0
  have n1 := hn 1
  have n2 := hn 2
  unfold OnFace at h h'
  simp only [Fin.forall_fin_succ] at h h'
  fin_cases d <;> fin_cases d' <;> cases u <;> cases u' <;> simp at h h' ⊢ <;> omega

theorem ghost_of_face {G : Grid} (hn : ∀ d, 2 * (G.g : ℤ) ≤ G.n d) {p : Idx} {gz : ℕ} {d : Fin 3} {u : Bool}
    (hz : gz < G.g) (h : OnFace G gz d u p) : G.Ghost p := by
  have n0 := hn 0
  have n1 := hn 1
  have n2 := hn 2
  unfold OnFace at h
  unfold Grid.Ghost Grid.Has
  simp only [Fin.forall_fin_succ] at h ⊢
  fin_cases d <;> cases u <;> simp at h ⊢ <;> omega

theorem fillFace_spec {m : Maps} {face : ℕ} : ∀ {l : List Idx} {a : List OuterPt}, fillFace m face l = some a →
    a = (l.filter fun p => decide (m.partner p = some p)).map fun p => ⟨p, facex face⟩
  | [], a, h => by cases h; rfl
  | p :: l, a, h => by
    simp only [fillFace] at h
    obtain ⟨q, hq, h⟩ := Option.bind_eq_some_iff.1 h
    obtain ⟨r, hr, h⟩ := Option.map_eq_some_iff.1 h
    have ih := fillFace_spec hr
    by_cases e : p = q
    · subst e
      rw [if_pos ⟨rfl, rfl, rfl⟩] at h
      rw [List.filter_cons_of_pos (by simp [hq]), List.map_cons, ← ih, h]
    · rw [if_neg (fun c => e (idx_eq_iff.1 c))] at h
      rw [List.filter_cons_of_neg (by simp [hq]; exact fun c => e c.symm), ← ih, h]

theorem fillFace_some {m : Maps} {face : ℕ} : ∀ {l : List Idx}, (∀ p ∈ l, ∃ q, m.partner p = some q) →
    ∃ a, fillFace m face l = some a
  | [], _ => ⟨[], rfl⟩
  | p :: l, h => by
    obtain ⟨a, ha⟩ := fillFace_some (l := l) (face := face) fun p' hp' => h p' (List.mem_cons_of_mem _ hp')
    obtain ⟨q, hq⟩ := h p List.mem_cons_self
    simp only [fillFace, hq, ha, Option.bind_some, Option.map_some]
    exact ⟨_, rfl⟩

/-- Points of a face that are their own partners. -/
def ownFace (G : Grid) (m : Maps) (gz : ℕ) (d : Fin 3) (u : Bool) : List OuterPt :=
  let r := faceRanges G gz d
  ((loop (if u then r.2 else r.1).lo (if u then r.2 else r.1).hi).filter fun p => decide (m.partner p = some p)).map
    fun p => ⟨p, facex (d * 2 + if u then 1 else 0)⟩

theorem mem_ownFace {G : Grid} {m : Maps} {gz : ℕ} {d : Fin 3} {u : Bool} {b : OuterPt} :
    b ∈ ownFace G m gz d u ↔ OnFace G gz d u b.i ∧ m.partner b.i = some b.i ∧
      b.face = facex (d * 2 + if u then 1 else 0) := by
  unfold ownFace
  cases u <;> simp only [List.mem_map, List.mem_filter, decide_eq_true_eq, Bool.false_eq_true, if_false, if_true, mem_lower,
    mem_upper] <;> constructor
  all_goals first
    | (rintro ⟨p, ⟨h1, h2⟩, rfl⟩; exact ⟨h1, h2, rfl⟩)
    | (rintro ⟨h1, h2, h3⟩; exact ⟨b.i, ⟨h1, h2⟩, by rw [← h3]⟩)

theorem fillOuter_spec {G : Grid} {m : Maps} {gz : ℕ} {d : Fin 3} {a : List OuterPt}
    (h : fillOuter G m gz d = some a) : a = ownFace G m gz d false ++ ownFace G m gz d true := by
  unfold fillOuter at h
  obtain ⟨lo, hlo, h⟩ := Option.bind_eq_some_iff.1 h
  obtain ⟨up, hup, h⟩ := Option.map_eq_some_iff.1 h
  subst h
  rw [fillFace_spec hlo, fillFace_spec hup]
  rfl

theorem setUp_spec {G : Grid} {m : Maps} {bc : BcStruct} (h : setUp G m = some bc) :
    bc.numInner = bc.inner.length ∧
    List.Forall₂ (IsEntry G m)
      ((loop ![0, 0, 0] G.n).filter fun p => !G.inInterior p && decide (m.partner p ≠ some p)) bc.inner ∧
    (∀ p, G.Ghost p → ∃ q, m.partner p = some q) ∧
    (∀ gz < G.g, ∀ d, bc.outer gz d = ownFace G m gz d false ++ ownFace G m gz d true) ∧
    (∀ gz d, bc.numOuter gz d = (bc.outer gz d).length) ∧ bc.allocOuter = allocOuter G := by
  unfold setUp at h
  obtain ⟨k, hk, h⟩ := Option.bind_eq_some_iff.1 h
  obtain ⟨a, ha, h⟩ := Option.bind_eq_some_iff.1 h
  split at h
  · next hall =>
    cases h
    obtain ⟨f, t⟩ := fillInner_spec ha
    refine ⟨(countInner_eq hk ha).symm, f, fun p hp => ?_, fun gz hz d => ?_, fun _ _ => rfl, rfl⟩
    · exact t p (ghost_iff.1 hp).1 (ghost_iff.1 hp).2
    · obtain ⟨l, hl⟩ := Option.isSome_iff_exists.1 (hall gz hz d)
      show (fillOuter G m gz d).getD [] = _
      rw [hl]
      exact fillOuter_spec hl
  · cases h

/-! ### The claim -/

/-- All points in the lists of outer boundary points. -/
def outerPts (G : Grid) (bc : BcStruct) : List OuterPt :=
  (List.range G.g).flatMap fun gz => [0, 1, 2].flatMap fun d => bc.outer gz d

theorem mem_outerPts {G : Grid} {bc : BcStruct} {b : OuterPt} :
    b ∈ outerPts G bc ↔ ∃ gz < G.g, ∃ d, b ∈ bc.outer gz d := by
  unfold outerPts
  simp only [List.mem_flatMap, List.mem_range]
  refine exists_congr fun gz => and_congr_right fun _ => exists_congr fun d => ?_
  refine and_iff_right ?_
  fin_cases d <;> simp

theorem nodup_ownFace (G : Grid) (m : Maps) (gz : ℕ) (d : Fin 3) (u : Bool) :
    ((ownFace G m gz d u).map (·.i)).Nodup := by
  unfold ownFace
  simp only [List.map_map]
  exact ((nodup_loop _ _).filter _).map fun x y h => h

theorem nodup_outer {G : Grid} (hn : ∀ d, 2 * (G.g : ℤ) ≤ G.n d) {m : Maps} {bc : BcStruct} (h : setUp G m = some bc) :
    ((outerPts G bc).map (·.i)).Nodup := by
  obtain ⟨-, -, -, ho, -, -⟩ := setUp_spec h
  have face : ∀ {gz d}, gz < G.g → ∀ {p}, p ∈ (bc.outer gz d).map (·.i) → ∃ u, OnFace G gz d u p := by
    intro gz d hz p hp
    obtain ⟨b, hb, rfl⟩ := List.mem_map.1 hp
    rw [ho gz hz d, List.mem_append, mem_ownFace, mem_ownFace] at hb
    rcases hb with hb | hb
    · exact ⟨_, hb.1⟩
    · exact ⟨_, hb.1⟩
  unfold outerPts
  rw [List.map_flatMap]
  refine List.nodup_flatMap.2 ⟨fun gz hz => ?_, ?_⟩
  · rw [List.mem_range] at hz
    rw [List.map_flatMap]
    refine List.nodup_flatMap.2 ⟨fun d _ => ?_, ?_⟩
    · rw [ho gz hz d, List.map_append]
      refine List.Nodup.append (nodup_ownFace _ _ _ _ _) (nodup_ownFace _ _ _ _ _) ?_
      intro p h1 h2
      obtain ⟨b, hb, rfl⟩ := List.mem_map.1 h1
      obtain ⟨b', hb', e⟩ := List.mem_map.1 h2
      have := face_unique hn hz hz (mem_ownFace.1 hb).1 (e ▸ (mem_ownFace.1 hb').1)
      exact absurd this.2.2 (by simp)
    · have : List.Pairwise (· ≠ ·) [(0 : Fin 3), 1, 2] := by decide
      refine this.imp fun {d d'} hd => ?_
      intro p h1 h2
      obtain ⟨u, hu⟩ := face hz h1
      obtain ⟨u', hu'⟩ := face hz h2
      exact hd (face_unique hn hz hz hu hu').2.1
  · refine (List.pairwise_iff_forall_sublist.2 ?_)
    intro gz gz' hs
    have h1 : gz < G.g := List.mem_range.1 (hs.subset (by simp))
    have h2 : gz' < G.g := List.mem_range.1 (hs.subset (by simp))
    have hne : gz ≠ gz' := by
      have := List.nodup_range.sublist hs
      simpa using this
    intro p m1 m2
    simp only [List.map_flatMap, List.mem_flatMap] at m1 m2
    obtain ⟨d, -, m1⟩ := m1
    obtain ⟨d', -, m2⟩ := m2
    obtain ⟨u, hu⟩ := face h1 m1
    obtain ⟨u', hu'⟩ := face h2 m2
    exact hne (face_unique hn h1 h2 hu hu').1

theorem outer_iff {G : Grid} (hn : ∀ d, 2 * (G.g : ℤ) ≤ G.n d) {m : Maps} {bc : BcStruct} (h : setUp G m = some bc)
    {p : Idx} : p ∈ (outerPts G bc).map (·.i) ↔ G.Ghost p ∧ m.partner p = some p := by
  obtain ⟨-, -, -, ho, -, -⟩ := setUp_spec h
  constructor
  · intro hp
    obtain ⟨b, hb, rfl⟩ := List.mem_map.1 hp
    obtain ⟨gz, hz, d, hb⟩ := mem_outerPts.1 hb
    rw [ho gz hz d, List.mem_append, mem_ownFace, mem_ownFace] at hb
    rcases hb with hb | hb
    · exact ⟨ghost_of_face hn hz hb.1, hb.2.1⟩
    · exact ⟨ghost_of_face hn hz hb.1, hb.2.1⟩
  · rintro ⟨hg, hp⟩
    obtain ⟨gz, hz, d, u, hf⟩ := exists_face hg
    refine List.mem_map.2 ⟨⟨p, facex (d * 2 + if u then 1 else 0)⟩, mem_outerPts.2 ⟨gz, hz, d, ?_⟩, rfl⟩
    rw [ho gz hz d, List.mem_append]
    cases u
    · exact .inl (mem_ownFace.2 ⟨hf, hp, rfl⟩)
    · exact .inr (mem_ownFace.2 ⟨hf, hp, rfl⟩)

theorem forall₂_map_dst {G : Grid} {m : Maps} : ∀ {l : List Idx} {a : List InnerPt},
    List.Forall₂ (IsEntry G m) l a → a.map (·.dst) = l.map G.at
  | _, _, .nil => rfl
  | _, _, .cons h t => by
    obtain ⟨q, par, -, -, -, rfl⟩ := h
    simp [forall₂_map_dst t]

theorem inner_iff {G : Grid} {m : Maps} {bc : BcStruct} (h : setUp G m = some bc) {p : Idx} (hp : G.Has p) :
    G.at p ∈ bc.inner.map (·.dst) ↔ G.Ghost p ∧ m.partner p ≠ some p := by
  obtain ⟨-, hi, -, -, -, -⟩ := setUp_spec h
  rw [forall₂_map_dst hi, List.mem_map]
  constructor
  · rintro ⟨q, hq, e⟩
    rw [List.mem_filter, Bool.and_eq_true, Bool.not_eq_true', decide_eq_true_eq] at hq
    have hg := ghost_iff.2 ⟨hq.1, hq.2.1⟩
    rw [← Grid.at_inj hg.1 hp e]
    exact ⟨hg, hq.2.2⟩
  · rintro ⟨hg, hne⟩
    refine ⟨p, ?_, rfl⟩
    rw [List.mem_filter, Bool.and_eq_true, Bool.not_eq_true', decide_eq_true_eq]
    exact ⟨(ghost_iff.1 hg).1, (ghost_iff.1 hg).2, hne⟩

theorem nodup_inner {G : Grid} {m : Maps} {bc : BcStruct} (h : setUp G m = some bc) : (bc.inner.map (·.dst)).Nodup := by
  obtain ⟨-, hi, -, -, -, -⟩ := setUp_spec h
  rw [forall₂_map_dst hi]
  refine List.Nodup.map_on ?_ ((nodup_loop _ _).filter _)
  intro x hx y hy e
  have hx := ghost_iff.2 ⟨(List.mem_filter.1 hx).1, by have := (List.mem_filter.1 hx).2; simp at this; exact this.1⟩
  have hy := ghost_iff.2 ⟨(List.mem_filter.1 hy).1, by have := (List.mem_filter.1 hy).2; simp at this; exact this.1⟩
  exact Grid.at_inj hx.1 hy.1 e

theorem forall₂_mem {α β : Type} {R : α → β → Prop} {l : List α} {a : List β} (h : List.Forall₂ R l a) {e : β}
    (he : e ∈ a) : ∃ p ∈ l, R p e := by
  induction h with
  | nil => cases he
  | cons a _ ih =>
    rcases List.mem_cons.1 he with rfl | he
    · exact ⟨_, List.mem_cons_self, a⟩
    · obtain ⟨p, hp, hh⟩ := ih he
      exact ⟨p, List.mem_cons_of_mem _ hp, hh⟩

/-- Each point of the grid is listed once if it is a ghost point and never if it is in the interior. -/
theorem C64_exactly_once {G : Grid} (hn : ∀ d, 2 * (G.g : ℤ) ≤ G.n d) {m : Maps} {bc : BcStruct}
    (h : setUp G m = some bc) {p : Idx} (hp : G.Has p) :
    (bc.inner.map (·.dst)).count (G.at p) + ((outerPts G bc).map (·.i)).count p = if G.inInterior p then 0 else 1 := by
  have hi := inner_iff h hp
  have ho := outer_iff hn h (p := p)
  have hg : G.Ghost p ↔ G.inInterior p = false := by
    rw [ghost_iff, mem_loop]
    refine and_iff_right fun d => ?_
    have := hp d
    fin_cases d <;> exact this
  by_cases c : G.inInterior p = true
  · have hng : ¬ G.Ghost p := by rw [hg, c]; simp
    rw [if_pos c, List.count_eq_zero_of_not_mem fun k => hng (hi.1 k).1,
      List.count_eq_zero_of_not_mem fun k => hng (ho.1 k).1]
  · rw [if_neg c]
    have hgh : G.Ghost p := hg.2 (by simpa using c)
    by_cases e : m.partner p = some p
    · rw [List.count_eq_zero_of_not_mem fun k => (hi.1 k).2 e,
        List.count_eq_one_of_mem (nodup_outer hn h) (ho.2 ⟨hgh, e⟩)]
    · rw [List.count_eq_one_of_mem (nodup_inner h) (hi.2 ⟨hgh, e⟩),
        List.count_eq_zero_of_not_mem fun k => e (ho.1 k).2]

/-- A point goes to the inner list exactly if its partner is another point; the entry holds the partner and its parities.
Every entry belongs to a ghost point. -/
theorem C64_inner {G : Grid} {m : Maps} {bc : BcStruct} (h : setUp G m = some bc) (e : InnerPt) :
    e ∈ bc.inner ↔ ∃ p q par, G.Ghost p ∧ m.partner p = some q ∧ q ≠ p ∧ m.parity p q = some par ∧
      e = ⟨G.at p, G.at q, par⟩ := by
  obtain ⟨-, hi, -, -, -, -⟩ := setUp_spec h
  constructor
  · intro he
    obtain ⟨p, hp, q, par, h1, h2, h3, h4⟩ : ∃ p ∈ (loop ![0, 0, 0] G.n).filter fun p =>
        !G.inInterior p && decide (m.partner p ≠ some p), IsEntry G m p e :=
      forall₂_mem hi he
    rw [List.mem_filter, Bool.and_eq_true, Bool.not_eq_true'] at hp
    exact ⟨p, q, par, ghost_iff.2 ⟨hp.1, hp.2.1⟩, h1, h2, h3, h4⟩
  · rintro ⟨p, q, par, hg, h1, h2, h3, rfl⟩
    have hm := (inner_iff h hg.1).2 ⟨hg, by rw [h1]; intro c; exact h2 (Option.some.inj c)⟩
    obtain ⟨e, he, hd⟩ := List.mem_map.1 hm
    obtain ⟨p', hp', q', par', k1, k2, k3, k4⟩ : ∃ p ∈ (loop ![0, 0, 0] G.n).filter fun p =>
        !G.inInterior p && decide (m.partner p ≠ some p), IsEntry G m p e :=
      forall₂_mem hi he
    rw [List.mem_filter, Bool.and_eq_true, Bool.not_eq_true'] at hp'
    have hg' := ghost_iff.2 ⟨hp'.1, hp'.2.1⟩
    subst k4
    have := Grid.at_inj hg'.1 hg.1 hd
    subst this
    rw [h1] at k1; cases k1
    rw [h3] at k3; cases k3
    exact he

/-- The number of points and the allocated sizes: no array is written or read outside of what was allocated. -/
theorem C64_sizes {G : Grid} (hn : ∀ d, 2 * (G.g : ℤ) ≤ G.n d) {m : Maps} {bc : BcStruct} (h : setUp G m = some bc) :
    bc.numInner = bc.inner.length ∧ ∀ gz < G.g, ∀ d, bc.numOuter gz d = (bc.outer gz d).length ∧
      ((bc.outer gz d).length : ℤ) ≤ bc.allocOuter gz d := by
  obtain ⟨h1, -, -, ho, hnum, hal⟩ := setUp_spec h
  refine ⟨h1, fun gz hz d => ⟨hnum gz d, ?_⟩⟩
  have n0 := hn 0
  have n1 := hn 1
  have n2 := hn 2
  rw [ho gz hz d, hal, List.length_append]
  have b : ∀ u, ((ownFace G m gz d u).length : ℤ) ≤
      ((faceRanges G gz d).1.hi 0 - (faceRanges G gz d).1.lo 0) * ((faceRanges G gz d).1.hi 1 - (faceRanges G gz d).1.lo 1) *
        ((faceRanges G gz d).1.hi 2 - (faceRanges G gz d).1.lo 2) := by
    intro u
    have l1 : (ownFace G m gz d u).length ≤
        (loop (if u then (faceRanges G gz d).2 else (faceRanges G gz d).1).lo
          (if u then (faceRanges G gz d).2 else (faceRanges G gz d).1).hi).length := by
      unfold ownFace
      rw [List.length_map]
      exact List.length_filter_le _ _
    rw [length_loop] at l1
    refine (Int.ofNat_le.2 l1).trans (le_of_eq ?_)
    push_cast
    unfold faceRanges
    rw [corners_eq]
    fin_cases d <;> cases u <;> simp [zoneRanges] <;> first | omega | (congr 1 <;> first | omega | (congr 1 <;> omega))
  have b1 := b false
  have b2 := b true
  unfold allocOuter
  push_cast
  linarith

/-- `bcstruct_set_up` succeeds if every ghost point has a partner and every pair of different points has parities. -/
theorem C64_succeeds {G : Grid} (hn : ∀ d, 2 * (G.g : ℤ) ≤ G.n d) {m : Maps}
    (h : ∀ p, G.Ghost p → ∃ q, m.partner p = some q ∧ (q ≠ p → ∃ par, m.parity p q = some par)) :
    ∃ bc, setUp G m = some bc := by
  obtain ⟨k, a, hk, ha⟩ := fillInner_some (G := G) (m := m) (l := loop ![0, 0, 0] G.n) fun p hp hi =>
    h p (ghost_iff.2 ⟨hp, hi⟩)
  unfold setUp
  simp only [hk, ha, Option.bind_some]
  rw [if_pos]
  · exact ⟨_, rfl⟩
  · intro gz hz d
    have t : ∀ p, G.Ghost p → ∃ q, m.partner p = some q := fun p hp => (h p hp).imp fun q hq => hq.1
    obtain ⟨lo, hlo⟩ : ∃ a, fillFace m (d * 2) (loop (faceRanges G gz d).1.lo (faceRanges G gz d).1.hi) = some a :=
      fillFace_some fun p hp => t p (ghost_of_face hn hz (mem_lower.1 hp))
    obtain ⟨up, hup⟩ : ∃ a, fillFace m (d * 2 + 1) (loop (faceRanges G gz d).2.lo (faceRanges G gz d).2.hi) = some a :=
      fillFace_some fun p hp => t p (ghost_of_face hn hz (mem_upper.1 hp))
    unfold fillOuter
    simp [hlo, hup]

end Verif.CurviBC
