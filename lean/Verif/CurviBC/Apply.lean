import Verif.CurviBC.Partition
import Mathlib.Tactic.Push

/-! # Parallel loops of assignments: lemmas -/
namespace Verif.CurviBC
open Verif.Loop

/-- No assignment of the loop writes what another one writes or what any of them reads: there is no data race. -/
def RaceFree (l : List Asg) : Prop := (l.map (·.dst)).Nodup ∧ ∀ x ∈ l, ∀ y ∈ l, x.dst ∉ y.reads

theorem RaceFree.perm {l l' : List Asg} (h : RaceFree l) (hp : l'.Perm l) : RaceFree l' :=
  ⟨(hp.map _).nodup_iff.2 h.1, fun x hx y hy => h.2 x (hp.subset hx) y (hp.subset hy)⟩

theorem runList_other : ∀ {l : List Asg} {s : Mem} {a : ℤ}, a ∉ l.map (·.dst) → runList l s a = s a
  | [], _, _, _ => rfl
  | x :: l, s, a, h => by
    simp only [List.map_cons, List.mem_cons, not_or] at h
    show runList l (x.run s) a = s a
    rw [runList_other h.2]
    unfold Asg.run
    rw [Function.update_of_ne h.1]

theorem runList_dst : ∀ {l : List Asg} {s : Mem}, RaceFree l → ∀ x ∈ l, runList l s x.dst = x.val (x.reads.map s)
  | [], _, _, _, hx => by cases hx
  | y :: l, s, h, x, hx => by
    have hl : RaceFree l := ⟨(List.nodup_cons.1 h.1).2, fun a ha b hb =>
      h.2 a (List.mem_cons_of_mem _ ha) b (List.mem_cons_of_mem _ hb)⟩
    show runList l (y.run s) x.dst = _
    rcases List.mem_cons.1 hx with rfl | hx'
    · rw [runList_other (List.nodup_cons.1 h.1).1]
      unfold Asg.run
      rw [Function.update_self]
    · rw [runList_dst hl x hx']
      congr 1
      refine List.map_congr_left fun a ha => ?_
      unfold Asg.run
      rw [Function.update_of_ne]
      intro e
      exact h.2 y List.mem_cons_self x hx (e ▸ ha)

theorem runsLoop_other {l : List Asg} {s s' : Mem} (h : RunsLoop l s s') {a : ℤ} (ha : a ∉ l.map (·.dst)) :
    s' a = s a := by
  obtain ⟨l', hp, rfl⟩ := h
  exact runList_other fun c => ha ((hp.map _).subset c)

theorem runsLoop_dst {l : List Asg} (hr : RaceFree l) {s s' : Mem} (h : RunsLoop l s s') {x : Asg} (hx : x ∈ l) :
    s' x.dst = x.val (x.reads.map s) := by
  obtain ⟨l', hp, rfl⟩ := h
  exact runList_dst (hr.perm hp) x (hp.symm.subset hx)

/-- A loop without races has one result, whatever the order. -/
theorem runsLoop_det {l : List Asg} (hr : RaceFree l) {s s' s'' : Mem} (h' : RunsLoop l s s') (h'' : RunsLoop l s s'') :
    s' = s'' := by
  funext a
  by_cases ha : a ∈ l.map (·.dst)
  · obtain ⟨x, hx, rfl⟩ := List.mem_map.1 ha
    rw [runsLoop_dst hr h' hx, runsLoop_dst hr h'' hx]
  · rw [runsLoop_other h' ha, runsLoop_other h'' ha]

theorem runs_append : ∀ {l k : List (List Asg)} {s s' : Mem}, Runs (l ++ k) s s' → ∃ t, Runs l s t ∧ Runs k t s'
  | [], k, s, s', h => ⟨s, .nil s, h⟩
  | x :: l, k, s, s', h => by
    cases h with
    | cons h1 h2 =>
      obtain ⟨t, ht, hk⟩ := runs_append h2
      exact ⟨t, .cons h1 ht, hk⟩

theorem runs_single {l : List Asg} {s s' : Mem} (h : Runs [l] s s') : RunsLoop l s s' := by
  cases h with
  | cons h1 h2 => cases h2; exact h1

theorem runs_exists : ∀ (l : List (List Asg)) (s : Mem), ∃ s', Runs l s s'
  | [], s => ⟨s, .nil s⟩
  | x :: l, s => by
    obtain ⟨s', h⟩ := runs_exists l (runList x s)
    exact ⟨s', .cons ⟨x, .refl _, rfl⟩ h⟩

/-- Loops over ghost zones and directions: what each of them passes on holds at the end. -/
theorem runs_zones {A : ℕ → Fin 3 → List Asg} (P : ℕ → ℕ → Mem → Prop) :
    ∀ {g : ℕ}, (∀ gz < g, ∀ d : Fin 3, ∀ s s', P gz d s → RunsLoop (A gz d) s s' → P gz (d + 1) s') →
      (∀ gz < g, ∀ s, P gz 3 s → P (gz + 1) 0 s) → ∀ {s s' : Mem}, P 0 0 s →
      Runs ((List.range g).flatMap fun gz => [0, 1, 2].map fun d => A gz d) s s' → P g 0 s'
  | 0, _, _, s, s', h0, h => by cases h; exact h0
  | g + 1, hs, hz, s, s', h0, h => by
    rw [List.range_succ, List.flatMap_append] at h
    obtain ⟨t, h1, h2⟩ := runs_append h
    have ht := runs_zones P (g := g) (fun gz hgz => hs gz (by omega)) (fun gz hgz => hz gz (by omega)) h0 h1
    simp only [List.flatMap_cons, List.flatMap_nil, List.map_cons, List.map_nil, List.append_nil] at h2
    cases h2 with
    | cons k0 h2 =>
      cases h2 with
      | cons k1 h2 =>
        cases h2 with
        | cons k2 h2 =>
          cases h2
          exact hz g (by omega) _ (hs g (by omega) 2 _ _ (hs g (by omega) 1 _ _ (hs g (by omega) 0 _ _ ht k0) k1) k2)

/-! ### Loops over the points of an outer face -/

/-- The points that are their own partners form a box around the interior; where the box is larger than the interior
there are at least `K` interior points. -/
structure OwnBox (G : Grid) (m : Maps) (K : ℤ) (lo hi : Idx) : Prop where
  own : ∀ p, G.Ghost p → (m.partner p = some p ↔ ∀ d, lo d ≤ p d ∧ p d < hi d)
  lo_le : ∀ d, lo d ≤ G.g
  hi_ge : ∀ d, G.n d - G.g ≤ hi d
  size : ∀ d, lo d < G.g ∨ G.n d - G.g < hi d → 2 * (G.g : ℤ) + K ≤ G.n d
  nonneg : ∀ d, 2 * (G.g : ℤ) ≤ G.n d

/-- What the shells before direction `d` of zone `gz`, together with the interior, fill. -/
def Filled (G : Grid) (gz d : ℕ) (p : Idx) : Prop :=
  ∀ e : Fin 3, if (e : ℕ) < d then (G.g : ℤ) - gz - 1 ≤ p e ∧ p e < G.n e - G.g + gz + 1
    else (G.g : ℤ) - gz ≤ p e ∧ p e < G.n e - G.g + gz

theorem filled_zero {G : Grid} {p : Idx} : Filled G 0 0 p ↔ ∀ d, (G.g : ℤ) ≤ p d ∧ p d < G.n d - G.g := by
  simp [Filled]

theorem filled_next {G : Grid} {gz : ℕ} {p : Idx} : Filled G gz 3 p ↔ Filled G (gz + 1) 0 p := by
  unfold Filled
  simp only [Fin.forall_fin_succ]
  simp
  omega

theorem filled_all {G : Grid} {p : Idx} : Filled G G.g 0 p ↔ G.Has p := by
  simp [Filled, Grid.Has]

theorem filled_succ {G : Grid} {gz : ℕ} {d : Fin 3} {p : Idx} (h : Filled G gz (d + 1) p) :
    Filled G gz d p ∨ ∃ u, OnFace G gz d u p := by
  by_cases c : Filled G gz d p
  · exact .inl c
  right
  refine ⟨decide (p d = G.n d - G.g + gz), ?_⟩
  unfold Filled at h c
  unfold OnFace
  simp only [Fin.forall_fin_succ] at h c ⊢
  fin_cases d <;> simp at h c ⊢ <;> omega

theorem filled_mono {G : Grid} {gz : ℕ} {d : Fin 3} {p : Idx} (h : Filled G gz d p) : Filled G gz (d + 1) p := by
  unfold Filled at h ⊢
  simp only [Fin.forall_fin_succ] at h ⊢
  fin_cases d <;> simp at h ⊢ <;> omega

theorem filled_face {G : Grid} {gz : ℕ} {d : Fin 3} {u : Bool} {p : Idx} (hn : ∀ d, 2 * (G.g : ℤ) ≤ G.n d)
    (h : OnFace G gz d u p) : Filled G gz (d + 1) p ∧ ¬ Filled G gz d p := by
  have n0 := hn 0
  have n1 := hn 1
  have n2 := hn 2
  unfold OnFace at h
  unfold Filled
  simp only [Fin.forall_fin_succ] at h ⊢
  fin_cases d <;> cases u <;> simp at h ⊢ <;> omega

theorem filled_has {G : Grid} {gz : ℕ} {d : Fin 3} {p : Idx} (hz : gz < G.g) (h : Filled G gz (d + 1) p) : G.Has p := by
  unfold Filled at h
  unfold Grid.Has
  simp only [Fin.forall_fin_succ] at h ⊢
  fin_cases d <;> simp at h ⊢ <;> omega

/-- In the interior or its own partner. -/
def Settled (G : Grid) (m : Maps) (p : Idx) : Prop := G.Has p ∧ (G.Ghost p → m.partner p = some p)

theorem settled_iff {G : Grid} {m : Maps} {K : ℤ} {lo hi : Idx} (ob : OwnBox G m K lo hi) {p : Idx} (hp : G.Has p) :
    Settled G m p ↔ ∀ d, lo d ≤ p d ∧ p d < hi d := by
  unfold Settled
  by_cases hg : G.Ghost p
  · rw [← ob.own p hg]
    exact ⟨fun h => h.2 hg, fun h => ⟨hp, fun _ => h⟩⟩
  · refine ⟨fun _ d => ?_, fun _ => ⟨hp, fun c => absurd c hg⟩⟩
    unfold Grid.Ghost at hg
    push Not at hg
    have := hg hp d
    have := ob.lo_le d
    have := ob.hi_ge d
    constructor <;> omega

theorem facex_eq (d : Fin 3) (u : Bool) (e : Fin 3) :
    facex ((d : ℕ) * 2 + if u then 1 else 0) e = if e = d then (if u then -1 else 1) else 0 := by
  revert d u e; decide

theorem step_eq {b : OuterPt} {d : Fin 3} {u : Bool} (h : b.face = facex ((d : ℕ) * 2 + if u then 1 else 0)) (k : ℤ)
    (e : Fin 3) : b.step k e = if e = d then (if u then b.i e - k else b.i e + k) else b.i e := by
  have h0 := congrFun h 0
  have h1 := congrFun h 1
  have h2 := congrFun h 2
  rw [facex_eq] at h0 h1 h2
  unfold OuterPt.step
  rw [h0, h1, h2]
  fin_cases d <;> fin_cases e <;> cases u <;> simp <;> ring

/-- The points read for a point on a face are filled already and are not inner points. -/
theorem step_filled {G : Grid} {m : Maps} {K : ℤ} {lo hi : Idx} (ob : OwnBox G m K lo hi) {gz : ℕ} (hz : gz < G.g)
    {d : Fin 3} {u : Bool} {b : OuterPt} (hf : OnFace G gz d u b.i) (ho : m.partner b.i = some b.i)
    (hb : b.face = facex ((d : ℕ) * 2 + if u then 1 else 0)) {k : ℤ} (h1 : 1 ≤ k) (hk : k ≤ K) :
    Filled G gz d (b.step k) ∧ Settled G m (b.step k) := by
  have hg := ghost_of_face ob.nonneg hz hf
  have hown := (ob.own b.i hg).1 ho
  have hst := step_eq hb k
  have hsz := ob.size d
  have hlo := ob.lo_le d
  have hhi := ob.hi_ge d
  have hod := hown d
  have fill : Filled G gz d (b.step k) := by
    intro e
    have hste := hst e
    rcases lt_trichotomy e d with he | he | he
    · rw [if_neg he.ne] at hste
      rw [if_pos (show (e : ℕ) < d from he), hste]
      exact hf.2.1 e he
    · subst he
      have hf1 := hf.1
      rw [if_pos rfl] at hste
      rw [if_neg (lt_irrefl _), hste]
      cases u <;> simp at hf1 ⊢ <;> omega
    · rw [if_neg he.ne'] at hste
      rw [if_neg (not_lt.2 (by exact_mod_cast he.le)), hste]
      exact hf.2.2 e he
  have has := filled_has hz (filled_mono fill)
  refine ⟨fill, (settled_iff ob has).2 fun e => ?_⟩
  rw [hst e]
  split
  · next he =>
    subst he
    have hf1 := hf.1
    cases u <;> simp at hf1 ⊢ <;> omega
  · exact hown e

/-- A parallel loop over the points of the outer faces of one zone and direction which reads the points `ks` steps inside
of a boundary point. -/
def faceAsgs (G : Grid) (bc : BcStruct) (nGfs : ℕ) (ks : List ℤ) (val : ℕ → OuterPt → List ℝ → ℝ) (gz : ℕ) (d : Fin 3) :
    List Asg :=
  ((bc.outer gz d).take (bc.numOuter gz d)).flatMap fun b => (List.range nGfs).map fun gf =>
    ⟨G.pt gf (G.at b.i), ks.map fun k => G.pt gf (G.at (b.step k)), val gf b⟩

theorem step_zero (b : OuterPt) : b.step 0 = b.i := idx_ext (by simp [OuterPt.step]) (by simp [OuterPt.step]) (by simp [OuterPt.step])

theorem extrapAsgs_eq (G : Grid) (bc : BcStruct) (nGfs gz : ℕ) (d : Fin 3) :
    extrapAsgs G bc nGfs gz d = faceAsgs G bc nGfs [1, 2, 3] (fun _ _ => extrap) gz d := by
  unfold extrapAsgs faceAsgs
  simp only [step_zero]
  rfl

theorem radiationAsgs_eq (G : Grid) (bc : BcStruct) (nGfs : ℕ) (rhs : ℕ → OuterPt → ℝ → ℝ) (gz : ℕ) (d : Fin 3) :
    radiationAsgs G bc nGfs rhs gz d = faceAsgs G bc nGfs [1] (fun gf b v => rhs gf b (v.headD 0)) gz d := rfl

theorem mem_faceAsgs {G : Grid} {m : Maps} {bc : BcStruct} (h : setUp G m = some bc) {nGfs : ℕ} {ks : List ℤ}
    {val : ℕ → OuterPt → List ℝ → ℝ} {gz : ℕ} {d : Fin 3} {x : Asg} :
    x ∈ faceAsgs G bc nGfs ks val gz d ↔ ∃ b ∈ bc.outer gz d, ∃ gf < nGfs,
      x = ⟨G.pt gf (G.at b.i), ks.map fun k => G.pt gf (G.at (b.step k)), val gf b⟩ := by
  obtain ⟨-, -, -, -, hnum, -⟩ := setUp_spec h
  unfold faceAsgs
  rw [hnum, List.take_length]
  simp only [List.mem_flatMap, List.mem_map, List.mem_range, eq_comm]

theorem outer_face {G : Grid} {m : Maps} {bc : BcStruct} (h : setUp G m = some bc) {gz : ℕ} (hz : gz < G.g) {d : Fin 3}
    {b : OuterPt} (hb : b ∈ bc.outer gz d) : ∃ u, OnFace G gz d u b.i ∧ m.partner b.i = some b.i ∧
      b.face = facex ((d : ℕ) * 2 + if u then 1 else 0) := by
  obtain ⟨-, -, -, ho, -, -⟩ := setUp_spec h
  rw [ho gz hz d, List.mem_append, mem_ownFace, mem_ownFace] at hb
  rcases hb with hb | hb
  · exact ⟨_, hb⟩
  · exact ⟨_, hb⟩

theorem face_outer {G : Grid} {m : Maps} {bc : BcStruct} (h : setUp G m = some bc) {gz : ℕ} (hz : gz < G.g) {d : Fin 3}
    {u : Bool} {p : Idx} (hf : OnFace G gz d u p) (hp : m.partner p = some p) :
    (⟨p, facex ((d : ℕ) * 2 + if u then 1 else 0)⟩ : OuterPt) ∈ bc.outer gz d := by
  obtain ⟨-, -, -, ho, -, -⟩ := setUp_spec h
  rw [ho gz hz d, List.mem_append]
  cases u
  · exact .inl (mem_ownFace.2 ⟨hf, hp, rfl⟩)
  · exact .inr (mem_ownFace.2 ⟨hf, hp, rfl⟩)

/-- The loops over outer faces are free of data races. -/
theorem raceFree_faceAsgs {G : Grid} {m : Maps} {K : ℤ} {lo hi : Idx} (ob : OwnBox G m K lo hi) {bc : BcStruct}
    (h : setUp G m = some bc) (nGfs : ℕ) {ks : List ℤ} (hks : ∀ k ∈ ks, 1 ≤ k ∧ k ≤ K)
    (val : ℕ → OuterPt → List ℝ → ℝ) {gz : ℕ} (hz : gz < G.g) (d : Fin 3) :
    RaceFree (faceAsgs G bc nGfs ks val gz d) := by
  constructor
  · -- destinations are different
    obtain ⟨-, -, -, ho, hnum, -⟩ := setUp_spec h
    unfold faceAsgs
    rw [hnum, List.take_length, List.map_flatMap]
    have hnd : ((bc.outer gz d).map (·.i)).Nodup := by
      have := nodup_outer ob.nonneg h
      unfold outerPts at this
      rw [List.map_flatMap] at this
      have := (List.nodup_flatMap.1 this).1 gz (List.mem_range.2 hz)
      rw [List.map_flatMap] at this
      exact (List.nodup_flatMap.1 this).1 d (by fin_cases d <;> simp)
    have hgh : ∀ b ∈ bc.outer gz d, G.Has b.i := by
      intro b hb
      obtain ⟨u, hu, -⟩ := outer_face h hz hb
      exact (ghost_of_face ob.nonneg hz hu).1
    refine List.nodup_flatMap.2 ⟨fun b hb => ?_, ?_⟩
    · rw [List.map_map]
      exact List.nodup_range.map fun x y e => (Grid.pt_inj (hgh b hb) (hgh b hb) e).1
    · refine List.pairwise_iff_forall_sublist.2 ?_
      intro b b' hs a ha ha'
      simp only [List.map_map, List.mem_map, List.mem_range, Function.comp_def] at ha ha'
      obtain ⟨gf, -, rfl⟩ := ha
      obtain ⟨gf', -, e⟩ := ha'
      have hne : b.i ≠ b'.i := by
        have := hnd.sublist (hs.map (·.i))
        simpa using this
      exact hne (Grid.pt_inj (hgh b' (hs.subset (by simp))) (hgh b (hs.subset (by simp))) e).2.symm
  · intro x hx y hy hmem
    obtain ⟨b, hb, gf, -, rfl⟩ := (mem_faceAsgs h).1 hx
    obtain ⟨b', hb', gf', -, rfl⟩ := (mem_faceAsgs h).1 hy
    simp only [List.mem_map] at hmem
    obtain ⟨k, hk, e⟩ := hmem
    obtain ⟨u, hu, -, -⟩ := outer_face h hz hb
    obtain ⟨u', hu', ho', hf'⟩ := outer_face h hz hb'
    obtain ⟨hfil, hset⟩ := step_filled ob hz hu' ho' hf' (hks k hk).1 (hks k hk).2
    obtain ⟨-, he⟩ := Grid.pt_inj hset.1 (ghost_of_face ob.nonneg hz hu).1 e
    rw [he] at hfil
    exact (filled_face ob.nonneg hu).2 hfil

/-- Result of one loop over outer faces. -/
theorem faceAsgs_result {G : Grid} {m : Maps} {K : ℤ} {lo hi : Idx} (ob : OwnBox G m K lo hi) {bc : BcStruct}
    (h : setUp G m = some bc) {nGfs : ℕ} {ks : List ℤ} (hks : ∀ k ∈ ks, 1 ≤ k ∧ k ≤ K)
    {val : ℕ → OuterPt → List ℝ → ℝ} {gz : ℕ} (hz : gz < G.g) {d : Fin 3} {s s' : Mem}
    (hr : RunsLoop (faceAsgs G bc nGfs ks val gz d) s s') :
    (∀ b ∈ bc.outer gz d, ∀ gf < nGfs,
      s' (G.pt gf (G.at b.i)) = val gf b (ks.map fun k => s (G.pt gf (G.at (b.step k))))) ∧
    ∀ p gf, G.Has p → (nGfs ≤ gf ∨ (∀ u, ¬ OnFace G gz d u p) ∨ ¬ Settled G m p) →
      s' (G.pt gf (G.at p)) = s (G.pt gf (G.at p)) := by
  have hrf := raceFree_faceAsgs ob h nGfs hks val hz d
  constructor
  · intro b hb gf hgf
    have := runsLoop_dst hrf hr ((mem_faceAsgs h).2 ⟨b, hb, gf, hgf, rfl⟩)
    simpa [List.map_map, Function.comp_def] using this
  · intro p gf hp hc
    refine runsLoop_other hr fun hm => ?_
    obtain ⟨x, hx, hxe⟩ := List.mem_map.1 hm
    obtain ⟨b, hb, gf', hgf', rfl⟩ := (mem_faceAsgs h).1 hx
    obtain ⟨u, hu, ho, -⟩ := outer_face h hz hb
    obtain ⟨e1, e2⟩ := Grid.pt_inj (ghost_of_face ob.nonneg hz hu).1 hp hxe
    subst e1; subst e2
    rcases hc with hc | hc | hc
    · omega
    · exact hc u hu
    · exact hc ⟨hp, fun _ => ho⟩

/-- Equations that hold after the loops over all outer faces: each boundary point has the value computed from the final
values of the points it depends on, and all other points keep their values. -/
theorem faces_result {G : Grid} {m : Maps} {K : ℤ} {lo hi : Idx} (ob : OwnBox G m K lo hi) {bc : BcStruct}
    (h : setUp G m = some bc) {nGfs : ℕ} {ks : List ℤ} (hks : ∀ k ∈ ks, 1 ≤ k ∧ k ≤ K)
    {val : ℕ → OuterPt → List ℝ → ℝ} {s s' : Mem}
    (hr : Runs ((List.range G.g).flatMap fun gz => [0, 1, 2].map fun d => faceAsgs G bc nGfs ks val gz d) s s') :
    (∀ gz < G.g, ∀ d, ∀ b ∈ bc.outer gz d, ∀ gf < nGfs,
      s' (G.pt gf (G.at b.i)) = val gf b (ks.map fun k => s' (G.pt gf (G.at (b.step k))))) ∧
    ∀ p gf, G.Has p → (nGfs ≤ gf ∨ ¬ G.Ghost p ∨ m.partner p ≠ some p) →
      s' (G.pt gf (G.at p)) = s (G.pt gf (G.at p)) := by
  have key := runs_zones (A := fun gz d => faceAsgs G bc nGfs ks val gz d) (g := G.g) (s := s) (s' := s')
    (fun gz d t =>
      (∀ gz' < G.g, ∀ d' : Fin 3, (gz' < gz ∨ (gz' = gz ∧ (d' : ℕ) < d)) → ∀ b ∈ bc.outer gz' d', ∀ gf < nGfs,
        t (G.pt gf (G.at b.i)) = val gf b (ks.map fun k => t (G.pt gf (G.at (b.step k)))) ∧ Filled G gz d b.i) ∧
      ∀ p gf, G.Has p → (nGfs ≤ gf ∨ ¬ G.Ghost p ∨ m.partner p ≠ some p) →
        t (G.pt gf (G.at p)) = s (G.pt gf (G.at p)))
  have key := key ?_ ?_ ?_ hr
  · exact ⟨fun gz hz d b hb gf hgf => (key.1 gz hz d (.inl hz) b hb gf hgf).1, key.2⟩
  · rintro gz hz d t t' ⟨ht, hkeep⟩ hrun
    obtain ⟨hset, hother⟩ := faceAsgs_result ob h hks hz hrun
    have stay : ∀ p gf, G.Has p → Filled G gz d p → t' (G.pt gf (G.at p)) = t (G.pt gf (G.at p)) := by
      intro p gf hp hfil
      exact hother p gf hp (.inr (.inl fun u hu => (filled_face ob.nonneg hu).2 hfil))
    refine ⟨?_, ?_⟩
    · intro gz' hz' d' hlt b hb gf hgf
      obtain ⟨u, hu, ho, hf⟩ := outer_face h hz' hb
      have hbi := (ghost_of_face ob.nonneg hz' hu).1
      by_cases c : gz' < gz ∨ (gz' = gz ∧ (d' : ℕ) < d)
      · obtain ⟨e, hfil⟩ := ht gz' hz' d' c b hb gf hgf
        refine ⟨?_, filled_mono hfil⟩
        rw [stay _ gf hbi hfil, e]
        congr 1
        refine List.map_congr_left fun k hk => ?_
        obtain ⟨f1, f2⟩ := step_filled ob hz' hu ho hf (hks k hk).1 (hks k hk).2
        refine (stay _ gf f2.1 ?_).symm
        -- what was filled before an earlier face is filled now
        have n0 := ob.nonneg 0
        have n1 := ob.nonneg 1
        have n2 := ob.nonneg 2
        have hd' := d'.isLt
        have hd := d.isLt
        unfold Filled at f1 ⊢
        intro e
        have := f1 e
        split at this <;> split <;> omega
      · have hgd : gz' = gz ∧ d' = d := by
          rcases hlt with hlt | ⟨e, hlt⟩
          · exact absurd (.inl hlt) c
          · refine ⟨e, ?_⟩
            have : ¬ (d' : ℕ) < d := fun k => c (.inr ⟨e, k⟩)
            exact Fin.ext (by omega)
        obtain ⟨rfl, rfl⟩ := hgd
        refine ⟨?_, (filled_face ob.nonneg hu).1⟩
        rw [hset b hb gf hgf]
        congr 1
        refine List.map_congr_left fun k hk => ?_
        obtain ⟨f1, f2⟩ := step_filled ob hz' hu ho hf (hks k hk).1 (hks k hk).2
        exact (stay _ gf f2.1 f1).symm
    · intro p gf hp hc
      rw [hother p gf hp, hkeep p gf hp hc]
      rcases hc with hc | hc | hc
      · exact .inl hc
      · exact .inr (.inl fun u hu => hc (ghost_of_face ob.nonneg hz hu))
      · by_cases hg : G.Ghost p
        · exact .inr (.inr fun c => hc (c.2 hg))
        · exact .inr (.inl fun u hu => hg (ghost_of_face ob.nonneg hz hu))
  · rintro gz hz t ⟨ht, hkeep⟩
    refine ⟨fun gz' hz' d' hlt b hb gf hgf => ?_, hkeep⟩
    obtain ⟨e, hfil⟩ := ht gz' hz' d' (by
      have := d'.isLt
      rcases hlt with hlt | ⟨-, hlt⟩
      · rcases Nat.lt_succ_iff_lt_or_eq.1 hlt with k | k
        · exact .inl k
        · exact .inr ⟨k, this⟩
      · omega) b hb gf hgf
    exact ⟨e, filled_next.1 hfil⟩
  · exact ⟨fun gz' hz' d' hlt => by omega, fun _ _ _ _ => rfl⟩

/-! ### Inner points -/

/-- Partners of inner points are grid points that are not inner points. -/
def PartnersSettled (G : Grid) (m : Maps) : Prop :=
  ∀ p q, G.Ghost p → m.partner p = some q → Settled G m q

theorem mem_innerAsgs {G : Grid} {m : Maps} {bc : BcStruct} (h : setUp G m = some bc) {nGfs : ℕ} {types : ℕ → Fin 10}
    {x : Asg} : x ∈ innerAsgs G bc nGfs types ↔ ∃ e ∈ bc.inner, ∃ gf < nGfs,
      x = ⟨G.pt gf e.dst, [G.pt gf e.src], fun v => (e.parity (types gf) : ℝ) * v.headD 0⟩ := by
  obtain ⟨hnum, -, -, -, -, -⟩ := setUp_spec h
  unfold innerAsgs
  rw [hnum, List.take_length]
  simp only [List.mem_flatMap, List.mem_map, List.mem_range, eq_comm]
  constructor
  · rintro ⟨gf, h1, e, h2, h3⟩; exact ⟨e, h2, gf, h1, h3⟩
  · rintro ⟨e, h2, gf, h1, h3⟩; exact ⟨gf, h1, e, h2, h3⟩

theorem raceFree_inner {G : Grid} {m : Maps} (hm : PartnersSettled G m) {bc : BcStruct} (h : setUp G m = some bc)
    (nGfs : ℕ) (types : ℕ → Fin 10) : RaceFree (innerAsgs G bc nGfs types) := by
  have hent := C64_inner h
  constructor
  · obtain ⟨hnum, -, -, -, -, -⟩ := setUp_spec h
    unfold innerAsgs
    rw [hnum, List.take_length, List.map_flatMap]
    have hnd := nodup_inner h
    refine List.nodup_flatMap.2 ⟨fun gf _ => ?_, ?_⟩
    · rw [List.map_map]
      have : (bc.inner.map fun e => G.pt gf e.dst) = (bc.inner.map (·.dst)).map (G.pt gf) := by
        rw [List.map_map]; rfl
      show (bc.inner.map fun e => G.pt gf e.dst).Nodup
      rw [this]
      refine List.Nodup.map_on ?_ hnd
      intro a _ b _ e
      unfold Grid.pt idx4pt at e
      linarith
    · refine List.pairwise_iff_forall_sublist.2 ?_
      intro gf gf' hs a ha ha'
      simp only [List.map_map, List.mem_map, Function.comp_def] at ha ha'
      obtain ⟨e, he, rfl⟩ := ha
      obtain ⟨e', he', hee⟩ := ha'
      obtain ⟨p, q, par, hg, -, -, -, rfl⟩ := (hent e).1 he
      obtain ⟨p', q', par', hg', -, -, -, rfl⟩ := (hent e').1 he'
      have hne : gf ≠ gf' := by
        have := List.nodup_range.sublist hs
        simpa using this
      exact hne (Grid.pt_inj hg'.1 hg.1 hee).1.symm
  · intro x hx y hy hmem
    obtain ⟨e, he, gf, -, rfl⟩ := (mem_innerAsgs h).1 hx
    obtain ⟨e', he', gf', -, rfl⟩ := (mem_innerAsgs h).1 hy
    obtain ⟨p, q, par, hg, hq, hne, -, rfl⟩ := (hent e).1 he
    obtain ⟨p', q', par', hg', hq', -, -, rfl⟩ := (hent e').1 he'
    simp only [List.mem_singleton] at hmem
    have hs := hm p' q' hg' hq'
    obtain ⟨-, rfl⟩ := Grid.pt_inj hg.1 hs.1 hmem
    rw [hs.2 hg] at hq
    cases hq
    exact hne rfl

theorem inner_result {G : Grid} {m : Maps} (hm : PartnersSettled G m) {bc : BcStruct} (h : setUp G m = some bc)
    {nGfs : ℕ} {types : ℕ → Fin 10} {s s' : Mem} (hr : RunsLoop (innerAsgs G bc nGfs types) s s') :
    (∀ p q par, G.Ghost p → m.partner p = some q → q ≠ p → m.parity p q = some par → ∀ gf < nGfs,
      s' (G.pt gf (G.at p)) = par (types gf) * s (G.pt gf (G.at q))) ∧
    ∀ p gf, G.Has p → (nGfs ≤ gf ∨ Settled G m p) → s' (G.pt gf (G.at p)) = s (G.pt gf (G.at p)) := by
  have hrf := raceFree_inner hm h nGfs types
  have hent := C64_inner h
  constructor
  · intro p q par hg hq hne hpar gf hgf
    have := runsLoop_dst hrf hr ((mem_innerAsgs h).2 ⟨_, (hent _).2 ⟨p, q, par, hg, hq, hne, hpar, rfl⟩, gf, hgf, rfl⟩)
    simpa using this
  · intro p gf hp hc
    refine runsLoop_other hr fun hmem => ?_
    obtain ⟨x, hx, hxe⟩ := List.mem_map.1 hmem
    obtain ⟨e, he, gf', hgf', rfl⟩ := (mem_innerAsgs h).1 hx
    obtain ⟨p', q, par, hg, hq, hne, -, rfl⟩ := (hent e).1 he
    obtain ⟨rfl, rfl⟩ := Grid.pt_inj hg.1 hp hxe
    rcases hc with hc | hc
    · omega
    · rw [hc.2 hg] at hq
      cases hq
      exact hne rfl

end Verif.CurviBC
