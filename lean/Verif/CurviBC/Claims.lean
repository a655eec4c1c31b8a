import Verif.CurviBC.Apply
import Mathlib.Algebra.BigOperators.Fin
import Mathlib.Tactic.LinearCombination
import Mathlib.Tactic.NormNum

/-!
# C65 and C66: what the boundary-condition functions leave behind

`Runs loops s s'` says that some order of the assignments inside of each parallel loop turns the memory `s` into `s'`; the
theorems hold for every such order.
-/
namespace Verif.CurviBC
open Verif.Loop

/-- The value of a gridfunction at a grid point. -/
def gfAt (G : Grid) (s : Mem) (gf : ℕ) (p : Idx) : ℝ := s (G.pt gf (G.at p))

/-- The point `k` steps from `p` in direction `d`. -/
def shift (p : Idx) (d : Fin 3) (k : ℤ) : Idx := Function.update p d (p d + k)

/-- An outer boundary point: a ghost point that is its own partner. -/
def Outer (G : Grid) (m : Maps) (p : Idx) : Prop := G.Ghost p ∧ m.partner p = some p

/-! ### C66: inner boundary points -/

/-- After `apply_bcs_inner_only`, in any order: each inner point has the value of its partner times the parity of the
gridfunction's type; all other points and gridfunctions keep their values. -/
theorem C66_inner {G : Grid} {m : Maps} (hm : PartnersSettled G m) {bc : BcStruct} (h : setUp G m = some bc)
    {nGfs : ℕ} {types : ℕ → Fin 10} {s s' : Mem} (hr : RunsLoop (innerAsgs G bc nGfs types) s s') :
    (∀ p q par, G.Ghost p → m.partner p = some q → q ≠ p → m.parity p q = some par → ∀ gf < nGfs,
      gfAt G s' gf p = par (types gf) * gfAt G s gf q ∧ gfAt G s' gf q = gfAt G s gf q) ∧
    (∀ p, ¬ G.Ghost p ∨ Outer G m p → G.Has p → ∀ gf, gfAt G s' gf p = gfAt G s gf p) ∧
    ∀ p, G.Has p → ∀ gf, nGfs ≤ gf → gfAt G s' gf p = gfAt G s gf p := by
  obtain ⟨h1, h2⟩ := inner_result hm h hr
  refine ⟨fun p q par hg hq hne hpar gf hgf => ⟨h1 p q par hg hq hne hpar gf hgf, ?_⟩, fun p hc hp gf => ?_,
    fun p hp gf hgf => h2 p gf hp (.inl hgf)⟩
  · have hs := hm p q hg hq
    exact h2 q gf hs.1 (.inr hs)
  · refine h2 p gf hp (.inr ⟨hp, fun hg => ?_⟩)
    rcases hc with hc | hc
    · exact absurd hg hc
    · exact hc.2

/-- No two iterations of the parallel loop touch the same memory, if one of them writes it. -/
theorem C66_no_races {G : Grid} {m : Maps} (hm : PartnersSettled G m) {bc : BcStruct} (h : setUp G m = some bc)
    (nGfs : ℕ) (types : ℕ → Fin 10) : RaceFree (innerAsgs G bc nGfs types) :=
  raceFree_inner hm h nGfs types

/-- Applying the inner boundary conditions again changes nothing, even in another order. -/
theorem C66_again {G : Grid} {m : Maps} (hm : PartnersSettled G m) {bc : BcStruct} (h : setUp G m = some bc)
    {nGfs : ℕ} {types : ℕ → Fin 10} {s s' s'' : Mem} (hr : RunsLoop (innerAsgs G bc nGfs types) s s')
    (hr' : RunsLoop (innerAsgs G bc nGfs types) s' s'') : s'' = s' := by
  funext a
  by_cases ha : a ∈ (innerAsgs G bc nGfs types).map (·.dst)
  · obtain ⟨x, hx, rfl⟩ := List.mem_map.1 ha
    have hrf := raceFree_inner hm h nGfs types
    rw [runsLoop_dst hrf hr hx, runsLoop_dst hrf hr' hx]
    congr 1
    refine List.map_congr_left fun a ha => runsLoop_other hr fun c => ?_
    obtain ⟨y, hy, rfl⟩ := List.mem_map.1 c
    exact hrf.2 y hy x hx ha
  · exact runsLoop_other hr' ha

/-! ### C65: extrapolation at outer boundary points -/

theorem extrapLoops_eq (G : Grid) (bc : BcStruct) (nGfs : ℕ) (types : ℕ → Fin 10) : extrapLoops G bc nGfs types =
    ((List.range G.g).flatMap fun gz => [0, 1, 2].map fun d => faceAsgs G bc nGfs [1, 2, 3] (fun _ _ => extrap) gz d) ++
      [innerAsgs G bc nGfs types] := by
  unfold extrapLoops
  simp only [extrapAsgs_eq]

theorem face_own {G : Grid} {m : Maps} {p : Idx} (h : Outer G m p) :
    ∃ gz < G.g, ∃ d u, OnFace G gz d u p ∧ m.partner p = some p := by
  obtain ⟨gz, hz, d, u, hf⟩ := exists_face h.1
  exact ⟨gz, hz, d, u, hf, h.2⟩

/-- Induction over the order in which points are filled. -/
theorem layers_induct {G : Grid} {m : Maps} {K : ℤ} {lo hi : Idx} (ob : OwnBox G m K lo hi) (Q : Idx → Prop)
    (h0 : ∀ p, G.Has p → ¬ G.Ghost p → Q p)
    (hs : ∀ gz < G.g, ∀ d u p, OnFace G gz d u p → m.partner p = some p →
      (∀ k, 1 ≤ k → k ≤ K → Q (shift p d (if u then -k else k))) → Q p) : ∀ p, Settled G m p → Q p := by
  have key : ∀ gz, gz ≤ G.g → (∀ p, Filled G gz 0 p → Settled G m p → Q p) ∧
      (gz < G.g → ∀ d : ℕ, d ≤ 3 → ∀ p, Filled G gz d p → Settled G m p → Q p) := by
    intro gz
    have inner : ∀ gz, gz < G.g → (∀ p, Filled G gz 0 p → Settled G m p → Q p) →
        ∀ d : ℕ, d ≤ 3 → ∀ p, Filled G gz d p → Settled G m p → Q p := by
      intro gz hz hbase d
      induction d with
      | zero => intro _ p hf hp; exact hbase p hf hp
      | succ d ih =>
        intro hd p hf hp
        let d' : Fin 3 := ⟨d, by omega⟩
        rcases filled_succ (d := d') hf with hf | ⟨u, hu⟩
        · exact ih (by omega) p hf hp
        · have ho := hp.2 (ghost_of_face ob.nonneg hz hu)
          refine hs gz hz d' u p hu ho fun k h1 hk => ?_
          obtain ⟨f1, f2⟩ := step_filled ob hz (b := ⟨p, facex ((d' : ℕ) * 2 + if u then 1 else 0)⟩) hu ho rfl h1 hk
          have e : OuterPt.step ⟨p, facex ((d' : ℕ) * 2 + if u then 1 else 0)⟩ k = shift p d' (if u then -k else k) := by
            funext e
            rw [step_eq rfl]
            unfold shift
            by_cases c : e = d'
            · subst c
              rw [if_pos rfl, Function.update_self]
              cases u <;> simp <;> ring
            · rw [if_neg c, Function.update_of_ne c]
          rw [e] at f1 f2
          exact ih (by omega) _ f1 f2
    induction gz with
    | zero =>
      intro _
      have b : ∀ p, Filled G 0 0 p → Settled G m p → Q p := fun p hf hp =>
        h0 p hp.1 fun hg => hg.2 (filled_zero.1 hf)
      exact ⟨b, fun hz => inner 0 hz b⟩
    | succ gz ih =>
      intro hz
      have b : ∀ p, Filled G (gz + 1) 0 p → Settled G m p → Q p := fun p hf hp =>
        (ih (by omega)).2 (by omega) 3 le_rfl p (filled_next.2 hf) hp
      exact ⟨b, fun hz => inner _ hz b⟩
  intro p hp
  exact (key G.g le_rfl).1 p (filled_all.2 hp.1) hp

/-- After `apply_bcs_outerextrap_and_inner`, in any order inside of the parallel loops: the interior and all other
gridfunctions keep their values; at each outer point the values extrapolate those at the next three points in a direction
leading from the point back towards the interior; each inner point has the value of its partner times its parity. -/
theorem C65_result {G : Grid} {m : Maps} {lo hi : Idx} (ob : OwnBox G m 3 lo hi) (hm : PartnersSettled G m)
    {bc : BcStruct} (h : setUp G m = some bc) {nGfs : ℕ} {types : ℕ → Fin 10} {s s' : Mem}
    (hr : Runs (extrapLoops G bc nGfs types) s s') :
    (∀ p, G.Has p → ∀ gf, ¬ G.Ghost p ∨ nGfs ≤ gf → gfAt G s' gf p = gfAt G s gf p) ∧
    (∀ p, Outer G m p → ∃ d σ, (σ = 1 ∧ p d < G.g ∨ σ = -1 ∧ G.n d - G.g ≤ p d) ∧
      (∀ k ∈ [1, 2, 3], Settled G m (shift p d (σ * k))) ∧ ∀ gf < nGfs,
      gfAt G s' gf p = 3 * gfAt G s' gf (shift p d (σ * 1)) - 3 * gfAt G s' gf (shift p d (σ * 2)) +
        gfAt G s' gf (shift p d (σ * 3))) ∧
    ∀ p q par, G.Ghost p → m.partner p = some q → q ≠ p → m.parity p q = some par → ∀ gf < nGfs,
      gfAt G s' gf p = par (types gf) * gfAt G s' gf q := by
  rw [extrapLoops_eq] at hr
  obtain ⟨t, hr1, hr2⟩ := runs_append hr
  obtain ⟨i1, i2⟩ := inner_result hm h (runs_single hr2)
  have hks : ∀ k ∈ [(1 : ℤ), 2, 3], 1 ≤ k ∧ k ≤ 3 := by decide
  obtain ⟨o1, o2⟩ := faces_result ob h hks hr1
  refine ⟨fun p hp gf hc => ?_, fun p hp => ?_, fun p q par hg hq hne hpar gf hgf => ?_⟩
  · unfold gfAt
    rw [i2 p gf hp, o2 p gf hp]
    · rcases hc with hc | hc
      · exact .inr (.inl hc)
      · exact .inl hc
    · rcases hc with hc | hc
      · exact .inr ⟨hp, fun hg => absurd hg hc⟩
      · exact .inl hc
  · obtain ⟨gz, hz, d, u, hf, ho⟩ := face_own hp
    have hb := face_outer h hz hf ho
    set b : OuterPt := ⟨p, facex ((d : ℕ) * 2 + if u then 1 else 0)⟩ with hbdef
    have hst : ∀ k, b.step k = shift p d ((if u then -1 else 1) * k) := by
      intro k
      funext e
      rw [step_eq (d := d) (u := u) rfl]
      unfold shift
      by_cases c : e = d
      · subst c
        rw [if_pos rfl, Function.update_self]
        cases u <;> simp [hbdef]
        ring
      · rw [if_neg c, Function.update_of_ne c]
    have hset : ∀ k : ℤ, 1 ≤ k → k ≤ 3 → Settled G m (shift p d ((if u then -1 else 1) * k)) := by
      intro k h1 hk
      rw [← hst]
      exact (step_filled ob hz hf ho rfl h1 hk).2
    refine ⟨d, if u then -1 else 1, ?_, fun k hk => hset k (hks k hk).1 (hks k hk).2, fun gf hgf => ?_⟩
    · have := hf.1
      have := ob.nonneg d
      cases u <;> simp at * <;> omega
    · have e := o1 gz hz d b hb gf hgf
      simp only [List.map_cons, List.map_nil, hst] at e
      have keep : ∀ q, Settled G m q → gfAt G s' gf q = t (G.pt gf (G.at q)) := fun q hq => i2 q gf hq.1 (.inr hq)
      rw [keep p ⟨hp.1.1, fun _ => ho⟩, keep _ (hset 1 (by norm_num) (by norm_num)),
        keep _ (hset 2 (by norm_num) (by norm_num)), keep _ (hset 3 (by norm_num) (by norm_num))]
      rw [show G.at b.i = G.at p from rfl] at e
      rw [e]
      simp [extrap]
  · have hs := hm p q hg hq
    show s' (G.pt gf (G.at p)) = _
    rw [i1 p q par hg hq hne hpar gf hgf]
    congr 1
    exact (i2 q gf hs.1 (.inr hs)).symm

/-- No two iterations of a parallel loop touch the same memory, if one of them writes it. -/
theorem C65_no_races {G : Grid} {m : Maps} {lo hi : Idx} (ob : OwnBox G m 3 lo hi) (hm : PartnersSettled G m)
    {bc : BcStruct} (h : setUp G m = some bc) (nGfs : ℕ) (types : ℕ → Fin 10) :
    ∀ l ∈ extrapLoops G bc nGfs types, RaceFree l := by
  intro l hl
  rw [extrapLoops_eq, List.mem_append, List.mem_singleton, List.mem_flatMap] at hl
  rcases hl with ⟨gz, hz, hl⟩ | rfl
  · obtain ⟨d, -, rfl⟩ := List.mem_map.1 hl
    exact raceFree_faceAsgs ob h nGfs (by decide) _ (List.mem_range.1 hz) d
  · exact raceFree_inner hm h nGfs types

/-- All ghost points are determined by the interior: two runs that agree there agree everywhere in the grid, whatever the
ghost zones held before and whatever the order inside of the parallel loops. -/
theorem C65_determined {G : Grid} {m : Maps} {lo hi : Idx} (ob : OwnBox G m 3 lo hi) (hm : PartnersSettled G m)
    {bc : BcStruct} (h : setUp G m = some bc) {nGfs : ℕ} {types : ℕ → Fin 10} {s₁ s₁' s₂ s₂' : Mem}
    (hr₁ : Runs (extrapLoops G bc nGfs types) s₁ s₁') (hr₂ : Runs (extrapLoops G bc nGfs types) s₂ s₂') {gf : ℕ}
    (hgf : gf < nGfs) (hs : ∀ p, G.Has p → ¬ G.Ghost p → gfAt G s₁ gf p = gfAt G s₂ gf p) :
    ∀ p, G.Has p → gfAt G s₁' gf p = gfAt G s₂' gf p := by
  have r₁ := hr₁
  have r₂ := hr₂
  rw [extrapLoops_eq] at r₁ r₂
  obtain ⟨t₁, a₁, b₁⟩ := runs_append r₁
  obtain ⟨t₂, a₂, b₂⟩ := runs_append r₂
  have hks : ∀ k ∈ [(1 : ℤ), 2, 3], 1 ≤ k ∧ k ≤ 3 := by decide
  obtain ⟨o₁, k₁⟩ := faces_result ob h hks a₁
  obtain ⟨o₂, k₂⟩ := faces_result ob h hks a₂
  have settled : ∀ p, Settled G m p → t₁ (G.pt gf (G.at p)) = t₂ (G.pt gf (G.at p)) := by
    refine layers_induct ob _ (fun p hp hg => ?_) fun gz hz d u p hf ho ih => ?_
    · rw [k₁ p gf hp (.inr (.inl hg)), k₂ p gf hp (.inr (.inl hg))]
      exact hs p hp hg
    · have hb := face_outer h hz hf ho
      have e₁ := o₁ gz hz d _ hb gf hgf
      have e₂ := o₂ gz hz d _ hb gf hgf
      refine e₁.trans (Eq.trans ?_ e₂.symm)
      congr 1
      refine List.map_congr_left fun k hk => ?_
      have : OuterPt.step ⟨p, facex ((d : ℕ) * 2 + if u then 1 else 0)⟩ k = shift p d (if u then -k else k) := by
        funext e
        rw [step_eq rfl]
        unfold shift
        by_cases c : e = d
        · subst c
          rw [if_pos rfl, Function.update_self]
          cases u <;> simp <;> ring
        · rw [if_neg c, Function.update_of_ne c]
      rw [this]
      exact ih k (hks k hk).1 (hks k hk).2
  obtain ⟨i₁, j₁⟩ := inner_result hm h (runs_single b₁)
  obtain ⟨i₂, j₂⟩ := inner_result hm h (runs_single b₂)
  intro p hp
  by_cases c : Settled G m p
  · unfold gfAt
    rw [j₁ p gf hp (.inr c), j₂ p gf hp (.inr c), settled p c]
  · have hg : G.Ghost p := by
      by_contra hg
      exact c ⟨hp, fun k => absurd k hg⟩
    obtain ⟨-, -, htot, -, -, -⟩ := setUp_spec h
    obtain ⟨q, hq⟩ := htot p hg
    have hne : q ≠ p := by rintro rfl; exact c ⟨hp, fun _ => hq⟩
    obtain ⟨e, he, hd⟩ := List.mem_map.1 ((inner_iff h hp).2 ⟨hg, by rw [hq]; intro k; exact hne (Option.some.inj k)⟩)
    obtain ⟨p', q', par, hg', hq', -, hpar, rfl⟩ := (C64_inner h e).1 he
    have := Grid.at_inj hg'.1 hp hd
    subst this
    rw [hq] at hq'; cases hq'
    unfold gfAt
    rw [i₁ p' q par hg hq hne hpar gf hgf, i₂ p' q par hg hq hne hpar gf hgf, settled q (hm p' q hg hq)]

/-- The value at grid point `p` of a polynomial of degree at most two in each coordinate, on a uniform grid with origin
`x` and spacing `dx`. -/
noncomputable def quadratic (c : Fin 3 → Fin 3 → Fin 3 → ℝ) (x dx : Fin 3 → ℝ) (p : Idx) : ℝ :=
  ∑ a, ∑ b, ∑ d, c a b d * (x 0 + p 0 * dx 0) ^ (a : ℕ) * (x 1 + p 1 * dx 1) ^ (b : ℕ) * (x 2 + p 2 * dx 2) ^ (d : ℕ)

theorem quadratic_shift (c : Fin 3 → Fin 3 → Fin 3 → ℝ) (x dx : Fin 3 → ℝ) (p : Idx) (d : Fin 3) {σ : ℤ}
    (hσ : σ = 1 ∨ σ = -1) : quadratic c x dx p = 3 * quadratic c x dx (shift p d (σ * 1)) -
      3 * quadratic c x dx (shift p d (σ * 2)) + quadratic c x dx (shift p d (σ * 3)) := by
  unfold quadratic shift
  simp only [Fin.sum_univ_three]
  rcases hσ with rfl | rfl <;> fin_cases d <;> simp [Function.update] <;> ring

/-- Polynomials of degree at most two in each coordinate are reproduced exactly at all outer boundary points. -/
theorem C65_exact {G : Grid} {m : Maps} {lo hi : Idx} (ob : OwnBox G m 3 lo hi) (hm : PartnersSettled G m)
    {bc : BcStruct} (h : setUp G m = some bc) {nGfs : ℕ} {types : ℕ → Fin 10} {s s' : Mem}
    (hr : Runs (extrapLoops G bc nGfs types) s s') {gf : ℕ} (hgf : gf < nGfs) (c : Fin 3 → Fin 3 → Fin 3 → ℝ)
    (x dx : Fin 3 → ℝ) (hs : ∀ p, G.Has p → ¬ G.Ghost p → gfAt G s gf p = quadratic c x dx p) :
    ∀ p, Outer G m p → gfAt G s' gf p = quadratic c x dx p := by
  have r := hr
  rw [extrapLoops_eq] at r
  obtain ⟨t, a, b⟩ := runs_append r
  have hks : ∀ k ∈ [(1 : ℤ), 2, 3], 1 ≤ k ∧ k ≤ 3 := by decide
  obtain ⟨o, k⟩ := faces_result ob h hks a
  have settled : ∀ p, Settled G m p → t (G.pt gf (G.at p)) = quadratic c x dx p := by
    refine layers_induct ob _ (fun p hp hg => ?_) fun gz hz d u p hf ho ih => ?_
    · rw [k p gf hp (.inr (.inl hg))]
      exact hs p hp hg
    · have e := o gz hz d _ (face_outer h hz hf ho) gf hgf
      have st : ∀ k, OuterPt.step ⟨p, facex ((d : ℕ) * 2 + if u then 1 else 0)⟩ k = shift p d (if u then -k else k) := by
        intro k
        funext e
        rw [step_eq rfl]
        unfold shift
        by_cases c : e = d
        · subst c
          rw [if_pos rfl, Function.update_self]
          cases u <;> simp <;> ring
        · rw [if_neg c, Function.update_of_ne c]
      simp only [List.map_cons, List.map_nil, st] at e
      rw [ih 1 (by norm_num) (by norm_num), ih 2 (by norm_num) (by norm_num), ih 3 (by norm_num) (by norm_num)] at e
      refine e.trans ?_
      rw [quadratic_shift c x dx p d (σ := if u then -1 else 1) (by cases u <;> simp)]
      cases u <;> simp [extrap]
  obtain ⟨-, j⟩ := inner_result hm h (runs_single b)
  intro p hp
  unfold gfAt
  rw [j p gf hp.1.1 (.inr ⟨hp.1.1, fun _ => hp.2⟩), settled p ⟨hp.1.1, fun _ => hp.2⟩]

end Verif.CurviBC
