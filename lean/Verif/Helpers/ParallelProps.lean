import Verif.Helpers.Parallel
import Mathlib.Data.List.Forall2
import Mathlib.Data.List.Perm.Basic

/-!
# C34: parallel code generation gives the sequential result for every schedule
-/
namespace Verif.Helpers
open Verif.Py

variable {V : Type}

/-! ## Specification -/

/-- Places of the registries. -/
inductive Loc
  | param (k : Str)
  | codeParam (k : Str)
  | cfunc (k : Str)
  | gridfc (k : Str)
  | extra (m k : Str)
  deriving DecidableEq

/-- What is registered at a place. -/
def NEnv.look (E : NEnv V) : Loc → Option V
  | .param k => E.params.get? k
  | .codeParam k => E.codeParams.get? k
  | .cfunc k => E.cfuncs.get? k
  | .gridfc k => E.gridfcs.get? k
  | .extra m k => (E.extras.get? m).bind (·.get? k)

/-- Dictionaries have each key once. -/
structure NEnv.Wf (E : NEnv V) : Prop where
  params : Dict.Wf E.params
  codeParams : Dict.Wf E.codeParams
  cfuncs : Dict.Wf E.cfuncs
  gridfcs : Dict.Wf E.gridfcs
  extras : Dict.Wf E.extras
  leaves : ∀ m d, (m, d) ∈ E.extras → Dict.Wf d

/-- Consistent tasks: each has a fixed set of registrations; two tasks, or a task and the environment at the start,
that register at the same place register the same; and each task, started in an environment that holds the one at the
start and some registrations of other tasks, succeeds and adds its registrations. -/
structure Consistent {ι : Type} (E₀ : NEnv V) (ids : List ι) (run : ι → Task V) (writes : ι → Loc → Option V) :
    Prop where
  wf : E₀.Wf
  same : ∀ i ∈ ids, ∀ j ∈ ids, ∀ l v w, writes i l = some v → writes j l = some w → v = w
  keep : ∀ i ∈ ids, ∀ l v w, writes i l = some v → E₀.look l = some w → v = w
  acts : ∀ i ∈ ids, ∀ E : NEnv V, E.Wf →
    (∀ l v, E₀.look l = some v → E.look l = some v) →
    (∀ l v, E.look l = some v → E₀.look l = some v ∨ ∃ j ∈ ids, j ≠ i ∧ writes j l = some v) →
    ∃ E', run i E = some E' ∧ E'.Wf ∧ ∀ l, E'.look l = (writes i l).or (E.look l)

/-! ## Proofs -/

theorem deepUpdate_wf (u : Dict Str (Dict Str V)) : ∀ d : Dict Str (Dict Str V), Dict.Wf d → Dict.Wf (deepUpdate d u) := by
  unfold deepUpdate
  induction u with
  | nil => exact fun d h => h
  | cons a u ih => exact fun d h => ih _ (h.set _ _)

theorem get?_mem_wf {d : Dict Str (Dict Str V)} (h : ∀ m x, (m, x) ∈ d → Dict.Wf x) {m : Str} {x : Dict Str V}
    (hx : d.get? m = some x) : Dict.Wf x := h m x (Dict.mem_of_get? hx)

theorem set_leaves {d : Dict Str (Dict Str V)} (hd : Dict.Wf d) (h : ∀ m x, d.get? m = some x → Dict.Wf x) (k : Str)
    (y : Dict Str V) (hy : Dict.Wf y) : ∀ m x, (d.set k y).get? m = some x → Dict.Wf x := by
  intro m x hx
  rw [Dict.get?_set] at hx
  split at hx
  · cases hx; exact hy
  · exact h m x hx

theorem deepUpdate_leaves (u : Dict Str (Dict Str V)) : ∀ d : Dict Str (Dict Str V), Dict.Wf d →
    (∀ m x, d.get? m = some x → Dict.Wf x) → ∀ m x, (deepUpdate d u).get? m = some x → Dict.Wf x := by
  unfold deepUpdate
  induction u with
  | nil => exact fun d _ h => h
  | cons a u ih =>
    intro d hd h
    refine ih _ (hd.set _ _) (set_leaves hd h _ _ (Dict.Wf.update ?_ _))
    cases hg : d.get? a.1 with
    | none => exact Dict.Wf.nil
    | some x => exact h _ _ hg

theorem deepUpdate_get? (u : Dict Str (Dict Str V)) (hu : Dict.Wf u) (hl : ∀ m x, (m, x) ∈ u → Dict.Wf x) :
    ∀ (d : Dict Str (Dict Str V)) (m k : Str), ((deepUpdate d u).get? m).bind (·.get? k) =
      ((u.get? m).bind (·.get? k)).or ((d.get? m).bind (·.get? k)) := by
  unfold deepUpdate
  induction u with
  | nil => intro d m k; simp [Dict.get?]
  | cons a u ih =>
    intro d m k
    obtain ⟨m', x⟩ := a
    have hw : m' ∉ Dict.keys u ∧ Dict.Wf u := by
      have : (m' :: Dict.keys u).Nodup := hu
      exact ⟨(List.nodup_cons.1 this).1, (List.nodup_cons.1 this).2⟩
    simp only [List.foldl_cons]
    rw [ih hw.2 (fun m x h => hl m x (List.mem_cons_of_mem _ h)), Dict.get?_set]
    by_cases hk : m' = m
    · subst hk
      have hn : Dict.get? u m' = none := by
        cases hg : Dict.get? u m' with
        | none => rfl
        | some v => exact absurd ((Dict.mem_keys_iff u m').2 ⟨v, hg⟩) hw.1
      have hx := Dict.get?_update ((d.get? m').getD []) x (hl m' x List.mem_cons_self) k
      simp only [hn, Dict.get?, if_true, Option.bind_some, Option.bind_none, Option.none_or, hx]
      cases d.get? m' <;> simp [Dict.get?]
    · simp [Dict.get?, hk, Ne.symm hk]

theorem unpackOne_look (E F : NEnv V) (hF : F.Wf) (l : Loc) : (unpackOne E F).look l = (F.look l).or (E.look l) := by
  cases l with
  | param k => exact Dict.get?_update _ _ hF.params k
  | codeParam k => exact Dict.get?_update _ _ hF.codeParams k
  | cfunc k => exact Dict.get?_update _ _ hF.cfuncs k
  | gridfc k => exact Dict.get?_update _ _ hF.gridfcs k
  | extra m k => exact deepUpdate_get? _ hF.extras hF.leaves _ m k

section
variable {ι : Type} {E₀ : NEnv V} {ids : List ι} {run : ι → Task V} {writes : ι → Loc → Option V}

/-- The environment holds the start and the registrations of `D`. -/
def Holds (E₀ : NEnv V) (writes : ι → Loc → Option V) (E : NEnv V) (D : List ι) : Prop :=
  ∀ l v, E.look l = some v ↔ E₀.look l = some v ∨ ∃ j ∈ D, writes j l = some v

theorem holds_unique (h : Consistent E₀ ids run writes) {D D' : List ι} (hD : ∀ i ∈ D, i ∈ ids)
    (hD' : ∀ i ∈ D', i ∈ ids) {l : Loc} {v w : V} (hv : E₀.look l = some v ∨ ∃ j ∈ D, writes j l = some v)
    (hw : E₀.look l = some w ∨ ∃ j ∈ D', writes j l = some w) : v = w := by
  rcases hv with hv | ⟨i, hi, hv⟩ <;> rcases hw with hw | ⟨j, hj, hw⟩
  · rw [hv] at hw; cases hw; rfl
  · exact (h.keep j (hD' j hj) l w v hw hv).symm
  · exact h.keep i (hD i hi) l v w hv hw
  · exact h.same i (hD i hi) j (hD' j hj) l v w hv hw

theorem holds_or (h : Consistent E₀ ids run writes) {X Y : Option V} {l : Loc} {D D' : List ι} (hD : ∀ i ∈ D, i ∈ ids)
    (hD' : ∀ i ∈ D', i ∈ ids)
    (hX : ∀ v, X = some v ↔ E₀.look l = some v ∨ ∃ j ∈ D, writes j l = some v)
    (hY : ∀ v, Y = some v → E₀.look l = some v ∨ ∃ j ∈ D', writes j l = some v)
    (hY' : ∀ v, (∃ j ∈ D', writes j l = some v) → Y = some v) (v : V) :
    Y.or X = some v ↔ E₀.look l = some v ∨ ∃ j ∈ D' ++ D, writes j l = some v := by
  constructor
  · intro hv
    cases hy : Y with
    | none =>
      rw [hy, Option.none_or] at hv
      rcases (hX v).1 hv with h | ⟨j, hj, hw⟩
      · exact Or.inl h
      · exact Or.inr ⟨j, List.mem_append_right _ hj, hw⟩
    | some u =>
      rw [hy, Option.some_or] at hv
      cases hv
      rcases hY v hy with h | ⟨j, hj, hw⟩
      · exact Or.inl h
      · exact Or.inr ⟨j, List.mem_append_left _ hj, hw⟩
  · intro hv
    have hall : ∀ i ∈ D' ++ D, i ∈ ids := by
      intro i hi
      rcases List.mem_append.1 hi with hi | hi
      · exact hD' i hi
      · exact hD i hi
    cases hy : Y with
    | some u => rw [Option.some_or, holds_unique h hall hD' hv (hY u hy)]
    | none =>
      rw [Option.none_or, hX v]
      rcases hv with hv | ⟨j, hj, hw⟩
      · exact Or.inl hv
      · rcases List.mem_append.1 hj with hj | hj
        · exact absurd (hY' v ⟨j, hj, hw⟩) (by simp [hy])
        · exact Or.inr ⟨j, hj, hw⟩

theorem step_holds (h : Consistent E₀ ids run writes) {E : NEnv V} {D : List ι} (hE : E.Wf) (hD : ∀ i ∈ D, i ∈ ids)
    (hh : Holds E₀ writes E D) {i : ι} (hi : i ∈ ids) (hn : i ∉ D) :
    ∃ E', run i E = some E' ∧ E'.Wf ∧ Holds E₀ writes E' (i :: D) := by
  obtain ⟨E', h1, h2, h3⟩ := h.acts i hi E hE (fun l v hv => (hh l v).2 (Or.inl hv)) (fun l v hv => by
    rcases (hh l v).1 hv with h | ⟨j, hj, hw⟩
    · exact Or.inl h
    · exact Or.inr ⟨j, hD j hj, fun e => hn (e ▸ hj), hw⟩)
  refine ⟨E', h1, h2, fun l v => ?_⟩
  rw [h3 l]
  exact holds_or h (D' := [i]) hD (by simpa using hi) (hh l) (fun v hv => Or.inr ⟨i, by simp, hv⟩)
    (fun v ⟨j, hj, hv⟩ => by rw [List.mem_singleton] at hj; subst hj; exact hv) v

theorem unpack_holds (h : Consistent E₀ ids run writes) {E F : NEnv V} {D D' : List ι} (hD : ∀ i ∈ D, i ∈ ids)
    (hD' : ∀ i ∈ D', i ∈ ids) (hF : F.Wf) (hh : Holds E₀ writes E D) (hh' : Holds E₀ writes F D') :
    Holds E₀ writes (unpackOne E F) (D' ++ D) := by
  intro l v
  rw [unpackOne_look E F hF l]
  exact holds_or h hD hD' (hh l) (fun v hv => (hh' l v).1 hv) (fun v hv => (hh' l v).2 (Or.inr hv)) v

theorem unpackAll_holds (h : Consistent E₀ ids run writes) : ∀ (Fs : List (NEnv V)) (Ds : List (List ι)),
    List.Forall₂ (fun F D => F.Wf ∧ (∀ i ∈ D, i ∈ ids) ∧ Holds E₀ writes F D) Fs Ds →
    ∀ (E : NEnv V) (D : List ι), (∀ i ∈ D, i ∈ ids) → Holds E₀ writes E D →
      ∃ D', (∀ i ∈ D', i ∈ ids) ∧ (∀ X ∈ Ds, ∀ i ∈ X, i ∈ D') ∧ (∀ i ∈ D, i ∈ D') ∧
        Holds E₀ writes (unpackAll E Fs) D'
  | [], _, hf, E, D, hD, hh => by
    cases hf
    exact ⟨D, hD, by simp, fun _ h => h, hh⟩
  | F :: Fs, _, hf, E, D, hD, hh => by
    cases hf with
    | cons hF hf =>
      rename_i X Ds
      have hall : ∀ i ∈ X ++ D, i ∈ ids := by
        intro i hi
        rcases List.mem_append.1 hi with hi | hi
        · exact hF.2.1 i hi
        · exact hD i hi
      obtain ⟨D', h1, h2, h3, h4⟩ := unpackAll_holds h Fs Ds hf (unpackOne E F) (X ++ D) hall
        (unpack_holds h hD hF.2.1 hF.1 hh hF.2.2)
      refine ⟨D', h1, ?_, fun i hi => h3 i (List.mem_append_right _ hi), h4⟩
      intro Y hY i hi
      rcases List.mem_cons.1 hY with rfl | hY
      · exact h3 i (List.mem_append_left _ hi)
      · exact h2 Y hY i hi

theorem runSchedule_holds (h : Consistent E₀ ids run writes) : ∀ (s : List (Nat × ι)) (W : Nat → NEnv V)
    (D : Nat → List ι), (∀ w, (W w).Wf ∧ (∀ i ∈ D w, i ∈ ids) ∧ Holds E₀ writes (W w) (D w)) →
    (s.map (·.2)).Nodup → (∀ p ∈ s, p.2 ∈ ids ∧ ∀ w, p.2 ∉ D w) →
    ∃ Fs Ds, runSchedule (s.map fun p => (p.1, run p.2)) W = some Fs ∧
      List.Forall₂ (fun F D => F.Wf ∧ (∀ i ∈ D, i ∈ ids) ∧ Holds E₀ writes F D) Fs Ds ∧
      ∀ p ∈ s, ∃ X ∈ Ds, p.2 ∈ X
  | [], _, _, _, _, _ => ⟨[], [], rfl, .nil, by simp⟩
  | (w, i) :: s, W, D, hW, hnd, hs => by
    have hi := hs (w, i) List.mem_cons_self
    obtain ⟨E', h1, h2, h3⟩ := step_holds h (hW w).1 (hW w).2.1 (hW w).2.2 hi.1 (hi.2 w)
    have hall : ∀ j ∈ i :: D w, j ∈ ids := by
      intro j hj
      rcases List.mem_cons.1 hj with rfl | hj
      · exact hi.1
      · exact (hW w).2.1 j hj
    rw [List.map_cons, List.nodup_cons] at hnd
    obtain ⟨Fs, Ds, g1, g2, g3⟩ := runSchedule_holds h s (Function.update W w E') (Function.update D w (i :: D w))
      (by
        intro w'
        by_cases e : w' = w
        · subst e
          rw [Function.update_self, Function.update_self]
          exact ⟨h2, hall, h3⟩
        · rw [Function.update_of_ne e, Function.update_of_ne e]
          exact hW w')
      hnd.2
      (by
        intro p hp
        have h0 := hs p (List.mem_cons_of_mem _ hp)
        refine ⟨h0.1, fun w' => ?_⟩
        by_cases e : w' = w
        · subst e
          rw [Function.update_self, List.mem_cons, not_or]
          exact ⟨fun e => hnd.1 (List.mem_map.2 ⟨p, hp, e⟩), h0.2 w'⟩
        · rw [Function.update_of_ne e]
          exact h0.2 w')
    refine ⟨E' :: Fs, (i :: D w) :: Ds, ?_, .cons ⟨h2, hall, h3⟩ g2, ?_⟩
    · simp only [List.map_cons, runSchedule, h1, Option.bind_some, g1, Option.map_some]
    · intro p hp
      rcases List.mem_cons.1 hp with rfl | hp
      · exact ⟨_, List.mem_cons_self, List.mem_cons_self⟩
      · obtain ⟨X, hX, hpX⟩ := g3 p hp
        exact ⟨X, List.mem_cons_of_mem _ hX, hpX⟩

theorem runSequential_holds (h : Consistent E₀ ids run writes) : ∀ (l : List ι) (E : NEnv V) (D : List ι), E.Wf →
    (∀ i ∈ D, i ∈ ids) → Holds E₀ writes E D → l.Nodup → (∀ i ∈ l, i ∈ ids ∧ i ∉ D) →
    ∃ S D', runSequential (l.map run) E = some S ∧ Holds E₀ writes S D' ∧ (∀ i ∈ D', i ∈ ids) ∧ (∀ i ∈ l, i ∈ D') ∧
      ∀ i ∈ D, i ∈ D'
  | [], E, D, _, hD, hh, _, _ => ⟨E, D, rfl, hh, hD, by simp, fun _ h => h⟩
  | i :: l, E, D, hE, hD, hh, hnd, hl => by
    have hi := hl i List.mem_cons_self
    rw [List.nodup_cons] at hnd
    obtain ⟨E', h1, h2, h3⟩ := step_holds h hE hD hh hi.1 hi.2
    obtain ⟨S, D', g1, g2, g3, g4, g5⟩ := runSequential_holds h l E' (i :: D) h2
      (by
        intro j hj
        rcases List.mem_cons.1 hj with rfl | hj
        · exact hi.1
        · exact hD j hj) h3 hnd.2
      (by
        intro j hj
        have h0 := hl j (List.mem_cons_of_mem _ hj)
        refine ⟨h0.1, ?_⟩
        rw [List.mem_cons, not_or]
        exact ⟨fun e => hnd.1 (e ▸ hj), h0.2⟩)
    refine ⟨S, D', ?_, g2, g3, ?_, fun j hj => g5 j (List.mem_cons_of_mem _ hj)⟩
    · simp only [List.map_cons, runSequential, h1, Option.bind_some, g1]
    · intro j hj
      rcases List.mem_cons.1 hj with rfl | hj
      · exact g5 j List.mem_cons_self
      · exact g4 j hj

/-! ## Theorems -/

/-- **C34** (partial: consistent tasks): for every assignment of tasks to workers and every order of completion, the
parallel run and the sequential run succeed and register the same at every place, namely what was there at the start and
what the tasks register.  The full statement, which includes reporting symbols registered twice and tasks that change
or extend existing entries, fails, see `C34_duplicate`, `C34_append` and `C34_stale`. -/
theorem C34_schedule_partial (h : Consistent E₀ ids run writes) (hnd : ids.Nodup) (schedule : List (Nat × ι))
    (hs : (schedule.map (·.2)).Perm ids) :
    ∃ R S, doParallel true E₀ (schedule.map fun p => (p.1, run p.2)) = some R ∧
      runSequential (ids.map run) E₀ = some S ∧ (∀ l, R.look l = S.look l) ∧
      ∀ l v, R.look l = some v ↔ E₀.look l = some v ∨ ∃ j ∈ ids, writes j l = some v := by
  have h0 : Holds E₀ writes E₀ [] := fun l v => by simp
  obtain ⟨Fs, Ds, g1, g2, g3⟩ := runSchedule_holds h schedule (fun _ => E₀) (fun _ => [])
    (fun _ => ⟨h.wf, by simp, h0⟩) (hs.nodup_iff.2 hnd)
    (fun p hp => ⟨hs.subset (List.mem_map_of_mem hp), by simp⟩)
  obtain ⟨D, d1, d2, -, d4⟩ := unpackAll_holds h Fs Ds g2 E₀ [] (by simp) h0
  obtain ⟨S, D', s1, s2, s3, s4, -⟩ := runSequential_holds h ids E₀ [] h.wf (by simp) h0 hnd (fun i hi => ⟨hi, by simp⟩)
  have hall : ∀ i ∈ ids, i ∈ D := by
    intro i hi
    obtain ⟨p, hp, rfl⟩ := List.mem_map.1 (hs.symm.subset hi)
    obtain ⟨X, hX, hpX⟩ := g3 p hp
    exact d2 X hX p.2 hpX
  have hR : ∀ l v, (unpackAll E₀ Fs).look l = some v ↔ E₀.look l = some v ∨ ∃ j ∈ ids, writes j l = some v := by
    intro l v
    rw [d4 l v]
    exact or_congr_right ⟨fun ⟨j, hj, hw⟩ => ⟨j, d1 j hj, hw⟩, fun ⟨j, hj, hw⟩ => ⟨j, hall j hj, hw⟩⟩
  refine ⟨unpackAll E₀ Fs, S, by rw [doParallel, if_pos rfl, g1, Option.map_some], s1, fun l => ?_, hR⟩
  apply Option.ext
  intro v
  rw [hR l v, s2 l v]
  exact or_congr_right ⟨fun ⟨j, hj, hw⟩ => ⟨j, s4 j hj, hw⟩, fun ⟨j, hj, hw⟩ => ⟨j, s3 j hj, hw⟩⟩

end

theorem brace_inj : ∀ {a b a' b' : Str}, '{' ∉ a → '{' ∉ a' → a ++ '{' :: b = a' ++ '{' :: b' → a = a' ∧ b = b'
  | [], b, [], b', _, _, h => by simpa using h
  | [], b, x :: a', b', _, h', h => by
    simp only [List.nil_append, List.cons_append, List.cons.injEq] at h
    exact absurd (h.1 ▸ List.mem_cons_self) h'
  | x :: a, b, [], b', h', _, h => by
    simp only [List.nil_append, List.cons_append, List.cons.injEq] at h
    exact absurd (h.1 ▸ List.mem_cons_self) h'
  | x :: a, b, y :: a', b', h1, h2, h => by
    simp only [List.cons_append, List.cons.injEq] at h
    obtain ⟨hx, h⟩ := h
    obtain ⟨r1, r2⟩ := brace_inj (fun m => h1 (List.mem_cons_of_mem _ m)) (fun m => h2 (List.mem_cons_of_mem _ m)) h
    exact ⟨by rw [hx, r1], r2⟩

/-- **C34** (keys): after a call was registered, a second one is refused exactly if its key was there before or it is
the same call; names contain no brace and the text of the arguments starts with one. -/
theorem C34_keys {α : Type} (d d' : Dict Str α) (name name' rest rest' : Str) (call call' : α) (hn : '{' ∉ name)
    (hn' : '{' ∉ name') (h : registerCall d name ('{' :: rest) call = some d') :
    (registerCall d' name' ('{' :: rest') call' = none ↔
      (d.contains (name' ++ '{' :: rest') = true ∨ (name' = name ∧ rest' = rest))) := by
  unfold registerCall at h
  split at h
  · cases h
  cases h
  unfold registerCall
  have hc : (d.set (name ++ '{' :: rest) call).contains (name' ++ '{' :: rest') = true ↔
      (d.contains (name' ++ '{' :: rest') = true ∨ (name' = name ∧ rest' = rest)) := by
    rw [Dict.contains, Dict.get?_set]
    split
    · next e =>
      have := brace_inj hn' hn e
      simp [this]
    · next e =>
      have : ¬ (name' = name ∧ rest' = rest) := fun ⟨h1, h2⟩ => e (by rw [h1, h2])
      simp [this, Dict.contains]
  rw [← hc]
  split <;> simp_all

example : registerCall ([] : Dict Str Nat) (c% "f") (c% "{'a': 1}") 0 = some [((c% "f{'a': 1}"), 0)] := by decide

/-! ## Concrete tasks -/

/-- Register a C function as `register_CFunction` does: an exception if the name is taken. -/
def addCFunc (name : Str) (v : Str) : Task Str := fun E =>
  if E.cfuncs.contains name then none else some { E with cfuncs := E.cfuncs.set name v }

/-- Append to the text of a module as `register_BHaH_defines` does. -/
def addDefine (m : Str) (v : Str) : Task Str := fun E =>
  let d := (E.extras.get? (c% "BHaH_defines")).getD []
  some { E with extras := E.extras.set (c% "BHaH_defines") (d.set m (((d.get? m).getD []) ++ v)) }

/-- Change an existing default as `adjust_CodeParam_default` does. -/
def adjust (k : Str) (v : Str) : Task Str := fun E =>
  if E.codeParams.contains k then some { E with codeParams := E.codeParams.set k v } else none

def noTask : Task Str := some

def startEnv : NEnv Str := ⟨[], [((c% "cfl"), (c% "0.5"))], [], [], []⟩

def exName : Bool → Str
  | true => (c% "f")
  | false => (c% "g")

/-- Two C functions with different names are consistent tasks, although each one refuses to run twice. -/
theorem consistent_example : Consistent startEnv [true, false]
    (fun i => addCFunc (exName i) (c% "body"))
    (fun i l => if l = .cfunc (exName i) then some (c% "body") else none) where
  wf := by
    refine ⟨?_, ?_, ?_, ?_, ?_, fun m d h => by simp [startEnv] at h⟩ <;> simp [Dict.Wf, Dict.keys, startEnv]
  same := by
    intro i _ j _ l v w h1 h2
    split at h1 <;> cases h1
    split at h2 <;> cases h2
    rfl
  keep := by
    intro i _ l v w h1 h2
    split at h1 <;> cases h1
    next e => subst e; simp [NEnv.look, startEnv, Dict.get?] at h2
  acts := by
    intro i _ E hE h1 h2
    have hn : E.cfuncs.get? (exName i) = none := by
      cases hg : E.cfuncs.get? (exName i) with
      | none => rfl
      | some v =>
        rcases h2 (.cfunc (exName i)) v hg with h | ⟨j, _, hj, h⟩
        · simp [NEnv.look, startEnv, Dict.get?] at h
        · cases i <;> cases j <;> simp [exName] at hj h
    have hc : E.cfuncs.contains (exName i) = false := by rw [Dict.contains, hn]; rfl
    refine ⟨_, if_neg (by rw [hc]; decide), ⟨hE.params, hE.codeParams, hE.cfuncs.set _ _, hE.gridfcs, hE.extras,
      hE.leaves⟩, fun l => ?_⟩
    cases l with
    | cfunc k =>
      simp only [NEnv.look, Dict.get?_set, Loc.cfunc.injEq]
      split <;> simp
    | param k => simp [NEnv.look]
    | codeParam k => simp [NEnv.look]
    | gridfc k => simp [NEnv.look]
    | extra m k => simp [NEnv.look]

example : ((doParallel true startEnv [(1, addCFunc (c% "g") (c% "body")), (0, addCFunc (c% "f") (c% "body"))]).map
    (·.cfuncs)) = some [((c% "g"), (c% "body")), ((c% "f"), (c% "body"))] := by decide

/-- Violation: a C function registered by two tasks is an exception in the sequential run and if both tasks run on one
worker, but goes unnoticed on two workers, and which of the two functions remains depends on the schedule. -/
theorem C34_duplicate :
    (runSequential [addCFunc (c% "f") (c% "one"), addCFunc (c% "f") (c% "two")] startEnv).map (·.cfuncs) = none ∧
    (doParallel true startEnv [(0, addCFunc (c% "f") (c% "one")), (0, addCFunc (c% "f") (c% "two"))]).map (·.cfuncs)
      = none ∧
    (doParallel true startEnv [(0, addCFunc (c% "f") (c% "one")), (1, addCFunc (c% "f") (c% "two"))]).map (·.cfuncs)
      = some [((c% "f"), (c% "two"))] ∧
    (doParallel true startEnv [(1, addCFunc (c% "f") (c% "two")), (0, addCFunc (c% "f") (c% "one"))]).map (·.cfuncs)
      = some [((c% "f"), (c% "one"))] := by
  decide

/-- Violation: text appended to the same module by two workers is lost. -/
theorem C34_append :
    (runSequential [addDefine (c% "m") (c% "A"), addDefine (c% "m") (c% "B")] startEnv).map
      (·.look (.extra (c% "BHaH_defines") (c% "m"))) = some (some (c% "AB")) ∧
    (doParallel true startEnv [(0, addDefine (c% "m") (c% "A")), (1, addDefine (c% "m") (c% "B"))]).map
      (·.look (.extra (c% "BHaH_defines") (c% "m"))) = some (some (c% "B")) := by
  decide

/-- Violation: a change of an existing entry is undone by a worker that did not see it, if that worker finishes later. -/
theorem C34_stale :
    (runSequential [adjust (c% "cfl") (c% "0.1"), noTask] startEnv).map (·.codeParams)
      = some [((c% "cfl"), (c% "0.1"))] ∧
    (doParallel true startEnv [(0, adjust (c% "cfl") (c% "0.1")), (1, noTask)]).map (·.codeParams)
      = some [((c% "cfl"), (c% "0.5"))] := by
  decide

end Verif.Helpers
