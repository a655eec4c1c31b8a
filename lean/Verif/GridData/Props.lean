import Verif.GridData.Model
import Mathlib.Data.List.Induction

/-!
# Property C52: griddata/commondata declarations are stored once, in order, per module
-/
namespace Verif.GridData
open Verif.Py

/-- Specification: given the calls of a history that concern one struct and one module, the
declarations that must be stored, in order: every semicolon-free declaration at its first occurrence. -/
def expected : List Call → List Entry
  | [] => []
  | c :: h =>
    if ';' ∈ c.decl then expected h
    else ⟨c.modul, c.decl, c.desc⟩ :: (expected h).filter (fun e => e.decl ≠ c.decl)

/-- What is stored for a module in one of the structs. -/
def stored (s : St) (common : Bool) (m : Str) : List Entry :=
  ((if common then s.commondata else s.griddata).get? m).getD []

theorem expected_mem (l : List Call) (e : Entry) (h : e ∈ expected l) :
    ∃ c ∈ l, ';' ∉ c.decl ∧ e = ⟨c.modul, c.decl, c.desc⟩ := by
  induction l with
  | nil => simp [expected] at h
  | cons c l ih =>
    unfold expected at h
    split at h
    · obtain ⟨c', h1, h2⟩ := ih h
      exact ⟨c', by simp [h1], h2⟩
    · rename_i hs
      rcases List.mem_cons.1 h with h | h
      · exact ⟨c, by simp, hs, h⟩
      · obtain ⟨c', h1, h2⟩ := ih (List.mem_filter.1 h).1
        exact ⟨c', by simp [h1], h2⟩

theorem expected_append (l : List Call) (c : Call) :
    expected (l ++ [c]) = if ';' ∈ c.decl ∨ (expected l).any (fun e => e.decl = c.decl) then expected l
      else expected l ++ [⟨c.modul, c.decl, c.desc⟩] := by
  induction l with
  | nil =>
    simp only [List.nil_append, expected]
    split <;> simp_all
  | cons a l ih =>
    simp only [List.cons_append, expected]
    by_cases ha : ';' ∈ a.decl
    · simp only [ha, if_true]
      exact ih
    · simp only [ha, if_false]
      rw [ih]
      by_cases hc : ';' ∈ c.decl
      · simp [hc]
      · by_cases h2 : (expected l).any (fun e => e.decl = c.decl)
        · have h2' : (expected l).any (fun e => decide (e.decl = c.decl)) = true := h2
          rw [if_pos (Or.inr h2)]
          by_cases hac : a.decl = c.decl
          · simp [hac, hc]
          · rw [if_pos]
            right
            rw [List.any_cons, Bool.or_eq_true]
            right
            rw [List.any_eq_true] at h2' ⊢
            obtain ⟨e, he, hd⟩ := h2'
            refine ⟨e, List.mem_filter.2 ⟨he, ?_⟩, hd⟩
            simp only [decide_eq_true_eq] at hd
            simp only [ne_eq, decide_not, Bool.not_eq_eq_eq_not, Bool.not_true, decide_eq_false_iff_not]
            rw [hd]; exact fun h => hac h.symm
        · rw [if_neg (by rintro (h | h); exacts [hc h, h2 h])]
          by_cases hac : a.decl = c.decl
          · rw [List.filter_append]
            simp [hac]
          · rw [List.filter_append, if_neg]
            · have : (decide (c.decl = a.decl)) = false := by simpa using fun h => hac h.symm
              simp [this]
            · rintro (h | h)
              · exact hc h
              · rw [List.any_cons, Bool.or_eq_true] at h
                rcases h with h | h
                · simp only [decide_eq_true_eq] at h; exact hac h
                · apply h2
                  rw [List.any_eq_true] at h ⊢
                  obtain ⟨e, he, hd⟩ := h
                  exact ⟨e, (List.mem_filter.1 he).1, hd⟩

/-- One registration, seen through `stored`. -/
theorem stored_register (s : St) (c : Call) (common : Bool) (m : Str)
    (hnil : ∀ m, (if common then s.commondata else s.griddata).get? m ≠ some []) :
    stored (register s c).1 common m =
      (if c.isCommon = common ∧ c.modul = m then
        if ';' ∈ c.decl ∨ (stored s common m).any (fun e => e.decl = c.decl) then stored s common m
        else stored s common m ++ [⟨c.modul, c.decl, c.desc⟩]
      else stored s common m) ∧
    ((register s c).2 = true ↔ ¬ (';' ∈ c.decl ∨
      (stored s c.isCommon c.modul).any (fun e => e.decl = c.decl))) ∧
    (∀ m, (if common then (register s c).1.commondata else (register s c).1.griddata).get? m ≠ some []) := by
  have core : ∀ d : Table, (∀ m, d.get? m ≠ some []) →
      (((registerIn d c).1.get? m).getD [] =
        if c.modul = m then
          if ';' ∈ c.decl ∨ ((d.get? m).getD []).any (fun e => e.decl = c.decl) then (d.get? m).getD []
          else (d.get? m).getD [] ++ [⟨c.modul, c.decl, c.desc⟩]
        else (d.get? m).getD []) ∧
      (∀ m, (registerIn d c).1.get? m ≠ some []) := by
    intro d hd
    unfold registerIn mkEntry
    cases hg : d.get? c.modul with
    | none =>
      by_cases hs : ';' ∈ c.decl
      · simp only [hs, if_true, true_or]
        exact ⟨by split <;> rfl, hd⟩
      · simp only [hs, if_false, false_or]
        refine ⟨?_, ?_⟩
        · by_cases hm : c.modul = m
          · subst hm; simp [hg, Dict.get?_set_self]
          · simp [hm, Dict.get?_set_ne _ _ (Ne.symm hm)]
        · intro m'
          by_cases hm : c.modul = m'
          · subst hm; simp [Dict.get?_set_self]
          · rw [Dict.get?_set_ne _ _ (Ne.symm hm)]; exact hd m'
    | some l =>
      simp only
      by_cases ha : l.any (fun e => decide (e.decl = c.decl)) = true
      · simp only [ha, if_true]
        refine ⟨?_, hd⟩
        by_cases hm : c.modul = m
        · subst hm; rw [hg]; simp only [Option.getD_some, ha, or_true, if_true]
        · simp [hm]
      · simp only [ha, Bool.false_eq_true, if_false]
        by_cases hs : ';' ∈ c.decl
        · simp only [hs, if_true, true_or]
          exact ⟨by split <;> rfl, hd⟩
        · simp only [hs, if_false, false_or]
          refine ⟨?_, ?_⟩
          · by_cases hm : c.modul = m
            · subst hm; rw [hg]; simp only [Dict.get?_set_self, Option.getD_some, ha]; simp
            · simp [hm, Dict.get?_set_ne _ _ (Ne.symm hm)]
          · intro m'
            by_cases hm : c.modul = m'
            · subst hm; simp [Dict.get?_set_self]
            · rw [Dict.get?_set_ne _ _ (Ne.symm hm)]; exact hd m'
  have core2 : ∀ d : Table, ((registerIn d c).2 = true ↔ ¬ (';' ∈ c.decl ∨
      ((d.get? c.modul).getD []).any (fun e => e.decl = c.decl))) := by
    intro d
    unfold registerIn mkEntry
    cases hg : d.get? c.modul with
    | none => by_cases hs : ';' ∈ c.decl <;> simp [hs]
    | some l =>
      by_cases ha : l.any (fun e => decide (e.decl = c.decl)) = true
      · simp only [ha, if_true, Option.getD_some, or_true]; simp
      · simp only [ha, Bool.false_eq_true, if_false, Option.getD_some, or_false]
        by_cases hs : ';' ∈ c.decl <;> simp [hs]
  cases hic : c.isCommon <;> cases common <;>
    simp only [register, hic, stored, Bool.false_eq_true, if_true, if_false, true_and, false_and,
      reduceCtorEq, if_true] at hnil ⊢
  · exact ⟨(core _ hnil).1, core2 _, (core _ hnil).2⟩
  · exact ⟨core2 _, hnil⟩
  · exact ⟨core2 _, hnil⟩
  · exact ⟨(core _ hnil).1, core2 _, (core _ hnil).2⟩

theorem run_inv (h : List Call) (common : Bool) (m : Str) :
    stored (run h ⟨[], []⟩) common m =
      expected (h.filter (fun c => c.isCommon = common ∧ c.modul = m)) ∧
    (∀ m, (if common then (run h ⟨[], []⟩).commondata else (run h ⟨[], []⟩).griddata).get? m
      ≠ some []) := by
  induction h using List.reverseRecOn with
  | nil => cases common <;> simp [run, stored, expected, Dict.get?]
  | append_singleton h c ih =>
    have hrun : run (h ++ [c]) ⟨[], []⟩ = (register (run h ⟨[], []⟩) c).1 := by simp [run]
    rw [hrun]
    obtain ⟨h1, h2, h3⟩ := stored_register (run h ⟨[], []⟩) c common m ih.2
    refine ⟨?_, h3⟩
    rw [h1, ih.1, List.filter_append]
    by_cases hc : c.isCommon = common ∧ c.modul = m
    · have : ([c].filter (fun c => decide (c.isCommon = common ∧ c.modul = m))) = [c] := by simp [hc]
      rw [this, expected_append, if_pos hc]
    · have : ([c].filter (fun c => decide (c.isCommon = common ∧ c.modul = m))) = [] := by simp [hc]
      rw [this, if_neg hc, List.append_nil]

/-- **C52.** After any history, what is stored for a module in the per-grid struct or in the common
struct is exactly the sequence of distinct semicolon-free declarations registered there, in the order of
their first registration; nothing from other modules or from the other struct appears. -/
theorem C52_declarations (h : List Call) (common : Bool) (m : Str) :
    stored (run h ⟨[], []⟩) common m =
      expected (h.filter (fun c => c.isCommon = common ∧ c.modul = m)) :=
  (run_inv h common m).1

/-- **C52.** A call raises exactly when the declaration has a semicolon or was already accepted for that
module and struct, and then nothing changes. -/
theorem C52_failure (h : List Call) (c : Call) :
    ((register (run h ⟨[], []⟩) c).2 = false ↔
      ';' ∈ c.decl ∨ ∃ b ∈ h, b.isCommon = c.isCommon ∧ b.modul = c.modul ∧ b.decl = c.decl) ∧
    ((register (run h ⟨[], []⟩) c).2 = false →
      (register (run h ⟨[], []⟩) c).1 = run h ⟨[], []⟩) := by
  constructor
  · have h2 := (stored_register (run h ⟨[], []⟩) c c.isCommon c.modul (run_inv h c.isCommon c.modul).2).2.1
    rw [← Bool.not_eq_true, h2, not_not]
    by_cases hs : ';' ∈ c.decl
    · simp [hs]
    · simp only [hs, false_or]
      rw [C52_declarations, List.any_eq_true]
      constructor
      · rintro ⟨e, he, hd⟩
        obtain ⟨b, hb, _, e1⟩ := expected_mem _ _ he
        rw [List.mem_filter] at hb
        simp only [decide_eq_true_eq] at hb hd
        refine ⟨b, hb.1, hb.2.1, hb.2.2, ?_⟩
        rw [e1] at hd; exact hd
      · rintro ⟨b, hb, h3, h4, h5⟩
        have hb' : b ∈ h.filter (fun x => decide (x.isCommon = c.isCommon ∧ x.modul = c.modul)) :=
          List.mem_filter.2 ⟨hb, by simp [h3, h4]⟩
        generalize h.filter (fun x => decide (x.isCommon = c.isCommon ∧ x.modul = c.modul)) = l at hb'
        clear h2
        induction l with
        | nil => simp at hb'
        | cons a l ih =>
          unfold expected
          by_cases hab : a.decl = c.decl
          · rw [if_neg (by rw [hab]; exact hs)]
            exact ⟨_, List.mem_cons_self, by simpa using hab⟩
          · have hbl : b ∈ l := by
              rcases List.mem_cons.1 hb' with h6 | h6
              · subst h6; exact absurd h5 hab
              · exact h6
            obtain ⟨e, he, hd⟩ := ih hbl
            split
            · exact ⟨e, he, hd⟩
            · refine ⟨e, List.mem_cons_of_mem _ (List.mem_filter.2 ⟨he, ?_⟩), hd⟩
              simp only [decide_eq_true_eq] at hd
              simp only [ne_eq, decide_not, Bool.not_eq_eq_eq_not, Bool.not_true,
                decide_eq_false_iff_not]
              rw [hd]; exact fun h => hab h.symm
  · intro hf
    unfold register registerIn at hf ⊢
    cases hic : c.isCommon <;> simp only [hic, Bool.false_eq_true, if_true, if_false] at hf ⊢
    · cases hg : (run h ⟨[], []⟩).griddata.get? c.modul with
      | none => rw [hg] at hf; simp only at hf ⊢; split at hf <;> simp_all
      | some l =>
        rw [hg] at hf; simp only at hf ⊢
        split at hf
        · rename_i ha; simp [ha]
        · rename_i ha; simp only [ha]; split at hf <;> simp_all
    · cases hg : (run h ⟨[], []⟩).commondata.get? c.modul with
      | none => rw [hg] at hf; simp only at hf ⊢; split at hf <;> simp_all
      | some l =>
        rw [hg] at hf; simp only at hf ⊢
        split at hf
        · rename_i ha; simp [ha]
        · rename_i ha; simp only [ha]; split at hf <;> simp_all

/-- Non-vacuity for C52. -/
example :
    let h : List Call := [⟨(c% "m"), (c% "int a"), [], false⟩, ⟨(c% "m"), (c% "int b"), [], true⟩,
      ⟨(c% "m"), (c% "int c;"), [], false⟩, ⟨(c% "m"), (c% "int a"), (c% "x"), false⟩,
      ⟨(c% "m"), (c% "int d"), [], false⟩]
    stored (run h ⟨[], []⟩) false (c% "m") =
      [⟨(c% "m"), (c% "int a"), []⟩, ⟨(c% "m"), (c% "int d"), []⟩] := by decide

end Verif.GridData
