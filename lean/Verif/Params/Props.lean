import Verif.Params.Model
import Mathlib.Tactic.Tauto
import Mathlib.Tactic.Ring
import Mathlib.Data.List.Induction
import Mathlib.Data.List.Basic

/-!
# Properties C01-C04: parameter registries
-/
namespace Verif.Params
open Verif.Py

/-! ## Specification vocabulary (C01) -/

/-- The call is a registration of `n` that the constructor accepts. -/
def ValidReg {V : Type} (n : Str) (c : Call V) : Prop :=
  ∃ p : NRPyParam V, c = .register p ∧ p.name = n ∧ p.pyType ≠ .other

/-- The call assigns `n`. -/
def Sets {V : Type} (n : Str) (c : Call V) : Prop := ∃ v, c = .set n v

/-- `v` is the default given in the first accepted registration of `n`, and `n` is not assigned
afterwards. -/
def FirstDefault {V : Type} (h : List (Call V)) (n : Str) (v : V) : Prop :=
  ∃ pre post p, h = pre ++ .register p :: post ∧ p.name = n ∧ p.pyType ≠ .other ∧ p.value = v ∧
    (∀ c ∈ pre, ¬ ValidReg n c) ∧ (∀ c ∈ post, ¬ Sets n c)

/-- `v` is the value of the last assignment of `n` made after `n` had been registered. -/
def LastSet {V : Type} (h : List (Call V)) (n : Str) (v : V) : Prop :=
  ∃ pre post, h = pre ++ .set n v :: post ∧ (∃ c ∈ pre, ValidReg n c) ∧ (∀ c ∈ post, ¬ Sets n c)

/-- The value a user expects to read: last assignment, else first default. -/
def Expected {V : Type} (h : List (Call V)) (n : Str) (v : V) : Prop :=
  FirstDefault h n v ∨ LastSet h n v

/-! ## Helper lemmas -/

theorem run_append {V : Type} (h1 h2 : List (Call V)) (d : Registry V) :
    run (h1 ++ h2) d = run h2 (run h1 d) := by
  simp [run, List.foldl_append]

theorem append_singleton_cases {α : Type} {h pre post : List α} {c x : α}
    (e : h ++ [c] = pre ++ x :: post) :
    (post = [] ∧ h = pre ∧ c = x) ∨ (∃ post', post = post' ++ [c] ∧ h = pre ++ x :: post') := by
  rcases List.eq_nil_or_concat post with hp | ⟨post', y, hp⟩
  · subst hp
    left
    have := List.append_inj' e (by simp)
    simpa using this
  · rw [List.concat_eq_append] at hp
    subst hp
    right
    have e' : h ++ [c] = (pre ++ x :: post') ++ [y] := by simpa using e
    have := List.append_inj' e' (by simp)
    simp at this
    exact ⟨post', by simp [this.2], this.1⟩

theorem lookup_spec {V : Type} (h : List (Call V)) (n : Str) :
    (∀ v, (∃ p, (run h []).get? n = some p ∧ p.value = v) ↔ Expected h n v) ∧
    ((∃ p, (run h []).get? n = some p) ↔ ∃ c ∈ h, ValidReg n c) ∧
    (∀ p, (run h []).get? n = some p → p.name = n) := by
  induction h using List.reverseRecOn with
  | nil => simp [run, Dict.get?, Expected, FirstDefault, LastSet]
  | append_singleton h c ih =>
    obtain ⟨ihv, ihm, ihn⟩ := ih
    have hrun : run (h ++ [c]) [] = (step (run h []) c).1 := by simp [run]
    rw [hrun]
    generalize hd : run h [] = d at *
    -- how the expected value changes when one call is appended
    have hFD : ∀ v, FirstDefault (h ++ [c]) n v ↔
        ((FirstDefault h n v ∧ ¬ Sets n c) ∨
         (∃ p, c = .register p ∧ p.name = n ∧ p.pyType ≠ .other ∧ p.value = v ∧
            ∀ c ∈ h, ¬ ValidReg n c)) := by
      intro v
      constructor
      · rintro ⟨pre, post, p, e, h1, h2, h3, h4, h5⟩
        rcases append_singleton_cases e with ⟨hp, hh, hc⟩ | ⟨post', hp, hh⟩
        · right; subst hh; exact ⟨p, hc, h1, h2, h3, h4⟩
        · left
          subst hp
          exact ⟨⟨pre, post', p, hh, h1, h2, h3, h4, fun c hc => h5 c (by simp [hc])⟩,
            h5 c (by simp)⟩
      · rintro (⟨⟨pre, post, p, e, h1, h2, h3, h4, h5⟩, hs⟩ | ⟨p, hc, h1, h2, h3, h4⟩)
        · refine ⟨pre, post ++ [c], p, by simp [e], h1, h2, h3, h4, ?_⟩
          intro c' hc'
          rcases List.mem_append.1 hc' with h6 | h6
          · exact h5 c' h6
          · simp at h6; subst h6; exact hs
        · exact ⟨h, [], p, by simp [hc], h1, h2, h3, h4, by simp⟩
    have hLS : ∀ v, LastSet (h ++ [c]) n v ↔
        ((LastSet h n v ∧ ¬ Sets n c) ∨ (c = .set n v ∧ ∃ c ∈ h, ValidReg n c)) := by
      intro v
      constructor
      · rintro ⟨pre, post, e, h1, h2⟩
        rcases append_singleton_cases e with ⟨hp, hh, hc⟩ | ⟨post', hp, hh⟩
        · right; subst hh; exact ⟨hc, h1⟩
        · left; subst hp
          exact ⟨⟨pre, post', hh, h1, fun c hc => h2 c (by simp [hc])⟩, h2 c (by simp)⟩
      · rintro (⟨⟨pre, post, e, h1, h2⟩, hs⟩ | ⟨hc, h1⟩)
        · refine ⟨pre, post ++ [c], by simp [e], h1, ?_⟩
          intro c' hc'
          rcases List.mem_append.1 hc' with h6 | h6
          · exact h2 c' h6
          · simp at h6; subst h6; exact hs
        · exact ⟨h, [], by simp [hc], h1, by simp⟩
    have hExp : ∀ v, Expected (h ++ [c]) n v ↔
        ((Expected h n v ∧ ¬ Sets n c) ∨
         (∃ p, c = .register p ∧ p.name = n ∧ p.pyType ≠ .other ∧ p.value = v ∧
            ∀ c ∈ h, ¬ ValidReg n c) ∨
         (c = .set n v ∧ ∃ c ∈ h, ValidReg n c)) := by
      intro v
      unfold Expected
      rw [hFD, hLS]
      generalize FirstDefault h n v = A
      generalize LastSet h n v = B
      generalize (∃ p, c = Call.register p ∧ p.name = n ∧ p.pyType ≠ PyType.other ∧ p.value = v ∧
        ∀ c ∈ h, ¬ValidReg n c) = C
      generalize (c = Call.set n v ∧ ∃ c ∈ h, ValidReg n c) = D
      tauto
    cases c with
    | register p =>
      have hns : ¬ Sets n (Call.register p) := by rintro ⟨v, hv⟩; cases hv
      simp only [step, registerParam]
      by_cases ht : p.pyType = .other
      · simp only [ht, if_true]
        refine ⟨?_, ?_, ihn⟩
        · intro v
          rw [hExp, ihv]
          constructor
          · intro hv; exact Or.inl ⟨hv, hns⟩
          · rintro (⟨hv, _⟩ | ⟨q, hq, _, hq2, _⟩ | ⟨hq, _⟩)
            · exact hv
            · cases hq; exact absurd ht hq2
            · cases hq
        · rw [ihm]
          constructor
          · rintro ⟨c, hc, hv⟩; exact ⟨c, by simp [hc], hv⟩
          · rintro ⟨c, hc, hv⟩
            rcases List.mem_append.1 hc with h6 | h6
            · exact ⟨c, h6, hv⟩
            · simp at h6; subst h6
              obtain ⟨q, hq, _, hq2⟩ := hv; cases hq; exact absurd ht hq2
      · simp only [ht, if_false]
        by_cases hin : d.contains p.name = true
        · simp only [hin, if_true]
          have hpin := (Dict.contains_iff d p.name).1 hin
          refine ⟨?_, ?_, ihn⟩
          · intro v
            rw [hExp, ihv]
            constructor
            · intro hv; exact Or.inl ⟨hv, hns⟩
            · rintro (⟨hv, _⟩ | ⟨q, hq, hq1, hq2, hq3, hq4⟩ | ⟨hq, _⟩)
              · exact hv
              · cases hq
                rw [hq1] at hpin
                obtain ⟨c, hc, hv⟩ := ihm.1 hpin
                exact absurd hv (hq4 c hc)
              · cases hq
          · rw [ihm]
            constructor
            · rintro ⟨c, hc, hv⟩; exact ⟨c, by simp [hc], hv⟩
            · rintro ⟨c, hc, hv⟩
              rcases List.mem_append.1 hc with h6 | h6
              · exact ⟨c, h6, hv⟩
              · simp at h6; subst h6
                obtain ⟨q, hq, hq1, _⟩ := hv; cases hq
                rw [hq1] at hpin
                exact ihm.1 hpin
        · have hin' : d.contains p.name = false := by simpa using hin
          simp only [hin', Bool.false_eq_true, if_false]
          have hpn := (Dict.contains_false_iff d p.name).1 hin'
          by_cases hpn' : p.name = n
          · subst hpn'
            have hnone : ¬ ∃ c ∈ h, ValidReg p.name c := by
              rw [← ihm, hpn]; simp
            refine ⟨?_, ?_, ?_⟩
            · intro v
              rw [hExp, Dict.get?_set_self, ← ihv, hpn]
              constructor
              · rintro ⟨q, hq, hv⟩
                cases hq
                exact Or.inr (Or.inl ⟨p, rfl, rfl, ht, hv,
                  fun c hc hv => hnone ⟨c, hc, hv⟩⟩)
              · rintro (⟨⟨q, hq, _⟩, _⟩ | ⟨q, hq, _, _, hq3, _⟩ | ⟨hq, _⟩)
                · cases hq
                · cases hq; exact ⟨p, rfl, hq3⟩
                · cases hq
            · rw [Dict.get?_set_self]
              constructor
              · intro _; exact ⟨.register p, by simp, p, rfl, rfl, ht⟩
              · intro _; exact ⟨p, rfl⟩
            · intro q hq
              rw [Dict.get?_set_self] at hq
              cases hq; rfl
          · rw [Dict.get?_set_ne _ _ (Ne.symm hpn')]
            refine ⟨?_, ?_, ihn⟩
            · intro v
              rw [hExp, ihv]
              constructor
              · intro hv; exact Or.inl ⟨hv, hns⟩
              · rintro (⟨hv, _⟩ | ⟨q, hq, hq1, _⟩ | ⟨hq, _⟩)
                · exact hv
                · cases hq; exact absurd hq1 hpn'
                · cases hq
            · rw [ihm]
              constructor
              · rintro ⟨c, hc, hv⟩; exact ⟨c, by simp [hc], hv⟩
              · rintro ⟨c, hc, hv⟩
                rcases List.mem_append.1 hc with h6 | h6
                · exact ⟨c, h6, hv⟩
                · simp at h6; subst h6
                  obtain ⟨q, hq, hq1, _⟩ := hv; cases hq; exact absurd hq1 hpn'
    | set m w =>
      have hnr : ∀ k, ¬ ValidReg k (Call.set m w) := by rintro k ⟨p, hp, _⟩; cases hp
      have hmem : (∃ c ∈ h ++ [Call.set m w], ValidReg n c) ↔ ∃ c ∈ h, ValidReg n c := by
        constructor
        · rintro ⟨c, hc, hv⟩
          rcases List.mem_append.1 hc with h6 | h6
          · exact ⟨c, h6, hv⟩
          · simp at h6; subst h6; exact absurd hv (hnr n)
        · rintro ⟨c, hc, hv⟩; exact ⟨c, by simp [hc], hv⟩
      rw [hmem]
      simp only [step, setParvalFromStr]
      cases hg : d.get? m with
      | none =>
        simp only
        refine ⟨?_, ihm, ihn⟩
        intro v
        rw [hExp]
        by_cases hmn : m = n
        · subst hmn
          have hnone : ¬ ∃ c ∈ h, ValidReg m c := by rw [← ihm, hg]; simp
          rw [hg]
          constructor
          · rintro ⟨p, hp, _⟩; cases hp
          · rintro (⟨_, hs⟩ | ⟨q, hq, _⟩ | ⟨_, hq⟩)
            · exact absurd ⟨w, rfl⟩ hs
            · cases hq
            · exact absurd hq hnone
        · have hns : ¬ Sets n (Call.set m w) := by
            rintro ⟨v, hv⟩; cases hv; exact hmn rfl
          rw [ihv]
          constructor
          · intro hv; exact Or.inl ⟨hv, hns⟩
          · rintro (⟨hv, _⟩ | ⟨q, hq, _⟩ | ⟨hq, _⟩)
            · exact hv
            · cases hq
            · cases hq; exact absurd rfl hmn
      | some p =>
        simp only
        by_cases hmn : m = n
        · subst hmn
          have hsome : ∃ c ∈ h, ValidReg m c := ihm.1 ⟨p, hg⟩
          refine ⟨?_, ?_, ?_⟩
          · intro v
            rw [hExp, Dict.get?_set_self]
            constructor
            · rintro ⟨q, hq, hv⟩
              cases hq
              simp at hv
              subst hv
              exact Or.inr (Or.inr ⟨rfl, hsome⟩)
            · rintro (⟨_, hs⟩ | ⟨q, hq, _⟩ | ⟨hq, _⟩)
              · exact absurd ⟨w, rfl⟩ hs
              · cases hq
              · cases hq; exact ⟨_, rfl, rfl⟩
          · rw [Dict.get?_set_self]
            exact ⟨fun _ => hsome, fun _ => ⟨_, rfl⟩⟩
          · intro q hq
            rw [Dict.get?_set_self] at hq
            cases hq
            exact ihn p hg
        · have hns : ¬ Sets n (Call.set m w) := by
            rintro ⟨v, hv⟩; cases hv; exact hmn rfl
          rw [Dict.get?_set_ne _ _ (Ne.symm hmn)]
          refine ⟨?_, ihm, ihn⟩
          intro v
          rw [hExp, ihv]
          constructor
          · intro hv; exact Or.inl ⟨hv, hns⟩
          · rintro (⟨hv, _⟩ | ⟨q, hq, _⟩ | ⟨hq, _⟩)
            · exact hv
            · cases hq
            · cases hq; exact absurd rfl hmn

/-- Prefixing a name does not change the text after the last `::`. -/
theorem lastPart2_prefix (pre n : Str) (hpre : pre.getLast? ≠ some ':') :
    lastPart2 ':' ':' (pre ++ (c% "::") ++ n) = lastPart2 ':' ':' n := by
  have key : ∀ pre : Str, pre.getLast? ≠ some ':' →
      ∃ hd tl, split2 ':' ':' (pre ++ (':' :: ':' :: n)) = (hd :: tl) ++ split2 ':' ':' n := by
    intro pre
    induction hl : pre.length using Nat.strong_induction_on generalizing pre with
    | _ k ih =>
      intro hp
      match pre, hl, hp with
      | [], _, _ => exact ⟨[], [], by simp [split2]⟩
      | [c], _, hp =>
        have hc : c ≠ ':' := by simpa using hp
        refine ⟨[c], [], ?_⟩
        simp [split2, hc]
      | c :: d :: s, hl, hp =>
        by_cases hcd : c = ':' ∧ d = ':'
        · obtain ⟨rfl, rfl⟩ := hcd
          have hs : s.getLast? ≠ some ':' := by
            cases s with
            | nil => simp at hp
            | cons x xs => simpa [List.getLast?_cons_cons] using hp
          obtain ⟨hd, tl, e⟩ := ih s.length (by simp at hl; omega) s rfl hs
          refine ⟨[], hd :: tl, ?_⟩
          simp [split2, e]
        · have hs : (d :: s).getLast? ≠ some ':' := by
            simpa [List.getLast?_cons_cons] using hp
          obtain ⟨hd, tl, e⟩ := ih (d :: s).length (by simp at hl ⊢; omega) (d :: s) rfl hs
          refine ⟨c :: hd, tl, ?_⟩
          have e' : split2 ':' ':' (d :: (s ++ (':' :: ':' :: n))) = hd :: (tl ++ split2 ':' ':' n) := by
            simpa using e
          simp only [List.cons_append]
          rw [split2]
          simp only [hcd, if_false, e']
  obtain ⟨hd, tl, e⟩ := key pre hpre
  unfold lastPart2
  have e2 : pre ++ (c% "::") ++ n = pre ++ (':' :: ':' :: n) := by
    simp
  rw [e2, e]
  cases hn : split2 ':' ':' n with
  | nil => exact absurd hn (split2_ne_nil _ _ _)
  | cons a b => rw [List.getLast?_append_of_ne_nil _ (by simp)]

theorem split2_cons_no (a b : Char) (s : Str) (h : ¬ [a, b] <:+: s) : split2 a b s = [s] := by
  match s with
  | [] => simp [split2]
  | [c] => simp [split2]
  | c :: d :: s =>
    have hcd : ¬ (c = a ∧ d = b) := by
      rintro ⟨rfl, rfl⟩
      exact h ⟨[], s, by simp⟩
    have hs : ¬ [a, b] <:+: (d :: s) := by
      intro hh; exact h (hh.trans ⟨[c], [], by simp⟩)
    rw [split2]
    simp [hcd, split2_cons_no a b (d :: s) hs]

theorem lastPart2_no (s : Str) (h : ¬ (c% "::") <:+: s) : lastPart2 ':' ':' s = s := by
  unfold lastPart2
  rw [split2_cons_no ':' ':' s h]
  simp

/-! ## C01 -/

/-- **C01.** After any history of registrations and assignments starting from an empty registry,
reading a parameter returns the last value assigned after registration, or the default of the first
accepted registration if it was never assigned since; a name never registered gives `ValueError`.
(Names containing `::` cannot be read back under that name and are excluded; see C02.) -/
theorem C01_read_back {V : Type} (h : List (Call V)) (n : Str) (hn : ¬ (c% "::") <:+: n) :
    (∀ v, parvalFromStr (run h []) n = .ok v ↔ Expected h n v) ∧
    (parvalFromStr (run h []) n = .error .valueError ↔ ¬ ∃ c ∈ h, ValidReg n c) := by
  obtain ⟨hv, hm, _⟩ := lookup_spec h n
  unfold parvalFromStr
  rw [lastPart2_no n hn]
  cases hg : (run h []).get? n with
  | none =>
    constructor
    · intro v; rw [← hv, hg]; simp
    · rw [← hm, hg]; simp
  | some p =>
    constructor
    · intro v; rw [← hv, hg]; simp
    · rw [← hm, hg]; simp

/-- **C01.** A call that raises leaves the registry unchanged; an assignment raises exactly when the
name was never registered; a registration raises exactly for an unsupported type. -/
theorem C01_failed_call_changes_nothing {V : Type} (h : List (Call V)) :
    (∀ c e, (step (run h []) c).2 = .error e → (step (run h []) c).1 = run h []) ∧
    (∀ n v, (∃ e, (step (run h []) (.set n v)).2 = .error e) ↔ ¬ ∃ c ∈ h, ValidReg n c) ∧
    (∀ p : NRPyParam V, (∃ e, (step (run h []) (.register p)).2 = .error e) ↔ p.pyType = .other) := by
  refine ⟨?_, ?_, ?_⟩
  · intro c e
    cases c with
    | register p =>
      simp only [step, registerParam]
      by_cases ht : p.pyType = .other
      · simp [ht]
      · by_cases hin : (run h []).contains p.name = true <;> simp [ht, hin]
    | set m w =>
      simp only [step, setParvalFromStr]
      cases (run h []).get? m <;> simp
  · intro n v
    rw [← (lookup_spec h n).2.1]
    simp only [step, setParvalFromStr]
    cases (run h []).get? n <;> simp
  · intro p
    simp only [step, registerParam]
    by_cases ht : p.pyType = .other
    · simp [ht]
    · by_cases hin : (run h []).contains p.name = true <;> simp [ht, hin]

/-- Non-vacuity for C01: a history with a rejected registration, a second registration that is
ignored and two assignments. -/
example : Expected (V := Nat)
    [.register ⟨.other, [], ['a'], 0, []⟩, .register ⟨.int, [], ['a'], 1, []⟩, .set ['a'] 5,
     .register ⟨.int, [], ['a'], 2, []⟩, .set ['b'] 7] ['a'] 5 := by
  right
  refine ⟨[.register ⟨.other, [], ['a'], 0, []⟩, .register ⟨.int, [], ['a'], 1, []⟩],
    [.register ⟨.int, [], ['a'], 2, []⟩, .set ['b'] 7], rfl,
    ⟨_, by simp, ⟨.int, [], ['a'], 1, []⟩, rfl, rfl, by decide⟩, ?_⟩
  intro c hc
  simp at hc
  rintro ⟨v, rfl⟩
  simp at hc

/-! ## C02 -/

/-- **C02 (reading).** A module prefix does not change what is read, for any registry, any name and
any prefix that does not itself end in a colon. -/
theorem C02_qualified_read {V : Type} (d : Registry V) (pre n : Str)
    (hpre : pre.getLast? ≠ some ':') :
    parvalFromStr d (pre ++ (c% "::") ++ n) = parvalFromStr d n := by
  unfold parvalFromStr
  rw [lastPart2_prefix pre n hpre]

example : (c% "module1").getLast? ≠ some ':' := by decide

/-- **C02 (writing) fails in the code.** There is a registry in which a parameter can be read under
its qualified name but assigning under that qualified name raises `ValueError` and changes nothing. -/
theorem C02_qualified_write_fails :
    ∃ (d : Registry Nat) (pre n : Str), parvalFromStr d (pre ++ (c% "::") ++ n) = .ok 1 ∧
      (setParvalFromStr d (pre ++ (c% "::") ++ n) 2).2 = .error .valueError ∧
      parvalFromStr (setParvalFromStr d (pre ++ (c% "::") ++ n) 2).1 n = .ok 1 := by
  refine ⟨run [.register ⟨.int, ['m'], ['x'], 1, []⟩] [], ['m'], ['x'], ?_, ?_, ?_⟩ <;> rfl

/-- **C02 (partial).** The half of the property that holds: reads are insensitive to the prefix in
every reachable state, and unqualified writes are visible under every qualified name. What is missing:
qualified writes (see `C02_qualified_write_fails`). -/
theorem C02_qualified_names_partial {V : Type} (d : Registry V) (pre n : Str) (v : V)
    (hpre : pre.getLast? ≠ some ':') (hn : ¬ (c% "::") <:+: n) (hd : d.contains n = true) :
    parvalFromStr (setParvalFromStr d n v).1 (pre ++ (c% "::") ++ n) = .ok v := by
  rw [C02_qualified_read _ _ _ hpre]
  obtain ⟨p, hp⟩ := (Dict.contains_iff d n).1 hd
  unfold parvalFromStr setParvalFromStr
  rw [lastPart2_no n hn, hp]
  simp [Dict.get?_set_self]

/-! ## C03 -/

/-- What a code parameter must satisfy to be usable by the generators, apart from the parfile
clause. -/
def StructurallyConsistent (cp : CodeParam) : Prop :=
  ((((c% "REAL") <+: cp.cparamType ∨ (c% "int") <+: cp.cparamType) ∧
      '[' ∈ cp.cparamType ∧ ']' ∈ cp.cparamType) → cp.commondata = true ∧ cp.addToSetH = false) ∧
  (cp.cparamType = (c% "#define") → cp.addToParfile = false ∧ cp.addToSetH = false) ∧
  (cp.assumption = (c% "Real") ∨ cp.assumption = (c% "RealPositive"))

/-- The parfile clause: a parameter offered in the parfile has a default. -/
def ParfileConsistent (cp : CodeParam) : Prop :=
  cp.addToParfile = true → cp.defaultvalue ≠ .str (c% "unset")

theorem isArrayType_iff (t : Str) : isArrayType t = true ↔
    (((c% "REAL") <+: t ∨ (c% "int") <+: t) ∧ '[' ∈ t ∧ ']' ∈ t) := by
  simp [isArrayType, List.isPrefixOf_iff_prefix, and_assoc]

theorem mkCodeParam_spec {a cp : CodeParam} {s : Sym} (h : mkCodeParam a = .ok (cp, s)) :
    StructurallyConsistent cp ∧ ParfileConsistent cp ∧ cp.name = a.name ∧
    cp.defaultvalue = a.defaultvalue ∧ cp.addToGlb = a.addToGlb ∧ cp.description = a.description ∧
    s.name = a.name := by
  have hdefarr : isArrayType (c% "#define") = false := by decide
  obtain ⟨b, hb⟩ : ∃ b : CodeParam, b = (if a.cparamType = (c% "#define") then
    { a with addToParfile := false, addToSetH := false } else a) := ⟨_, rfl⟩
  unfold mkCodeParam at h
  rw [← hb] at h
  by_cases h1 : (isArrayType a.cparamType && !(a.commondata && !a.addToSetH)) = true
  · rw [if_pos h1] at h; cases h
  rw [if_neg h1] at h
  have h1' : isArrayType a.cparamType = true → a.commondata = true ∧ a.addToSetH = false := by
    intro h2; simp [h2] at h1; exact ⟨h1.1, h1.2⟩
  by_cases hu : (b.addToParfile && b.defaultvalue == unset) = true
  · simp only [hu, if_true] at h; cases h
  simp only [hu, Bool.false_eq_true, if_false] at h
  have hpf : ParfileConsistent b := by
    intro h2 h3; apply hu; simp [h2, h3, unset]
  have hfields : b.cparamType = a.cparamType ∧ b.name = a.name ∧ b.defaultvalue = a.defaultvalue ∧
      b.addToGlb = a.addToGlb ∧ b.description = a.description ∧ b.assumption = a.assumption ∧
      b.commondata = a.commondata := by
    by_cases hdef : a.cparamType = (c% "#define")
    · rw [if_pos hdef] at hb; subst hb; exact ⟨rfl, rfl, rfl, rfl, rfl, rfl, rfl⟩
    · rw [if_neg hdef] at hb; subst hb; exact ⟨rfl, rfl, rfl, rfl, rfl, rfl, rfl⟩
  have hstruct : (a.assumption = (c% "Real") ∨ a.assumption = (c% "RealPositive")) →
      StructurallyConsistent b := by
    intro has
    by_cases hdef : a.cparamType = (c% "#define")
    · rw [if_pos hdef] at hb
      refine ⟨?_, ?_, ?_⟩
      · intro hh
        have h3 := (isArrayType_iff _).2 hh
        rw [hfields.1, hdef, hdefarr] at h3; cases h3
      · intro _; subst hb; exact ⟨rfl, rfl⟩
      · rw [hfields.2.2.2.2.2.1]; exact has
    · rw [if_neg hdef] at hb
      subst hb
      exact ⟨fun hh => h1' ((isArrayType_iff _).2 hh), fun hh => absurd hh hdef, has⟩
  obtain ⟨_, f2, f3, f4, f5, _, _⟩ := hfields
  by_cases ha : a.assumption = (c% "Real")
  · rw [if_pos ha] at h
    cases h
    exact ⟨hstruct (Or.inl ha), hpf, f2, f3, f4, f5, rfl⟩
  · rw [if_neg ha] at h
    by_cases hb2 : a.assumption = (c% "RealPositive")
    · rw [if_pos hb2] at h
      cases h
      exact ⟨hstruct (Or.inr hb2), hpf, f2, f3, f4, f5, rfl⟩
    · rw [if_neg hb2] at h; cases h

/-- All entries of a registry satisfy `P`. -/
def AllEntries (P : CodeParam → Prop) (d : CPRegistry) : Prop := ∀ n cp, d.get? n = some cp → P cp

theorem AllEntries.set {P : CodeParam → Prop} {d : CPRegistry} (h : AllEntries P d) (n : Str)
    {cp : CodeParam} (hp : P cp) : AllEntries P (d.set n cp) := by
  intro m q hq
  rw [Dict.get?_set] at hq
  by_cases hm : m = n
  · simp [hm] at hq; subst hq; exact hp
  · simp [hm] at hq; exact h m q hq

theorem AllEntries.insertIfAbsent {P : CodeParam → Prop} {d : CPRegistry} (h : AllEntries P d)
    {cp : CodeParam} (hp : P cp) : AllEntries P (insertIfAbsent d cp) := by
  unfold Params.insertIfAbsent
  by_cases h1 : cp.addToGlb = true
  · by_cases h2 : d.contains cp.name = true
    · simpa [h1, h2] using h
    · simp only [h1, if_true, h2, Bool.false_eq_true, if_false]
      exact h.set _ hp
  · simpa [h1] using h

theorem AllEntries.batchLoop {P : CodeParam → Prop} (tmpl : CodeParam)
    (hP : ∀ a cp s, mkCodeParam a = .ok (cp, s) → P cp)
    (items : List (Str × PyVal × Str)) (d : CPRegistry) (syms : List Sym) (h : AllEntries P d) :
    AllEntries P (batchLoop tmpl items d syms).1 := by
  induction items generalizing d syms with
  | nil => exact h
  | cons it rest ih =>
    obtain ⟨name, dflt, desc⟩ := it
    unfold Params.batchLoop
    split
    · exact h
    · rename_i cp s heq
      have hcp := hP _ _ _ heq
      apply ih
      by_cases hg : tmpl.addToGlb = true
      · simp only [hg, if_true]
        exact (h.insertIfAbsent hcp).set _ hcp
      · simp only [hg, Bool.false_eq_true, if_false]
        exact h.insertIfAbsent hcp

theorem AllEntries.cpRun {P : CodeParam → Prop}
    (hP : ∀ a cp s, mkCodeParam a = .ok (cp, s) → P cp)
    (h : List CPCall) (hadj : ∀ n v, CPCall.adjust n v ∈ h →
      ∀ cp, P cp → P { cp with defaultvalue := v }) (d : CPRegistry) (hd : AllEntries P d) :
    AllEntries P (cpRun h d) := by
  induction h generalizing d with
  | nil => exact hd
  | cons c h ih =>
    unfold Params.cpRun
    rw [List.foldl_cons]
    refine ih (fun n v hm => hadj n v (List.mem_cons_of_mem _ hm)) _ ?_
    cases c with
    | one a =>
      simp only [cpStep, registerCodeParameter]
      split
      · exact hd
      · rename_i cp s heq
        exact hd.insertIfAbsent (hP _ _ _ heq)
    | many t names dv ds =>
      simp only [cpStep, registerCodeParameters]
      split
      · exact hd
      · split
        · exact hd
        · split
          · exact hd
          · exact AllEntries.batchLoop _ hP _ _ _ hd
    | adjust n v =>
      simp only [cpStep, adjustDefault]
      split
      · rename_i cp hg
        exact hd.set _ (hadj n v (by simp) cp (hd n cp hg))
      · exact hd

/-- **C03 (structural clauses).** After any history of calls, including failing ones, every entry of
the registry is structurally consistent. -/
theorem C03_structural (h : List CPCall) :
    ∀ n cp, (cpRun h []).get? n = some cp → StructurallyConsistent cp :=
  AllEntries.cpRun (fun _ _ _ e => (mkCodeParam_spec e).1) h
    (fun _ _ _ _ hcp => hcp) [] (by intro n cp hh; simp [Dict.get?] at hh)

/-- **C03 (partial).** The whole invariant, including the parfile clause, holds for every history in
which no call adjusts a default to `"unset"`. Missing: histories that do, for which the code breaks
the invariant (`C03_adjust_breaks_parfile_clause`). -/
theorem C03_consistent_partial (h : List CPCall)
    (hadj : ∀ n v, CPCall.adjust n v ∈ h → v ≠ .str (c% "unset")) :
    ∀ n cp, (cpRun h []).get? n = some cp → StructurallyConsistent cp ∧ ParfileConsistent cp :=
  AllEntries.cpRun (P := fun cp => StructurallyConsistent cp ∧ ParfileConsistent cp)
    (fun _ _ _ e => ⟨(mkCodeParam_spec e).1, (mkCodeParam_spec e).2.1⟩) h
    (fun n v hm _ hcp => ⟨hcp.1, fun _ => hadj n v hm⟩) []
    (by intro n cp hh; simp [Dict.get?] at hh)

/-- A parameter used in the witnesses below: `REAL` with a default, offered in the parfile. -/
def sampleCP : CodeParam :=
  ⟨(c% "REAL"), ['m'], ['x'], .other 1, (c% "Real"), false, true, true, true, []⟩

/-- Non-vacuity for C03: after registering an array parameter wrongly (rejected) and a scalar, the
scalar is in the registry. -/
example : (cpRun [.one { sampleCP with cparamType := (c% "REAL[5]"), name := ['y'] },
    .one sampleCP] []).get? ['x'] = some sampleCP ∧
    (cpRun [.one { sampleCP with cparamType := (c% "REAL[5]"), name := ['y'] },
    .one sampleCP] []).get? ['y'] = none := by
  constructor <;> decide

/-- **C03 fails in the code for `adjust_CodeParam_default`:** a two-call history reaches a registry
with a parfile parameter whose default is `"unset"`. -/
theorem C03_adjust_breaks_parfile_clause :
    ∃ (h : List CPCall) (n : Str) (cp : CodeParam),
      (cpRun h []).get? n = some cp ∧ ¬ ParfileConsistent cp := by
  refine ⟨[.one sampleCP, .adjust ['x'] (.str (c% "unset"))], ['x'],
    { sampleCP with defaultvalue := .str (c% "unset") }, ?_, ?_⟩
  · decide
  · intro h; exact h rfl rfl

/-! ## C04 -/

/-- The default intended for position `i`. -/
def intendedDefault (dv : Defaults) (i : Nat) : Option PyVal :=
  match dv with
  | .scalar v => some v
  | .list vs => vs[i]?

/-- The description intended for position `i`. -/
def intendedDescr (ds : Descrs) (i : Nat) : Option Str :=
  match ds with
  | .str s => some s
  | .list l => l[i]?
  | .other => none

theorem mkCodeParam_positive {a cp : CodeParam} {s : Sym} (h : mkCodeParam a = .ok (cp, s)) :
    s.positive = decide (a.assumption = (c% "RealPositive")) := by
  unfold mkCodeParam at h
  simp only at h
  repeat' split at h
  all_goals first
    | (cases h; done)
    | (cases h; simp_all; done)

/-- A template for which every name is acceptable. -/
def TemplateOk (t : CodeParam) (dv : PyVal) : Prop :=
  (isArrayType t.cparamType = true → t.commondata = true ∧ t.addToSetH = false) ∧
  (t.assumption = (c% "Real") ∨ t.assumption = (c% "RealPositive")) ∧
  (t.cparamType = (c% "#define") ∨ t.addToParfile = false ∨ dv ≠ .str (c% "unset"))

theorem mkCodeParam_ok (a : CodeParam) (h : TemplateOk a a.defaultvalue) : ∃ r, mkCodeParam a = .ok r := by
  obtain ⟨h1, h2, h3⟩ := h
  unfold mkCodeParam
  have e1 : (isArrayType a.cparamType && !(a.commondata && !a.addToSetH)) = false := by
    cases hb : isArrayType a.cparamType
    · rfl
    · obtain ⟨x, y⟩ := h1 hb; simp [x, y]
  rw [e1]
  simp only [Bool.false_eq_true, if_false]
  have e2 : ∀ b : CodeParam, b = (if a.cparamType = (c% "#define") then
      { a with addToParfile := false, addToSetH := false } else a) → (b.addToParfile && b.defaultvalue == unset) = false := by
    intro b hb
    by_cases hd : a.cparamType = (c% "#define")
    · rw [if_pos hd] at hb; subst hb; rfl
    · rw [if_neg hd] at hb
      subst hb
      rcases h3 with h3 | h3 | h3
      · exact absurd h3 hd
      · simp [h3]
      · have : (b.defaultvalue == unset) = false := by simpa [unset] using h3
        simp [this]
  rw [e2 _ rfl]
  rcases h2 with h2 | h2
  · simp [h2]
  · have : ¬ a.assumption = (c% "Real") := by rw [h2]; decide
    rw [if_neg this, if_pos h2]
    simp

theorem batchLoop_ok (tmpl : CodeParam) (items : List (Str × PyVal × Str)) (d : CPRegistry) (syms0 : List Sym)
    (h : ∀ it ∈ items, TemplateOk tmpl it.2.1) : ∃ d' syms, batchLoop tmpl items d syms0 = (d', .ok syms) := by
  induction items generalizing d syms0 with
  | nil => exact ⟨_, _, rfl⟩
  | cons it rest ih =>
    obtain ⟨name, dflt, desc⟩ := it
    obtain ⟨r, hr⟩ := mkCodeParam_ok { tmpl with name := name, defaultvalue := dflt, description := desc }
      (h (name, dflt, desc) (by simp))
    unfold batchLoop
    rw [hr]
    exact ih _ _ (fun it hit => h it (by simp [hit]))

/-- **C04**, success: a batch call with at least one name, as many defaults as names (or one for all), no
descriptions and consistent options is accepted. -/
theorem C04_accepts (d : CPRegistry) (tmpl : CodeParam) (names : List Str) (dv : Defaults) (hne : names ≠ [])
    (hlen : ∀ vs, dv = .list vs → vs.length = names.length)
    (hok : ∀ v, (dv = .scalar v ∨ ∃ vs, dv = .list vs ∧ v ∈ vs) → TemplateOk tmpl v) :
    ∃ d' syms, registerCodeParameters d tmpl names dv (.str []) = (d', .ok syms) := by
  have hn : ¬ names.length < 1 := by
    have := List.length_pos_of_ne_nil hne; omega
  unfold registerCodeParameters
  rw [if_neg hn]
  cases dv with
  | scalar v =>
    simp only [ne_eq, not_true_eq_false, if_false]
    apply batchLoop_ok
    intro it hit
    have := (List.of_mem_zip (List.of_mem_zip (a := it.1) (b := it.2) hit).2).1
    rw [List.eq_of_mem_replicate this]
    exact hok v (.inl rfl)
  | list vs =>
    simp only [hlen vs rfl, ne_eq, not_true_eq_false, if_false]
    apply batchLoop_ok
    intro it hit
    exact hok _ (.inr ⟨vs, rfl, (List.of_mem_zip (List.of_mem_zip (a := it.1) (b := it.2) hit).2).1⟩)

theorem batchLoop_spec (tmpl : CodeParam) (hglb : tmpl.addToGlb = true)
    (items : List (Str × PyVal × Str)) (d : CPRegistry) (syms0 : List Sym)
    {d' : CPRegistry} {syms : List Sym}
    (h : batchLoop tmpl items d syms0 = (d', .ok syms)) :
    (syms = syms0 ++ items.map fun it => ⟨it.1, decide (tmpl.assumption = (c% "RealPositive"))⟩) ∧
    (∀ (i : Nat) name dflt desc, items[i]? = some (name, dflt, desc) →
      (∀ j : Nat, i < j → (items.map Prod.fst)[j]? ≠ some name) →
      ∃ cp, d'.get? name = some cp ∧ cp.name = name ∧ cp.defaultvalue = dflt ∧
        cp.description = desc) ∧
    (∀ n, n ∉ items.map Prod.fst → d'.get? n = d.get? n) := by
  induction items generalizing d syms0 with
  | nil =>
    simp only [batchLoop] at h
    cases h
    simp
  | cons it rest ih =>
    obtain ⟨name, dflt, desc⟩ := it
    unfold batchLoop at h
    split at h
    · cases h
    · rename_i cp s heq
      simp only [hglb, if_true] at h
      obtain ⟨_, _, hn, hdv, _, hds, hsn⟩ := mkCodeParam_spec heq
      simp only at hn hdv hds hsn
      obtain ⟨h1, h2, h3⟩ := ih _ _ h
      have hother : ∀ n, n ≠ name → ((insertIfAbsent d cp).set name cp).get? n = d.get? n := by
        intro n hne
        rw [Dict.get?_set_ne _ _ hne]
        unfold insertIfAbsent
        split
        · split
          · rfl
          · rw [hn, Dict.get?_set_ne _ _ hne]
        · rfl
      refine ⟨?_, ?_, ?_⟩
      · have hsp := mkCodeParam_positive heq
        simp only at hsp
        have hs' : s = ⟨name, decide (tmpl.assumption = (c% "RealPositive"))⟩ := by
          cases s; simp_all
        rw [h1]; simp [hs']
      · intro i nm df de hi hlast
        cases i with
        | zero =>
          simp at hi
          obtain ⟨rfl, rfl, rfl⟩ := hi
          have hnot : name ∉ rest.map Prod.fst := by
            intro hm
            obtain ⟨j, hj, hj2⟩ := List.mem_iff_getElem.1 hm
            apply hlast (j + 1) (by omega)
            simp only [List.map_cons, List.getElem?_cons_succ]
            rw [List.getElem?_eq_getElem hj, hj2]
          refine ⟨cp, ?_, hn, hdv, hds⟩
          rw [h3 _ hnot, Dict.get?_set_self]
        | succ i =>
          simp at hi
          apply h2 i nm df de hi
          intro j hj
          have := hlast (j + 1) (by omega)
          simpa using this
      · intro n hnm
        simp at hnm
        rw [h3 n (by simpa using hnm.2)]
        exact hother n hnm.1

/-- **C04.** A successful batch registration (into the global dictionary) stores, for every position
whose name does not occur again later, a parameter with that name, its own default and its own
description; does not touch any other name; and returns one symbol per name, in order. -/
theorem C04_batch (d d' : CPRegistry) (tmpl : CodeParam) (hglb : tmpl.addToGlb = true)
    (names : List Str) (dv : Defaults) (ds : Descrs) (syms : List Sym)
    (h : registerCodeParameters d tmpl names dv ds = (d', .ok syms)) :
    syms = names.map (fun n => ⟨n, decide (tmpl.assumption = (c% "RealPositive"))⟩) ∧
    (∀ i n, names[i]? = some n → (∀ j, i < j → names[j]? ≠ some n) →
      ∃ cp, d'.get? n = some cp ∧ cp.name = n ∧ some cp.defaultvalue = intendedDefault dv i ∧
        some cp.description = intendedDescr ds i) ∧
    (∀ n, n ∉ names → d'.get? n = d.get? n) := by
  unfold registerCodeParameters at h
  split at h
  · cases h
  · split at h
    · cases h
    · rename_i vals hvals
      split at h
      · cases h
      · rename_i descs hdescs
        have hvl : vals.length = names.length ∧ ∀ i, i < names.length → vals[i]? = intendedDefault dv i := by
          cases dv with
          | scalar v =>
            simp at hvals
            subst hvals
            refine ⟨by simp, ?_⟩
            intro i hi
            simp [intendedDefault, hi]
          | list vs =>
            simp only at hvals
            split at hvals
            · cases hvals
            · rename_i hl
              cases hvals
              exact ⟨by simpa using hl, fun i _ => rfl⟩
        have hdl : descs.length = names.length ∧ ∀ i, i < names.length → descs[i]? = intendedDescr ds i := by
          cases ds with
          | str s =>
            simp only at hdescs
            split at hdescs
            · cases hdescs
            · rename_i hs
              cases hdescs
              have hs' : s = [] := by simpa using hs
              subst hs'
              refine ⟨by simp, ?_⟩
              intro i hi
              simp [intendedDescr, hi]
          | list l =>
            simp only at hdescs
            split at hdescs
            · cases hdescs
            · rename_i hl
              cases hdescs
              exact ⟨by simpa using hl, fun i _ => rfl⟩
          | other => simp at hdescs
        obtain ⟨hvl, hvi⟩ := hvl
        obtain ⟨hdl, hdi⟩ := hdl
        have hmap : (names.zip (vals.zip descs)).map Prod.fst = names := by
          rw [List.map_fst_zip]
          simp [hvl, hdl]
        obtain ⟨h1, h2, h3⟩ := batchLoop_spec tmpl hglb _ _ _ h
        rw [hmap] at h2 h3
        refine ⟨?_, ?_, h3⟩
        · rw [h1, List.nil_append]
          conv_rhs => rw [← hmap]
          rw [List.map_map]
          rfl
        intro i n hi hlast
        have hil : i < names.length := (List.getElem?_eq_some_iff.1 hi).1
        have hvi' := hvi i hil
        have hdi' := hdi i hil
        have hv : vals[i]? = some vals[i] := List.getElem?_eq_getElem (by omega)
        have hd : descs[i]? = some descs[i] := List.getElem?_eq_getElem (by omega)
        have hz : (names.zip (vals.zip descs))[i]? = some (n, vals[i], descs[i]) := by
          rw [List.getElem?_zip_eq_some]
          refine ⟨hi, ?_⟩
          rw [List.getElem?_zip_eq_some]
          exact ⟨hv, hd⟩
        obtain ⟨cp, hg, hn, hdv, hds⟩ := h2 i n _ _ hz hlast
        refine ⟨cp, hg, hn, ?_, ?_⟩
        · rw [hdv, ← hvi', hv]
        · rw [hds, ← hdi', hd]

/-- Non-vacuity for C04: a batch with a repeated name over a registry that already has an entry. -/
example : ∃ d' syms, registerCodeParameters [(['z'], sampleCP)] sampleCP [['a'], ['b'], ['a']]
    (.list [.other 1, .other 2, .other 3]) (.str []) = (d', .ok syms) ∧
    (d'.get? ['a']).map (·.defaultvalue) = some (.other 3) := by
  refine ⟨_, _, rfl, ?_⟩
  decide

/-- The batch call is not atomic: if a later name is rejected, the earlier ones stay registered. -/
theorem C04_batch_not_atomic : ∃ (tmpl : CodeParam) (names : List Str) (dv : Defaults),
    (registerCodeParameters [] tmpl names dv (.str [])).2 = .error .valueError ∧
    (registerCodeParameters [] tmpl names dv (.str [])).1 ≠ [] := by
  refine ⟨sampleCP, [['a'], ['b']], .list [.other 1, .str (c% "unset")], rfl, ?_⟩
  decide

end Verif.Params
