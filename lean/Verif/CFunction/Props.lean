import Verif.CFunction.Model
import Mathlib.Data.List.Induction
import Mathlib.Data.List.Basic
import Mathlib.Data.List.Nodup
import Mathlib.Tactic.Tauto

/-!
# Properties C05 (function registry), C06 (include paths), C07 (coordinate-system wrappers)
-/
namespace Verif.CFunction
open Verif.Py

/-! ## C05 -/

/-- The C symbol a registration call asks for. -/
def symbolOf (a : Args) : Str :=
  if a.coordSystem = [] then a.name else a.name ++ (c% "__rfm__") ++ a.coordSystem

/-- The conditions under which the documentation promises that a registration is accepted, apart from
the symbol being new. -/
def Acceptable (a : Args) : Prop :=
  symbolOf a ≠ [] ∧ a.desc ≠ [] ∧ a.body ≠ [] ∧
  (a.includes = .none ∨ ∃ l, a.includes = .list l ∧ .other ∉ l) ∧
  (a.coordSystem ≠ [] → ¬ (c% "griddata_struct") <:+: a.params)

/-- `cf` carries the arguments of the call `a`. -/
def BuiltFrom (a : Args) (cf : CFunc) : Prop :=
  cf.args.name = symbolOf a ∧ cf.args.body = a.body ∧ cf.args.desc = a.desc ∧
  cf.args.params = a.params ∧ cf.args.cfuncType = a.cfuncType ∧
  cf.args.coordSystem = a.coordSystem ∧ cf.args.includes = a.includes ∧
  cf.args.prefunc = a.prefunc ∧ cf.args.postfunc = a.postfunc

theorem containsSub_iff (sub s : Str) : containsSub sub s = true ↔ sub <:+: s := by
  induction s with
  | nil =>
    unfold containsSub
    simp [List.isPrefixOf_iff_prefix, List.infix_nil]
  | cons c s ih =>
    unfold containsSub
    rw [Bool.or_eq_true, ih, List.isPrefixOf_iff_prefix, List.infix_cons_iff]

theorem includeLines_ok (bhah : Bool) (rel : Str) (l : List Inc) :
    (∃ r, includeLines bhah rel l = .ok r) ↔ .other ∉ l := by
  induction l with
  | nil => simp [includeLines]
  | cons a l ih =>
    cases a with
    | other => simp [includeLines]
    | str s =>
      simp only [includeLines, List.mem_cons, not_or]
      rw [← ih]
      constructor
      · rintro ⟨r, hr⟩
        cases h : includeLines bhah rel l with
        | ok x => exact ⟨by simp, x, rfl⟩
        | error e => rw [h] at hr; simp [Except.map] at hr
      · rintro ⟨_, r, hr⟩
        exact ⟨_, by rw [hr]; rfl⟩

theorem mkCFunc_spec (bhah : Bool) (star : StarPrefix) (a : Args) (sub : Str) :
    (Acceptable a → ∃ cf, mkCFunc bhah star { a with subdirectory := sub, name := symbolOf a } = .ok cf
      ∧ BuiltFrom a cf) ∧
    (¬ Acceptable a → ∃ e, mkCFunc bhah star { a with subdirectory := sub, name := symbolOf a }
      = .error e) := by
  unfold mkCFunc
  by_cases h1 : symbolOf a = [] ∨ a.desc = [] ∨ a.body = []
  · have hna : ¬ Acceptable a := by
      rintro ⟨h2, h3, h4, _⟩
      rcases h1 with h | h | h <;> contradiction
    simp only [h1, if_true]
    exact ⟨fun h => absurd h hna, fun _ => ⟨_, rfl⟩⟩
  · simp only [h1, if_false]
    have h1' : symbolOf a ≠ [] ∧ a.desc ≠ [] ∧ a.body ≠ [] := by tauto
    by_cases h2 : a.includes = .notAList
    · have hna : ¬ Acceptable a := by
        rintro ⟨_, _, _, h3, _⟩
        rw [h2] at h3
        rcases h3 with h3 | ⟨l, h3, _⟩ <;> cases h3
      simp only [h2, if_true]
      exact ⟨fun h => absurd h hna, fun _ => ⟨_, rfl⟩⟩
    · simp only [h2, if_false]
      by_cases h3 : a.coordSystem ≠ [] ∧ containsSub (c% "griddata_struct") a.params = true
      · have hna : ¬ Acceptable a := by
          rintro ⟨_, _, _, _, h4⟩
          exact h4 h3.1 ((containsSub_iff _ _).1 h3.2)
        rw [if_pos h3]
        exact ⟨fun h => absurd h hna, fun _ => ⟨_, rfl⟩⟩
      · rw [if_neg h3]
        have h3' : a.coordSystem ≠ [] → ¬ (c% "griddata_struct") <:+: a.params := by
          intro hc hi
          exact h3 ⟨hc, (containsSub_iff _ _).2 hi⟩
        simp only [generate]
        cases hinc : a.includes with
        | notAList => exact absurd hinc h2
        | none =>
          have hacc : Acceptable a := ⟨h1'.1, h1'.2.1, h1'.2.2, Or.inl hinc, h3'⟩
          simp only
          refine ⟨fun _ => ⟨_, rfl, ?_⟩, fun h => absurd hacc h⟩
          exact ⟨rfl, rfl, rfl, rfl, rfl, rfl, hinc.symm, rfl, rfl⟩
        | list l =>
          simp only
          by_cases hl : Inc.other ∈ l
          · have hna : ¬ Acceptable a := by
              rintro ⟨_, _, _, h4, _⟩
              rw [hinc] at h4
              rcases h4 with h4 | ⟨l', h4, h5⟩
              · cases h4
              · cases h4; exact h5 hl
            refine ⟨fun h => absurd h hna, fun _ => ?_⟩
            cases hh : includeLines bhah (relPathToRoot sub) l with
            | error e => exact ⟨_, rfl⟩
            | ok r => exact absurd hl ((includeLines_ok _ _ _).1 ⟨r, hh⟩)
          · have hacc : Acceptable a := ⟨h1'.1, h1'.2.1, h1'.2.2, Or.inr ⟨l, hinc, hl⟩, h3'⟩
            obtain ⟨r, hr⟩ := (includeLines_ok bhah (relPathToRoot sub) l).2 hl
            rw [hr]
            simp only
            refine ⟨fun _ => ⟨_, rfl, ?_⟩, fun h => absurd hacc h⟩
            exact ⟨rfl, rfl, rfl, rfl, rfl, rfl, hinc.symm, rfl, rfl⟩

theorem register_cases (bhah : Bool) (star : StarPrefix) (d : Registry) (a : Args) :
    (Acceptable a ∧ d.get? (symbolOf a) = none →
      ∃ cf, register bhah star d a = (d.set (symbolOf a) cf, .ok ()) ∧ BuiltFrom a cf) ∧
    (¬ (Acceptable a ∧ d.get? (symbolOf a) = none) →
      ∃ e, register bhah star d a = (d, .error e)) := by
  obtain ⟨sub, hsub⟩ : ∃ sub, nameAndSubdir a.subdirectory a.name a.coordSystem = (sub, symbolOf a) := by
    unfold nameAndSubdir symbolOf
    by_cases hc : a.coordSystem = [] <;> simp [hc]
  unfold register
  rw [hsub]
  simp only
  obtain ⟨hok, herr⟩ := mkCFunc_spec bhah star a sub
  by_cases hin : d.contains (symbolOf a) = true
  · simp only [hin, if_true]
    obtain ⟨v, hv⟩ := (Dict.contains_iff _ _).1 hin
    refine ⟨fun h => ?_, fun _ => ⟨_, rfl⟩⟩
    rw [hv] at h; cases h.2
  · have hnone := (Dict.contains_false_iff d (symbolOf a)).1 (by simpa using hin)
    simp only [hin, Bool.false_eq_true, if_false]
    by_cases hacc : Acceptable a
    · obtain ⟨cf, hcf, hb⟩ := hok hacc
      rw [hcf]
      exact ⟨fun _ => ⟨cf, rfl, hb⟩, fun h => absurd ⟨hacc, hnone⟩ h⟩
    · obtain ⟨e, he⟩ := herr hacc
      rw [he]
      exact ⟨fun h => absurd h.1 hacc, fun _ => ⟨e, rfl⟩⟩

theorem append_singleton_cases {α : Type} {h pre post : List α} {c x : α}
    (e : h ++ [c] = pre ++ x :: post) :
    (post = [] ∧ h = pre ∧ c = x) ∨ (∃ post', post = post' ++ [c] ∧ h = pre ++ x :: post') := by
  rcases List.eq_nil_or_concat post with hp | ⟨post', y, hp⟩
  · subst hp
    left
    have := List.append_inj' e (by simp)
    simpa using this
  · rw [List.concat_eq_append] at hp
    subst hp
    right
    have e' : h ++ [c] = (pre ++ x :: post') ++ [y] := by simpa using e
    have := List.append_inj' e' (by simp)
    simp at this
    exact ⟨post', by simp [this.2], this.1⟩

/-- **C05.** After any history of registration calls, a symbol is in the registry exactly when some
call with that symbol was acceptable, and what is stored was built from the *first* such call. -/
theorem C05_first_registration_wins (bhah : Bool) (star : StarPrefix) (h : List Args) (s : Str) :
    (∀ cf, (run bhah star h []).get? s = some cf →
      ∃ pre a post, h = pre ++ a :: post ∧ symbolOf a = s ∧ Acceptable a ∧ BuiltFrom a cf ∧
        ∀ b ∈ pre, Acceptable b → symbolOf b ≠ s) ∧
    ((run bhah star h []).get? s = none ↔ ∀ a ∈ h, Acceptable a → symbolOf a ≠ s) := by
  induction h using List.reverseRecOn with
  | nil => simp [run, Dict.get?]
  | append_singleton h a ih =>
    obtain ⟨ih1, ih2⟩ := ih
    have hrun : run bhah star (h ++ [a]) [] = (register bhah star (run bhah star h []) a).1 := by
      simp [run]
    rw [hrun]
    obtain ⟨hok, herr⟩ := register_cases bhah star (run bhah star h []) a
    have lift : ∀ cf, (run bhah star h []).get? s = some cf →
        ∃ pre x post, h ++ [a] = pre ++ x :: post ∧ symbolOf x = s ∧ Acceptable x ∧ BuiltFrom x cf ∧
        ∀ b ∈ pre, Acceptable b → symbolOf b ≠ s := by
      intro cf hcf
      obtain ⟨pre, x, post, e, h1, h2, h3, h4⟩ := ih1 cf hcf
      exact ⟨pre, x, post ++ [a], by simp [e], h1, h2, h3, h4⟩
    by_cases hc : Acceptable a ∧ (run bhah star h []).get? (symbolOf a) = none
    · obtain ⟨cf, hcf, hb⟩ := hok hc
      rw [hcf]
      by_cases hs : symbolOf a = s
      · subst hs
        simp only [Dict.get?_set_self]
        refine ⟨?_, ?_⟩
        · intro cf' e
          cases e
          exact ⟨h, a, [], by simp, rfl, hc.1, hb, fun b hb' => ih2.1 hc.2 b hb'⟩
        · simp only [reduceCtorEq, false_iff]
          intro hall
          exact hall a (by simp) hc.1 rfl
      · simp only [Dict.get?_set_ne _ _ (Ne.symm hs)]
        refine ⟨lift, ?_⟩
        rw [ih2]
        constructor
        · intro hall b hb'
          rcases List.mem_append.1 hb' with h6 | h6
          · exact hall b h6
          · simp at h6; subst h6; intro _; exact hs
        · intro hall b hb'; exact hall b (by simp [hb'])
    · obtain ⟨e, he⟩ := herr hc
      rw [he]
      refine ⟨lift, ?_⟩
      simp only
      rw [ih2]
      constructor
      · intro hall b hb'
        rcases List.mem_append.1 hb' with h6 | h6
        · exact hall b h6
        · simp at h6; subst h6
          intro hacc hsb
          apply hc
          refine ⟨hacc, ?_⟩
          rw [hsb, ih2]; exact hall
      · intro hall b hb'; exact hall b (by simp [hb'])

/-- **C05.** A call raises exactly when it is not acceptable or its symbol is already taken by an
earlier acceptable call, and a call that raises changes nothing. -/
theorem C05_failure (bhah : Bool) (star : StarPrefix) (h : List Args) (a : Args) :
    ((∃ e, (register bhah star (run bhah star h []) a).2 = .error e) ↔
      ¬ Acceptable a ∨ ∃ b ∈ h, Acceptable b ∧ symbolOf b = symbolOf a) ∧
    (∀ e, (register bhah star (run bhah star h []) a).2 = .error e →
      (register bhah star (run bhah star h []) a).1 = run bhah star h []) := by
  obtain ⟨hok, herr⟩ := register_cases bhah star (run bhah star h []) a
  have hnone := (C05_first_registration_wins bhah star h (symbolOf a)).2
  by_cases hc : Acceptable a ∧ (run bhah star h []).get? (symbolOf a) = none
  · obtain ⟨cf, hcf, _⟩ := hok hc
    rw [hcf]
    refine ⟨?_, by simp⟩
    simp only [reduceCtorEq, exists_false, false_iff]
    rintro (h1 | ⟨b, hb, h2, h3⟩)
    · exact h1 hc.1
    · exact hnone.1 hc.2 b hb h2 h3
  · obtain ⟨e, he⟩ := herr hc
    rw [he]
    refine ⟨⟨fun _ => ?_, fun _ => ⟨e, rfl⟩⟩, fun _ _ => rfl⟩
    by_cases ha : Acceptable a
    · right
      by_contra hno
      apply hc
      refine ⟨ha, hnone.2 ?_⟩
      intro b hb h2 h3
      exact hno ⟨b, hb, h2, h3⟩
    · exact Or.inl ha

/-- Sample arguments used in the witnesses. -/
def sampleArgs : Args :=
  ⟨(c% "."), false, .list [.str (c% "BHaH_defines.h")], [], (c% "d"), [], (c% "void"), (c% "f"),
   (c% "int x"), false, (c% "return;"), [], (c% "Cartesian"), 0⟩

/-- Non-vacuity for C05: the sample call is acceptable and ends up in the registry. -/
example : Acceptable sampleArgs := by
  refine ⟨by decide, by decide, by decide, Or.inr ⟨_, rfl, by decide⟩, fun _ => ?_⟩
  rw [← containsSub_iff]; decide

/-- The documented rejection of an empty name does not happen when a coordinate system is given: the
test is made on the symbol `__rfm__X`, which is never empty. -/
theorem C05_empty_name_accepted_with_coord_system :
    ∃ a : Args, a.name = [] ∧ (register true id [] a).2 = .ok () := by
  exact ⟨{ sampleArgs with name := [] }, rfl, rfl⟩

/-- The definition text repeats the prototype without its semicolon, when the pieces of the prototype
contain no semicolon; so the declared and the defined function agree. -/
theorem C05_definition_matches_prototype (bhah : Bool) (star : StarPrefix) (a : Args) (p r : Str)
    (h : generate bhah star a = .ok (p, r))
    (hs : ';' ∉ a.decorators ∧ ';' ∉ a.cfuncType ∧ ';' ∉ a.name ∧ ';' ∉ a.params) :
    ∃ hdr pre post, p = hdr ++ (c% ";") ∧ r = pre ++ hdr ++ (c% " {\n") ++ post ∧
      ∃ incl, post = incl ++ a.body ++ (c% "}\n") ++ a.postfunc ++ (c% "\n") := by
  unfold generate at h
  simp only at h
  split at h
  · cases h
  · rename_i incs _
    cases h
    refine ⟨a.decorators ++ a.cfuncType ++ (c% " ") ++ a.name ++ (c% "(") ++ a.params ++ (c% ")"),
      incs ++ (if a.prefunc ≠ [] then a.prefunc ++ (c% "\n") else []) ++
        (if a.desc ≠ [] then (c% "/**\n") ++ star a.desc ++ (c% "\n*/\n") else []),
      includeCparams bhah (relPathToRoot a.subdirectory) a ++ a.body ++ (c% "}\n") ++ a.postfunc ++
        (c% "\n"), by simp, ?_, includeCparams bhah (relPathToRoot a.subdirectory) a, rfl⟩
    have hrep : replaceAll (c% ";") []
        (a.decorators ++ a.cfuncType ++ (c% " ") ++ a.name ++ (c% "(") ++ a.params ++ (c% ");")) =
        a.decorators ++ a.cfuncType ++ (c% " ") ++ a.name ++ (c% "(") ++ a.params ++ (c% ")") := by
      have hno : ';' ∉ (a.decorators ++ a.cfuncType ++ (c% " ") ++ a.name ++ (c% "(") ++ a.params
          ++ (c% ")")) := by
        simp [hs.1, hs.2.1, hs.2.2.1, hs.2.2.2]
      have := replaceAll_suffix (c% ";")
        (a.decorators ++ a.cfuncType ++ (c% " ") ++ a.name ++ (c% "(") ++ a.params ++ (c% ")"))
        (by simp) ?_
      · simpa using this
      · generalize (a.decorators ++ a.cfuncType ++ (c% " ") ++ a.name ++ (c% "(") ++ a.params
          ++ (c% ")")) = base at hno
        intro i hi hp
        rw [List.drop_append_of_le_length (by omega)] at hp
        cases hd : base.drop i with
        | nil => simp at hd; omega
        | cons x xs =>
          rw [hd] at hp
          have hx : ';' = x := by
            obtain ⟨t, ht⟩ := hp
            simp at ht
            exact ht.1
          apply hno
          have : x ∈ base.drop i := by rw [hd]; simp
          rw [hx]
          exact List.mem_of_mem_drop this
    rw [hrep]
    simp [List.append_assoc]

/-! ## C06 -/

/-- Following a path, component by component, from a directory given as its list of components,
deepest first: the usual meaning of `.`, `..` and empty components. -/
def walk : List Str → List Str → List Str
  | dir, [] => dir
  | dir, c :: cs =>
    if c = [] ∨ c = (c% ".") then walk dir cs
    else if c = (c% "..") then walk dir.tail cs
    else walk (c :: dir) cs

/-- The path never climbs above its starting point (`n` levels down at the moment). -/
def Inside : Nat → List Str → Prop
  | _, [] => True
  | n, c :: cs =>
    if c = [] ∨ c = (c% ".") then Inside n cs
    else if c = (c% "..") then 0 < n ∧ Inside (n - 1) cs
    else Inside (n + 1) cs

theorem walk_append (dir a b : List Str) : walk dir (a ++ b) = walk (walk dir a) b := by
  induction a generalizing dir with
  | nil => rfl
  | cons c a ih =>
    simp only [List.cons_append, walk]
    split
    · exact ih _
    · split <;> exact ih _

/-- Components that survive normalization of a path that stays inside. -/
def Plain (c : Str) : Prop := c ≠ [] ∧ c ≠ (c% ".") ∧ c ≠ (c% "..") ∧ '/' ∉ c

theorem norm_inside (base st comps : List Str) (hst : ∀ c ∈ st, Plain c)
    (hcs : ∀ c ∈ comps, '/' ∉ c) (hin : Inside st.length comps) :
    ∃ st', comps.foldl (normStep false) st = st' ∧ (∀ c ∈ st', Plain c) ∧
      walk (st ++ base) comps = st' ++ base := by
  induction comps generalizing st with
  | nil => exact ⟨st, rfl, hst, rfl⟩
  | cons c cs ih =>
    have hcs' : ∀ c ∈ cs, '/' ∉ c := fun x hx => hcs x (List.mem_cons_of_mem _ hx)
    simp only [List.foldl_cons, walk]
    unfold Inside at hin
    by_cases h1 : c = [] ∨ c = (c% ".")
    · rw [if_pos h1] at hin
      have e : normStep false st c = st := by unfold normStep; rw [if_pos h1]
      rw [e, if_pos h1]
      exact ih st hst hcs' hin
    · rw [if_neg h1] at hin
      rw [if_neg h1]
      by_cases h2 : c = (c% "..")
      · rw [if_pos h2] at hin
        rw [if_pos h2]
        cases st with
        | nil => simp at hin
        | cons top rest =>
          have htop := hst top (by simp)
          have e : normStep false (top :: rest) c = rest := by
            unfold normStep
            rw [if_neg h1, if_neg (by simpa using h2)]
            simp only [htop.2.2.1, if_false]
          rw [e]
          have := ih rest (fun x hx => hst x (by simp [hx])) hcs' (by simpa using hin.2)
          simpa using this
      · rw [if_neg h2] at hin
        rw [if_neg h2]
        have e : normStep false st c = c :: st := by
          unfold normStep
          rw [if_neg h1, if_pos (by simpa using h2)]
        rw [e]
        have hpl : Plain c := by
          have h1' : c ≠ [] ∧ c ≠ (c% ".") := by tauto
          exact ⟨h1'.1, h1'.2, h2, hcs c (by simp)⟩
        have := ih (c :: st) ?_ hcs' (by simpa using hin)
        · simpa using this
        · intro x hx
          rcases List.mem_cons.1 hx with h | h
          · subst h; exact hpl
          · exact hst x h

theorem depth_eq (sub : Str) (hrel : sub.head? ≠ some '/') (st' : List Str)
    (hst : ∀ c ∈ st', Plain c)
    (h : (split1 '/' sub).foldl (normStep false) [] = st') :
    subdirectoryDepth sub = st'.length := by
  have habs : (c% "/").isPrefixOf sub = false := by
    cases sub with
    | nil => rfl
    | cons x s =>
      have hx : x ≠ '/' := by simpa using hrel
      simp [List.isPrefixOf, Ne.symm hx]
  unfold subdirectoryDepth normpath normComps
  simp only [habs, h, Bool.false_eq_true, if_false]
  cases hs : st'.reverse with
  | nil =>
    have : st' = [] := by simpa using hs
    subst this
    simp [joinWith]
  | cons a l =>
    have hpl : ∀ c ∈ a :: l, Plain c := by
      intro c hc; apply hst; rw [← hs] at hc; simpa using hc
    have hsp : split1 '/' (joinWith '/' (a :: l)) = a :: l :=
      split1_joinWith '/' _ (by simp) (fun p hp => (hpl p hp).2.2.2)
    have hne : joinWith '/' (a :: l) ≠ [] := by
      intro hh; rw [hh] at hsp
      simp [split1] at hsp
      exact (hpl a (by simp)).1 hsp.1
    have hdot : joinWith '/' (a :: l) ≠ (c% ".") := by
      intro hh; rw [hh] at hsp
      have hd : split1 '/' (c% ".") = [(c% ".")] := by decide
      rw [hd] at hsp
      simp at hsp
      exact (hpl a (by simp)).2.1 hsp.1.symm
    rw [if_neg hne, if_neg hdot, hsp]
    have hf : (a :: l).filter (fun f => decide (f ≠ [])) = a :: l := by
      rw [List.filter_eq_self]
      intro c hc; simpa using (hpl c hc).1
    have hlen : st'.length = (a :: l).length := by rw [← hs]; simp
    rw [hlen]
    exact congrArg List.length hf

theorem foldl_dotdot (n : Nat) :
    (List.range n).foldl (fun acc _ => osJoin acc (c% "..")) [] =
      joinWith '/' (List.replicate n (c% "..")) := by
  induction n with
  | zero => rfl
  | succ n ih =>
    rw [List.range_succ, List.foldl_append, ih]
    simp only [List.foldl_cons, List.foldl_nil]
    cases n with
    | zero => rfl
    | succ m =>
      have hlast : ∀ m, (joinWith '/' (List.replicate (m+1) (c% ".."))).getLast? = some '.' ∧
          joinWith '/' (List.replicate (m+2) (c% "..")) =
            joinWith '/' (List.replicate (m+1) (c% "..")) ++ (c% "/..") := by
        intro m
        induction m with
        | zero => exact ⟨rfl, rfl⟩
        | succ m ihm =>
          refine ⟨?_, ?_⟩
          · rw [ihm.2, List.getLast?_append_of_ne_nil _ (by simp)]; rfl
          · have e1 : joinWith '/' (List.replicate (m+3) (c% "..")) =
                (c% "..") ++ '/' :: joinWith '/' (List.replicate (m+2) (c% "..")) := rfl
            have e2 : joinWith '/' (List.replicate (m+2) (c% "..")) =
                (c% "..") ++ '/' :: joinWith '/' (List.replicate (m+1) (c% "..")) := rfl
            rw [e1]
            conv_lhs => rw [ihm.2]
            rw [e2]
            simp
      obtain ⟨h1, h2⟩ := hlast m
      rw [h2]
      unfold osJoin
      have hne : ¬ (joinWith '/' (List.replicate (m+1) (c% "..")) = [] ∨
          (joinWith '/' (List.replicate (m+1) (c% ".."))).getLast? = some '/') := by
        rw [h1]
        rintro (h | h)
        · rw [h] at h1; simp at h1
        · simp at h
      rw [if_neg (by decide), if_neg hne]

theorem walk_dotdots (pre base : List Str) (rest : List Str) :
    walk (pre ++ base) (List.replicate pre.length (c% "..") ++ rest) = walk base rest := by
  induction pre with
  | nil => rfl
  | cons c pre ih =>
    simp only [List.length_cons, List.replicate_succ, List.cons_append, walk]
    rw [if_neg (by decide), if_pos trivial]
    simpa using ih

/-- **C06.** Wherever the project lives (`root`, deepest component first) and for every relative
subdirectory that does not climb out of the project, the path emitted for a project header, followed
from the directory of the C file, reaches the same file as the header's own path followed from the
project root. -/
theorem C06_include_path_reaches_root (root : List Str) (subdir inc : Str)
    (hrel : subdir.head? ≠ some '/') (hinc : inc.head? ≠ some '/')
    (hin : Inside 0 (split1 '/' subdir)) :
    walk (walk root (split1 '/' subdir)) (split1 '/' (osJoin (relPathToRoot subdir) inc)) =
      walk root (split1 '/' inc) := by
  obtain ⟨st', h1, h2, h3⟩ := norm_inside root [] (split1 '/' subdir) (by simp)
    (split1_not_mem '/' subdir) (by simpa using hin)
  simp only [List.nil_append] at h3
  have hd := depth_eq subdir hrel st' h2 h1
  unfold relPathToRoot
  rw [hd, foldl_dotdot, h3]
  have hincp : ¬ ((c% "/").isPrefixOf inc = true) := by
    cases inc with
    | nil => simp
    | cons x s =>
      have hx : x ≠ '/' := by simpa using hinc
      simp [List.isPrefixOf, Ne.symm hx]
  have hsplit : split1 '/' (osJoin (joinWith '/' (List.replicate st'.length (c% ".."))) inc) =
      List.replicate st'.length (c% "..") ++ split1 '/' inc := by
    generalize st'.length = n
    unfold osJoin
    rw [if_neg hincp]
    cases n with
    | zero => simp [joinWith]
    | succ m =>
      have hsp : ∀ (m : Nat) (t : Str), split1 '/' (joinWith '/' (List.replicate (m+1) (c% "..")) ++ '/' :: t)
          = List.replicate (m+1) (c% "..") ++ split1 '/' t := by
        intro m
        induction m with
        | zero => intro t; exact split1_append_sep '/' (c% "..") t (by decide)
        | succ m ih =>
          intro t
          have e1 : joinWith '/' (List.replicate (m+2) (c% "..")) ++ '/' :: t =
                (c% "..") ++ '/' :: (joinWith '/' (List.replicate (m+1) (c% "..")) ++ '/' :: t) := by
            have e2 : joinWith '/' (List.replicate (m+2) (c% "..")) =
                (c% "..") ++ '/' :: joinWith '/' (List.replicate (m+1) (c% "..")) := rfl
            rw [e2]; simp
          rw [e1, split1_append_sep '/' (c% "..") _ (by decide), ih t]
          rfl
      have hne : ¬ (joinWith '/' (List.replicate (m+1) (c% "..")) = [] ∨
          (joinWith '/' (List.replicate (m+1) (c% ".."))).getLast? = some '/') := by
        have hl : (joinWith '/' (List.replicate (m+1) (c% ".."))).getLast? = some '.' := by
          clear hsp
          induction m with
          | zero => rfl
          | succ m ih =>
            have e2 : joinWith '/' (List.replicate (m+2) (c% "..")) =
                (c% "..") ++ '/' :: joinWith '/' (List.replicate (m+1) (c% "..")) := rfl
            rw [e2, List.getLast?_append_of_ne_nil _ (by simp), List.getLast?_cons, ih]
            rfl
        rw [hl]
        rintro (h | h)
        · rw [h] at hl; simp at hl
        · simp at h
      rw [if_neg hne, hsp]
  rw [hsplit]
  exact walk_dotdots st' root _

/-- The include line the generator writes for a project header is built from that path. -/
theorem C06_include_line (subdir inc : Str) (h1 : ¬ (c% "<") <:+: inc)
    (h2 : (c% "BHaH_defines.h") <:+: inc ∨ (c% "BHaH_function_prototypes.h") <:+: inc ∨
      (c% "simd_intrinsics.h") <:+: inc) :
    includeLine true (relPathToRoot subdir) inc =
      (c% "#include \"") ++ osJoin (relPathToRoot subdir) inc ++ (c% "\"\n") := by
  unfold includeLine
  have e1 : containsSub (c% "<") inc = false := by
    rw [Bool.eq_false_iff]; intro h; exact h1 ((containsSub_iff _ _).1 h)
  simp only [← containsSub_iff] at h2
  rcases h2 with e2 | e2 | e2 <;>
    simp only [e1, e2, Bool.true_or, Bool.or_true, Bool.and_true, Bool.false_eq_true, if_false, if_true]

/-- Non-vacuity for C06: `./a//b/../c/` stays inside and has depth 2. -/
example : Inside 0 (split1 '/' (c% "./a//b/../c/")) ∧ subdirectoryDepth (c% "./a//b/../c/") = 2 ∧
    (c% "./a//b/../c/").head? ≠ some '/' := by
  refine ⟨?_, by decide, by decide⟩
  have : split1 '/' (c% "./a//b/../c/") = [(c% "."), (c% "a"), [], (c% "b"), (c% ".."), (c% "c"), []] := by
    decide
  rw [this]
  simp [Inside]

/-- Why the hypothesis is needed: for a subdirectory that climbs above the root the emitted path does
not come back (`..` is counted as a folder). -/
theorem C06_climbing_subdirectory_fails :
    ∃ (root : List Str) (subdir inc : Str), subdir.head? ≠ some '/' ∧
      walk (walk root (split1 '/' subdir)) (split1 '/' (osJoin (relPathToRoot subdir) inc)) ≠
      walk root (split1 '/' inc) := by
  refine ⟨[(c% "p"), (c% "home")], (c% "../a"), (c% "h"), by decide, by decide⟩

/-! ## C07 -/

/-- The registry as a user fills it: every entry is stored under its own symbol; a function with a
coordinate system is named `base__rfm__Coord`, where the suffix occurs nowhere else in the name, and
plain names do not contain `__rfm__`. -/
def WellNamed (d : Registry) : Prop :=
  ∀ k cf, (k, cf) ∈ d → cf.args.name = k ∧
    (cf.args.coordSystem = [] → ¬ (c% "__rfm__") <:+: k) ∧
    (cf.args.coordSystem ≠ [] → ∃ base, k = base ++ (c% "__rfm__") ++ cf.args.coordSystem ∧
      ¬ (c% "__rfm__") <:+: base ∧
      ∀ i, i < base.length → ¬ rfmSuffix cf.args.coordSystem <+: (base ++ rfmSuffix cf.args.coordSystem).drop i)

theorem replaceAux_no (pat : Str) (s : Str) (h : ¬ pat <:+: s) :
    replaceAux pat [] s 0 = s := by
  induction s with
  | nil => rfl
  | cons c s ih =>
    have h0 : pat.isPrefixOf (c :: s) = false := by
      rw [Bool.eq_false_iff]; intro hh
      exact h (List.isPrefixOf_iff_prefix.1 hh).isInfix
    simp only [replaceAux, h0, Bool.false_eq_true, if_false]
    rw [ih]
    intro hh
    exact h (hh.trans ⟨[c], [], by simp⟩)

/-- Base name of an entry: what the wrapper code computes. -/
theorem base_of_entry {d : Registry} (hw : WellNamed d) {k : Str} {cf : CFunc} (hm : (k, cf) ∈ d) :
    ∃ base, replaceAll (rfmSuffix cf.args.coordSystem) [] k = base ∧ ¬ (c% "__rfm__") <:+: base ∧
      (cf.args.coordSystem = [] → base = k) ∧
      (cf.args.coordSystem ≠ [] → k = base ++ (c% "__rfm__") ++ cf.args.coordSystem) := by
  obtain ⟨_, h1, h2⟩ := hw k cf hm
  by_cases hc : cf.args.coordSystem = []
  · refine ⟨k, ?_, h1 hc, fun _ => rfl, fun h => absurd hc h⟩
    have : rfmSuffix cf.args.coordSystem = (c% "__rfm__") := by simp [rfmSuffix, hc]
    rw [this]
    exact replaceAux_no _ _ (h1 hc)
  · obtain ⟨base, e, hb, hocc⟩ := h2 hc
    refine ⟨base, ?_, hb, fun h => absurd h hc, fun _ => e⟩
    rw [e, List.append_assoc]
    exact replaceAll_suffix _ _ (by simp [rfmSuffix]) hocc

theorem mem_coordsFor {d : Registry} (hw : WellNamed d) {w c : Str} (hc : c ≠ []) :
    c ∈ coordsFor d w ↔ ∃ cf, (w ++ (c% "__rfm__") ++ c, cf) ∈ d ∧ cf.args.coordSystem = c ∧
      ¬ (c% "__rfm__") <:+: w := by
  unfold coordsFor
  simp only [List.mem_map, List.mem_filter, decide_eq_true_eq]
  constructor
  · rintro ⟨⟨k, cf⟩, ⟨hm, hk⟩, e⟩
    obtain ⟨base, h1, h2, _, h4⟩ := base_of_entry hw hm
    simp only at hk e
    rw [h1] at hk
    subst hk
    have := h4 (by rw [e]; exact hc)
    rw [e] at this
    exact ⟨cf, by rw [← this]; exact hm, e, h2⟩
  · rintro ⟨cf, hm, e, hnw⟩
    refine ⟨(_, cf), ⟨hm, ?_⟩, e⟩
    obtain ⟨base, h1, h2, _, h4⟩ := base_of_entry hw hm
    simp only
    rw [h1]
    have := h4 (by rw [e]; exact hc)
    rw [e] at this
    simpa using this

/-- If the wrapper loop succeeds, the wrapper names are new and pairwise distinct. -/
theorem wrapperLoop_fresh (bhah : Bool) (star : StarPrefix) (upper : Str → Str) (text : Wrapper → Str)
    (subdir : Str) (items : List (Str × CFunc)) (d : Registry) (ws : List Wrapper) (cs : List Str)
    {r : Registry × List Wrapper × List Str}
    (h : wrapperLoop bhah star upper text subdir items d ws cs = .ok r) :
    (items.map Prod.fst).Nodup ∧ ∀ w ∈ items.map Prod.fst, d.get? w = none := by
  induction items generalizing d ws cs with
  | nil => simp
  | cons it rest ih =>
    obtain ⟨w, base⟩ := it
    simp only [wrapperLoop] at h
    obtain ⟨hok, herr⟩ := register_cases bhah star d
      (wrapperArgs text subdir base (mkWrapper upper d w))
    by_cases hc : Acceptable (wrapperArgs text subdir base (mkWrapper upper d w)) ∧
        d.get? (symbolOf (wrapperArgs text subdir base (mkWrapper upper d w))) = none
    · obtain ⟨cf, hcf, _⟩ := hok hc
      rw [hcf] at h
      simp only at h
      have hs : symbolOf (wrapperArgs text subdir base (mkWrapper upper d w)) = w := rfl
      rw [hs] at hc h
      obtain ⟨i1, i2⟩ := ih _ _ _ h
      have hnot : w ∉ rest.map Prod.fst := by
        intro hm
        have := i2 w hm
        rw [Dict.get?_set_self] at this
        cases this
      refine ⟨by simp only [List.map_cons, List.nodup_cons]; exact ⟨hnot, i1⟩, ?_⟩
      intro w2 hw2
      simp only [List.map_cons, List.mem_cons] at hw2
      rcases hw2 with rfl | hw2
      · exact hc.2
      · have := i2 w2 hw2
        rwa [Dict.get?_set_ne _ _ (fun e => hnot (by rw [← e]; exact hw2))] at this
    · obtain ⟨e, he⟩ := herr hc
      rw [he] at h
      cases h

/-- What the wrapper loop guarantees: every requested wrapper is built from the coordinate systems of
the *original* registry, because the wrappers registered on the way are plain functions. -/
theorem wrapperLoop_spec (bhah : Bool) (star : StarPrefix) (upper : Str → Str) (text : Wrapper → Str)
    (subdir : Str) (items : List (Str × CFunc)) (d : Registry) (hw : WellNamed d)
    (hitems : ∀ w ∈ items.map Prod.fst, ¬ (c% "__rfm__") <:+: w)
    (ws : List Wrapper) (cs : List Str) {d' : Registry} {ws' : List Wrapper} {cs' : List Str}
    (h : wrapperLoop bhah star upper text subdir items d ws cs = .ok (d', ws', cs')) :
    WellNamed d' ∧
    (∀ w c, c ≠ [] → (c ∈ coordsFor d' w ↔ c ∈ coordsFor d w)) ∧
    (∃ new, ws' = ws ++ new ∧ new.map Wrapper.name = items.map Prod.fst ∧
      (∀ wr ∈ new, ∃ cl : List Str, (∀ c, c ∈ cl ↔ c ∈ coordsFor d wr.name) ∧
        wr.cases = (sortedStr cl).map (fun c => (upper c, wr.name ++ (c% "__rfm__") ++ c)))) ∧
    (∀ c, c ∈ cs' ↔ c ∈ cs ∨ ∃ w ∈ items.map Prod.fst, c ∈ coordsFor d w) := by
  induction items generalizing d ws cs with
  | nil =>
    simp only [wrapperLoop] at h
    cases h
    refine ⟨hw, fun _ _ _ => Iff.rfl, ⟨[], by simp, rfl, by simp⟩, by simp⟩
  | cons it rest ih =>
    obtain ⟨w, base⟩ := it
    simp only [wrapperLoop] at h
    have hwn : ¬ (c% "__rfm__") <:+: w := hitems w (by simp)
    obtain ⟨hok, herr⟩ := register_cases bhah star d
      (wrapperArgs text subdir base (mkWrapper upper d w))
    by_cases hc : Acceptable (wrapperArgs text subdir base (mkWrapper upper d w)) ∧
        d.get? (symbolOf (wrapperArgs text subdir base (mkWrapper upper d w))) = none
    · obtain ⟨cf, hcf, hb⟩ := hok hc
      rw [hcf] at h
      simp only at h
      have hsym : symbolOf (wrapperArgs text subdir base (mkWrapper upper d w)) = w := rfl
      rw [hsym] at h hc
      have hcoord : cf.args.coordSystem = [] := hb.2.2.2.2.2.1
      have hname : cf.args.name = w := hb.1
      have hset : d.set w cf = d ++ [(w, cf)] := by
        have : ∀ d : Registry, d.get? w = none → d.set w cf = d ++ [(w, cf)] := by
          intro d
          induction d with
          | nil => intro _; rfl
          | cons a d ihd =>
            obtain ⟨k, v⟩ := a
            intro hg
            by_cases hk : k = w
            · simp [Dict.get?, hk] at hg
            · simp [Dict.get?, hk] at hg
              simp [Dict.set, hk, ihd hg]
        exact this d hc.2
      have hw' : WellNamed (d.set w cf) := by
        rw [hset]
        intro k c hm
        rcases List.mem_append.1 hm with h6 | h6
        · exact hw k c h6
        · simp at h6
          obtain ⟨rfl, rfl⟩ := h6
          exact ⟨hname, fun _ => hwn, fun hh => absurd hcoord hh⟩
      have hcoords : ∀ w2, ¬ (c% "__rfm__") <:+: w2 → w2 ≠ w →
          coordsFor (d.set w cf) w2 = coordsFor d w2 := by
        intro w2 _ hne
        rw [hset]
        unfold coordsFor
        rw [List.filter_append, List.map_append]
        have : replaceAll (rfmSuffix cf.args.coordSystem) [] w = w := by
          have e : rfmSuffix cf.args.coordSystem = (c% "__rfm__") := by simp [rfmSuffix, hcoord]
          rw [e]; exact replaceAux_no _ _ hwn
        simp [this, hne]
      have hcoords2 : ∀ w2 c, c ≠ [] → (c ∈ coordsFor (d.set w cf) w2 ↔ c ∈ coordsFor d w2) := by
        intro w2 c hcne
        rw [mem_coordsFor hw' hcne, mem_coordsFor hw hcne, hset]
        constructor
        · rintro ⟨cf2, hm, h1, h2⟩
          rcases List.mem_append.1 hm with h6 | h6
          · exact ⟨cf2, h6, h1, h2⟩
          · simp at h6
            rw [h6.2, hcoord] at h1
            exact absurd h1.symm hcne
        · rintro ⟨cf2, hm, h1, h2⟩
          exact ⟨cf2, List.mem_append_left _ hm, h1, h2⟩
      obtain ⟨i1, i2, ⟨new, i3, i4, i5⟩, i6⟩ := ih _ hw'
        (fun w2 hw2 => hitems w2 (by simp only [List.map_cons, List.mem_cons]; exact Or.inr hw2)) _ _ h
      -- names registered later are different from `w`
      have hdistinct : ∀ w2 ∈ rest.map Prod.fst, w2 ≠ w := by
        intro w2 hw2 e
        subst e
        have := (wrapperLoop_fresh bhah star upper text subdir _ _ _ _ h).2 w2 hw2
        rw [Dict.get?_set_self] at this
        cases this
      refine ⟨i1, ?_, ⟨mkWrapper upper d w :: new, by simp [i3], by simp [i4, mkWrapper], ?_⟩, ?_⟩
      · intro w2 c hcne
        rw [i2 w2 c hcne, hcoords2 w2 c hcne]
      · intro wr hwr
        rcases List.mem_cons.1 hwr with h6 | h6
        · subst h6
          exact ⟨coordsFor d w, fun _ => Iff.rfl, rfl⟩
        · obtain ⟨cl, hcl, hcases⟩ := i5 wr h6
          refine ⟨cl, ?_, hcases⟩
          intro c
          rw [hcl]
          have hwrn : wr.name ∈ rest.map Prod.fst := by rw [← i4]; exact List.mem_map_of_mem h6
          rw [hcoords wr.name (hitems wr.name (by
            simp only [List.map_cons, List.mem_cons]; exact Or.inr hwrn)) (hdistinct _ hwrn)]
      · intro c
        rw [i6]
        simp only [List.mem_append, List.map_cons, List.mem_cons, exists_eq_or_imp]
        constructor
        · rintro ((h7 | h7) | ⟨w2, hw2, h7⟩)
          · exact Or.inl h7
          · exact Or.inr (Or.inl h7)
          · rw [hcoords w2 (hitems w2 (by simp only [List.map_cons, List.mem_cons]; exact Or.inr hw2))
              (hdistinct _ hw2)] at h7
            exact Or.inr (Or.inr ⟨w2, hw2, h7⟩)
        · rintro (h7 | h7 | ⟨w2, hw2, h7⟩)
          · exact Or.inl (Or.inl h7)
          · exact Or.inl (Or.inr h7)
          · refine Or.inr ⟨w2, hw2, ?_⟩
            rw [hcoords w2 (hitems w2 (by simp only [List.map_cons, List.mem_cons]; exact Or.inr hw2))
              (hdistinct _ hw2)]
            exact h7
    · obtain ⟨e, he⟩ := herr hc
      rw [he] at h
      cases h

theorem collectWrappers_spec (l : List (Str × CFunc)) (acc ws : List (Str × CFunc))
    (h : collectWrappers l acc = .ok ws) :
    ∀ w, w ∈ ws.map Prod.fst ↔ w ∈ acc.map Prod.fst ∨ ∃ k cf, (k, cf) ∈ l ∧
      cf.args.coordSystem ≠ [] ∧ replaceAll (rfmSuffix cf.args.coordSystem) [] cf.args.name = w := by
  induction l generalizing acc with
  | nil =>
    simp only [collectWrappers] at h
    cases h
    simp
  | cons a l ih =>
    obtain ⟨k, cf⟩ := a
    unfold collectWrappers at h
    by_cases hc : cf.args.coordSystem ≠ []
    · rw [if_pos hc] at h
      simp only at h
      by_cases hmem : replaceAll (rfmSuffix cf.args.coordSystem) [] cf.args.name ∈ acc.map Prod.fst
      · rw [if_pos hmem] at h
        intro w
        rw [ih acc h w]
        constructor
        · rintro (h1 | ⟨k2, cf2, h2, h3⟩)
          · exact Or.inl h1
          · exact Or.inr ⟨k2, cf2, by simp [h2], h3⟩
        · rintro (h1 | ⟨k2, cf2, h2, h3, h4⟩)
          · exact Or.inl h1
          · rcases List.mem_cons.1 h2 with h5 | h5
            · cases h5; rw [← h4]; exact Or.inl hmem
            · exact Or.inr ⟨k2, cf2, h5, h3, h4⟩
      · rw [if_neg hmem] at h
        split at h
        · cases h
        · intro w
          rw [ih _ h w]
          simp only [List.map_append, List.mem_append, List.map_cons, List.map_nil, List.mem_singleton]
          constructor
          · rintro ((h1 | h1) | ⟨k2, cf2, h2, h3⟩)
            · exact Or.inl h1
            · exact Or.inr ⟨k, cf, by simp, hc, h1.symm⟩
            · exact Or.inr ⟨k2, cf2, by simp [h2], h3⟩
          · rintro (h1 | ⟨k2, cf2, h2, h3, h4⟩)
            · exact Or.inl (Or.inl h1)
            · rcases List.mem_cons.1 h2 with h5 | h5
              · cases h5; exact Or.inl (Or.inr h4.symm)
              · exact Or.inr ⟨k2, cf2, h5, h3, h4⟩
    · rw [if_neg hc] at h
      intro w
      rw [ih acc h w]
      constructor
      · rintro (h1 | ⟨k2, cf2, h2, h3⟩)
        · exact Or.inl h1
        · exact Or.inr ⟨k2, cf2, by simp [h2], h3⟩
      · rintro (h1 | ⟨k2, cf2, h2, h3, h4⟩)
        · exact Or.inl h1
        · rcases List.mem_cons.1 h2 with h5 | h5
          · cases h5; exact absurd h3 hc
          · exact Or.inr ⟨k2, cf2, h5, h3, h4⟩

/-- The coordinate systems for which functions are registered. -/
def Coords (d : Registry) (c : Str) : Prop := ∃ k cf, (k, cf) ∈ d ∧ cf.args.coordSystem = c ∧ c ≠ []

/-- **C07.** Suppose wrapper generation succeeds on a well-named registry, the coordinate systems in
use have distinct macro names and distinct hashes. Then for every function `base__rfm__X` in the
registry there is exactly one wrapper called `base`; run on a grid whose hash is that of `X` it calls
`base__rfm__X`; and it calls something for a hash value only if that is the hash of a coordinate system
for which the function exists (otherwise the error branch is taken). -/
theorem C07_wrapper_dispatch (bhah : Bool) (star : StarPrefix) (upper : Str → Str) (hash : Str → Nat)
    (text : Wrapper → Str) (subdir : Str) (d d' : Registry) (wrs : List Wrapper)
    (defs : List (Str × Nat)) (hw : WellNamed d)
    (hup : ∀ c1 c2, Coords d c1 → Coords d c2 → upper c1 = upper c2 → c1 = c2)
    (hhash : ∀ c1 c2, Coords d c1 → Coords d c2 → hash c1 = hash c2 → c1 = c2)
    (h : registerWrappers bhah star upper hash text subdir d = .ok (d', wrs, defs))
    (base X : Str) (cf : CFunc) (hX : X ≠ []) (hbase : ¬ (c% "__rfm__") <:+: base)
    (hm : (base ++ (c% "__rfm__") ++ X, cf) ∈ d) (hcf : cf.args.coordSystem = X) :
    ∃ wr ∈ wrs, wr.name = base ∧
      dispatch defs wr (hash X) = some (base ++ (c% "__rfm__") ++ X) ∧
      (∀ v s, dispatch defs wr v = some s →
        ∃ Y cfY, (base ++ (c% "__rfm__") ++ Y, cfY) ∈ d ∧ cfY.args.coordSystem = Y ∧ hash Y = v ∧
          s = base ++ (c% "__rfm__") ++ Y) ∧
      (∀ wr2 ∈ wrs, wr2.name = base → wr2 = wr) := by
  unfold registerWrappers at h
  cases hcw : collectWrappers d [] with
  | error e => rw [hcw] at h; cases h
  | ok ws =>
    rw [hcw] at h
    simp only at h
    cases hl : wrapperLoop bhah star upper text subdir ws d [] [] with
    | error e => rw [hl] at h; cases h
    | ok r =>
      obtain ⟨d2, wrs2, cs⟩ := r
      rw [hl] at h
      simp only at h
      cases h
      have hws := collectWrappers_spec d [] ws hcw
      have hwsn : ∀ w ∈ ws.map Prod.fst, ¬ (c% "__rfm__") <:+: w := by
        intro w hw1
        rw [hws] at hw1
        rcases hw1 with h1 | ⟨k, cf1, h1, h2, h3⟩
        · simp at h1
        · obtain ⟨b, hb1, hb2, _⟩ := base_of_entry hw h1
          rw [(hw k cf1 h1).1, hb1] at h3
          rw [← h3]; exact hb2
      obtain ⟨_, _, ⟨new, e1, e2, e3⟩, e4⟩ :=
        wrapperLoop_spec bhah star upper text subdir ws d hw hwsn [] [] hl
      simp only [List.nil_append] at e1
      subst e1
      have hbws : base ∈ ws.map Prod.fst := by
        rw [hws]
        right
        refine ⟨_, cf, hm, by rw [hcf]; exact hX, ?_⟩
        obtain ⟨b, hb1, hb2, _, hb4⟩ := base_of_entry hw hm
        rw [(hw _ _ hm).1, hb1]
        have := hb4 (by rw [hcf]; exact hX)
        rw [hcf] at this
        simpa using this.symm
      have hbnew := hbws
      rw [← e2] at hbnew
      obtain ⟨wr, hwr, hwrn⟩ := List.mem_map.1 hbnew
      obtain ⟨cl, hcl, hcases⟩ := e3 wr hwr
      rw [hwrn] at hcl hcases
      -- elements of the coordinate list are non-empty coordinate systems of the registry
      have hcoordmem : ∀ w c, w ∈ ws.map Prod.fst → c ∈ coordsFor d w → c ≠ [] → Coords d c := by
        intro w c _ h2 h3
        obtain ⟨cf2, h4, h5, _⟩ := (mem_coordsFor hw h3).1 h2
        exact ⟨_, cf2, h4, h5, h3⟩
      -- no plain function has the wrapper's name: otherwise registration of the wrapper fails
      have hnonempty : ∀ w c, w ∈ ws.map Prod.fst → c ∈ coordsFor d w → c ≠ [] := by
        intro w c hwm hc2 hce
        subst hce
        -- then `w` itself is registered in `d`
        have hwd : ∃ v, d.get? w = some v := by
          rw [← Dict.mem_keys_iff]
          unfold coordsFor at hc2
          simp only [List.mem_map, List.mem_filter, decide_eq_true_eq] at hc2
          obtain ⟨⟨k, cf2⟩, ⟨h4, h5⟩, h6⟩ := hc2
          obtain ⟨b, hb1, _, hb3, _⟩ := base_of_entry hw h4
          simp only at h5 h6
          rw [hb1, hb3 h6] at h5
          subst h5
          exact List.mem_map_of_mem (f := Prod.fst) h4
        obtain ⟨v, hv⟩ := hwd
        have := (wrapperLoop_fresh bhah star upper text subdir _ _ _ _ hl).2 w hwm
        rw [hv] at this
        cases this
      have hcsC : ∀ c ∈ cs, Coords d c := by
        intro c hc
        rcases (e4 c).1 hc with h1 | ⟨w, h1, h2⟩
        · simp at h1
        · exact hcoordmem w c h1 h2 (hnonempty w c h1 h2)
      have hmacro : ∀ c ∈ cs, macroValue (cs.map (fun c => (upper c, hash c))) (upper c) =
          some (hash c) := by
        intro c hc
        unfold macroValue
        cases hf : (cs.map (fun c => (upper c, hash c))).find? (fun kv => decide (kv.1 = upper c)) with
        | none =>
          rw [List.find?_eq_none] at hf
          have := hf (upper c, hash c) (List.mem_map_of_mem (f := fun c => (upper c, hash c)) hc)
          simp at this
        | some kv =>
          have h1 := List.find?_some hf
          have h2 := List.mem_of_find?_eq_some hf
          simp only [decide_eq_true_eq] at h1
          obtain ⟨c2, hc2, e⟩ := List.mem_map.1 h2
          subst e
          simp only at h1
          have := hup c2 c (hcsC c2 hc2) (hcsC c hc) h1
          subst this
          rfl
      have hclcs : ∀ c ∈ cl, c ∈ cs := by
        intro c hc
        rw [e4]
        exact Or.inr ⟨base, hbws, (hcl c).1 hc⟩
      have hXcl : X ∈ cl := by
        rw [hcl, mem_coordsFor hw hX]
        exact ⟨cf, hm, hcf, hbase⟩
      have hsorted : ∀ c, c ∈ sortedStr cl ↔ c ∈ cl := by
        intro c; exact mem_sortedStr c cl
      have hnd : (wrs.map Wrapper.name).Nodup := by
        rw [e2]; exact (wrapperLoop_fresh bhah star upper text subdir _ _ _ _ hl).1
      refine ⟨wr, hwr, hwrn, ?_, ?_, fun wr2 h1 h2 =>
        List.inj_on_of_nodup_map hnd h1 hwr (h2.trans hwrn.symm)⟩
      · unfold dispatch
        rw [hcases]
        cases hf : ((sortedStr cl).map (fun c => (upper c, base ++ (c% "__rfm__") ++ c))).find?
            (fun c => decide (macroValue (cs.map (fun c => (upper c, hash c))) c.1 = some (hash X))) with
        | none =>
          rw [List.find?_eq_none] at hf
          have := hf _ (List.mem_map_of_mem (f := fun c => (upper c, base ++ (c% "__rfm__") ++ c))
            ((hsorted X).2 hXcl))
          simp only [decide_eq_true_eq] at this
          exact absurd (hmacro X (hclcs X hXcl)) this
        | some kv =>
          have h1 := List.find?_some hf
          have h2 := List.mem_of_find?_eq_some hf
          obtain ⟨c2, hc2, e⟩ := List.mem_map.1 h2
          subst e
          simp only [decide_eq_true_eq] at h1
          have hc2' := hclcs c2 ((hsorted c2).1 hc2)
          rw [hmacro c2 hc2'] at h1
          have := hhash c2 X (hcsC c2 hc2') (hcsC X (hclcs X hXcl)) (by simpa using h1)
          subst this
          rfl
      · intro v s hs
        unfold dispatch at hs
        rw [hcases] at hs
        cases hf : ((sortedStr cl).map (fun c => (upper c, base ++ (c% "__rfm__") ++ c))).find?
            (fun c => decide (macroValue (cs.map (fun c => (upper c, hash c))) c.1 = some v)) with
        | none => rw [hf] at hs; cases hs
        | some kv =>
          rw [hf] at hs
          have h1 := List.find?_some hf
          have h2 := List.mem_of_find?_eq_some hf
          obtain ⟨c2, hc2, e⟩ := List.mem_map.1 h2
          subst e
          simp only [decide_eq_true_eq] at h1
          have hc2cl := (hsorted c2).1 hc2
          have hc2' := hclcs c2 hc2cl
          rw [hmacro c2 hc2'] at h1
          have hne : c2 ≠ [] := hnonempty base c2 hbws ((hcl c2).1 hc2cl)
          obtain ⟨cf2, h4, h5, _⟩ := (mem_coordsFor hw hne).1 ((hcl c2).1 hc2cl)
          refine ⟨c2, cf2, h4, h5, by simpa using h1, ?_⟩
          simpa using hs.symm

/-- Non-vacuity for C07: two coordinate systems of the same function; generation succeeds, the
hypotheses hold, and the wrapper dispatches. -/
def sampleReg : Registry :=
  run true id [sampleArgs, { sampleArgs with coordSystem := (c% "Spherical") }] []

example : (registerWrappers true id id (fun c => (c.headD 'x').toNat) (fun _ => (c% "switch"))
      (c% "./") sampleReg).map
      (fun r => (r.2.1.map (fun w => [dispatch r.2.2 w 'C'.toNat, dispatch r.2.2 w 'S'.toNat,
        dispatch r.2.2 w 7]))) =
    .ok [[some (c% "f__rfm__Cartesian"), some (c% "f__rfm__Spherical"), none]] := rfl

example : WellNamed sampleReg := by
  have key : ∀ e ∈ sampleReg, e.2.args.name = e.1 ∧ e.2.args.coordSystem ≠ [] ∧
      e.1 = (c% "f") ++ (c% "__rfm__") ++ e.2.args.coordSystem ∧
      ∀ i, i < 1 → ¬ rfmSuffix e.2.args.coordSystem <+:
        ((c% "f") ++ rfmSuffix e.2.args.coordSystem).drop i := by decide
  intro k cf hm
  obtain ⟨h1, h2, h3, h4⟩ := key _ hm
  refine ⟨h1, fun h => absurd h h2, fun _ => ⟨(c% "f"), h3, ?_, h4⟩⟩
  rw [← containsSub_iff]; decide

theorem collectWrappers_succeeds (l acc : List (Str × CFunc))
    (hv : ∀ k cf, (k, cf) ∈ l → cf.args.coordSystem ≠ [] → cf.args.cfuncType = (c% "void"))
    (hacc : (acc.map Prod.fst).Nodup) :
    ∃ ws, collectWrappers l acc = .ok ws ∧ (ws.map Prod.fst).Nodup ∧
      ∀ w cf, (w, cf) ∈ ws → (w, cf) ∈ acc ∨ (∃ k, (k, cf) ∈ l ∧ cf.args.coordSystem ≠ [] ∧
        w = replaceAll (rfmSuffix cf.args.coordSystem) [] cf.args.name) := by
  induction l generalizing acc with
  | nil => exact ⟨acc, rfl, hacc, fun w cf h => .inl h⟩
  | cons a l ih =>
    obtain ⟨k, cf⟩ := a
    have hv' : ∀ k cf, (k, cf) ∈ l → cf.args.coordSystem ≠ [] → cf.args.cfuncType = (c% "void") :=
      fun k cf h => hv k cf (by simp [h])
    have lift : ∀ ws acc' : List (Str × CFunc), (∀ w cf, (w, cf) ∈ ws → (w, cf) ∈ acc' ∨ (∃ k, (k, cf) ∈ l ∧
        cf.args.coordSystem ≠ [] ∧ w = replaceAll (rfmSuffix cf.args.coordSystem) [] cf.args.name)) →
        (∀ x ∈ acc', x ∈ acc ∨ (x.2 = cf ∧ cf.args.coordSystem ≠ [] ∧
          x.1 = replaceAll (rfmSuffix cf.args.coordSystem) [] cf.args.name)) →
        ∀ w cf', (w, cf') ∈ ws → (w, cf') ∈ acc ∨ (∃ k', (k', cf') ∈ (k, cf) :: l ∧
        cf'.args.coordSystem ≠ [] ∧
        w = replaceAll (rfmSuffix cf'.args.coordSystem) [] cf'.args.name) := by
      intro ws acc' h h' w cf' hw
      rcases h w cf' hw with h1 | ⟨k', h1, h2⟩
      · rcases h' _ h1 with h2 | ⟨rfl, h2⟩
        · exact .inl h2
        · exact .inr ⟨k, by simp, h2⟩
      · exact .inr ⟨k', by simp [h1], h2⟩
    unfold collectWrappers
    by_cases hc : cf.args.coordSystem ≠ []
    · rw [if_pos hc]
      simp only
      split
      · obtain ⟨ws, h1, h2, h3⟩ := ih acc hv' hacc
        exact ⟨ws, h1, h2, lift ws acc h3 fun x hx => .inl hx⟩
      · next hn =>
        rw [if_neg (by rw [hv k cf (by simp) hc]; simp)]
        obtain ⟨ws, h1, h2, h3⟩ := ih (acc ++ [(_, cf)]) hv' (by
          rw [List.map_append, List.nodup_append']
          exact ⟨hacc, by simp, by simpa using hn⟩)
        refine ⟨ws, h1, h2, lift ws _ h3 fun x hx => ?_⟩
        rcases List.mem_append.1 hx with hx | hx
        · exact .inl hx
        · simp only [List.mem_singleton] at hx
          subst hx
          exact .inr ⟨rfl, hc, rfl⟩
    · rw [if_neg hc]
      obtain ⟨ws, h1, h2, h3⟩ := ih acc hv' hacc
      exact ⟨ws, h1, h2, lift ws acc h3 fun x hx => .inl hx⟩

theorem wrapperLoop_succeeds (bhah : Bool) (star : StarPrefix) (upper : Str → Str)
    (text : Wrapper → Str) (subdir : Str) (htext : ∀ w, text w ≠ []) (items : List (Str × CFunc))
    (d : Registry) (ws : List Wrapper) (cs : List Str) (hnd : (items.map Prod.fst).Nodup)
    (hit : ∀ w cf, (w, cf) ∈ items → w ≠ [] ∧ d.get? w = none ∧ cf.args.desc ≠ []) :
    ∃ r, wrapperLoop bhah star upper text subdir items d ws cs = .ok r := by
  induction items generalizing d ws cs with
  | nil => exact ⟨_, rfl⟩
  | cons a items ih =>
    obtain ⟨w, cf⟩ := a
    obtain ⟨hw1, hw2, hw3⟩ := hit w cf (by simp)
    obtain ⟨hn1, hn2⟩ := List.nodup_cons.1 hnd
    have hreg : ∃ cf', register bhah star d (wrapperArgs text subdir cf (mkWrapper upper d w)) =
        (d.set w cf', .ok ()) := by
      unfold register
      have e1 : (wrapperArgs text subdir cf (mkWrapper upper d w)).coordSystem = [] := rfl
      have e2 : (wrapperArgs text subdir cf (mkWrapper upper d w)).name = w := rfl
      simp only [nameAndSubdir, e1, e2, ne_eq, not_true_eq_false, if_false]
      rw [if_neg (by rw [(Dict.contains_false_iff d w).2 hw2]; simp)]
      unfold mkCFunc
      rw [if_neg (by simp only [wrapperArgs, mkWrapper]; simp [hw1, hw3, htext]),
        if_neg (by simp [wrapperArgs]), if_neg (by simp [wrapperArgs])]
      simp only [generate, wrapperArgs, includeLines, Except.map]
      exact ⟨_, rfl⟩
    obtain ⟨cf', hreg⟩ := hreg
    unfold wrapperLoop
    simp only [hreg]
    refine ih _ _ _ hn2 fun w' c' h' => ?_
    obtain ⟨g1, g2, g3⟩ := hit w' c' (by simp [h'])
    refine ⟨g1, ?_, g3⟩
    rw [Dict.get?_set_ne]
    · exact g2
    · rintro rfl
      exact hn1 (List.mem_map.2 ⟨_, h', rfl⟩)

/-- **C07, success.**  On a well-named registry whose coordinate-specific functions are all `void`
and described, and where no base name is empty or already registered as a plain function, wrapper
generation succeeds (so `C07_wrapper_dispatch` applies). -/
theorem C07_succeeds (bhah : Bool) (star : StarPrefix) (upper : Str → Str) (hash : Str → Nat)
    (text : Wrapper → Str) (subdir : Str) (d : Registry) (hw : WellNamed d)
    (htext : ∀ w, text w ≠ [])
    (hv : ∀ k cf, (k, cf) ∈ d → cf.args.coordSystem ≠ [] →
      cf.args.cfuncType = (c% "void") ∧ cf.args.desc ≠ [])
    (hb : ∀ base X cf, (base ++ (c% "__rfm__") ++ X, cf) ∈ d → cf.args.coordSystem = X → X ≠ [] →
      base ≠ [] ∧ d.get? base = none) :
    ∃ d' wrs defs, registerWrappers bhah star upper hash text subdir d = .ok (d', wrs, defs) := by
  obtain ⟨ws, h1, h2, h3⟩ := collectWrappers_succeeds d [] (fun k cf h hc => (hv k cf h hc).1) (by simp)
  unfold registerWrappers
  rw [h1]
  obtain ⟨⟨d', wrs, cs⟩, hr⟩ := wrapperLoop_succeeds bhah star upper text subdir htext ws d [] [] h2
    (by
      intro w cf hm
      rcases h3 w cf hm with h | ⟨k, hk, hc, hwk⟩
      · simp at h
      · obtain ⟨b, hb1, _, _, hb4⟩ := base_of_entry hw hk
        rw [(hw k cf hk).1, hb1] at hwk
        subst hwk
        have e := hb4 hc
        rw [e] at hk
        have := hb w _ cf hk rfl hc
        exact ⟨this.1, this.2, (hv _ cf hk hc).2⟩)
  simp only [hr]
  exact ⟨_, _, _, rfl⟩

end Verif.CFunction
