import Verif.CSE.Post
import Mathlib.Data.List.Nodup
import Mathlib.Algebra.Order.Group.Nat
import Mathlib.Data.List.Basic
import Mathlib.Data.List.Induction
import Mathlib.Tactic.Tauto
import Mathlib.Tactic.NormNum

/-!
# C24: `cse_postprocess` preserves values and definition order
-/
namespace Verif.CSE
open Verif.Py Verif.Sympy Verif.Sympy.Expr

variable {K : Type} [Field K]

/-! ## Specification -/

/-- What is assumed of SymPy's rebuilding of an expression: it keeps the value and adds no symbol. -/
structure CanonOk (I : Interp K) (canon : Expr → Expr) : Prop where
  value : ∀ ρ e, eval I ρ (canon e) = eval I ρ e
  free : ∀ e n, n ∈ (canon e).free → n ∈ e.free

/-- Executing assignments one after another. -/
def exec (I : Interp K) : List Repl → (Str → K) → Str → K
  | [], σ => σ
  | (x, e) :: l, σ => exec I l (Function.update σ x (eval I σ e))

def names (R : List Repl) : List Str := R.map Prod.fst

/-- Equations contributed by the reduced list, and its plain expressions. -/
def eqsOf (l : List Out) : List Repl := l.filterMap fun o => match o with
  | .eq x r => some (x, r)
  | .ex _ => none

def exsOf (l : List Out) : List Expr := l.filterMap fun o => match o with
  | .eq _ _ => none
  | .ex e => some e

/-- No cyclic definitions: there is a rank that decreases from each symbol to the defined symbols its
definition mentions. -/
def Acyclic (R : List Repl) : Prop :=
  ∃ rank : Str → Nat, ∀ p ∈ R, ∀ n ∈ p.2.free, n ∈ names R → rank n < rank p.1

/-- `ρ` satisfies all definitions. -/
def Sol (I : Interp K) (ρ : Str → K) (R : List Repl) : Prop := ∀ p ∈ R, ρ p.1 = eval I ρ p.2

/-- Every definition mentions, of the symbols `T`, only those in `seen` and those defined before it. -/
def Ordered (T : List Str) : List Str → List Repl → Prop
  | _, [] => True
  | seen, (x, e) :: l => (∀ n ∈ e.free, n ∈ T → n ∈ seen) ∧ Ordered T (x :: seen) l

/-! ## Invariant -/

structure Good (T : List Str) (rank : Str → Nat) (R : List Repl) (o : List Expr) : Prop where
  nodup : (names R).Nodup
  sub : ∀ n ∈ names R, n ∈ T
  closed : ∀ p ∈ R, ∀ n ∈ p.2.free, n ∈ T → n ∈ names R
  closedOut : ∀ e ∈ o, ∀ n ∈ e.free, n ∈ T → n ∈ names R
  acyc : ∀ p ∈ R, ∀ n ∈ p.2.free, n ∈ T → rank n < rank p.1

section xrep
variable {I : Interp K} {canon : Expr → Expr}

theorem eval_xrep (hc : CanonOk I canon) (ρ : Str → K) (x : Str) (v e : Expr)
    (h : ρ x = eval I ρ v) : eval I ρ (xrep canon x v e) = eval I ρ e := by
  rw [xrep]
  split
  · rw [hc.value, eval_subst I ρ x v e h]
  · rfl

theorem free_xrep (hc : CanonOk I canon) (x : Str) (v e : Expr) (n : Str)
    (h : n ∈ (xrep canon x v e).free) :
    (n ∈ e.free ∧ n ≠ x) ∨ (n ∈ v.free ∧ x ∈ e.free) := by
  rw [xrep] at h
  split at h
  · exact free_subst x v e n (hc.free _ _ h)
  · next hx => exact .inl ⟨h, fun hn => hx (hn ▸ h)⟩

theorem xrep_of_not_mem (x : Str) (v e : Expr) (h : x ∉ e.free) : xrep canon x v e = e := by
  rw [xrep, if_neg h]

end xrep

theorem names_filter_map (canon : Expr → Expr) (x : Str) (v : Expr) (R : List Repl) :
    names ((R.filter fun p => decide (p.1 ≠ x)).map fun p => (p.1, xrep canon x v p.2)) =
      (names R).filter (fun n => decide (n ≠ x)) := by
  simp only [names, List.map_map, List.filter_map]
  rfl

/-- Eliminating one definition keeps the invariant. -/
theorem Good.elim {I : Interp K} {canon : Expr → Expr} (hc : CanonOk I canon) {T rank R o}
    (h : Good T rank R o) (c : Repl) (hm : c ∈ R) :
    Good T rank (elimConst canon (R, o) c).1 (elimConst canon (R, o) c).2 := by
  obtain ⟨x, v⟩ := c
  have hx : x ∈ T := h.sub x (List.mem_map.2 ⟨_, hm, rfl⟩)
  have hnames : names (elimConst canon (R, o) (x, v)).1 = (names R).filter (fun n => decide (n ≠ x)) :=
    names_filter_map canon x v R
  have hv : ∀ n ∈ v.free, n ∈ T → n ∈ names R ∧ n ≠ x := by
    intro n hn hT
    refine ⟨h.closed _ hm n hn hT, ?_⟩
    rintro rfl
    exact lt_irrefl _ (h.acyc _ hm _ hn hT)
  have key : ∀ e, (∀ n ∈ e.free, n ∈ T → n ∈ names R) → ∀ n ∈ (xrep canon x v e).free, n ∈ T →
      n ∈ (names R).filter (fun n => decide (n ≠ x)) := by
    intro e he n hn hT
    rw [List.mem_filter]
    rcases free_xrep hc x v e n hn with ⟨h1, h2⟩ | ⟨h1, h2⟩
    · exact ⟨he n h1 hT, by simpa using h2⟩
    · exact ⟨(hv n h1 hT).1, by simpa using (hv n h1 hT).2⟩
  refine ⟨?_, ?_, ?_, ?_, ?_⟩
  · rw [hnames]; exact h.nodup.filter _
  · rw [hnames]; exact fun n hn => h.sub n (List.mem_of_mem_filter hn)
  · intro p hp
    rw [hnames]
    obtain ⟨q, hq, rfl⟩ := List.mem_map.1 hp
    exact key q.2 (h.closed q (List.mem_of_mem_filter hq))
  · intro e he
    rw [hnames]
    obtain ⟨q, hq, rfl⟩ := List.mem_map.1 he
    exact key q (h.closedOut q hq)
  · intro p hp n hn hT
    obtain ⟨q, hq, rfl⟩ := List.mem_map.1 hp
    have hq' := List.mem_of_mem_filter hq
    rcases free_xrep hc x v q.2 n hn with ⟨h1, _⟩ | ⟨h1, h2⟩
    · exact h.acyc q hq' n h1 hT
    · exact (h.acyc _ hm n h1 hT).trans (h.acyc q hq' x h2 hx)

theorem Sol.elim {I : Interp K} {canon : Expr → Expr} (hc : CanonOk I canon) {R o} {ρ : Str → K}
    (h : Sol I ρ R) (c : Repl) (hm : c ∈ R) :
    Sol I ρ (elimConst canon (R, o) c).1 ∧
      (elimConst canon (R, o) c).2.map (eval I ρ) = o.map (eval I ρ) := by
  constructor
  · intro p hp
    obtain ⟨q, hq, rfl⟩ := List.mem_map.1 hp
    show ρ q.1 = eval I ρ (xrep canon c.1 c.2 q.2)
    rw [eval_xrep hc ρ _ _ _ (h c hm)]
    exact h q (List.mem_of_mem_filter hq)
  · simp only [elimConst, List.map_map]
    apply List.map_congr_left
    intro e _
    exact eval_xrep hc ρ _ _ _ (h c hm)

/-! ## Stage 1: constants -/

theorem constFold {I : Interp K} {canon : Expr → Expr} (hc : CanonOk I canon) {T rank}
    (cs : List Repl) (st : List Repl × List Expr) (h : Good T rank st.1 st.2)
    (hcs : ∀ c ∈ cs, c ∈ st.1 ∧ c.2.free = []) (hnd : (names cs).Nodup) :
    let st' := cs.foldl (elimConst canon) st
    Good T rank st'.1 st'.2 ∧ st'.1.length + cs.length = st.1.length ∧
      st'.2.length = st.2.length ∧
      ∀ ρ, Sol I ρ st.1 → Sol I ρ st'.1 ∧ st'.2.map (eval I ρ) = st.2.map (eval I ρ) := by
  induction cs generalizing st with
  | nil => exact ⟨h, rfl, rfl, fun ρ hρ => ⟨hρ, rfl⟩⟩
  | cons c cs ih =>
    obtain ⟨R, o⟩ := st
    have hm := (hcs c (by simp)).1
    have hnd' : c.1 ∉ names cs ∧ (names cs).Nodup := List.nodup_cons.1 hnd
    have hstep : ∀ c' ∈ cs, c' ∈ (elimConst canon (R, o) c).1 ∧ c'.2.free = [] := by
      intro c' hc'
      obtain ⟨h1, h2⟩ := hcs c' (by simp [hc'])
      refine ⟨List.mem_map.2 ⟨c', List.mem_filter.2 ⟨h1, ?_⟩, ?_⟩, h2⟩
      · have : c'.1 ≠ c.1 := fun hh => hnd'.1 (hh ▸ List.mem_map.2 ⟨c', hc', rfl⟩)
        simpa using this
      · rw [xrep_of_not_mem _ _ _ (by simp [h2])]
    obtain ⟨g1, g2, g3, g4⟩ := ih (elimConst canon (R, o) c) (h.elim hc c hm) hstep hnd'.2
    refine ⟨g1, ?_, ?_, fun ρ hρ => ?_⟩
    · have hlen : (elimConst canon (R, o) c).1.length + 1 = R.length := by
        have hcR : c.1 ∈ names R := List.mem_map.2 ⟨c, hm, rfl⟩
        have e : (names (elimConst canon (R, o) c).1).length = ((names R).filter
            (fun n => decide (n ≠ c.1))).length := by
          rw [show names (elimConst canon (R, o) c).1 = _ from names_filter_map canon c.1 c.2 R]
        have e2 : ((names R).filter (fun n => decide (n ≠ c.1))) = (names R).erase c.1 :=
          (h.nodup.erase_eq_filter c.1).symm ▸ by
            apply List.filter_congr; intro a _; by_cases ha : a = c.1 <;> simp [ha]
        rw [e2, List.length_erase_of_mem (hcR : c.1 ∈ names R)] at e
        have hpos : 0 < (names R).length :=
          List.length_pos_of_mem hcR
        simp only [names, List.length_map] at e hpos
        omega
      simp only [List.foldl_cons, List.length_cons]
      show _ = R.length
      omega
    · rw [List.foldl_cons, g3]; simp [elimConst]
    · obtain ⟨s1, s2⟩ := Sol.elim hc (o := o) hρ c hm
      obtain ⟨t1, t2⟩ := g4 ρ s1
      exact ⟨t1, t2.trans s2⟩

theorem constants_names_nodup {R : List Repl} (h : (names R).Nodup) : (names (constants R)).Nodup :=
  (List.Sublist.map Prod.fst (List.filter_sublist)).nodup h

theorem constLoop_spec {I : Interp K} {canon : Expr → Expr} (hc : CanonOk I canon) {T rank}
    (fuel : Nat) (st : List Repl × List Expr) (h : Good T rank st.1 st.2)
    (hf : st.1.length ≤ fuel) :
    let st' := constLoop canon fuel st
    Good T rank st'.1 st'.2 ∧ st'.2.length = st.2.length ∧ constants st'.1 = [] ∧
      ∀ ρ, Sol I ρ st.1 → Sol I ρ st'.1 ∧ st'.2.map (eval I ρ) = st.2.map (eval I ρ) := by
  induction fuel generalizing st with
  | zero =>
    have : st.1 = [] := List.length_eq_zero_iff.1 (by omega)
    exact ⟨h, rfl, by simp [constLoop, this, constants], fun ρ hρ => ⟨hρ, rfl⟩⟩
  | succ fuel ih =>
    rw [constLoop]
    split
    · next he =>
      exact ⟨h, rfl, List.isEmpty_iff.1 he, fun ρ hρ => ⟨hρ, rfl⟩⟩
    · next he =>
      have hcs : ∀ c ∈ constants st.1, c ∈ st.1 ∧ c.2.free = [] := by
        intro c hc
        have := List.mem_filter.1 hc
        exact ⟨this.1, List.isEmpty_iff.1 this.2⟩
      obtain ⟨g1, g2, g3, g4⟩ :=
        constFold hc (constants st.1) st h hcs (constants_names_nodup h.nodup)
      have hpos : 0 < (constants st.1).length := by
        rcases hl : constants st.1 with _ | ⟨a, l⟩
        · rw [hl] at he; simp at he
        · simp
      obtain ⟨k1, k2, k3, k4⟩ := ih _ g1 (by omega)
      refine ⟨k1, k2.trans g3, k3, fun ρ hρ => ?_⟩
      obtain ⟨s1, s2⟩ := g4 ρ hρ
      obtain ⟨t1, t2⟩ := k4 ρ s1
      exact ⟨t1, t2.trans s2⟩

/-! ## Stage 2: sorting -/

theorem foldl_set_nodup (R : List Repl) (d : Dict Str Repl)
    (h : (d.keys ++ names R).Nodup) :
    R.foldl (fun d p => Dict.set d p.1 p) d = d ++ R.map fun p => (p.1, p) := by
  induction R generalizing d with
  | nil => simp
  | cons p R ih =>
    have hp : p.1 ∉ d.keys := by
      intro hm
      have := List.nodup_append'.1 h
      exact this.2.2 hm (by simp [names])
    have hset : Dict.set d p.1 p = d ++ [(p.1, p)] := by
      clear ih h
      induction d with
      | nil => rfl
      | cons a d ih =>
        obtain ⟨k, w⟩ := a
        have h1 : k ≠ p.1 := fun hh => hp (by simp [Dict.keys, hh])
        have h2 : p.1 ∉ Dict.keys d := fun hh => hp (by simp only [Dict.keys, List.map_cons]; exact List.mem_cons_of_mem _ hh)
        rw [Dict.set, if_neg h1, ih h2, List.cons_append]
    rw [List.foldl_cons, hset, ih]
    · simp
    · have e : Dict.keys (d ++ [(p.1, p)]) ++ names R = Dict.keys d ++ names (p :: R) := by
        simp [Dict.keys, names]
      rw [e]; exact h

theorem Ordered.append {T seen : List Str} {A B : List Repl} (hA : Ordered T seen A)
    (hB : Ordered T ((names A).reverse ++ seen) B) : Ordered T seen (A ++ B) := by
  induction A generalizing seen with
  | nil => simpa [names] using hB
  | cons a A ih =>
    obtain ⟨x, e⟩ := a
    refine ⟨hA.1, ih hA.2 ?_⟩
    simpa [names] using hB

theorem Ordered.of_append {T seen : List Str} {A B : List Repl} (h : Ordered T seen (A ++ B)) :
    Ordered T seen A ∧ Ordered T ((names A).reverse ++ seen) B := by
  induction A generalizing seen with
  | nil => exact ⟨trivial, by simpa [names] using h⟩
  | cons a A ih =>
    obtain ⟨x, e⟩ := a
    obtain ⟨h1, h2⟩ := ih h.2
    exact ⟨⟨h.1, h1⟩, by simpa [names] using h2⟩

theorem Ordered.mono {T s s' : List Str} {A : List Repl} (h : Ordered T s A) (hs : ∀ n ∈ s, n ∈ s') :
    Ordered T s' A := by
  induction A generalizing s s' with
  | nil => trivial
  | cons a A ih =>
    obtain ⟨x, e⟩ := a
    refine ⟨fun n hn hT => hs n (h.1 n hn hT), ih h.2 ?_⟩
    intro n hn
    rcases List.mem_cons.1 hn with rfl | hn
    · simp
    · exact List.mem_cons_of_mem _ (hs n hn)

theorem ordered_of_all {T seen : List Str} {A : List Repl}
    (h : ∀ p ∈ A, ∀ n ∈ p.2.free, n ∈ T → n ∈ seen) : Ordered T seen A := by
  induction A generalizing seen with
  | nil => trivial
  | cons a A ih =>
    obtain ⟨x, e⟩ := a
    exact ⟨h (x, e) (by simp), ih fun p hp n hn hT => List.mem_cons_of_mem _ (h p (by simp [hp]) n hn hT)⟩

/-- Dictionary of pending replacements. -/
def look (L : List Repl) : Dict Str Repl := L.map fun p => (p.1, p)

theorem look_contains (L : List Repl) (n : Str) : (look L).contains n = true ↔ n ∈ names L := by
  rw [Dict.contains_iff, ← Dict.mem_keys_iff]
  have : Dict.keys (look L) = names L := by
    simp only [look, Dict.keys, names, List.map_map]
    rfl
  rw [this]

theorem sortLoop_spec (T : List Str) (rank : Str → Nat) (fuel : Nat) (L acc : List Repl)
    (hf : L.length < fuel)
    (hac : ∀ p ∈ L, ∀ n ∈ p.2.free, n ∈ names L → rank n < rank p.1)
    (hcl : ∀ p ∈ L, ∀ n ∈ p.2.free, n ∈ T → n ∈ names L ∨ n ∈ names acc)
    (hord : Ordered T [] acc) :
    ∃ r, sortLoop fuel (look L) acc = .ok r ∧ r.Perm (acc ++ L) ∧ Ordered T [] r := by
  induction fuel generalizing L acc with
  | zero => omega
  | succ fuel ih =>
    rw [sortLoop]
    by_cases hL : L = []
    · subst hL
      exact ⟨acc, by simp [look], by simp, hord⟩
    · have hne : (look L).isEmpty = false := by
        cases L with
        | nil => exact absurd rfl hL
        | cons p L => rfl
      rw [hne]
      simp only [Bool.false_eq_true, if_false]
      let w : Repl → Bool := fun p => p.2.free.any fun n => (look L).contains n
      have hnew : (look L).filter (fun kv => kv.2.2.free.any fun n => (look L).contains n) =
          look (L.filter w) := by
        rw [look, List.filter_map]; rfl
      have hdone : ((look L).filter (fun kv => !(kv.2.2.free.any fun n => (look L).contains n))).map
          (·.2) = L.filter (fun p => !w p) := by
        rw [look, List.filter_map, List.map_map]
        exact List.map_id _
      -- an element of least rank is not waiting
      obtain ⟨p0, hp0, hmin⟩ : ∃ p0 ∈ L, ∀ p ∈ L, rank p0.1 ≤ rank p.1 := by
        clear hf hac hcl hord hne hnew hdone ih w
        induction L with
        | nil => exact absurd rfl hL
        | cons p L ihL =>
          by_cases hL' : L = []
          · subst hL'
            exact ⟨p, by simp, by simp⟩
          · obtain ⟨q, hq, hqm⟩ := ihL hL'
            by_cases hle : rank p.1 ≤ rank q.1
            · refine ⟨p, by simp, ?_⟩
              intro r hr
              rcases List.mem_cons.1 hr with rfl | hr
              · exact le_rfl
              · exact hle.trans (hqm r hr)
            · refine ⟨q, by simp [hq], ?_⟩
              intro r hr
              rcases List.mem_cons.1 hr with rfl | hr
              · omega
              · exact hqm r hr
      have hw0 : w p0 = false := by
        rw [Bool.eq_false_iff]
        intro hw
        obtain ⟨n, hn, hc⟩ := List.any_eq_true.1 hw
        have hnm := (look_contains L n).1 hc
        obtain ⟨q, hq, hqn⟩ := List.mem_map.1 hnm
        have h1 := hac p0 hp0 n hn hnm
        have h2 := hmin q hq
        rw [hqn] at h2
        omega
      have hlt : (L.filter w).length < L.length :=
        List.length_filter_lt_length_iff_exists.2 ⟨p0, hp0, by simp [hw0]⟩
      rw [hnew, hdone, if_pos (by simpa [look] using hlt)]
      have hdoneok : ∀ p ∈ L.filter (fun p => !w p), ∀ n ∈ p.2.free, n ∉ names L := by
        intro p hp n hn hnm
        have h1 := (List.mem_filter.1 hp).2
        have : w p = true := List.any_eq_true.2 ⟨n, hn, (look_contains L n).2 hnm⟩
        rw [this] at h1
        simp at h1
      obtain ⟨r, h1, h2, h3⟩ := ih (L.filter w) (acc ++ L.filter fun p => !w p) (by omega)
        (fun p hp n hn hnm => hac p (List.mem_of_mem_filter hp) n hn
          ((List.Sublist.map Prod.fst List.filter_sublist).subset hnm))
        (fun p hp n hn hT => by
          rcases hcl p (List.mem_of_mem_filter hp) n hn hT with h | h
          · obtain ⟨q, hq, rfl⟩ := List.mem_map.1 h
            by_cases hwq : w q = true
            · exact .inl (List.mem_map.2 ⟨q, List.mem_filter.2 ⟨hq, hwq⟩, rfl⟩)
            · refine .inr (List.mem_map.2 ⟨q, List.mem_append.2 (.inr (List.mem_filter.2 ⟨hq, ?_⟩)), rfl⟩)
              simpa using hwq
          · obtain ⟨q, hq, rfl⟩ := List.mem_map.1 h
            exact .inr (List.mem_map.2 ⟨q, List.mem_append.2 (.inl hq), rfl⟩))
        (hord.append (ordered_of_all fun p hp n hn hT => by
          rcases hcl p (List.mem_of_mem_filter hp) n hn hT with h | h
          · exact absurd h (hdoneok p hp n hn)
          · simpa using h))
      refine ⟨r, h1, h2.trans ?_, h3⟩
      rw [List.append_assoc]
      refine List.Perm.append_left acc ?_
      refine List.perm_append_comm.trans ?_
      exact List.filter_append_perm w L

theorem sortRepl_spec {T rank R o} (h : Good T rank R o) :
    ∃ r, sortRepl R = .ok r ∧ r.Perm R ∧ Ordered T [] r := by
  have hl : R.foldl (fun d p => Dict.set d p.1 p) [] = look R := by
    rw [foldl_set_nodup R [] (by simpa [Dict.keys] using h.nodup)]
    rfl
  obtain ⟨r, h1, h2, h3⟩ := sortLoop_spec T rank (R.length + 1) R [] (by omega)
    (fun p hp n hn hm => h.acyc p hp n hn (h.sub n hm))
    (fun p hp n hn hT => .inl (h.closed p hp n hn hT)) trivial
  refine ⟨r, ?_, by simpa using h2, h3⟩
  unfold sortRepl
  rw [hl]
  simp only [h1]
  have : R.length = r.length := by simpa using h2.length_eq.symm
  simp [this]

theorem Good.perm {T rank R R' o} (h : Good T rank R o) (hp : R'.Perm R) : Good T rank R' o := by
  have hn : (names R').Perm (names R) := hp.map _
  refine ⟨hn.nodup_iff.2 h.nodup, fun n hm => h.sub n (hn.mem_iff.1 hm),
    fun p hm n h1 h2 => hn.mem_iff.2 (h.closed p (hp.mem_iff.1 hm) n h1 h2),
    fun p hm n h1 h2 => hn.mem_iff.2 (h.closedOut p hm n h1 h2),
    fun p hm => h.acyc p (hp.mem_iff.1 hm)⟩

/-! ## Stage 3: back-substitution -/

theorem ordered_mem {T seen : List Str} {A : List Repl} (h : Ordered T seen A) (p : Repl) (hp : p ∈ A)
    (n : Str) (hn : n ∈ p.2.free) (hT : n ∈ T) : n ∈ seen ∨ n ∈ names A := by
  induction A generalizing seen with
  | nil => cases hp
  | cons a A ih =>
    obtain ⟨x, e⟩ := a
    rcases List.mem_cons.1 hp with rfl | hp
    · exact .inl (h.1 n hn hT)
    · rcases ih h.2 hp with h1 | h1
      · rcases List.mem_cons.1 h1 with rfl | h1
        · exact .inr (by simp [names])
        · exact .inl h1
      · exact .inr (by simp only [names, List.map_cons]; exact List.mem_cons_of_mem _ h1)

/-- Substituting after position `i` and removing entry `i` is elimination in an ordered list. -/
theorem backElim {I : Interp K} {canon : Expr → Expr} (hc : CanonOk I canon) {T rank}
    (A B : List Repl) (x : Str) (v : Expr) (o : List Expr)
    (h : Good T rank (A ++ (x, v) :: B) o) (hord : Ordered T [] (A ++ (x, v) :: B)) :
    (subAfter canon A.length x v (A ++ (x, v) :: B)).eraseIdx A.length =
        (elimConst canon (A ++ (x, v) :: B, o) (x, v)).1 ∧
      Ordered T [] (elimConst canon (A ++ (x, v) :: B, o) (x, v)).1 := by
  have hnd := h.nodup
  simp only [names, List.map_append, List.map_cons] at hnd
  have hxA : x ∉ names A := by
    intro hm
    exact (List.nodup_append'.1 hnd).2.2 hm (by simp)
  have hxB : x ∉ names B := by
    have := (List.nodup_append'.1 hnd).2.1
    exact (List.nodup_cons.1 this).1
  have hxT : x ∈ T := h.sub x (by simp [names])
  obtain ⟨hA, hB⟩ := Ordered.of_append hord
  have hfA : ∀ p ∈ A, x ∉ p.2.free := by
    intro p hp hx
    rcases ordered_mem hA p hp x hx hxT with h1 | h1
    · simp at h1
    · exact hxA h1
  have hne : ∀ (C : List Repl), x ∉ names C → C.filter (fun p => decide (p.1 ≠ x)) = C := by
    intro C hC
    rw [List.filter_eq_self]
    intro p hp
    have : p.1 ≠ x := fun hh => hC (hh ▸ List.mem_map.2 ⟨p, hp, rfl⟩)
    simpa using this
  have helim : (elimConst canon (A ++ (x, v) :: B, o) (x, v)).1 =
      A ++ B.map fun p => (p.1, xrep canon x v p.2) := by
    show ((A ++ (x, v) :: B).filter fun p => decide (p.1 ≠ x)).map _ = _
    rw [List.filter_append, List.filter_cons, if_neg (by simp), hne A hxA, hne B hxB, List.map_append]
    congr 1
    conv_rhs => rw [← List.map_id A]
    apply List.map_congr_left
    intro p hp
    rw [xrep_of_not_mem _ _ _ (hfA p hp)]
    rfl
  rw [helim]
  constructor
  · rw [subAfter]
    have e1 : (A ++ (x, v) :: B).take (A.length + 1) = A ++ [(x, v)] := by
      rw [List.take_append]; simp
    have e2 : (A ++ (x, v) :: B).drop (A.length + 1) = B := by
      rw [List.drop_append]; simp
    rw [e1, e2, List.append_assoc, List.eraseIdx_append_of_length_le (by simp)]
    simp
  · refine hA.append ?_
    obtain ⟨hv, hB⟩ := hB
    -- substituting in the rest
    have key : ∀ (C : List Repl) (s : List Str), (∀ n ∈ v.free, n ∈ T → n ∈ s) → x ∉ s → x ∉ names C →
        Ordered T (s ++ [x]) C → Ordered T s (C.map fun p => (p.1, xrep canon x v p.2)) := by
      intro C
      induction C with
      | nil => intros; trivial
      | cons a C ih =>
        obtain ⟨y, e⟩ := a
        intro s h1 h2 h3 h4
        have hyx : x ≠ y := fun hh => h3 (by simp [names, hh])
        refine ⟨?_, ih (y :: s) (fun n hn hT => List.mem_cons_of_mem _ (h1 n hn hT)) ?_ ?_ ?_⟩
        · intro n hn hT
          rcases free_xrep hc x v e n hn with ⟨g1, g2⟩ | ⟨g1, _⟩
          · have := h4.1 n g1 hT
            rcases List.mem_append.1 this with h | h
            · exact h
            · exact absurd (by simpa using h) g2
          · exact h1 n g1 hT
        · simp [hyx, h2]
        · intro hm; exact h3 (by simp only [names, List.map_cons]; exact List.mem_cons_of_mem _ hm)
        · exact h4.2
    refine key B _ (fun n hn hT => hv n hn hT) (by simpa using hxA) hxB ?_
    refine hB.mono ?_
    intro n hn
    simp only [List.mem_cons, List.mem_append] at hn ⊢
    tauto

theorem symCount_zero {x : Str} {R : List Repl} {o : List Expr} (i : Nat)
    (h1 : ∀ p ∈ R, x ∉ p.2.free) (h2 : ∀ e ∈ o, x ∉ e.free) : symCount i x R o = 0 := by
  have e : ((R.drop i).map fun p => p.2.free.count x).sum = 0 := by
    have : (R.drop i).map (fun p => p.2.free.count x) = (R.drop i).map fun _ => 0 :=
      List.map_congr_left fun p hp => List.count_eq_zero.2 (h1 p (List.mem_of_mem_drop hp))
    rw [this]; simp
  rw [symCount, e]
  induction o with
  | nil => rfl
  | cons a o ih =>
    rw [List.foldl_cons, List.count_eq_zero.2 (h2 a (by simp))]
    exact ih fun e he => h2 e (by simp [he])

/-- One step of the loop keeps everything and makes progress. -/
theorem backStep_spec {I : Interp K} {canon : Expr → Expr} (hc : CanonOk I canon) (str : Expr → Str)
    {T rank R o} (i : Nat) (h : Good T rank R o) (hord : Ordered T [] R) (hi : i < R.length) :
    ∃ R' o' j, backStep canon str R o i = .ok (R', o', j) ∧ Good T rank R' o' ∧ Ordered T [] R' ∧
      o'.length = o.length ∧ R'.length - j < R.length - i ∧
      ∀ ρ, Sol I ρ R → Sol I ρ R' ∧ o'.map (eval I ρ) = o.map (eval I ρ) := by
  obtain ⟨A, x, v, B, rfl, rfl⟩ : ∃ A x v B, R = A ++ (x, v) :: B ∧ i = A.length := by
    refine ⟨R.take i, R[i].1, R[i].2, R.drop (i + 1), ?_, by simp; omega⟩
    conv_lhs => rw [← List.take_append_drop i R, List.drop_eq_getElem_cons hi]
  have hm : (x, v) ∈ A ++ (x, v) :: B := by simp
  obtain ⟨b1, b2⟩ := backElim hc A B x v o h hord
  have hxT : x ∈ T := h.sub x (by simp [names])
  have hg := h.elim hc (x, v) hm
  have hs := fun ρ hρ => Sol.elim (o := o) hc (ρ := ρ) hρ (x, v) hm
  have hlen : (elimConst canon (A ++ (x, v) :: B, o) (x, v)).1.length = A.length + B.length := by
    rw [← b1, List.length_eraseIdx]
    have : (subAfter canon A.length x v (A ++ (x, v) :: B)).length = A.length + B.length + 1 := by
      simp [subAfter]; omega
    rw [this, if_pos (by omega)]
    omega
  have hget : (A ++ (x, v) :: B)[A.length]? = some (x, v) := by simp
  have ho : (elimConst canon (A ++ (x, v) :: B, o) (x, v)).2.length = o.length := by simp [elimConst]
  unfold backStep
  rw [hget]
  simp only
  by_cases hneg : isNeg str v = true
  · simp only [hneg, if_true]
    rw [b1]
    have hz : symCount (A.length - 1) x (elimConst canon (A ++ (x, v) :: B, o) (x, v)).1
        (o.map (xrep canon x v)) = 0 := by
      have hx : x ∉ names (elimConst canon (A ++ (x, v) :: B, o) (x, v)).1 := by
        rw [show names (elimConst canon (A ++ (x, v) :: B, o) (x, v)).1 = _ from
          names_filter_map canon x v _]
        simp
      apply symCount_zero
      · intro p hp hf
        exact hx (hg.closed p hp x hf hxT)
      · intro e he hf
        exact hx (hg.closedOut e he x hf hxT)
    refine ⟨_, _, A.length - 1 + 1, ?_, hg, b2, ho, ?_, hs⟩
    · split
      · rw [hz]; rfl
      · rfl
    · rw [hlen]; simp; omega
  · simp only [hneg, Bool.false_eq_true, if_false]
    split
    · split
      · rw [b1]
        refine ⟨_, _, A.length, rfl, hg, b2, ho, ?_, hs⟩
        rw [hlen]; simp
      · exact ⟨_, _, _, rfl, h, hord, rfl, by simp; omega, fun ρ hρ => ⟨hρ, rfl⟩⟩
    · exact ⟨_, _, _, rfl, h, hord, rfl, by simp; omega, fun ρ hρ => ⟨hρ, rfl⟩⟩

theorem backLoop_spec {I : Interp K} {canon : Expr → Expr} (hc : CanonOk I canon) (str : Expr → Str)
    {T rank} (fuel : Nat) {R o} (i : Nat) (h : Good T rank R o) (hord : Ordered T [] R)
    (hf : R.length - i ≤ fuel) :
    ∃ R' o', backLoop canon str fuel R o i = .ok (R', o') ∧ Good T rank R' o' ∧ Ordered T [] R' ∧
      o'.length = o.length ∧
      ∀ ρ, Sol I ρ R → Sol I ρ R' ∧ o'.map (eval I ρ) = o.map (eval I ρ) := by
  induction fuel generalizing R o i with
  | zero => exact ⟨R, o, rfl, h, hord, rfl, fun ρ hρ => ⟨hρ, rfl⟩⟩
  | succ fuel ih =>
    rw [backLoop]
    split
    · next hi =>
      obtain ⟨R1, o1, j, e1, g1, g2, g3, g4, g5⟩ := backStep_spec hc str i h hord hi
      rw [e1]
      obtain ⟨R2, o2, f1, k1, k2, k3, k4⟩ := ih j g1 g2 (by omega)
      refine ⟨R2, o2, f1, k1, k2, k3.trans g3, fun ρ hρ => ?_⟩
      obtain ⟨s1, s2⟩ := g5 ρ hρ
      obtain ⟨t1, t2⟩ := k4 ρ s1
      exact ⟨t1, t2.trans s2⟩
    · exact ⟨R, o, rfl, h, hord, rfl, fun ρ hρ => ⟨hρ, rfl⟩⟩

/-! ## Stage 4: unused definitions -/

theorem prune_sublist (used : List Str) (l : List Repl) : (prune used l).Sublist l := by
  induction l generalizing used with
  | nil => exact .slnil
  | cons p l ih =>
    rw [prune]
    split
    · exact (ih _).cons_cons _
    · exact (ih _).cons _

theorem mem_names_prune (used : List Str) (l : List Repl) (n : Str) (hu : n ∈ used) (hn : n ∈ names l) :
    n ∈ names (prune used l) := by
  induction l generalizing used with
  | nil => cases hn
  | cons p l ih =>
    rw [prune]
    have hn' : n = p.1 ∨ n ∈ names l := by simpa [names] using hn
    split
    · rcases hn' with rfl | hn'
      · simp [names]
      · have := ih (used ++ p.2.free) (by simp [hu]) hn'
        simp only [names, List.map_cons]
        exact List.mem_cons_of_mem _ this
    · next hp =>
      rcases hn' with rfl | hn'
      · exact absurd hu hp
      · exact ih used hu hn'

theorem prune_ordered {T : List Str} (used : List Str) (A : List Repl) (h : Ordered T [] A) :
    Ordered T [] (prune used A.reverse).reverse := by
  induction A using List.reverseRecOn generalizing used with
  | nil => trivial
  | append_singleton A p ih =>
    rw [List.reverse_append, List.reverse_singleton, List.singleton_append, prune]
    obtain ⟨hA, hp⟩ := Ordered.of_append h
    split
    · rw [List.reverse_cons]
      refine (ih _ hA).append ⟨?_, trivial⟩
      intro n hn hT
      have h1 : n ∈ names A := by simpa using hp.1 n hn hT
      have h2 := mem_names_prune (used ++ p.2.free) A.reverse n (by simp [hn]) (by simpa [names] using h1)
      simpa [names] using h2
    · exact ih _ hA

/-! ## Execution -/

theorem exec_of_sol {I : Interp K} {T : List Str} {ρ : Str → K} (R : List Repl) (seen : List Str)
    (σ : Str → K) (hs : Sol I ρ R) (hord : Ordered T seen R) (hsub : ∀ n ∈ names R, n ∈ T)
    (hσ : ∀ n, n ∉ T ∨ n ∈ seen → σ n = ρ n) :
    ∀ n, (n ∉ T ∨ n ∈ seen ∨ n ∈ names R) → exec I R σ n = ρ n := by
  induction R generalizing seen σ with
  | nil =>
    intro n hn
    exact hσ n (by simpa [names] using hn)
  | cons p R ih =>
    obtain ⟨x, e⟩ := p
    intro n hn
    rw [exec]
    have he : eval I σ e = ρ x := by
      rw [hs (x, e) (by simp)]
      apply eval_congr
      intro m hm
      by_cases hT : m ∈ T
      · exact hσ m (.inr (hord.1 m hm hT))
      · exact hσ m (.inl hT)
    refine ih (x :: seen) _ (fun p hp => hs p (by simp [hp])) hord.2
      (fun n hn => hsub n (by simp only [names, List.map_cons]; exact List.mem_cons_of_mem _ hn)) ?_ n ?_
    · intro m hm
      by_cases hmx : m = x
      · subst hmx; simp [he]
      · rw [Function.update_of_ne hmx]
        apply hσ
        rcases hm with h | h
        · exact .inl h
        · exact .inr (by simpa [hmx] using h)
    · simp only [names, List.map_cons, List.mem_cons] at hn ⊢
      tauto

theorem moveEqs_eq (R : List Repl) (l : List Out) : moveEqs R l = (R ++ eqsOf l, exsOf l) := by
  have key : ∀ (l : List Out) (st : List Repl × List Expr),
      l.foldl (fun st o => match o with
        | .eq l r => (st.1 ++ [(l, r)], st.2)
        | .ex e => (st.1, st.2 ++ [e])) st = (st.1 ++ eqsOf l, st.2 ++ exsOf l) := by
    intro l
    induction l with
    | nil => intro st; simp [eqsOf, exsOf]
    | cons o l ih =>
      intro st
      cases o with
      | ex e => rw [List.foldl_cons, ih]; simp [eqsOf, exsOf]
      | eq x r => rw [List.foldl_cons, ih]; simp [eqsOf, exsOf]
  exact key l (R, [])

/-! ## The property -/

/-- **C24.**  For every acyclic set of definitions (the replacements and the `Eq` outputs) with distinct
symbols, and every SymPy rebuilding that keeps values, `cse_postprocess` succeeds.  In its result no
symbol is defined twice, every formerly defined symbol is defined before it is used, in the definitions
and in the outputs.  Executing the definitions in order and then evaluating the outputs gives the values
of the original outputs: those they have under the valuation `ρ` that extends the inputs `σ` and
satisfies the original definitions. -/
theorem C24_postprocess (I : Interp K) (canon : Expr → Expr) (hc : CanonOk I canon) (str : Expr → Str)
    (replaced : List Repl) (reduced : List Out)
    (hnd : (names (replaced ++ eqsOf reduced)).Nodup) (hac : Acyclic (replaced ++ eqsOf reduced)) :
    ∃ R o, postprocess canon str replaced reduced = .ok (R, o) ∧
      (names R).Nodup ∧ (∀ n ∈ names R, n ∈ names (replaced ++ eqsOf reduced)) ∧
      (∀ A x e B, R = A ++ (x, e) :: B → ∀ n ∈ e.free, n ∈ names (replaced ++ eqsOf reduced) →
        n ∈ names A) ∧
      (∀ e ∈ o, ∀ n ∈ e.free, n ∈ names (replaced ++ eqsOf reduced) → n ∈ names R) ∧
      o.length = (exsOf reduced).length ∧
      ∀ σ ρ : Str → K, (∀ n, n ∉ names (replaced ++ eqsOf reduced) → ρ n = σ n) →
        Sol I ρ (replaced ++ eqsOf reduced) →
        o.map (eval I (exec I R σ)) = (exsOf reduced).map (eval I ρ) := by
  obtain ⟨rank, hrank⟩ := hac
  set E := replaced ++ eqsOf reduced with hE
  -- outputs may mention defined symbols only through `closedOut`, trivial for the full set
  have h0 : Good (names E) rank E (exsOf reduced) :=
    ⟨hnd, fun n h => h, fun p _ n _ h => h, fun p _ n _ h => h, hrank⟩
  obtain ⟨g1, g2, _, g4⟩ := constLoop_spec hc E.length (E, exsOf reduced) h0 le_rfl
  obtain ⟨r, r1, r2, r3⟩ := sortRepl_spec g1
  obtain ⟨R', o', b1, b2, b3, b4, b5⟩ := backLoop_spec hc str r.length 0 (g1.perm r2) r3 (by omega)
  have hperm : ∀ n, n ∈ names (prune (o'.flatMap free) R'.reverse).reverse → n ∈ names R' := by
    intro n hn
    obtain ⟨p, hp, rfl⟩ := List.mem_map.1 hn
    have := (prune_sublist _ _).subset (List.mem_reverse.1 hp)
    exact List.mem_map.2 ⟨p, List.mem_reverse.1 this, rfl⟩
  have hpr : ∀ p, p ∈ (prune (o'.flatMap free) R'.reverse).reverse → p ∈ R' := by
    intro p hp
    exact List.mem_reverse.1 ((prune_sublist _ _).subset (List.mem_reverse.1 hp))
  have hfin := prune_ordered (o'.flatMap free) R' b3
  have hout : ∀ e ∈ o', ∀ n ∈ e.free, n ∈ names E →
      n ∈ names (prune (o'.flatMap free) R'.reverse).reverse := by
    intro e he n hn hT
    have := mem_names_prune (o'.flatMap free) R'.reverse n (List.mem_flatMap.2 ⟨e, he, hn⟩)
      (by simpa [names] using b2.closedOut e he n hn hT)
    simpa [names] using this
  refine ⟨_, o', ?_, ?_, ?_, ?_, hout, b4.trans g2, ?_⟩
  · unfold postprocess
    rw [moveEqs_eq]
    simp only [← hE, r1, b1]
  · have : (names (prune (o'.flatMap free) R'.reverse)).Sublist (names R'.reverse) :=
      (prune_sublist _ _).map _
    have h1 : (names R'.reverse).Nodup := by
      simpa [names, List.nodup_reverse] using b2.nodup
    have h2 := this.nodup h1
    simpa [names, List.nodup_reverse] using h2
  · exact fun n hn => b2.sub n (hperm n hn)
  · intro A x e B hAB n hn hT
    rw [hAB] at hfin
    have := (Ordered.of_append hfin).2.1 n hn hT
    simpa using this
  · intro σ ρ hσ hρ
    obtain ⟨s1, s2⟩ := g4 ρ hρ
    have s3 : Sol I ρ r := fun p hp => s1 p (r2.mem_iff.1 hp)
    obtain ⟨s4, s5⟩ := b5 ρ s3
    have s6 : Sol I ρ (prune (o'.flatMap free) R'.reverse).reverse := fun p hp => s4 p (hpr p hp)
    have hex := exec_of_sol (T := names E) _ [] σ s6 hfin (fun n hn => b2.sub n (hperm n hn))
      (fun n hn => by
        rcases hn with h | h
        · exact (hσ n h).symm
        · cases h)
    rw [← s2, ← s5]
    apply List.map_congr_left
    intro e he
    apply eval_congr
    intro n hn
    by_cases hT : n ∈ names E
    · exact hex n (.inr (.inr (hout e he n hn hT)))
    · exact hex n (.inl hT)

/-! ### The valuation in `C24_postprocess` exists, and is plain execution for ordered input -/

theorem exec_not_mem {I : Interp K} (R : List Repl) (σ : Str → K) (n : Str) (h : n ∉ names R) :
    exec I R σ n = σ n := by
  induction R generalizing σ with
  | nil => rfl
  | cons p R ih =>
    obtain ⟨x, e⟩ := p
    have h1 : n ≠ x := fun hh => h (by simp [names, hh])
    have h2 : n ∉ names R := fun hh => h (by simp only [names, List.map_cons]; exact List.mem_cons_of_mem _ hh)
    rw [exec, ih _ h2, Function.update_of_ne h1]

theorem exec_sol {I : Interp K} {T : List Str} (R : List Repl) (seen : List Str) (σ : Str → K)
    (hnd : (names R ++ seen).Nodup) (hT : ∀ n ∈ names R, n ∈ T) (hord : Ordered T seen R) :
    Sol I (exec I R σ) R := by
  induction R generalizing seen σ with
  | nil => intro p hp; cases hp
  | cons p R ih =>
    obtain ⟨x, e⟩ := p
    have hx : x ∉ names R ∧ x ∉ seen := by
      have : (x :: (names R ++ seen)).Nodup := hnd
      simpa using (List.nodup_cons.1 this).1
    have hnd' : (names R ++ seen).Nodup := (List.nodup_cons.1 (show (x :: (names R ++ seen)).Nodup from hnd)).2
    intro q hq
    rw [exec]
    rcases List.mem_cons.1 hq with rfl | hq
    · show exec I R _ x = _
      rw [exec_not_mem _ _ _ hx.1, Function.update_self]
      apply eval_congr
      intro n hn
      have hnx : n ≠ x := by
        rintro rfl
        exact hx.2 (hord.1 n hn (hT n (by simp [names])))
      have hnR : n ∉ names R := by
        intro hm
        have := hord.1 n hn (hT n (by simp only [names, List.map_cons]; exact List.mem_cons_of_mem _ hm))
        exact (List.nodup_append'.1 hnd').2.2 hm this
      rw [exec_not_mem _ _ _ hnR, Function.update_of_ne hnx]
    · refine ih (x :: seen) _ ?_ (fun n hn => hT n (by simp only [names, List.map_cons]; exact List.mem_cons_of_mem _ hn)) hord.2 q hq
      have : (names R ++ x :: seen).Perm (x :: (names R ++ seen)) := List.perm_middle
      exact this.nodup_iff.2 hnd

/-- Every valuation of the inputs extends to one satisfying an acyclic set of definitions, and in only
one way on the defined symbols. -/
theorem C24_solution_exists (I : Interp K) (E : List Repl) (hnd : (names E).Nodup) (hac : Acyclic E)
    (σ : Str → K) :
    ∃ ρ : Str → K, ((∀ n, n ∉ names E → ρ n = σ n) ∧ Sol I ρ E) ∧
      ∀ ρ' : Str → K, (∀ n, n ∉ names E → ρ' n = σ n) → Sol I ρ' E → ρ' = ρ := by
  obtain ⟨rank, hrank⟩ := hac
  have h0 : Good (names E) rank E [] :=
    ⟨hnd, fun n h => h, fun p _ n _ h => h, by simp, hrank⟩
  obtain ⟨r, _, r2, r3⟩ := sortRepl_spec h0
  have hn : (names r).Perm (names E) := r2.map _
  have hex : Sol I (exec I r σ) r := exec_sol (T := names E) r [] σ
    (by simpa using hn.nodup_iff.2 hnd) (fun n h => hn.mem_iff.1 h) r3
  refine ⟨exec I r σ, ⟨fun n h => exec_not_mem _ _ _ (fun hh => h (hn.mem_iff.1 hh)),
    fun p hp => hex p (r2.mem_iff.2 hp)⟩, ?_⟩
  intro ρ' h1 h2
  funext n
  have := exec_of_sol (T := names E) (ρ := ρ') r [] σ (fun p hp => h2 p (r2.mem_iff.1 hp)) r3
    (fun n h => hn.mem_iff.1 h) (fun n hn => by
      rcases hn with h | h
      · exact (h1 n h).symm
      · cases h) n
  by_cases hm : n ∈ names E
  · exact (this (.inr (.inr (hn.mem_iff.2 hm)))).symm
  · exact (this (.inl hm)).symm

/-- Definitions in execution order are acyclic. -/
theorem acyclic_of_ordered (R : List Repl) (hnd : (names R).Nodup) (h : Ordered (names R) [] R) :
    Acyclic R := by
  refine ⟨fun n => (names R).idxOf n, ?_⟩
  intro p hp n hn hT
  obtain ⟨A, B, rfl⟩ := List.append_of_mem hp
  obtain ⟨x, e⟩ := p
  have h1 : n ∈ names A := by simpa using (Ordered.of_append h).2.1 n hn hT
  have hx : x ∉ names A := by
    intro hm
    simp only [names, List.map_append, List.map_cons] at hnd
    exact (List.nodup_append'.1 hnd).2.2 hm (by simp)
  have e1 : names (A ++ (x, e) :: B) = names A ++ x :: names B := by simp [names]
  show (names (A ++ (x, e) :: B)).idxOf n < (names (A ++ (x, e) :: B)).idxOf x
  rw [e1, List.idxOf_append_of_mem h1, List.idxOf_append_of_notMem hx]
  have := List.idxOf_lt_length_of_mem h1
  omega

/-- **C24 for the output of `sp.cse`** (definitions in execution order, no equalities): executing the
new program gives the outputs of executing the old one. -/
theorem C24_execution (I : Interp K) (canon : Expr → Expr) (hc : CanonOk I canon) (str : Expr → Str)
    (replaced : List Repl) (es : List Expr)
    (hnd : (names replaced).Nodup) (hord : Ordered (names replaced) [] replaced) :
    ∃ R o, postprocess canon str replaced (es.map .ex) = .ok (R, o) ∧
      ∀ σ : Str → K, o.map (eval I (exec I R σ)) = es.map (eval I (exec I replaced σ)) := by
  have e1 : eqsOf (es.map .ex) = [] := by simp [eqsOf, List.filterMap_map]
  have e2 : exsOf (es.map .ex) = es := by
    simp [exsOf, List.filterMap_map]
  obtain ⟨R, o, h1, _, _, _, _, _, h2⟩ := C24_postprocess I canon hc str replaced (es.map .ex)
    (by simpa [e1] using hnd) (by simpa [e1] using acyclic_of_ordered replaced hnd hord)
  refine ⟨R, o, h1, fun σ => ?_⟩
  have hsol : Sol I (exec I replaced σ) replaced :=
    exec_sol (T := names replaced) replaced [] σ (by simpa using hnd) (fun n h => h) hord
  have := h2 σ (exec I replaced σ) (fun n hn => exec_not_mem _ _ _ (by simpa [e1] using hn))
    (by simpa [e1] using hsol)
  rwa [e2] at this

/-- Non-vacuity: `x1 = x0^2` and `x0 = a*b` (out of order, from an equality) with one output using both;
the product is used twice and is substituted back. -/
example : let replaced : List Repl := [((c% "x1"), .app .pow [.sym (c% "x0"), .num 2])]
    let reduced : List Out := [.eq (c% "x0") (.app .mul [.sym (c% "a"), .sym (c% "b")]),
      .ex (.app (.fn (c% "sin")) [.app .add [.sym (c% "x1"), .sym (c% "x1"), .sym (c% "x1")]])]
    (names (replaced ++ eqsOf reduced)).Nodup ∧ Acyclic (replaced ++ eqsOf reduced) ∧
    (∀ I : Interp ℚ, CanonOk I id) ∧
    (postprocess id (fun _ => []) replaced reduced).toOption =
      some ([((c% "x1"), .app .pow [.app .mul [.sym (c% "a"), .sym (c% "b")], .num 2])],
        [.app (.fn (c% "sin")) [.app .add [.sym (c% "x1"), .sym (c% "x1"), .sym (c% "x1")]]]) := by
  refine ⟨by decide, ⟨fun n => if n = (c% "x1") then 1 else 0, by decide⟩,
    fun I => ⟨fun _ _ => rfl, fun _ _ h => h⟩, by decide⟩

end Verif.CSE
