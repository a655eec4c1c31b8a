import Verif.CSE.Pre
import Mathlib.Data.Rat.Cast.Lemmas
import Mathlib.Data.List.Forall2
import Mathlib.Tactic.Ring
import Mathlib.Tactic.Tauto
import Mathlib.Tactic.NormNum

/-!
# C25: `cse_preprocess` preserves values and declares what it introduces
-/
namespace Verif.CSE
open Verif.Py Verif.Sympy Verif.Sympy.Expr

variable {K : Type} [Field K]

/-! ## Specification -/

/-- The name under which the number `q` is declared. -/
def constName (pre : Str) (q : ℚ) : Str := if q = -1 then negName pre else ratName pre q

/-- Names `cse_preprocess` may introduce. -/
def Reserved (pre n : Str) : Prop := ∃ q : ℚ, (q = -1 ∨ 0 ≤ q) ∧ n = constName pre q

/-- The introduced symbols have the values of the table, the others those of `ρ`. -/
def withTable (T : Dict Str ℚ) (ρ : Str → K) (n : Str) : K :=
  match T.get? n with
  | some q => (q : K)
  | none => ρ n

/-- Integer powers of minus one have their usual values. -/
def PowOk (I : Interp K) : Prop := ∀ n : ℤ, I.pow (-1) ((n : ℚ) : K) = if Even n then 1 else -1

/-- A node at which pre-processing meets no obstacle: functions have an argument, and powers of minus one (or of the
symbol declared for it) have integer exponents.  (`(-1)**(-1)` is evaluated by SymPy.) -/
def FineNode (o : PreOpts) (isFun : Str → Bool) (h : Head) (l : List Expr) : Prop :=
  (∀ n, h = .fn n → isFun n = true → l ≠ []) ∧
  (o.declareNeg1 = true → h = .pow → l.head? = some (.num (-1)) →
    ∃ n : ℤ, n ≠ -1 ∧ l.tail = [.num n]) ∧
  (o.declareNeg1 = true → h = .pow → l.head? = some (.sym (negName o.pre)) → ∃ n : ℤ, l.tail = [.num n])

inductive Fine (o : PreOpts) (isFun : Str → Bool) : Expr → Prop
  | sym (n) : Fine o isFun (.sym n)
  | num (q) : Fine o isFun (.num q)
  | app (h l) : FineNode o isFun h l → (∀ e ∈ l, Fine o isFun e) → Fine o isFun (.app h l)

/-- What is assumed of `sp.collect`. -/
structure CollectOk (o : PreOpts) (isFun : Str → Bool) (I : Interp K) (collect : Expr → List Str → Expr) : Prop where
  value : ∀ ρ e vs, eval I ρ (collect e vs) = eval I ρ e
  free : ∀ e vs n, n ∈ (collect e vs).free → n ∈ e.free
  fine : ∀ e vs, Fine o isFun e → Fine o isFun (collect e vs)

/-! ## Names -/

theorem sep_inj {c : Char} : ∀ {a b a' b' : Str}, c ∉ a → c ∉ a' → a ++ c :: b = a' ++ c :: b' → a = a' ∧ b = b'
  | [], b, [], b', _, _, h => by simpa using h
  | [], b, x :: a', b', _, h', h => by
    simp only [List.nil_append, List.cons_append, List.cons.injEq] at h
    exact absurd (h.1 ▸ List.mem_cons_self) h'
  | x :: a, b, [], b', h', _, h => by
    simp only [List.nil_append, List.cons_append, List.cons.injEq] at h
    exact absurd (h.1 ▸ List.mem_cons_self) h'
  | x :: a, b, y :: a', b', h1, h2, h => by
    simp only [List.cons_append, List.cons.injEq] at h
    obtain ⟨hx, h⟩ := h
    obtain ⟨r1, r2⟩ := sep_inj (fun m => h1 (List.mem_cons_of_mem _ m)) (fun m => h2 (List.mem_cons_of_mem _ m)) h
    exact ⟨by rw [hx, r1], r2⟩

theorem ratName_inj {pre : Str} {p q : ℚ} (hp : 0 ≤ p) (hq : 0 ≤ q) (h : ratName pre p = ratName pre q) : p = q := by
  have hnum : p.num.natAbs = q.num.natAbs → p.num = q.num := by
    have := Rat.num_nonneg.2 hp
    have := Rat.num_nonneg.2 hq
    omega
  have hd : ∀ n : Nat, '_' ∉ dec n := fun n => not_mem_dec (by decide)
  unfold ratName at h
  split at h <;> split at h
  · simp only [List.append_assoc, List.append_cancel_left_eq, List.cons_append, List.nil_append, List.cons.injEq,
      true_and] at h
    obtain ⟨h1, h2⟩ := sep_inj (hd _) (hd _) h
    exact Rat.ext (hnum (dec_inj h1)) (dec_inj h2)
  · simp only [List.append_assoc, List.append_cancel_left_eq] at h
    simp at h
  · simp only [List.append_assoc, List.append_cancel_left_eq] at h
    simp at h
  · next h1 h2 =>
    simp only [List.append_assoc, List.append_cancel_left_eq, List.cons_append, List.nil_append, List.cons.injEq,
      true_and] at h
    exact Rat.ext (hnum (dec_inj h)) (by simp only [ne_eq, not_not] at h1 h2; rw [h1, h2])

theorem ratName_ne_neg (pre : Str) (q : ℚ) : ratName pre q ≠ negName pre := by
  unfold ratName negName
  split <;> simp

theorem constName_inj {pre : Str} {p q : ℚ} (hp : p = -1 ∨ 0 ≤ p) (hq : q = -1 ∨ 0 ≤ q)
    (h : constName pre p = constName pre q) : p = q := by
  unfold constName at h
  split at h <;> split at h
  · next h1 h2 => rw [h1, h2]
  · exact absurd h.symm (ratName_ne_neg _ _)
  · exact absurd h (ratName_ne_neg _ _)
  · next h1 h2 => exact ratName_inj (hp.resolve_left h1) (hq.resolve_left h2) h

theorem constName_nonneg {pre : Str} {q : ℚ} (h : 0 ≤ q) : constName pre q = ratName pre q := by
  unfold constName
  rw [if_neg]
  rintro rfl
  exact absurd h (by norm_num)

theorem constName_neg (pre : Str) : constName pre (-1) = negName pre := if_pos rfl

theorem constName_one (pre : Str) : constName pre 1 = oneName pre := by
  rw [constName_nonneg zero_le_one]
  unfold ratName oneName
  rw [if_neg (by simp)]
  rw [List.append_assoc]
  congr 1

/-! ## Invariant of the tables -/

structure PInv (pre : Str) (st : PreSt) : Prop where
  fwd : ∀ q s, st.map.get? q = some s → st.tab.get? s = some q
  bwd : ∀ s q, st.tab.get? s = some q → (q = -1 ∨ 0 ≤ q) ∧ s = constName pre q ∧ st.map.get? q = some s
  wf : Dict.Wf st.tab

def PLe (a b : PreSt) : Prop := ∀ s q, a.tab.get? s = some q → b.tab.get? s = some q

theorem PLe.refl (a : PreSt) : PLe a a := fun _ _ h => h
theorem PLe.trans {a b c : PreSt} (h : PLe a b) (h' : PLe b c) : PLe a c := fun s q x => h' s q (h s q x)

/-- Entering a number under its name. -/
theorem enter {pre : Str} {st : PreSt} (hi : PInv pre st) {q : ℚ} (hq : q = -1 ∨ 0 ≤ q) (hn : st.map.get? q = none) :
    PInv pre ⟨st.tab.set (constName pre q) q, st.map.set q (constName pre q)⟩ ∧
    PLe st ⟨st.tab.set (constName pre q) q, st.map.set q (constName pre q)⟩ := by
  have hfresh : ∀ p, st.tab.get? (constName pre q) = some p → False := by
    intro p hp
    obtain ⟨h1, h2, h3⟩ := hi.bwd _ _ hp
    rw [← constName_inj hq h1 h2] at h3
    rw [hn] at h3
    cases h3
  refine ⟨⟨?_, ?_, hi.wf.set _ _⟩, ?_⟩
  · intro p s h
    simp only [Dict.get?_set] at h ⊢
    split at h
    · next e => cases h; rw [if_pos rfl, e]
    · have := hi.fwd _ _ h
      rw [if_neg]
      · exact this
      · rintro rfl
        exact hfresh _ this
  · intro s p h
    simp only [Dict.get?_set] at h ⊢
    split at h
    · next e => cases h; exact ⟨hq, e, by rw [if_pos rfl, e]⟩
    · obtain ⟨h1, h2, h3⟩ := hi.bwd _ _ h
      refine ⟨h1, h2, ?_⟩
      rw [if_neg]
      · exact h3
      · rintro rfl
        rw [hn] at h3
        cases h3
  · intro s p h
    simp only [Dict.get?_set]
    rw [if_neg]
    · exact h
    · rintro rfl
      exact hfresh _ h

theorem ratSym_spec {pre : Str} {st : PreSt} (hi : PInv pre st) {q : ℚ} (hq : 0 ≤ q) :
    PInv pre (ratSym pre st q).2 ∧ PLe st (ratSym pre st q).2 ∧
    (ratSym pre st q).2.tab.get? (ratSym pre st q).1 = some q := by
  unfold ratSym
  split
  · next s h => exact ⟨hi, PLe.refl _, hi.fwd _ _ h⟩
  · next h =>
    obtain ⟨h1, h2⟩ := enter hi (.inr hq) h
    rw [constName_nonneg hq] at h1 h2
    exact ⟨h1, h2, Dict.get?_set_self ..⟩

theorem negSym_spec {pre : Str} {st : PreSt} (hi : PInv pre st) :
    PInv pre (negSym pre st).2 ∧ PLe st (negSym pre st).2 ∧
    (negSym pre st).2.tab.get? (negSym pre st).1 = some (-1) ∧ (negSym pre st).1 = negName pre := by
  unfold negSym
  split
  · next s h =>
    have := hi.fwd _ _ h
    exact ⟨hi, PLe.refl _, this, by rw [(hi.bwd _ _ this).2.1, constName_neg]⟩
  · next h =>
    obtain ⟨h1, h2⟩ := enter hi (.inl rfl) h
    rw [constName_neg] at h1 h2
    exact ⟨h1, h2, Dict.get?_set_self .., rfl⟩

/-- The valuation agrees with the table. -/
def Agrees (σ : Str → K) (st : PreSt) : Prop := ∀ s q, st.tab.get? s = some q → σ s = (q : K)

theorem Agrees.mono {σ : Str → K} {a b : PreSt} (h : PLe a b) (hb : Agrees σ b) : Agrees σ a :=
  fun s q x => hb s q (h s q x)

/-- What one step does to an expression. -/
structure Step (o : PreOpts) (I : Interp K) (e : Expr) (st : PreSt) (e' : Expr) (st' : PreSt) : Prop where
  inv : PInv o.pre st'
  le : PLe st st'
  value : ∀ σ : Str → K, Agrees σ st' → eval I σ e' = eval I σ e
  free : ∀ n ∈ e'.free, n ∈ e.free ∨ n ∈ st'.tab.keys

theorem mem_keys_of {T : Dict Str ℚ} {s : Str} {q : ℚ} (h : T.get? s = some q) : s ∈ T.keys :=
  (Dict.mem_keys_iff _ _).2 ⟨q, h⟩

theorem keys_mono {a b : PreSt} (h : PLe a b) {n : Str} (hn : n ∈ a.tab.keys) : n ∈ b.tab.keys := by
  obtain ⟨q, hq⟩ := (Dict.mem_keys_iff _ _).1 hn
  exact mem_keys_of (h _ _ hq)

theorem visitNeg1_spec (o : PreOpts) (I : Interp K) {st : PreSt} (hi : PInv o.pre st) :
    Step o I (.num (-1)) st (visitNeg1 o st).1 (visitNeg1 o st).2 := by
  unfold visitNeg1
  split
  · obtain ⟨h1, h2, h3, -⟩ := negSym_spec hi
    refine ⟨h1, h2, fun σ hσ => ?_, fun n hn => ?_⟩
    · simpa using hσ _ _ h3
    · simp only [free_sym, List.mem_singleton] at hn
      subst hn
      exact .inr (mem_keys_of h3)
  · exact ⟨hi, PLe.refl _, fun _ _ => rfl, fun n hn => .inl hn⟩

theorem replNum_spec (o : PreOpts) (I : Interp K) (f : Option Head) (q : ℚ) {st : PreSt} (hi : PInv o.pre st) :
    Step o I (.num q) st (replNum o f q st).1 (replNum o f q st).2 := by
  unfold replNum
  split
  · next h => subst h; exact visitNeg1_spec o I hi
  split
  · exact ⟨hi, PLe.refl _, fun _ _ => rfl, fun n hn => .inl hn⟩
  split
  · next h =>
    obtain ⟨h1, h2, h3⟩ := ratSym_spec hi h
    refine ⟨h1, h2, fun σ hσ => ?_, fun n hn => ?_⟩
    · simpa using hσ _ _ h3
    · simp only [free_sym, List.mem_singleton] at hn
      subst hn
      exact .inr (mem_keys_of h3)
  · next h =>
    have hq : 0 ≤ -q := by
      have := not_le.1 h
      exact (neg_pos.2 this).le
    obtain ⟨h1, h2, h3⟩ := ratSym_spec hi hq
    have hv := visitNeg1_spec o I h1
    refine ⟨hv.inv, h2.trans hv.le, fun σ hσ => ?_, fun n hn => ?_⟩
    · have e1 := hv.value σ hσ
      have e2 := hσ _ _ (hv.le _ _ h3)
      simp only [eval_app, List.map_cons, List.map_nil, Interp.app, e1, eval_sym, e2, List.prod_cons, List.prod_nil,
        eval_num]
      push_cast
      ring
    · simp only [free_app, List.flatMap_cons, List.flatMap_nil, List.append_nil, List.mem_append, free_sym,
        List.mem_singleton] at hn
      rcases hn with hn | hn
      · rcases hv.free n hn with h | h
        · simp at h
        · exact .inr h
      · subst hn
        exact .inr (mem_keys_of (hv.le _ _ h3))

/-- The same for argument lists. -/
structure StepL (o : PreOpts) (I : Interp K) (l : List Expr) (st : PreSt) (l' : List Expr) (st' : PreSt) : Prop where
  inv : PInv o.pre st'
  le : PLe st st'
  value : ∀ σ : Str → K, Agrees σ st' → l'.map (eval I σ) = l.map (eval I σ)
  free : ∀ n ∈ l'.flatMap free, n ∈ l.flatMap free ∨ n ∈ st'.tab.keys

theorem replList_spec (o : PreOpts) (I : Interp K) (h : Head) (l : List Expr)
    (ih : ∀ e ∈ l, ∀ f st, PInv o.pre st → Step o I e st (repl o f e st).1 (repl o f e st).2) :
    ∀ st, PInv o.pre st → StepL o I l st (replList o h l st).1 (replList o h l st).2 := by
  induction l with
  | nil =>
    intro st hi
    rw [replList]
    exact ⟨hi, PLe.refl _, fun _ _ => rfl, fun n hn => .inl hn⟩
  | cons a l IH =>
    intro st hi
    rw [replList]
    have ha := ih a List.mem_cons_self (some h) st hi
    have hl := IH (fun e he => ih e (List.mem_cons_of_mem _ he)) _ ha.inv
    refine ⟨hl.inv, ha.le.trans hl.le, fun σ hσ => ?_, fun n hn => ?_⟩
    · rw [List.map_cons, List.map_cons, hl.value σ hσ, ha.value σ (hσ.mono hl.le)]
    · rw [List.flatMap_cons, List.mem_append] at hn ⊢
      rcases hn with hn | hn
      · rcases ha.free n hn with h | h
        · exact .inl (.inl h)
        · exact .inr (keys_mono hl.le h)
      · rcases hl.free n hn with h | h
        · exact .inl (.inr h)
        · exact .inr h

theorem repl_spec (o : PreOpts) (I : Interp K) (e : Expr) :
    ∀ f st, PInv o.pre st → Step o I e st (repl o f e st).1 (repl o f e st).2 := by
  induction e using Expr.ind with
  | hs n =>
    intro f st hi
    rw [repl]
    exact ⟨hi, PLe.refl _, fun _ _ => rfl, fun n hn => .inl hn⟩
  | hq q =>
    intro f st hi
    rw [repl]
    exact replNum_spec o I f q hi
  | ha h l ih =>
    intro f st hi
    rw [repl]
    have := replList_spec o I h l ih st hi
    refine ⟨this.inv, this.le, fun σ hσ => ?_, fun n hn => ?_⟩
    · rw [eval_app, eval_app, this.value σ hσ]
    · rw [free_app] at hn ⊢
      exact this.free n hn

/-! ## Shape -/

theorem fineNode_mul (o : PreOpts) (isFun : Str → Bool) (l : List Expr) : FineNode o isFun .mul l :=
  ⟨fun n h => (by cases h), fun _ h => (by cases h), fun _ h => (by cases h)⟩

theorem visitNeg1_fine (o : PreOpts) (isFun : Str → Bool) (st : PreSt) : Fine o isFun (visitNeg1 o st).1 := by
  unfold visitNeg1
  split
  · exact .sym _
  · exact .num _

theorem replNum_fine (o : PreOpts) (isFun : Str → Bool) (f : Option Head) (q : ℚ) (st : PreSt) :
    Fine o isFun (replNum o f q st).1 := by
  unfold replNum
  split
  · exact visitNeg1_fine ..
  split
  · exact .num _
  split
  · exact .sym _
  · refine .app _ _ (fineNode_mul ..) fun e he => ?_
    simp only [List.mem_cons, List.not_mem_nil, or_false] at he
    rcases he with rfl | rfl
    · exact visitNeg1_fine ..
    · exact .sym _

theorem replList_nil (o : PreOpts) (h : Head) (l : List Expr) (st : PreSt) :
    (replList o h l st).1 = [] → l = [] := by
  cases l with
  | nil => exact fun _ => rfl
  | cons a l => rw [replList]; exact fun h => (by cases h)

theorem repl_head (o : PreOpts) (f : Option Head) (e : Expr) (st : PreSt)
    (hd : o.declareNeg1 = true) (he : ∀ n ∈ e.free, ¬ Reserved o.pre n) (hi : PInv o.pre st) :
    (repl o f e st).1 ≠ .num (-1) ∧ ((repl o f e st).1 = .sym (negName o.pre) → e = .num (-1)) := by
  cases e with
  | sym n =>
    rw [repl]
    refine ⟨by simp, fun h => ?_⟩
    cases h
    exact absurd ⟨-1, .inl rfl, (constName_neg _).symm⟩ (he (negName o.pre) (by simp))
  | app h l => rw [repl]; exact ⟨by simp, by simp⟩
  | num q =>
    rw [repl]
    unfold replNum
    split
    · next hq =>
      subst hq
      simp [visitNeg1, hd]
    · next hq =>
      split
      · exact ⟨fun h => hq (by cases h; rfl), by simp⟩
      split
      · next h0 =>
        refine ⟨by simp, fun h => ?_⟩
        obtain ⟨h1, -, h3⟩ := ratSym_spec hi h0
        injection h with h
        have := (h1.bwd _ _ h3).2.1
        rw [constName_nonneg h0, h] at this
        exact absurd this.symm (ratName_ne_neg _ _)
      · exact ⟨by simp, by simp⟩

theorem replList_fine (o : PreOpts) (isFun : Str → Bool) (h : Head) (l : List Expr)
    (ih : ∀ e ∈ l, ∀ f st, PInv o.pre st → Fine o isFun (repl o f e st).1) :
    ∀ st, PInv o.pre st → ∀ e ∈ (replList o h l st).1, Fine o isFun e := by
  induction l with
  | nil =>
    intro st _
    rw [replList]
    exact fun e he => (by cases he)
  | cons a l IH =>
    intro st hi
    rw [replList]
    intro e he
    rcases List.mem_cons.1 he with rfl | he
    · exact ih a List.mem_cons_self _ _ hi
    · exact IH (fun e he => ih e (List.mem_cons_of_mem _ he)) _
        (repl_spec (K := ℚ) o ⟨fun _ _ => 0, fun _ _ => 0⟩ a (some h) st hi).inv e he

theorem repl_fine (o : PreOpts) (isFun : Str → Bool) (e : Expr) (he : ∀ n ∈ e.free, ¬ Reserved o.pre n)
    (hf : Fine o isFun e) : ∀ f st, PInv o.pre st → Fine o isFun (repl o f e st).1 := by
  induction e using Expr.ind with
  | hs n => intro f st _; rw [repl]; exact .sym _
  | hq q => intro f st _; rw [repl]; exact replNum_fine ..
  | ha h l ih =>
    intro f st hi
    rw [repl]
    have he' : ∀ a ∈ l, ∀ n ∈ a.free, ¬ Reserved o.pre n := fun a ha n hn =>
      he n (by rw [free_app]; exact List.mem_flatMap.2 ⟨a, ha, hn⟩)
    cases hf with
    | app _ _ hn hl =>
      refine .app _ _ ⟨?_, ?_, ?_⟩ (replList_fine o isFun h l (fun e h => ih e h (he' e h) (hl e h)) st hi)
      · intro n h1 h2 h3
        exact hn.1 n h1 h2 (replList_nil o h l st h3)
      · intro hd hp hh
        cases l with
        | nil => rw [replList] at hh; cases hh
        | cons a l =>
          rw [replList] at hh
          simp only [List.head?_cons, Option.some.injEq] at hh
          exact absurd hh (repl_head o _ a st hd (he' a List.mem_cons_self) hi).1
      · intro hd hp hh
        cases l with
        | nil => rw [replList] at hh; cases hh
        | cons a l =>
          rw [replList] at hh ⊢
          simp only [List.head?_cons, Option.some.injEq] at hh
          have ha := (repl_head o _ a st hd (he' a List.mem_cons_self) hi).2 hh
          subst ha
          obtain ⟨n, hn1, hn2⟩ := hn.2.1 hd hp rfl
          simp only [List.tail_cons] at hn2
          subst hn2
          subst hp
          refine ⟨n, ?_⟩
          have : ((n : ℤ) : ℚ) ≠ -1 := by exact_mod_cast hn1
          simp [replList, repl, replNum, this]

/-! ## Function arguments and collecting -/

section
variable {o : PreOpts} {isFun : Str → Bool} {I : Interp K} {collect : Expr → List Str → Expr}

/-- A rewriting that keeps values, symbols and shape. -/
structure Harmless (o : PreOpts) (isFun : Str → Bool) (I : Interp K) (g : Expr → Expr) : Prop where
  value : ∀ ρ e, eval I ρ (g e) = eval I ρ e
  free : ∀ e n, n ∈ (g e).free → n ∈ e.free
  fine : ∀ e, Fine o isFun e → Fine o isFun (g e)

/-- What is kept between two expressions. -/
structure Kept (o : PreOpts) (isFun : Str → Bool) (I : Interp K) (e e' : Expr) : Prop where
  value : ∀ ρ, eval I ρ e' = eval I ρ e
  free : ∀ n, n ∈ e'.free → n ∈ e.free
  fine : Fine o isFun e'

theorem Kept.trans {a b c : Expr} (h : Kept o isFun I a b) (h' : Kept o isFun I b c) : Kept o isFun I a c :=
  ⟨fun ρ => (h'.value ρ).trans (h.value ρ), fun n hn => h.free n (h'.free n hn), h'.fine⟩

theorem collectEach_kept (hc : CollectOk o isFun I collect) (vars : List Str) :
    Harmless o isFun I (collectEach collect vars) := by
  unfold collectEach
  induction vars with
  | nil => exact ⟨fun _ _ => rfl, fun _ _ h => h, fun _ h => h⟩
  | cons v vs ih =>
    refine ⟨fun ρ e => ?_, fun e n h => ?_, fun e h => ?_⟩
    · rw [List.foldl_cons, ih.value]
      split
      · exact hc.value ..
      · rfl
    · rw [List.foldl_cons] at h
      have := ih.free _ _ h
      split at this
      · exact hc.free _ _ _ this
      · exact this
    · rw [List.foldl_cons]
      refine ih.fine _ ?_
      split
      · exact hc.fine _ _ h
      · exact h

theorem mapM_kept {f : Expr → Except PreErr Expr} (l : List Expr)
    (h : ∀ e ∈ l, ∃ e', f e = .ok e' ∧ Kept o isFun I e e') :
    ∃ l', l.mapM f = .ok l' ∧ List.Forall₂ (Kept o isFun I) l l' := by
  induction l with
  | nil => exact ⟨[], rfl, .nil⟩
  | cons a l ih =>
    obtain ⟨a', h1, h2⟩ := h a List.mem_cons_self
    obtain ⟨l', h3, h4⟩ := ih fun e he => h e (List.mem_cons_of_mem _ he)
    refine ⟨a' :: l', ?_, .cons h2 h4⟩
    rw [List.mapM_cons, h1, h3]
    rfl

/-- Replacing arguments by kept ones keeps a node, provided the shape of the node is fine. -/
theorem kept_app {h : Head} {l l' : List Expr} (hn : FineNode o isFun h l') (hl : List.Forall₂ (Kept o isFun I) l l') :
    Kept o isFun I (.app h l) (.app h l') := by
  have hv : ∀ ρ, l'.map (eval I ρ) = l.map (eval I ρ) := by
    intro ρ
    clear hn
    induction hl with
    | nil => rfl
    | cons h _ ih => rw [List.map_cons, List.map_cons, h.value, ih]
  refine ⟨fun ρ => by rw [eval_app, eval_app, hv], fun n hn' => ?_, .app _ _ hn ?_⟩
  · rw [free_app] at hn' ⊢
    clear hn hv
    induction hl with
    | nil => exact hn'
    | cons h _ ih =>
      rw [List.flatMap_cons, List.mem_append] at hn' ⊢
      exact hn'.imp (h.free n) ih
  · clear hn hv
    induction hl with
    | nil => exact fun e he => (by cases he)
    | cons h _ ih =>
      intro e he
      rcases List.mem_cons.1 he with rfl | he
      · exact h.fine
      · exact ih e he

/-- Symbols and numbers come only from themselves. -/
theorem funArgs_atom (g : Expr → Expr) (fuel : Nat) (e e' : Expr) (h : funArgs isFun g fuel e = .ok e')
    (ha : ∀ hd l, e' ≠ .app hd l) : e' = e := by
  cases fuel with
  | zero => rw [funArgs] at h; injection h with h; exact h.symm
  | succ fuel =>
    cases e with
    | sym n => rw [funArgs] at h; injection h with h; exact h.symm
    | num q => rw [funArgs] at h; injection h with h; exact h.symm
    | app hd l =>
      rw [funArgs] at h
      simp only [bind, Except.bind, pure, Except.pure] at h
      split at h
      · cases h
      split at h
      · cases h
      · injection h with h
        exact absurd h.symm (ha _ _)

theorem forall₂_refl_kept {l : List Expr} (h : ∀ e ∈ l, Fine o isFun e) : List.Forall₂ (Kept o isFun I) l l := by
  induction l with
  | nil => exact .nil
  | cons a l ih =>
    exact .cons ⟨fun _ => rfl, fun _ h => h, h a List.mem_cons_self⟩ (ih fun e he => h e (List.mem_cons_of_mem _ he))

theorem forall₂_trans_kept {a b c : List Expr} (h : List.Forall₂ (Kept o isFun I) a b)
    (h' : List.Forall₂ (Kept o isFun I) b c) : List.Forall₂ (Kept o isFun I) a c := by
  induction h generalizing c with
  | nil => cases h'; exact .nil
  | cons h1 _ ih => cases h' with
    | cons h2 h3 => exact .cons (h1.trans h2) (ih h3)

theorem firstArg_spec {g : Expr → Expr} (hg : Harmless o isFun I g) {h : Head} {l : List Expr}
    (hn : FineNode o isFun h l) (hl : ∀ e ∈ l, Fine o isFun e) :
    ∃ l', firstArg isFun g h l = .ok l' ∧ List.Forall₂ (Kept o isFun I) l l' ∧ (h = .pow → l' = l) := by
  unfold firstArg
  split
  · next n =>
    split
    · next hf =>
      split
      · exact absurd rfl (hn.1 n rfl hf)
      · next a t =>
        refine ⟨_, rfl, .cons ⟨fun ρ => hg.value ρ a, hg.free a, hg.fine a (hl a List.mem_cons_self)⟩
          (forall₂_refl_kept fun e he => hl e (List.mem_cons_of_mem _ he)), fun h => ?_⟩
        cases h
    · exact ⟨l, rfl, forall₂_refl_kept hl, fun _ => rfl⟩
  · exact ⟨l, rfl, forall₂_refl_kept hl, fun _ => rfl⟩

theorem funArgs_kept {g : Expr → Expr} (hg : Harmless o isFun I g) : ∀ fuel e, Fine o isFun e →
    ∃ e', funArgs isFun g fuel e = .ok e' ∧ Kept o isFun I e e' := by
  intro fuel
  induction fuel with
  | zero => exact fun e he => ⟨e, by rw [funArgs], fun _ => rfl, fun _ h => h, he⟩
  | succ fuel ih =>
    intro e he
    cases e with
    | sym n => exact ⟨_, by rw [funArgs], fun _ => rfl, fun _ h => h, he⟩
    | num q => exact ⟨_, by rw [funArgs], fun _ => rfl, fun _ h => h, he⟩
    | app h l =>
      cases he with
      | app _ _ hn hl =>
        obtain ⟨l1, e1, k1, p1⟩ := firstArg_spec hg hn hl
        have hf1 : ∀ e ∈ l1, Fine o isFun e := by
          clear e1 p1 hn hl
          induction k1 with
          | nil => exact fun e he => (by cases he)
          | cons h _ ih =>
            intro e he
            rcases List.mem_cons.1 he with rfl | he
            · exact h.fine
            · exact ih e he
        obtain ⟨l2, e2, k2⟩ := mapM_kept l1 fun e he => ih e (hf1 e he)
        refine ⟨.app h l2, ?_, kept_app ?_ (forall₂_trans_kept k1 k2)⟩
        · rw [funArgs]
          simp only [bind, Except.bind, e1, e2, pure, Except.pure]
        · have hlen := (forall₂_trans_kept k1 k2).length_eq
          have key : h = .pow → ∀ x, l2.head? = some x → (∀ hd l, x ≠ .app hd l) → l.head? = some x ∧
              (∀ n : ℤ, l.tail = [.num n] → l2.tail = [.num n]) := by
            intro hp x hx hna
            obtain rfl := p1 hp
            cases l1 with
            | nil => rw [List.length_eq_zero_iff.1 hlen.symm] at hx; cases hx
            | cons a t =>
              rw [List.mapM_cons] at e2
              simp only [bind, Except.bind, pure, Except.pure] at e2
              split at e2
              · cases e2
              next a' ha' =>
              split at e2
              · cases e2
              next t' ht' =>
              injection e2 with e2
              subst e2
              simp only [List.head?_cons, Option.some.injEq] at hx
              subst hx
              rw [funArgs_atom g fuel a a' ha' hna]
              refine ⟨rfl, fun n hn => ?_⟩
              simp only [List.tail_cons] at hn ⊢
              subst hn
              cases fuel <;> · rw [List.mapM_cons, funArgs] at ht'
                               cases ht'; rfl
          refine ⟨fun n h1 h2 h3 => hn.1 n h1 h2 (List.length_eq_zero_iff.1 (by rw [hlen, h3]; rfl)), ?_, ?_⟩
          · intro hd hp hh
            obtain ⟨h1, h2⟩ := key hp _ hh (by simp)
            obtain ⟨n, h3, h4⟩ := hn.2.1 hd hp h1
            exact ⟨n, h3, h2 n h4⟩
          · intro hd hp hh
            obtain ⟨h1, h2⟩ := key hp _ hh (by simp)
            obtain ⟨n, h4⟩ := hn.2.2 hd hp h1
            exact ⟨n, h2 n h4⟩

theorem doFactor_kept (hc : CollectOk o isFun I collect) (fuel : Nat) (e : Expr) (st : PreSt) (he : Fine o isFun e) :
    ∃ e', doFactor collect isFun o fuel e st = .ok e' ∧ Kept o isFun I e e' := by
  obtain ⟨e1, h1, k1⟩ := funArgs_kept (collectEach_kept hc (st.tab.keys.filter (· ≠ negName o.pre))) fuel e he
  refine ⟨collect e1 ((st.tab.keys.filter (· ≠ negName o.pre)).filter (· ∈ e1.free)), ?_,
    k1.trans ⟨fun ρ => hc.value ρ e1 _, hc.free e1 _, hc.fine e1 _ k1.fine⟩⟩
  · simp only [doFactor, bind, Except.bind, h1, pure, Except.pure]

theorem doNegative_kept (hc : CollectOk o isFun I collect) (fuel : Nat) (e : Expr) (he : Fine o isFun e) :
    ∃ e', doNegative collect isFun o fuel e = .ok e' ∧ Kept o isFun I e e' := by
  obtain ⟨e1, h1, k1⟩ := funArgs_kept (g := fun a => collect a [negName o.pre])
    ⟨fun ρ e => hc.value ρ e _, fun e => hc.free e _, fun e => hc.fine e _⟩ fuel e he
  refine ⟨collect e1 [negName o.pre], ?_, k1.trans ⟨fun ρ => hc.value ρ e1 _, hc.free e1 _, hc.fine e1 _ k1.fine⟩⟩
  simp only [doNegative, bind, Except.bind, h1, pure, Except.pure]

/-! ## Powers of minus one, and ones -/

theorem tdiv_int (n : ℤ) : ((n : ℚ).num.tdiv (n : ℚ).den) = n := by simp

theorem simpNegList_spec (σ : Str → K) (l : List Expr)
    (ih : ∀ e ∈ l, ∃ e', simpNeg (negName o.pre) (oneName o.pre) e = .ok e' ∧ eval I σ e' = eval I σ e ∧
      ∀ n ∈ e'.free, n ∈ e.free ∨ n = oneName o.pre) :
    ∃ l', simpNegList (negName o.pre) (oneName o.pre) l = .ok l' ∧ l'.map (eval I σ) = l.map (eval I σ) ∧
      ∀ n ∈ l'.flatMap free, n ∈ l.flatMap free ∨ n = oneName o.pre := by
  induction l with
  | nil => exact ⟨[], by rw [simpNegList], rfl, fun n hn => .inl hn⟩
  | cons a l IH =>
    obtain ⟨a', h1, h2, h3⟩ := ih a List.mem_cons_self
    obtain ⟨l', h4, h5, h6⟩ := IH fun e he => ih e (List.mem_cons_of_mem _ he)
    refine ⟨a' :: l', ?_, ?_, ?_⟩
    · simp only [simpNegList, h1, h4]
    · simp only [List.map_cons, h2, h5]
    · intro n hn
      rw [List.flatMap_cons, List.mem_append] at hn ⊢
      rcases hn with hn | hn
      · exact (h3 n hn).imp_left .inl
      · exact (h6 n hn).imp_left .inr

theorem simpNeg_spec (hI : PowOk I) (hd : o.declareNeg1 = true) (σ : Str → K) (hneg : σ (negName o.pre) = -1)
    (hone : σ (oneName o.pre) = 1) (e : Expr) (he : Fine o isFun e) :
    ∃ e', simpNeg (negName o.pre) (oneName o.pre) e = .ok e' ∧ eval I σ e' = eval I σ e ∧
      ∀ n ∈ e'.free, n ∈ e.free ∨ n = oneName o.pre := by
  induction e using Expr.ind with
  | hs n => exact ⟨_, by rw [simpNeg], rfl, fun n hn => .inl hn⟩
  | hq q => exact ⟨_, by rw [simpNeg], rfl, fun n hn => .inl hn⟩
  | ha h l ih =>
    cases he with
    | app _ _ hn hl =>
      rw [simpNeg]
      split
      · next hc =>
        obtain ⟨hp, hh⟩ := hc
        obtain ⟨n, ht⟩ := hn.2.2 hd hp hh
        have hl2 : l = [.sym (negName o.pre), .num n] := by
          cases l with
          | nil => cases hh
          | cons a t =>
            simp only [List.head?_cons, Option.some.injEq, List.tail_cons] at hh ht
            rw [hh, ht]
        subst hl2
        subst hp
        refine ⟨.sym (if ((n : ℚ).num.tdiv (n : ℚ).den) % 2 = 0 then oneName o.pre else negName o.pre), rfl, ?_, ?_⟩
        · rw [eval_app]
          simp only [List.map_cons, List.map_nil, eval_sym, eval_num, hneg, Interp.app]
          rw [hI n, tdiv_int]
          by_cases hev : n % 2 = 0
          · rw [if_pos hev, hone, if_pos (Int.even_iff.2 hev)]
          · rw [if_neg hev, hneg, if_neg (fun h => hev (Int.even_iff.1 h))]
        · intro m hm
          rw [free_sym, List.mem_singleton] at hm
          split at hm
          · exact .inr hm
          · exact .inl (by simp [hm])
      · obtain ⟨l', h1, h2, h3⟩ := simpNegList_spec σ l fun e he => ih e he (hl e he)
        rw [h1]
        refine ⟨_, rfl, ?_, ?_⟩
        · rw [eval_app, eval_app, h2]
        · intro n hn
          rw [free_app] at hn ⊢
          exact h3 n hn

theorem onesList_eq (one : Str) (l : List Expr) : onesList one l = l.map (ones one) := by
  induction l with
  | nil => rw [onesList]; rfl
  | cons a l ih => rw [onesList, ih]; rfl

theorem ones_value (σ : Str → K) (one : Str) (hone : σ one = 1) (e : Expr) : eval I σ (ones one e) = eval I σ e := by
  induction e using Expr.ind with
  | hs n => rw [ones]
  | hq q =>
    rw [ones]
    split
    · next h => subst h; simp [hone]
    · rfl
  | ha h l ih =>
    rw [ones, onesList_eq, eval_app, eval_app, List.map_map]
    congr 1
    exact List.map_congr_left ih

theorem ones_free (one : Str) (e : Expr) : ∀ n ∈ (ones one e).free, n ∈ e.free ∨ n = one := by
  induction e using Expr.ind with
  | hs n => rw [ones]; exact fun n hn => .inl hn
  | hq q =>
    rw [ones]
    split
    · intro n hn; exact .inr (by simpa using hn)
    · exact fun n hn => .inl hn
  | ha h l ih =>
    rw [ones, onesList_eq]
    intro n hn
    rw [free_app] at hn ⊢
    obtain ⟨a, ha, hn⟩ := List.mem_flatMap.1 hn
    obtain ⟨b, hb, rfl⟩ := List.mem_map.1 ha
    exact (ih b hb n hn).imp_left fun h => List.mem_flatMap.2 ⟨b, hb, h⟩

/-! ## One expression, and the list -/

/-- What pre-processing does to an expression. -/
structure Done (o : PreOpts) (I : Interp K) (e : Expr) (st : PreSt) (e' : Expr) (st' : PreSt) : Prop where
  inv : PInv o.pre st'
  le : PLe st st'
  value : ∀ σ : Str → K, Agrees σ st' → σ (negName o.pre) = -1 → σ (oneName o.pre) = 1 → eval I σ e' = eval I σ e
  free : ∀ n ∈ e'.free, n ∈ e.free ∨ n ∈ st'.tab.keys ∨ (o.declareNeg1 = true ∧ n = oneName o.pre)

theorem doOnes_spec {e : Expr} {st : PreSt} (hi : PInv o.pre st) :
    PInv o.pre (doOnes o e st).2 ∧ PLe st (doOnes o e st).2 ∧
    (∀ σ : Str → K, σ (oneName o.pre) = 1 → eval I σ (doOnes o e st).1 = eval I σ e) ∧
    ∀ n ∈ (doOnes o e st).1.free, n ∈ e.free ∨ n ∈ (doOnes o e st).2.tab.keys := by
  unfold doOnes
  split
  · split
    · next h =>
      obtain ⟨h1, h2⟩ := enter hi (.inr zero_le_one) h
      rw [constName_one] at h1 h2
      refine ⟨h1, h2, fun σ hσ => ones_value σ _ hσ e, fun n hn => (ones_free _ e n hn).imp_right ?_⟩
      rintro rfl
      exact mem_keys_of (Dict.get?_set_self ..)
    · next h =>
      refine ⟨hi, PLe.refl _, fun σ hσ => ones_value σ _ hσ e, fun n hn => (ones_free _ e n hn).imp_right ?_⟩
      rintro rfl
      obtain ⟨s, hs⟩ := Option.ne_none_iff_exists'.1 h
      have h1 := hi.fwd _ _ hs
      have h2 := (hi.bwd _ _ h1).2.1
      rw [constName_one] at h2
      rw [h2] at h1
      exact mem_keys_of h1
  · exact ⟨hi, PLe.refl _, fun _ _ => rfl, fun n hn => .inl hn⟩

theorem preOne_done (hI : o.declareNeg1 = true → PowOk I) (hc : CollectOk o isFun I collect) (fuel : Nat) {e : Expr}
    {st : PreSt} (hi : PInv o.pre st) (hf : Fine o isFun e) (hr : ∀ n ∈ e.free, ¬ Reserved o.pre n) :
    ∃ r, preOne collect isFun o fuel e st = .ok r ∧ Done o I e st r.1 r.2 := by
  have s0 := repl_spec o I e none st hi
  have f0 := repl_fine o isFun e hr hf none st hi
  unfold preOne
  generalize repl o none e st = r at s0 f0
  obtain ⟨e1, h1, k1⟩ : ∃ e1, (if o.factor then doFactor collect isFun o fuel r.1 r.2 else .ok r.1) = .ok e1 ∧
      Kept o isFun I r.1 e1 := by
    split
    · exact doFactor_kept hc fuel _ _ f0
    · exact ⟨_, rfl, fun _ => rfl, fun _ h => h, f0⟩
  obtain ⟨e2, h2, k2⟩ : ∃ e2, (if o.negative then doNegative collect isFun o fuel e1 else .ok e1) = .ok e2 ∧
      Kept o isFun I e1 e2 := by
    split
    · exact doNegative_kept hc fuel _ k1.fine
    · exact ⟨_, rfl, fun _ => rfl, fun _ h => h, k1.fine⟩
  obtain ⟨e3, h3, v3, f3⟩ : ∃ e3, (if o.declareNeg1 then simpNeg (negName o.pre) (oneName o.pre) e2 else .ok e2) = .ok e3 ∧
      (∀ σ : Str → K, σ (negName o.pre) = -1 → σ (oneName o.pre) = 1 → eval I σ e3 = eval I σ e2) ∧
      ∀ n ∈ e3.free, n ∈ e2.free ∨ (o.declareNeg1 = true ∧ n = oneName o.pre) := by
    split
    · next hd =>
      have hne : negName o.pre ≠ oneName o.pre := by
        rw [← constName_neg, ← constName_one]
        intro h
        exact absurd (constName_inj (.inl rfl) (.inr zero_le_one) h) (by norm_num)
      obtain ⟨e3, h3, -, f3⟩ := simpNeg_spec (I := I) (hI hd) hd
        (fun n => if n = negName o.pre then -1 else 1) (if_pos rfl) (if_neg hne.symm) e2 k2.fine
      refine ⟨e3, h3, fun σ h h' => ?_, fun n hn => (f3 n hn).imp_right fun h => ⟨hd, h⟩⟩
      obtain ⟨e3', h3', v3, -⟩ := simpNeg_spec (I := I) (hI hd) hd σ h h' e2 k2.fine
      rw [h3] at h3'
      cases h3'
      exact v3
    · exact ⟨_, rfl, fun _ _ _ => rfl, fun n hn => .inl hn⟩
  have kf : ∀ n ∈ e3.free, n ∈ e.free ∨ n ∈ r.2.tab.keys ∨ (o.declareNeg1 = true ∧ n = oneName o.pre) := by
    intro n hn
    rcases f3 n hn with h | h
    · exact (s0.free n (k1.free n (k2.free n h))).imp_right .inl
    · exact .inr (.inr h)
  have kv : ∀ σ : Str → K, Agrees σ r.2 → σ (negName o.pre) = -1 → σ (oneName o.pre) = 1 →
      eval I σ e3 = eval I σ e := fun σ a b c => by
    rw [v3 σ b c, k2.value, k1.value, s0.value σ a]
  simp only [h1, h2, h3, Except.bind]
  refine ⟨_, rfl, ?_⟩
  split
  · obtain ⟨d1, d2, d3, d4⟩ := doOnes_spec (I := I) (e := e3) s0.inv
    refine ⟨d1, s0.le.trans d2, fun σ a b c => by rw [d3 σ c, kv σ (a.mono d2) b c], fun n hn => ?_⟩
    rcases d4 n hn with h | h
    · exact (kf n h).imp_right fun h => h.imp_left (keys_mono d2)
    · exact .inr (.inl h)
  · exact ⟨s0.inv, s0.le, kv, kf⟩

theorem preLoop_done (hI : o.declareNeg1 = true → PowOk I) (hc : CollectOk o isFun I collect) (fuel : Nat) :
    ∀ (es : List Expr) (st : PreSt), PInv o.pre st → (∀ e ∈ es, Fine o isFun e) →
    (∀ e ∈ es, ∀ n ∈ e.free, ¬ Reserved o.pre n) →
    ∃ r, preLoop collect isFun o fuel es st = .ok r ∧ PInv o.pre r.2 ∧ PLe st r.2 ∧
      List.Forall₂ (fun e e' => (∀ σ : Str → K, Agrees σ r.2 → σ (negName o.pre) = -1 → σ (oneName o.pre) = 1 →
          eval I σ e' = eval I σ e) ∧
        ∀ n ∈ e'.free, n ∈ e.free ∨ n ∈ r.2.tab.keys ∨ (o.declareNeg1 = true ∧ n = oneName o.pre)) es r.1
  | [], st, hi, _, _ => ⟨_, by rw [preLoop], hi, PLe.refl _, .nil⟩
  | e :: es, st, hi, hf, hr => by
    obtain ⟨r, h1, d⟩ := preOne_done hI hc fuel hi (hf e List.mem_cons_self) (hr e List.mem_cons_self)
    obtain ⟨s, h2, i2, l2, k2⟩ := preLoop_done hI hc fuel es r.2 d.inv (fun a h => hf a (List.mem_cons_of_mem _ h))
      (fun a h => hr a (List.mem_cons_of_mem _ h))
    refine ⟨(r.1 :: s.1, s.2), ?_, i2, d.le.trans l2, .cons ⟨fun σ a => d.value σ (a.mono l2), fun n hn => ?_⟩ k2⟩
    · rw [preLoop]
      simp only [bind, Except.bind, h1, h2, pure, Except.pure]
    · exact (d.free n hn).imp_right fun h => h.imp_left (keys_mono l2)

theorem PInv.empty (pre : Str) : PInv pre ⟨[], []⟩ :=
  ⟨fun q s h => (by cases h), fun s q h => (by cases h), Dict.Wf.nil⟩

/-- Both cases at once; when minus one is declared the name of one has to be added to the table. -/
theorem preprocess_done (hI : o.declareNeg1 = true → PowOk I) (hc : CollectOk o isFun I collect) (fuel : Nat)
    (es : List Expr) (hf : ∀ e ∈ es, Fine o isFun e) (hr : ∀ e ∈ es, ∀ n ∈ e.free, ¬ Reserved o.pre n) :
    ∃ es' T, preprocess collect isFun o fuel es = .ok (es', T) ∧ Dict.Wf T ∧
      (∀ s q, T.get? s = some q → (q = -1 ∨ 0 ≤ q) ∧ s = constName o.pre q) ∧
      List.Forall₂ (fun e e' =>
        (∀ ρ : Str → K, eval I (withTable (if o.declareNeg1 then T.set (oneName o.pre) 1 else T) ρ) e' = eval I ρ e) ∧
        ∀ n ∈ e'.free, n ∈ e.free ∨ n ∈ Dict.keys (if o.declareNeg1 then T.set (oneName o.pre) 1 else T)) es es' := by
  obtain ⟨⟨es', st⟩, h, i, -, k⟩ := preLoop_done hI hc fuel es ⟨[], []⟩ (PInv.empty _) hf hr
  refine ⟨es', st.tab, ?_, i.wf, fun s q h => ⟨(i.bwd s q h).1, (i.bwd s q h).2.1⟩, ?_⟩
  · simp only [preprocess, bind, Except.bind, h, pure, Except.pure]
  · have k' := (List.forall₂_and_left (p := fun e : Expr => ∀ n ∈ e.free, ¬ Reserved o.pre n) _ _).2 ⟨hr, k⟩
    refine k'.imp fun e e' hk => ?_
    obtain ⟨hr, hv, hfree⟩ := hk
    have hres : ∀ s q, st.tab.get? s = some q → Reserved o.pre s := fun s q h =>
      ⟨q, (i.bwd s q h).1, (i.bwd s q h).2.1⟩
    have rneg : Reserved o.pre (negName o.pre) := ⟨-1, .inl rfl, (constName_neg _).symm⟩
    have rone : Reserved o.pre (oneName o.pre) := ⟨1, .inr zero_le_one, (constName_one _).symm⟩
    have hne : negName o.pre ≠ oneName o.pre := by
      rw [← constName_neg, ← constName_one]
      intro h
      exact absurd (constName_inj (.inl rfl) (.inr zero_le_one) h) (by norm_num)
    generalize hT : (if o.declareNeg1 then st.tab.set (oneName o.pre) 1 else st.tab) = T'
    have hT1 : ∀ s q, st.tab.get? s = some q → T'.get? s = some q := by
      intro s q h
      subst hT
      split
      · rw [Dict.get?_set]
        split
        · next e =>
          have := (i.bwd s q h)
          rw [e, ← constName_one] at this
          rw [constName_inj (.inr zero_le_one) this.1 this.2.1]
        · exact h
      · exact h
    have hT2 : ∀ s q, T'.get? s = some q → Reserved o.pre s := by
      intro s q h
      subst hT
      split at h
      · rw [Dict.get?_set] at h
        split at h
        · next e => rw [e]; exact rone
        · exact hres _ _ h
      · exact hres _ _ h
    have hT3 : o.declareNeg1 = true → T'.get? (oneName o.pre) = some 1 := by
      intro hd
      subst hT
      rw [if_pos hd]
      exact Dict.get?_set_self ..
    refine ⟨fun ρ => ?_, fun n hn => ?_⟩
    · have hv' := hv (fun n => if n = negName o.pre then -1 else if n = oneName o.pre then 1 else withTable st.tab ρ n)
        (by
          intro s q h
          obtain ⟨h1, h2, -⟩ := i.bwd s q h
          show (if _ then _ else _) = _
          split
          · next e =>
            rw [e, ← constName_neg] at h2
            rw [← constName_inj (.inl rfl) h1 h2]
            simp
          split
          · next e =>
            rw [e, ← constName_one] at h2
            rw [← constName_inj (.inr zero_le_one) h1 h2]
            simp
          · simp only [withTable, h])
        (by simp) (by simp [hne.symm])
      rw [eval_congr I e' (ρ' := fun n => if n = negName o.pre then -1 else if n = oneName o.pre then 1
        else withTable st.tab ρ n), hv']
      · refine eval_congr I e fun n hn => ?_
        have hn := hr n hn
        show (if _ then _ else _) = _
        rw [if_neg, if_neg, withTable]
        · split
          · next h => exact absurd (hres _ _ h) hn
          · rfl
        · rintro rfl; exact hn rone
        · rintro rfl; exact hn rneg
      · intro n hn
        rcases hfree n hn with h | h | ⟨h, rfl⟩
        · have hn := hr n h
          show _ = (if _ then _ else _)
          rw [if_neg (by rintro rfl; exact hn rneg), if_neg (by rintro rfl; exact hn rone)]
          have e1 : withTable T' ρ n = ρ n := by
            rw [withTable]
            split
            · next h => exact absurd (hT2 _ _ h) hn
            · rfl
          have e2 : withTable st.tab ρ n = ρ n := by
            rw [withTable]
            split
            · next h => exact absurd (hres _ _ h) hn
            · rfl
          rw [e1, e2]
        · obtain ⟨q, hq⟩ := (Dict.mem_keys_iff _ _).1 h
          obtain ⟨h1, h2, -⟩ := i.bwd n q hq
          have e1 : withTable T' ρ n = (q : K) := by rw [withTable, hT1 _ _ hq]
          have e2 : withTable st.tab ρ n = (q : K) := by rw [withTable, hq]
          show _ = (if _ then _ else _)
          rw [e1, e2]
          split
          · next e =>
            rw [e, ← constName_neg] at h2
            rw [← constName_inj (.inl rfl) h1 h2]
            simp
          split
          · next e =>
            rw [e, ← constName_one] at h2
            rw [← constName_inj (.inr zero_le_one) h1 h2]
            simp
          · rfl
        · show _ = (if _ then _ else _)
          have e1 : withTable T' ρ (oneName o.pre) = 1 := by rw [withTable, hT3 h]; simp
          rw [e1, if_neg hne.symm, if_pos rfl]
    · rcases hfree n hn with h | h | ⟨h, rfl⟩
      · exact .inl h
      · obtain ⟨q, hq⟩ := (Dict.mem_keys_iff _ _).1 h
        exact .inr (mem_keys_of (hT1 _ _ hq))
      · exact .inr (mem_keys_of (hT3 h))

/-! ## C25 -/

/-- **C25** (minus one not declared): the call succeeds; each result has the value of the corresponding input once the
introduced symbols are given the values in the returned table, and every symbol of a result is a symbol of the input or
in the table. -/
theorem C25_value (hd : o.declareNeg1 = false) (hc : CollectOk o isFun I collect) (fuel : Nat)
    (es : List Expr) (hf : ∀ e ∈ es, Fine o isFun e) (hr : ∀ e ∈ es, ∀ n ∈ e.free, ¬ Reserved o.pre n) :
    ∃ es' T, preprocess collect isFun o fuel es = .ok (es', T) ∧
      List.Forall₂ (fun e e' => (∀ ρ : Str → K, eval I (withTable T ρ) e' = eval I ρ e) ∧
        ∀ n ∈ e'.free, n ∈ e.free ∨ n ∈ T.keys) es es' := by
  obtain ⟨es', T, h1, -, -, h2⟩ := preprocess_done (o := o) (I := I) (fun h => by rw [hd] at h; cases h) hc fuel es hf hr
  rw [hd] at h2
  exact ⟨es', T, h1, h2⟩

/-- **C25**, minus one declared as a symbol: the same, provided the symbol for one is added to the returned table.
Missing: that it is in the table, which is false (`C25_undeclared`); inputs with other powers of minus one
(`C25_fraction`, `C25_symbolic`). -/
theorem C25_declared_partial (hd : o.declareNeg1 = true) (hI : PowOk I) (hc : CollectOk o isFun I collect) (fuel : Nat)
    (es : List Expr) (hf : ∀ e ∈ es, Fine o isFun e) (hr : ∀ e ∈ es, ∀ n ∈ e.free, ¬ Reserved o.pre n) :
    ∃ es' T, preprocess collect isFun o fuel es = .ok (es', T) ∧
      List.Forall₂ (fun e e' =>
        (∀ ρ : Str → K, eval I (withTable (T.set (o.pre ++ (c% "_Integer_1")) 1) ρ) e' = eval I ρ e) ∧
        ∀ n ∈ e'.free, n ∈ e.free ∨ n ∈ T.keys ∨ n = o.pre ++ (c% "_Integer_1")) es es' := by
  obtain ⟨es', T, h1, -, -, h2⟩ := preprocess_done (o := o) (I := I) (fun _ => hI) hc fuel es hf hr
  rw [hd] at h2
  refine ⟨es', T, h1, h2.imp fun e e' h => ⟨h.1, fun n hn => (h.2 n hn).imp_right fun hk => ?_⟩⟩
  obtain ⟨q, hq⟩ := (Dict.mem_keys_iff _ _).1 hk
  simp only [if_true, Dict.get?_set] at hq
  split at hq
  · next e => exact .inr e
  · exact .inl (mem_keys_of hq)

/-- **C25** (table): the names in the table are distinct, and each spells the number it stands for. -/
theorem C25_table (hI : o.declareNeg1 = true → PowOk I) (hc : CollectOk o isFun I collect) (fuel : Nat)
    (es : List Expr) (hf : ∀ e ∈ es, Fine o isFun e) (hr : ∀ e ∈ es, ∀ n ∈ e.free, ¬ Reserved o.pre n) :
    ∃ es' T, preprocess collect isFun o fuel es = .ok (es', T) ∧ T.keys.Nodup ∧
      ∀ s q, T.get? s = some q →
        (q = -1 ∧ s = o.pre ++ (c% "_NegativeOne_")) ∨
        (∃ n : ℕ, q = n ∧ s = o.pre ++ (c% "_Integer_") ++ dec n) ∨
        (∃ a b : ℕ, 1 < b ∧ Nat.Coprime a b ∧ q = a / b ∧
          s = o.pre ++ (c% "_Rational_") ++ dec a ++ (c% "_") ++ dec b) := by
  obtain ⟨es', T, h1, h2, h3, -⟩ := preprocess_done (o := o) (I := I) hI hc fuel es hf hr
  refine ⟨es', T, h1, h2, fun s q h => ?_⟩
  obtain ⟨h4, h5⟩ := h3 s q h
  by_cases hq : q = -1
  · exact .inl ⟨hq, by rw [h5, hq, constName_neg]; rfl⟩
  have h0 := h4.resolve_left hq
  rw [constName_nonneg h0] at h5
  have hn : ((q.num.natAbs : ℕ) : ℚ) = (q.num : ℚ) := by
    have h : ((q.num.natAbs : ℤ) : ℚ) = (q.num : ℚ) := by rw [Int.natAbs_of_nonneg (Rat.num_nonneg.2 h0)]
    rw [← h, Int.cast_natCast]
  unfold ratName at h5
  split at h5
  · next hden =>
    have := q.den_pos
    exact .inr (.inr ⟨q.num.natAbs, q.den, by omega, q.reduced, by rw [hn]; exact (Rat.num_div_den q).symm, h5⟩)
  · next hden =>
    refine .inr (.inl ⟨q.num.natAbs, ?_, h5⟩)
    rw [hn]
    have := Rat.num_div_den q
    rw [not_not.1 hden] at this
    simpa using this.symm

end

/-! ## Instances and counterexamples -/

/-- A collecting function that does nothing is admissible. -/
theorem collect_id (o : PreOpts) (isFun : Str → Bool) (I : Interp K) : CollectOk o isFun I fun e _ => e :=
  ⟨fun _ _ _ => rfl, fun _ _ _ h => h, fun _ _ h => h⟩

private def opts0 (d f n : Bool) : PreOpts := ⟨[], d, f, n⟩

/-- `exp(-x/12) + 1 - 3*y` with all options off but factoring. -/
private def exE : Expr :=
  .app .add [.app (.fn (c% "exp")) [.app .mul [.num (-1/12), .sym (c% "x")]], .num 1,
    .app .mul [.num (-3), .sym (c% "y")], .app .pow [.sym (c% "x"), .num (1/2)]]

example : (preprocess (fun e _ => e) (fun n => n = (c% "exp")) (opts0 false true false) 9 [exE]).toOption =
    some ([.app .add [.app (.fn (c% "exp")) [.app .mul [.app .mul [.num (-1), .sym (c% "_Rational_1_12")], .sym (c% "x")]],
        .sym (c% "_Integer_1"), .app .mul [.app .mul [.num (-1), .sym (c% "_Integer_3")], .sym (c% "y")],
        .app .pow [.sym (c% "x"), .num (1/2)]]],
      [((c% "_Rational_1_12"), 1/12), ((c% "_Integer_1"), 1), ((c% "_Integer_3"), 3)]) := by
  decide +kernel

theorem not_reserved_of_head (n : Str) (h : n.head? ≠ some '_') : ¬ Reserved [] n := by
  rintro ⟨q, -, rfl⟩
  apply h
  unfold constName negName ratName
  split
  · rfl
  split <;> rfl

/-- The hypotheses of `C25_value` and `C25_declared_partial` hold of this expression. -/
example (d : Bool) : Fine (opts0 d true false) (fun n => n = (c% "exp")) exE ∧ ∀ n ∈ exE.free, ¬ Reserved [] n := by
  constructor
  · unfold exE
    refine .app _ _ ⟨fun n h => (by cases h), fun _ h => (by cases h), fun _ h => (by cases h)⟩ fun e he => ?_
    simp only [List.mem_cons, List.not_mem_nil, or_false] at he
    rcases he with rfl | rfl | rfl | rfl
    · refine .app _ _ ⟨fun _ _ _ => by simp, fun _ h => (by cases h), fun _ h => (by cases h)⟩ fun e he => ?_
      simp only [List.mem_cons, List.not_mem_nil, or_false] at he
      subst he
      refine .app _ _ (fineNode_mul ..) fun e he => ?_
      simp only [List.mem_cons, List.not_mem_nil, or_false] at he
      rcases he with rfl | rfl
      · exact .num _
      · exact .sym _
    · exact .num _
    · refine .app _ _ (fineNode_mul ..) fun e he => ?_
      simp only [List.mem_cons, List.not_mem_nil, or_false] at he
      rcases he with rfl | rfl
      · exact .num _
      · exact .sym _
    · refine .app _ _ ⟨fun n h => (by cases h), fun _ _ h => ?_, fun _ _ h => ?_⟩ fun e he => ?_
      · simp at h
      · simp [negName, opts0] at h
      simp only [List.mem_cons, List.not_mem_nil, or_false] at he
      rcases he with rfl | rfl
      · exact .sym _
      · exact .num _
  · intro n hn
    apply not_reserved_of_head
    have : n = (c% "x") ∨ n = (c% "y") ∨ n = (c% "x") := by simpa [exE] using hn
    rcases this with rfl | rfl | rfl <;> decide

/-- Violation: `(-1)**2 * x` (kept unevaluated) with minus one declared, no factoring: the result mentions
`_Integer_1`, which is not in the table. -/
theorem C25_undeclared :
    ∃ T, (preprocess (fun e _ => e) (fun _ => false) (opts0 true false false) 9
        [.app .mul [.app .pow [.num (-1), .num 2], .sym (c% "x")]]).toOption =
      some ([.app .mul [.sym (c% "_Integer_1"), .sym (c% "x")]], T) ∧ (c% "_Integer_1") ∉ T.keys :=
  ⟨[((c% "_NegativeOne_"), -1)], by decide +kernel, by decide⟩

/-- Violation: a fractional power of minus one becomes one when minus one is declared, although the value assigned to
it by `I` is arbitrary. -/
theorem C25_fraction : ∃ (I : Interp ℚ) (T : Dict Str ℚ), PowOk I ∧
    (preprocess (fun e _ => e) (fun _ => false) (opts0 true false false) 9 [.app .pow [.num (-1), .num (1/3)]]).toOption =
      some ([.sym (c% "_Integer_1")], T) ∧
    ∀ ρ : Str → ℚ, eval I (withTable (T.set (c% "_Integer_1") 1) ρ) (.sym (c% "_Integer_1")) ≠
      eval I ρ (.app .pow [.num (-1), .num (1/3)]) := by
  refine ⟨⟨fun _ y => if y.num % 2 = 0 then 1 else -1, fun _ _ => 0⟩, [((c% "_NegativeOne_"), -1)], ?_,
    by decide +kernel, fun ρ => ?_⟩
  · intro n
    simp [Int.even_iff]
  · rw [eval_app]
    simp only [eval_sym, withTable, List.map_cons, List.map_nil, eval_num, Interp.app]
    have h1 : Dict.get? (Dict.set [((c% "_NegativeOne_"), (-1 : ℚ))] (c% "_Integer_1") 1) (c% "_Integer_1") = some 1 := by
      decide +kernel
    rw [h1]
    have h2 : ((1 / 3 : ℚ)).num % 2 ≠ 0 := by decide +kernel
    simp only [Rat.cast_id]
    rw [if_neg h2]
    norm_num

/-- A symbolic power of minus one raises `TypeError` when minus one is declared. -/
theorem C25_symbolic (x : Str) : preprocess (fun e _ => e) (fun _ => false) (opts0 true false false) 9
    [.app .pow [.num (-1), .sym x]] = .error .typeError := by
  simp [preprocess, preLoop, preOne, repl, replList, replNum, visitNeg1, negSym, opts0, Dict.get?, simpNeg, powNeg,
    bind, Except.bind]

end Verif.CSE
