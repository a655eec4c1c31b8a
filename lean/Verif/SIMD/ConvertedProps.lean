import Verif.SIMD.HeaderProps

/-!
# C55: the converted expression is made of calls that the header defines

Specification: `Convertible` says which expressions the conversion is meant for; `evalVec`
(Verif.SIMD.Header) runs the generated code with the macros of the header.
-/
namespace Verif.SIMD
open Verif.Py Verif.Sympy Verif.Sympy.Expr

/-- Exponents for which the header has what is needed: integers other than 0 and 1, 1/2, -1/2, -3/2, -5/2. -/
def PowOk (q : ℚ) : Prop :=
  (q.den = 1 ∧ q ≠ 0 ∧ q ≠ 1) ∨ q = 1 / 2 ∨ q = -(1 / 2) ∨ q = -(3 / 2) ∨ q = -(5 / 2)

/-- Expressions over symbols with the functions given by `A` (name and number of arguments), powers if `p`,
sums and products if `m`. -/
inductive Gr (p m : Bool) (A : List (Str × Nat)) : Expr → Prop
  | sym (s : Str) : Gr p m A (.sym s)
  | pow {a : Expr} {q : ℚ} : p = true → Gr p m A a → PowOk q → Gr p m A (.app .pow [a, .num q])
  | add {l : List Expr} : m = true → 2 ≤ l.length → (∀ a ∈ l, Gr p m A a) → Gr p m A (.app .add l)
  | mul {l : List Expr} : m = true → 2 ≤ l.length → (∀ a ∈ l, Gr p m A a) → Gr p m A (.app .mul l)
  | fn {n : Str} {l : List Expr} : (n, l.length) ∈ A → (∀ a ∈ l, Gr p m A a) → Gr p m A (.app (.fn n) l)

/-- The functions of SymPy for which the header has a macro. -/
def inFns : List (Str × Nat) := [((c% "Abs"), 1), ((c% "exp"), 1), ((c% "sin"), 1), ((c% "cos"), 1)]

/-- The macros of the header with their numbers of arguments. -/
def hdrFns : List (Str × Nat) :=
  [((c% "AbsSIMD"), 1), ((c% "ExpSIMD"), 1), ((c% "SinSIMD"), 1), ((c% "CosSIMD"), 1), (nSqrt, 1),
   (nAdd, 2), (nSub, 2), (nMul, 2), (nDiv, 2), (nFMA, 3), (nFMS, 3), (nNFMA, 3), (nNFMS, 3)]

/-- Expressions the conversion is meant for: sums and products of two or more terms, powers with the
exponents of `PowOk`, `Abs`, `exp`, `sin`, `cos`, and no other numbers than exponents (`cse_preprocess` has
turned them into symbols). -/
def Convertible (e : Expr) : Prop := Gr true true inFns e

section
variable {p m : Bool} {A : List (Str × Nat)}

theorem gr_fn_iff {n : Str} {l : List Expr} :
    Gr p m A (.app (.fn n) l) ↔ (n, l.length) ∈ A ∧ ∀ a ∈ l, Gr p m A a := by
  constructor
  · intro h; cases h with | fn h1 h2 => exact ⟨h1, h2⟩
  · rintro ⟨h1, h2⟩; exact .fn h1 h2

theorem gr_fn1 {n : Str} {a : Expr} : Gr p m A (fn1 n a) ↔ (n, 1) ∈ A ∧ Gr p m A a := by
  rw [fn1, gr_fn_iff]; simp
theorem gr_fn2 {n : Str} {a b : Expr} :
    Gr p m A (fn2 n a b) ↔ (n, 2) ∈ A ∧ Gr p m A a ∧ Gr p m A b := by
  rw [fn2, gr_fn_iff]; simp
theorem gr_fn3 {n : Str} {a b c : Expr} :
    Gr p m A (fn3 n a b c) ↔ (n, 3) ∈ A ∧ Gr p m A a ∧ Gr p m A b ∧ Gr p m A c := by
  rw [fn3, gr_fn_iff]; simp

/-- A traversal whose local rewriting turns trees of `P` into nodes with arguments in `P`. -/
theorem topDown_rel {f : Table → Expr → Expr × Table} {P : Expr → Prop} {R : Expr → Expr → Prop}
    (hleaf : ∀ d e a d1, f d e = (a, d1) → P e → (∀ h l, a ≠ .app h l) → R e a)
    (hnode : ∀ d e h l d1, f d e = (.app h l, d1) → P e →
      (∀ a ∈ l, P a) ∧ ∀ l', List.Forall₂ R l l' → R e (.app h l')) :
    ∀ fuel d e e' d', topDown f fuel d e = some (e', d') → P e → R e e' := by
  intro fuel
  induction fuel with
  | zero => intro d e e' d' h; cases h
  | succ fuel ih =>
    intro d e e' d' h hP
    have hmap : ∀ (l : List Expr) d l' d', mapS (topDown f fuel) d l = some (l', d') →
        (∀ a ∈ l, P a) → List.Forall₂ R l l' := by
      intro l
      induction l with
      | nil => intro d l' d' h _; simp only [mapS, Option.some.injEq, Prod.mk.injEq] at h; rw [← h.1]; exact .nil
      | cons a l ihl =>
        intro d l' d' h hl
        simp only [mapS] at h
        split at h
        · cases h
        · next a' d1 ha =>
          split at h
          · cases h
          · next l1 d2 hl1 =>
            simp only [Option.some.injEq, Prod.mk.injEq] at h
            rw [← h.1]
            exact .cons (ih _ _ _ _ ha (hl _ (by simp))) (ihl _ _ _ hl1 (fun b hb => hl b (by simp [hb])))
    rw [topDown] at h
    split at h
    · next g l d1 hf =>
      obtain ⟨h1, h2⟩ := hnode _ _ _ _ _ hf hP
      split at h
      · cases h
      · next l' d2 hl =>
        simp only [Option.some.injEq, Prod.mk.injEq] at h
        rw [← h.1]
        exact h2 _ (hmap _ _ _ _ hl h1)
    · next a d1 hn hf =>
      simp only [Option.some.injEq, Prod.mk.injEq] at h
      rw [← h.1]
      exact hleaf _ _ _ _ hf hP hn

theorem forall₂_length {R : Expr → Expr → Prop} {l l' : List Expr} (h : List.Forall₂ R l l') :
    l'.length = l.length := h.length_eq.symm

theorem forall₂_right {Q : Expr → Prop} {l l' : List Expr} (h : List.Forall₂ (fun _ b => Q b) l l') :
    ∀ b ∈ l', Q b := by
  induction h with
  | nil => simp
  | cons h _ ih => simp [h]; exact ih

/-- The traversal with a rewriting that stays within expressions without powers. -/
theorem topDown_gr {g : Table → Expr → Expr} {m : Bool} {A : List (Str × Nat)}
    (hg : ∀ d e, Gr false m A e → Gr false m A (g d e)) {fuel : Nat} {d d' : Table} {e e' : Expr}
    (h : topDown (pureStep g) fuel d e = some (e', d')) (he : Gr false m A e) : Gr false m A e' := by
  refine topDown_rel (P := Gr false m A) (R := fun _ b => Gr false m A b) ?_ ?_ fuel d e e' d' h he
  · intro d e a d1 hf hP _
    have := hg d e hP
    rwa [show g d e = a from (Prod.mk.inj hf).1] at this
  · intro d e h l d1 hf hP
    have := hg d e hP
    rw [show g d e = .app h l from (Prod.mk.inj hf).1] at this
    cases this with
    | pow h => cases h
    | add h1 h2 h3 =>
      exact ⟨h3, fun l' hl => .add h1 (by rw [forall₂_length hl]; exact h2) (forall₂_right hl)⟩
    | mul h1 h2 h3 =>
      exact ⟨h3, fun l' hl => .mul h1 (by rw [forall₂_length hl]; exact h2) (forall₂_right hl)⟩
    | fn h1 h2 =>
      exact ⟨h2, fun l' hl => .fn (by rw [forall₂_length hl]; exact h1) (forall₂_right hl)⟩

/-! ### Step 1a -/

/-- Functions between step 1a and the end. -/
theorem step1a_gr {fuel : Nat} {d d' : Table} {e e' : Expr}
    (h : topDown (pureStep step1a) fuel d e = some (e', d')) (he : Gr true true inFns e) :
    Gr true true hdrFns e' := by
  let P : Expr → Prop := fun e => Gr true true inFns e ∨ ∃ q, e = .num q
  let R : Expr → Expr → Prop := fun e e' =>
    (Gr true true inFns e → Gr true true hdrFns e') ∧ ∀ q, e = .num q → e' = .num q
  have key : ∀ l l', List.Forall₂ R l l' → (∀ a ∈ l, Gr true true inFns a) →
      ∀ b ∈ l', Gr true true hdrFns b := by
    intro l l' h
    induction h with
    | nil => simp
    | cons h _ ih =>
      intro hl b hb
      rcases List.mem_cons.1 hb with rfl | hb
      · exact h.1 (hl _ (by simp))
      · exact ih (fun a ha => hl a (by simp [ha])) b hb
  refine (topDown_rel (P := P) (R := R) ?_ ?_ fuel d e e' d' h (.inl he)).1 he
  · intro d e a d1 hf hP hn
    have hf : step1a d e = a := (Prod.mk.inj hf).1
    rcases e with s | q | ⟨hd, l⟩
    · simp only [step1a] at hf
      subst hf
      exact ⟨fun _ => .sym s, by intro q hq; cases hq⟩
    · simp only [step1a] at hf
      subst hf
      exact ⟨(by intro h; cases h), fun q hq => hq⟩
    · exfalso
      unfold step1a at hf
      split at hf
      · split at hf <;> exact hn _ _ hf.symm
      · exact hn _ _ hf.symm
  · intro d e g l d1 hf hP
    have hf : step1a d e = .app g l := (Prod.mk.inj hf).1
    rcases hP with hP | ⟨q, rfl⟩
    swap
    · simp [step1a] at hf
    have hnum : ∀ l', (∀ q, e = .num q → Expr.app g l' = .num q) := by
      intro l' q hq
      rw [hq] at hP; cases hP
    cases hP with
    | sym s => simp [step1a] at hf
    | pow h1 h2 h3 =>
      simp only [step1a, Expr.app.injEq] at hf
      obtain ⟨rfl, rfl⟩ := hf
      refine ⟨by simp; exact ⟨.inl h2, .inr ⟨_, rfl⟩⟩, fun l' hl => ⟨fun _ => ?_, hnum _⟩⟩
      cases hl with
      | cons ha hl =>
        cases hl with
        | cons hb hl =>
          cases hl
          rw [hb.2 _ rfl]
          exact .pow rfl (ha.1 h2) h3
    | add h1 h2 h3 =>
      simp only [step1a, Expr.app.injEq] at hf
      obtain ⟨rfl, rfl⟩ := hf
      exact ⟨fun a ha => .inl (h3 a ha), fun l' hl => ⟨fun _ => .add rfl (by rw [forall₂_length hl]; exact h2)
        (key _ _ hl h3), hnum _⟩⟩
    | mul h1 h2 h3 =>
      simp only [step1a, Expr.app.injEq] at hf
      obtain ⟨rfl, rfl⟩ := hf
      exact ⟨fun a ha => .inl (h3 a ha), fun l' hl => ⟨fun _ => .mul rfl (by rw [forall₂_length hl]; exact h2)
        (key _ _ hl h3), hnum _⟩⟩
    | @fn n l0 h1 h2 =>
      have : ∃ n', (n', l0.length) ∈ hdrFns ∧ g = .fn n' ∧ l = l0 := by
        simp only [inFns, List.mem_cons, Prod.mk.injEq, List.not_mem_nil, or_false] at h1
        rcases h1 with ⟨rfl, h1⟩ | ⟨rfl, h1⟩ | ⟨rfl, h1⟩ | ⟨rfl, h1⟩ <;>
          simp [step1a, simdName] at hf <;> obtain ⟨rfl, rfl⟩ := hf <;>
          exact ⟨_, by rw [h1]; decide, rfl, rfl⟩
      obtain ⟨n', hn', rfl, rfl⟩ := this
      exact ⟨fun a ha => .inl (h2 a ha), fun l' hl =>
        ⟨fun _ => .fn (by rw [forall₂_length hl]; exact hn') (key _ _ hl h2), hnum _⟩⟩

/-! ### Step 1b -/

/-- What is needed of SymPy's evaluation of products and sums: it stays within the expressions made of the
header's functions. -/
structure CanonGr (canon : Expr → Expr) : Prop where
  /-- a product of one or more factors -/
  mul : ∀ p l, l ≠ [] → (∀ a ∈ l, Gr p true hdrFns a) → Gr p true hdrFns (canon (.app .mul l))
  /-- a sum of two or more terms -/
  add : ∀ p l, 2 ≤ l.length → (∀ a ∈ l, Gr p true hdrFns a) → Gr p true hdrFns (canon (.app .add l))

theorem unwrap_gr : CanonGr unwrap where
  mul p l h0 h := by
    match l, h0, h with
    | [x], _, h => exact h x (by simp)
    | x :: y :: l, _, h => exact .mul rfl (by simp) h
  add p l h2 h := by
    rcases unwrap_add_cases l with ⟨x, h1, -⟩ | h1
    · rw [h1] at h2; simp at h2
    · rw [h1]; exact .add rfl h2 h

theorem powOk_ne {q : ℚ} (h : PowOk q) : q ≠ 1 / 3 := by
  rintro rfl
  rcases h with ⟨h, -⟩ | h | h | h | h
  · revert h; decide +kernel
  all_goals norm_num at h

theorem powOk_int {q : ℚ} (h : PowOk q) (hd : q.den = 1) : q.num ≠ 0 ∧ q.num ≠ 1 := by
  rcases h with ⟨-, h0, h1⟩ | h | h | h | h
  · refine ⟨by simpa using h0, fun h => h1 ?_⟩
    rw [← Rat.num_div_den q, h, hd]; norm_num
  all_goals (rw [h] at hd; exfalso; revert hd; decide +kernel)

theorem powOk_not {q : ℚ} (a1 : ¬ q = 1 / 2) (a2 : ¬ q = -(1 / 2)) (a3 : ¬ q = -(3 / 2))
    (a4 : ¬ q = -(5 / 2)) (a6 : ¬ q.den = 1) : ¬ PowOk q := by
  rintro (⟨h, -⟩ | h | h | h | h)
  · exact a6 h
  · exact a1 h
  · exact a2 h
  · exact a3 h
  · exact a4 h

theorem intPowNat_gr {a : Expr} (ha : Gr p m hdrFns a) : ∀ n, Gr p m hdrFns (intPowNat a n)
  | 0 => ha
  | 1 => ha
  | 2 => gr_fn2.2 ⟨by decide, ha, ha⟩
  | n + 3 => gr_fn2.2 ⟨by decide, intPowNat_gr ha (n + 2), ha⟩

/-- A call of a macro of the header with arguments in the grammar. -/
def IsCall (p m : Bool) (e : Expr) : Prop :=
  ∃ n l, e = .app (.fn n) l ∧ (n, l.length) ∈ hdrFns ∧ ∀ a ∈ l, Gr p m hdrFns a

theorem IsCall.gr {e : Expr} (h : IsCall p m e) : Gr p m hdrFns e := by
  obtain ⟨n, l, rfl, h1, h2⟩ := h
  exact .fn h1 h2

theorem isCall1 {n : Str} {a : Expr} (h : (n, 1) ∈ hdrFns) (ha : Gr p m hdrFns a) : IsCall p m (fn1 n a) :=
  ⟨n, [a], rfl, h, by simpa using ha⟩
theorem isCall2 {n : Str} {a b : Expr} (h : (n, 2) ∈ hdrFns) (ha : Gr p m hdrFns a)
    (hb : Gr p m hdrFns b) : IsCall p m (fn2 n a b) :=
  ⟨n, [a, b], rfl, h, by simpa using ⟨ha, hb⟩⟩

theorem intPow_call {pre : Str} {a : Expr} (ha : Gr p m hdrFns a) {n : ℤ} (h0 : n ≠ 0) (h1 : n ≠ 1) :
    IsCall p m (intPow pre a n) := by
  unfold intPow
  split
  · have : 2 ≤ n.toNat := by omega
    obtain ⟨k, hk⟩ : ∃ k, n.toNat = k + 2 := ⟨n.toNat - 2, by omega⟩
    rw [hk]
    cases k with
    | zero => exact isCall2 (by decide) ha ha
    | succ k => exact isCall2 (by decide) (intPowNat_gr ha (k + 2)) ha
  · split
    · exact isCall2 (by decide) (.sym _) ha
    · exact isCall2 (by decide) (.sym _) (intPowNat_gr ha _)

theorem step1b_gr {canon : Expr → Expr} (hc : CanonGr canon) {pre : Str} {fuel : Nat} {d d' : Table}
    {e e' : Expr} (h : topDown (step1b canon pre) fuel d e = some (e', d')) (he : Gr true true hdrFns e) :
    Gr false true hdrFns e' := by
  refine topDown_rel (P := Gr true true hdrFns) (R := fun _ b => Gr false true hdrFns b) ?_ ?_ fuel d e e' d'
    h he
  · intro d e a d1 hf hP hn
    cases hP with
    | sym s =>
      simp only [step1b, Prod.mk.injEq] at hf
      rw [← hf.1]; exact .sym s
    | @pow b q h1 h2 h3 =>
      exfalso
      have : IsCall true true a := by
        simp only [step1b, lookup] at hf
        have hs : Gr true true hdrFns (fn1 nSqrt b) := gr_fn1.2 ⟨by decide, h2⟩
        split_ifs at hf with a1 a2 a3 a4 a5 a6
        all_goals (rw [← (Prod.mk.inj hf).1])
        · exact isCall1 (by decide) h2
        · exact isCall2 (by decide) (.sym _) hs
        · exact isCall2 (by decide) (.sym _) (hc.mul _ _ (by simp) (by simpa using ⟨hs, h2⟩))
        · exact isCall2 (by decide) (.sym _) (hc.mul _ _ (by simp) (by simpa using ⟨hs, h2⟩))
        · exact absurd a5 (powOk_ne h3)
        · exact intPow_call h2 (powOk_int h3 a6).1 (powOk_int h3 a6).2
        · exact absurd h3 (powOk_not a1 a2 a3 a4 a6)
      obtain ⟨n, l, rfl, -⟩ := this
      exact hn _ _ rfl
    | add => simp only [step1b, Prod.mk.injEq] at hf; exact absurd hf.1.symm (hn _ _)
    | mul => simp only [step1b, Prod.mk.injEq] at hf; exact absurd hf.1.symm (hn _ _)
    | fn => simp only [step1b, Prod.mk.injEq] at hf; exact absurd hf.1.symm (hn _ _)
  · intro d e g l d1 hf hP
    cases hP with
    | sym s => simp [step1b] at hf
    | @pow b q h1 h2 h3 =>
      have : IsCall true true (.app g l) := by
        simp only [step1b, lookup] at hf
        have hs : Gr true true hdrFns (fn1 nSqrt b) := gr_fn1.2 ⟨by decide, h2⟩
        split_ifs at hf with a1 a2 a3 a4 a5 a6
        all_goals (rw [← (Prod.mk.inj hf).1])
        · exact isCall1 (by decide) h2
        · exact isCall2 (by decide) (.sym _) hs
        · exact isCall2 (by decide) (.sym _) (hc.mul _ _ (by simp) (by simpa using ⟨hs, h2⟩))
        · exact isCall2 (by decide) (.sym _) (hc.mul _ _ (by simp) (by simpa using ⟨hs, h2⟩))
        · exact absurd a5 (powOk_ne h3)
        · exact intPow_call h2 (powOk_int h3 a6).1 (powOk_int h3 a6).2
        · exact absurd h3 (powOk_not a1 a2 a3 a4 a6)
      obtain ⟨n, l0, h4, h5, h6⟩ := this
      simp only [Expr.app.injEq] at h4
      obtain ⟨rfl, rfl⟩ := h4
      exact ⟨h6, fun l' hl => .fn (by rw [forall₂_length hl]; exact h5) (forall₂_right hl)⟩
    | add h1 h2 h3 =>
      simp only [step1b, Prod.mk.injEq, Expr.app.injEq] at hf
      obtain ⟨⟨rfl, rfl⟩, -⟩ := hf
      exact ⟨h3, fun l' hl => .add h1 (by rw [forall₂_length hl]; exact h2) (forall₂_right hl)⟩
    | mul h1 h2 h3 =>
      simp only [step1b, Prod.mk.injEq, Expr.app.injEq] at hf
      obtain ⟨⟨rfl, rfl⟩, -⟩ := hf
      exact ⟨h3, fun l' hl => .mul h1 (by rw [forall₂_length hl]; exact h2) (forall₂_right hl)⟩
    | fn h1 h2 =>
      simp only [step1b, Prod.mk.injEq, Expr.app.injEq] at hf
      obtain ⟨⟨rfl, rfl⟩, -⟩ := hf
      exact ⟨h2, fun l' hl => .fn (by rw [forall₂_length hl]; exact h1) (forall₂_right hl)⟩

/-! ### Step 2 -/

theorem step2_gr {canon : Expr → Expr} (hc : CanonGr canon) (d : Table) (e : Expr)
    (he : Gr false true hdrFns e) : Gr false true hdrFns (step2 canon d e) := by
  generalize hr : step2 canon d e = r
  unfold step2 at hr
  split at hr
  · next l =>
    cases he with
    | add h1 h2 h3 =>
    have hl : Gr false true hdrFns (.app .add l) := .add h1 h2 h3
    split at hr
    · subst hr; exact hl
    · next i hi =>
      split at hr
      · next mm hm =>
        split at hr
        · next j k hj hk =>
          have hmm : Gr false true hdrFns (.app .mul mm) := h3 _ (List.mem_of_getElem? hm)
          have hkk : Gr false true hdrFns k := h3 _ (List.mem_of_getElem? hk)
          cases hmm with
          | mul g1 g2 g3 =>
          have hsub : Gr false true hdrFns (fn2 nSub k (canon (.app .mul (mm.eraseIdx j)))) := by
            refine gr_fn2.2 ⟨by decide, hkk, hc.mul _ _ ?_ fun a ha => g3 a (List.mem_of_mem_eraseIdx ha)⟩
            intro h0
            have := congrArg List.length h0
            rw [List.length_eraseIdx] at this
            simp only [List.length_nil] at this
            split at this <;> omega
          simp only at hr
          split at hr
          · next hlen =>
            subst hr
            refine hc.add _ _ (by rw [List.length_cons]; exact Nat.succ_le_succ hlen) ?_
            intro a ha
            rcases List.mem_cons.1 ha with rfl | ha
            · exact hsub
            · exact h3 a (List.mem_filter.1 ha).1
          · subst hr; exact hsub
        · subst hr; exact hl
      · subst hr; exact hl
  · subst hr; exact he

/-! ### Step 3 -/

theorem pairUp_call {n : Str} (hn : (n, 2) ∈ hdrFns) : ∀ (l : List Expr) (s : Expr),
    (∀ a ∈ l, Gr p m hdrFns a) → IsCall p m s → IsCall p m (pairUp n l s)
  | [], s, _, hs => hs
  | [a], s, hl, hs => isCall2 hn (hl a (by simp)) hs.gr
  | a :: b :: l, s, hl, hs => by
    rw [pairUp]
    exact pairUp_call hn l _ (fun c hc => hl c (by simp [hc]))
      (isCall2 hn (isCall2 hn (hl a (by simp)) (hl b (by simp))).gr hs.gr)

theorem nest_call {n : Str} (hn : (n, 2) ∈ hdrFns) {l : List Expr} (h2 : 2 ≤ l.length)
    (hl : ∀ a ∈ l, Gr p m hdrFns a) : IsCall p m (nest n l) := by
  unfold nest
  refine pairUp_call hn _ _ (fun a ha => hl a (List.mem_of_mem_take ha)) ⟨n, _, rfl, ?_, ?_⟩
  · rw [List.length_drop, show l.length - (l.length - 2) = 2 by omega]; exact hn
  · exact fun a ha => hl a (List.mem_of_mem_drop ha)

theorem step3_gr {fuel : Nat} {d d' : Table} {e e' : Expr}
    (h : topDown (pureStep step3) fuel d e = some (e', d')) (he : Gr false true hdrFns e) :
    Gr false false hdrFns e' := by
  have key : ∀ d e, Gr false true hdrFns e → (∃ s, step3 d e = .sym s) ∨ IsCall false true (step3 d e) := by
    intro d e he
    cases he with
    | sym s => exact .inl ⟨s, rfl⟩
    | pow h => cases h
    | add _ h2 h3 => exact .inr (nest_call (by decide) h2 h3)
    | mul _ h2 h3 => exact .inr (nest_call (by decide) h2 h3)
    | fn h1 h2 => exact .inr ⟨_, _, rfl, h1, h2⟩
  refine topDown_rel (P := Gr false true hdrFns) (R := fun _ b => Gr false false hdrFns b) ?_ ?_ fuel d e e'
    d' h he
  · intro d e a d1 hf hP hn
    have hf : step3 d e = a := (Prod.mk.inj hf).1
    rcases key d e hP with ⟨s, hs⟩ | ⟨n, l, hs, -⟩
    · rw [← hf, hs]; exact .sym s
    · exact absurd (hf.symm.trans hs) (hn _ _)
  · intro d e g l d1 hf hP
    have hf : step3 d e = .app g l := (Prod.mk.inj hf).1
    rcases key d e hP with ⟨s, hs⟩ | ⟨n, l0, hs, h1, h2⟩
    · rw [hs] at hf; cases hf
    · rw [hs] at hf
      simp only [Expr.app.injEq] at hf
      obtain ⟨rfl, rfl⟩ := hf
      exact ⟨h2, fun l' hl => .fn (by rw [forall₂_length hl]; exact h1) (forall₂_right hl)⟩

/-! ### Steps 4 and 5 -/

/-- Expressions made of calls of macros of the header only. -/
def Done (e : Expr) : Prop := Gr false false hdrFns e

theorem done_as2 {n : Str} {e a b : Expr} (h : as2 n e = some (a, b)) (he : Done e) : Done a ∧ Done b := by
  rw [as2_eq h, Done, gr_fn2] at he; exact he.2
theorem done_as3 {n : Str} {e a b c : Expr} (h : as3 n e = some (a, b, c)) (he : Done e) :
    Done a ∧ Done b ∧ Done c := by
  rw [as3_eq h, Done, gr_fn3] at he; exact he.2
theorem done_add {a b : Expr} (ha : Done a) (hb : Done b) : Done (fn2 nAdd a b) :=
  gr_fn2.2 ⟨by decide, ha, hb⟩
theorem done_sub {a b : Expr} (ha : Done a) (hb : Done b) : Done (fn2 nSub a b) :=
  gr_fn2.2 ⟨by decide, ha, hb⟩
theorem done_mul {a b : Expr} (ha : Done a) (hb : Done b) : Done (fn2 nMul a b) :=
  gr_fn2.2 ⟨by decide, ha, hb⟩
theorem done_div {a b : Expr} (ha : Done a) (hb : Done b) : Done (fn2 nDiv a b) :=
  gr_fn2.2 ⟨by decide, ha, hb⟩
theorem done_fma {a b c : Expr} (ha : Done a) (hb : Done b) (hc : Done c) : Done (fn3 nFMA a b c) :=
  gr_fn3.2 ⟨by decide, ha, hb, hc⟩
theorem done_fms {a b c : Expr} (ha : Done a) (hb : Done b) (hc : Done c) : Done (fn3 nFMS a b c) :=
  gr_fn3.2 ⟨by decide, ha, hb, hc⟩
theorem done_nfma {a b c : Expr} (ha : Done a) (hb : Done b) (hc : Done c) : Done (fn3 nNFMA a b c) :=
  gr_fn3.2 ⟨by decide, ha, hb, hc⟩
theorem done_nfms {a b c : Expr} (ha : Done a) (hb : Done b) (hc : Done c) : Done (fn3 nNFMS a b c) :=
  gr_fn3.2 ⟨by decide, ha, hb, hc⟩

theorem done_as2_1 {n : Str} {e a b : Expr} (h : as2 n e = some (a, b)) (he : Done e) : Done a :=
  (done_as2 h he).1
theorem done_as2_2 {n : Str} {e a b : Expr} (h : as2 n e = some (a, b)) (he : Done e) : Done b :=
  (done_as2 h he).2
theorem done_as3_1 {n : Str} {e a b c : Expr} (h : as3 n e = some (a, b, c)) (he : Done e) : Done a :=
  (done_as3 h he).1
theorem done_as3_2 {n : Str} {e a b c : Expr} (h : as3 n e = some (a, b, c)) (he : Done e) : Done b :=
  (done_as3 h he).2.1
theorem done_as3_3 {n : Str} {e a b c : Expr} (h : as3 n e = some (a, b, c)) (he : Done e) : Done c :=
  (done_as3 h he).2.2

theorem done_addMulMul {e a b c x : Expr} (h : asAddMulMul e = some (a, b, c, x)) (he : Done e) :
    Done a ∧ Done b ∧ Done c ∧ Done x := by
  unfold asAddMulMul at h
  split at h
  · cases h
  · next u v h0 =>
    split at h
    · next h1 h2 =>
      cases h
      exact ⟨done_as2_1 h1 (done_as2_1 h0 he), done_as2_2 h1 (done_as2_1 h0 he),
        done_as2_1 h2 (done_as2_2 h0 he), done_as2_2 h2 (done_as2_2 h0 he)⟩
    · cases h

theorem done_as3Mul {n : Str} {e a b c x : Expr} (h : as3Mul n e = some (a, b, c, x)) (he : Done e) :
    Done a ∧ Done b ∧ Done c ∧ Done x := by
  unfold as3Mul at h
  split at h
  · cases h
  · next h0 =>
    split at h
    · next h1 =>
      cases h
      exact ⟨done_as3_1 h0 he, done_as3_2 h0 he, done_as2_1 h1 (done_as3_3 h0 he),
        done_as2_2 h1 (done_as3_3 h0 he)⟩
    · cases h

theorem done_addMulMul_1 {e a b c x : Expr} (h : asAddMulMul e = some (a, b, c, x)) (he : Done e) :
    Done a := (done_addMulMul h he).1
theorem done_addMulMul_2 {e a b c x : Expr} (h : asAddMulMul e = some (a, b, c, x)) (he : Done e) :
    Done b := (done_addMulMul h he).2.1
theorem done_addMulMul_3 {e a b c x : Expr} (h : asAddMulMul e = some (a, b, c, x)) (he : Done e) :
    Done c := (done_addMulMul h he).2.2.1
theorem done_addMulMul_4 {e a b c x : Expr} (h : asAddMulMul e = some (a, b, c, x)) (he : Done e) :
    Done x := (done_addMulMul h he).2.2.2
theorem done_as3Mul_1 {n : Str} {e a b c x : Expr} (h : as3Mul n e = some (a, b, c, x)) (he : Done e) :
    Done a := (done_as3Mul h he).1
theorem done_as3Mul_2 {n : Str} {e a b c x : Expr} (h : as3Mul n e = some (a, b, c, x)) (he : Done e) :
    Done b := (done_as3Mul h he).2.1
theorem done_as3Mul_3 {n : Str} {e a b c x : Expr} (h : as3Mul n e = some (a, b, c, x)) (he : Done e) :
    Done c := (done_as3Mul h he).2.2.1
theorem done_as3Mul_4 {n : Str} {e a b c x : Expr} (h : as3Mul n e = some (a, b, c, x)) (he : Done e) :
    Done x := (done_as3Mul h he).2.2.2

theorem done_dropNeg {d : Table} {e a : Expr} (h : dropNeg d e = some a) (he : Done e) : Done a := by
  unfold dropNeg at h
  split at h
  · cases h
  · next p q hm =>
    have hd := done_as2 hm he
    split_ifs at h
    · cases h; exact hd.2
    · cases h; exact hd.1

/-- Closes goals `Done _` by putting calls together and taking recognised calls apart. -/
local macro "done_tac" : tactic => `(tactic| solve_by_elim (maxDepth := 60) only [*, done_add, done_sub, done_mul,
  done_div, done_fma, done_fms, done_nfma, done_nfms, done_as2_1, done_as2_2, done_as3_1, done_as3_2,
  done_as3_3, done_addMulMul_1, done_addMulMul_2, done_addMulMul_3, done_addMulMul_4, done_as3Mul_1,
  done_as3Mul_2, done_as3Mul_3, done_as3Mul_4, done_dropNeg])

theorem step4_gr (d : Table) (e : Expr) (he : Done e) : Done (step4 d e) := by
  unfold step4
  (repeat' split) <;> done_tac

theorem step5a_gr (d : Table) (e : Expr) (he : Done e) : Done (step5a d e) := by
  unfold step5a
  (repeat' split) <;> done_tac

theorem singleFMA_gr (e : Expr) (he : Done e) : Done (singleFMA e) := by
  unfold singleFMA
  (repeat' split) <;> done_tac

theorem step5b_gr (d : Table) (e : Expr) (he : Done e) : Done (step5b d e) := by
  have hs := singleFMA_gr e he
  unfold step5b
  (repeat' split) <;> done_tac

theorem step5c_gr (d : Table) (e : Expr) (he : Done e) : Done (step5c d e) := by
  unfold step5c
  (repeat' split) <;> done_tac

theorem step5d_gr (d : Table) (e : Expr) (he : Done e) : Done (step5d d e) := by
  unfold step5d
  (repeat' split) <;> done_tac

theorem step5e_gr (d : Table) (e : Expr) (he : Done e) : Done (step5e d e) := by
  unfold step5e
  (repeat' split) <;> done_tac

theorem step5f_gr (d : Table) (e : Expr) (he : Done e) : Done (step5f d e) := by
  unfold step5f
  (repeat' split) <;> done_tac

theorem step5g_gr (d : Table) (e : Expr) (he : Done e) : Done (step5g d e) := by
  unfold step5g
  (repeat' split) <;> done_tac

/-! ### The whole conversion -/

theorem runPasses_gr {fuel : Nat} : ∀ (fs : List (Table → Expr → Expr × Table)),
    (∀ f ∈ fs, ∃ g, f = pureStep g ∧ ∀ d e, Done e → Done (g d e)) →
    ∀ d e e' d', runPasses fuel fs d e = some (e', d') → Done e → Done e'
  | [], _, d, e, e', d', h, he => by
    simp only [runPasses, Option.some.injEq, Prod.mk.injEq] at h
    rw [← h.1]; exact he
  | f :: fs, hf, d, e, e', d', h, he => by
    obtain ⟨g, rfl, hg⟩ := hf f (by simp)
    simp only [runPasses] at h
    split at h
    · cases h
    · next e1 d1 h1 =>
      exact runPasses_gr fs (fun f hf' => hf f (by simp [hf'])) _ _ _ _ h (topDown_gr hg h1 he)

theorem convert_done {canon : Expr → Expr} (hc : CanonGr canon) {pre : Str} {moreFMAs clean : Bool}
    {fuel : Nat} {d d' : Table} {e e' : Expr} (he : Convertible e)
    (h : convert canon pre moreFMAs clean fuel d e = some (e', d')) : Done e' := by
  unfold convert at h
  split at h
  · cases h
  · next e0 d0 hr =>
    simp only [Option.some.injEq, Prod.mk.injEq] at h
    rw [← h.1]
    simp only [passes, List.cons_append, List.nil_append] at hr
    simp only [runPasses] at hr
    split at hr
    · cases hr
    next e1 d1 h1 =>
    split at hr
    · cases hr
    next e2 d2 h2 =>
    split at hr
    · cases hr
    next e3 d3 h3 =>
    split at hr
    · cases hr
    next e4 d4 h4 =>
    split at hr
    · cases hr
    next e5 d5 h5 =>
    have g3 := topDown_gr (step2_gr hc) h3 (step1b_gr hc h2 (step1a_gr h1 he))
    have g5 := topDown_gr step4_gr h5 (step3_gr h4 g3)
    refine runPasses_gr _ ?_ _ _ _ _ hr g5
    intro f hf
    cases moreFMAs <;>
      simp only [List.mem_append, List.mem_cons, List.not_mem_nil, or_false, false_or, if_true,
        if_false, Bool.false_eq_true] at hf
    · rcases hf with rfl | rfl | rfl | rfl | rfl
      exacts [⟨_, rfl, step5b_gr⟩, ⟨_, rfl, step5d_gr⟩, ⟨_, rfl, step5e_gr⟩, ⟨_, rfl, step5f_gr⟩,
        ⟨_, rfl, step5g_gr⟩]
    · rcases hf with ((rfl | rfl) | rfl) | rfl | rfl | rfl | rfl
      exacts [⟨_, rfl, step5a_gr⟩, ⟨_, rfl, step5b_gr⟩, ⟨_, rfl, step5c_gr⟩, ⟨_, rfl, step5d_gr⟩,
        ⟨_, rfl, step5e_gr⟩, ⟨_, rfl, step5f_gr⟩, ⟨_, rfl, step5g_gr⟩]

end

/-! ### Running the generated code -/

/-- The calls of `Done` compile, and every lane has the value of the expression. -/
theorem evalVec_done {I : Interp ℝ} (hI : Sem I) {i : Isa} (hi : ¬ i.Buggy) (ρ : Str → i.Vec) (e : Expr)
    (he : Done e) : ∃ v, evalVec i ρ e = some v ∧ ∀ k, v k = eval I (fun s => ρ s k) e := by
  induction he with
  | sym s => exact ⟨ρ s, by rw [evalVec], fun k => by simp⟩
  | pow h => cases h
  | add h => cases h
  | mul h => cases h
  | @fn n l h1 h2 ih =>
    have hvs : ∃ vs, evalVecs i ρ l = some vs ∧ vs.length = l.length ∧
        ∀ k, vs.map (fun v => v k) = l.map (eval I fun s => ρ s k) := by
      clear h1 h2
      induction l with
      | nil => exact ⟨[], by rw [evalVecs], rfl, fun _ => rfl⟩
      | cons a l ihl =>
        obtain ⟨v, hv, hk⟩ := ih a (by simp)
        obtain ⟨vs, hvs, hlen, hks⟩ := ihl fun b hb => ih b (by simp [hb])
        exact ⟨v :: vs, by rw [evalVecs, hv, hvs], by simp [hlen], fun k => by simp [hk, hks]⟩
    obtain ⟨vs, hvs, hlen, hks⟩ := hvs
    have fused := C54_fused_partial i
    have call : ∃ v, i.call n vs = some v ∧ ∀ k, v k = I.fn n (vs.map fun v => v k) := by
      rw [← hlen] at h1
      simp only [hdrFns, List.mem_cons, Prod.mk.injEq, List.not_mem_nil, or_false] at h1
      rcases h1 with ⟨rfl, h1⟩ | ⟨rfl, h1⟩ | ⟨rfl, h1⟩ | ⟨rfl, h1⟩ | ⟨rfl, h1⟩ | ⟨rfl, h1⟩ | ⟨rfl, h1⟩ |
        ⟨rfl, h1⟩ | ⟨rfl, h1⟩ | ⟨rfl, h1⟩ | ⟨rfl, h1⟩ | ⟨rfl, h1⟩ | ⟨rfl, h1⟩
      · obtain ⟨a, rfl⟩ := List.length_eq_one_iff.1 h1
        exact ⟨_, rfl, fun k => (hI.absS _).symm⟩
      · obtain ⟨a, rfl⟩ := List.length_eq_one_iff.1 h1
        exact ⟨_, rfl, fun k => (hI.expS _).symm⟩
      · obtain ⟨a, rfl⟩ := List.length_eq_one_iff.1 h1
        exact ⟨_, rfl, fun k => (hI.sinS _).symm⟩
      · obtain ⟨a, rfl⟩ := List.length_eq_one_iff.1 h1
        exact ⟨_, rfl, fun k => (hI.cosS _).symm⟩
      · obtain ⟨a, rfl⟩ := List.length_eq_one_iff.1 h1
        exact ⟨_, rfl, fun k => (hI.sqrtS _).symm⟩
      · obtain ⟨a, b, rfl⟩ := List.length_eq_two.1 h1
        exact ⟨_, rfl, fun k => (hI.addS _ _).symm⟩
      · obtain ⟨a, b, rfl⟩ := List.length_eq_two.1 h1
        exact ⟨_, rfl, fun k => (hI.subS _ _).symm⟩
      · obtain ⟨a, b, rfl⟩ := List.length_eq_two.1 h1
        exact ⟨_, rfl, fun k => (hI.mulS _ _).symm⟩
      · obtain ⟨a, b, rfl⟩ := List.length_eq_two.1 h1
        exact ⟨_, rfl, fun k => (hI.divS _ _).symm⟩
      · obtain ⟨a, b, c, rfl⟩ := List.length_eq_three.1 h1
        exact ⟨_, rfl, fun k => (fused a b c k).1.trans (hI.fma _ _ _).symm⟩
      · obtain ⟨a, b, c, rfl⟩ := List.length_eq_three.1 h1
        exact ⟨_, rfl, fun k => (fused a b c k).2.1.trans (hI.fms _ _ _).symm⟩
      · obtain ⟨a, b, c, rfl⟩ := List.length_eq_three.1 h1
        exact ⟨_, rfl, fun k => (fused a b c k).2.2.1.trans (by
          show _ = I.fn _ [a k, b k, c k]; rw [hI.nfma]; ring)⟩
      · obtain ⟨a, b, c, rfl⟩ := List.length_eq_three.1 h1
        exact ⟨_, rfl, fun k => ((fused a b c k).2.2.2 hi).trans (by
          show _ = I.fn _ [a k, b k, c k]; rw [hI.nfms]; ring)⟩
    obtain ⟨v, hv, hk⟩ := call
    refine ⟨v, by rw [evalVec, hvs]; exact hv, fun k => ?_⟩
    rw [hk, hks, eval_app]; rfl

/-- **C55**: for an expression made of sums, products, powers with supported exponents, `Abs`, `exp`, `sin`
and `cos`, the converted expression calls nothing but macros of the header, with the right numbers of
arguments, and on every instruction set every lane of the result is the value of the original expression
in that lane.  Missing: `log`, `sign` and other exponents, for which the header has no macro
(`C55_undefined`), SSE2 with FMA (`C54_negFusedMulSub`), and what `C26_value_partial` leaves out. -/
theorem C55_runs_partial {I : Interp ℝ} (hI : Sem I) {canon : Expr → Expr} (hc : CanonOk I canon)
    (hg : CanonGr canon) (i : Isa) (hi : ¬ i.Buggy) (pre : Str) (moreFMAs clean : Bool) (fuel : Nat)
    (d d' : Table) (e e' : Expr) (he : Convertible e) (hs : Suitable I d pre e)
    (h : convert canon pre moreFMAs clean fuel d e = some (e', d')) (ρ : Str → i.Vec)
    (hρ : ∀ k, (fun s => ρ s k) ∈ Valuations d pre) :
    ∃ v, evalVec i ρ e' = some v ∧ ∀ k, v k = eval I (fun s => ρ s k) e := by
  obtain ⟨v, hv, hk⟩ := evalVec_done hI hi ρ e' (convert_done hg he h)
  refine ⟨v, hv, fun k => ?_⟩
  rw [hk k]
  exact C26_value_partial I hI canon hc pre moreFMAs clean fuel d d' e e' hs h _ (hρ k).1 (hρ k).2

/-- **C55 is violated** for `log`, `sign`, cube roots and general powers: the conversion calls `LogSIMD`,
`SignSIMD`, `CbrtSIMD` and `PowSIMD`, which no branch of the header defines. -/
theorem C55_undefined : ∀ e ∈ [fn1 (c% "log") (.sym (c% "x")), fn1 (c% "sign") (.sym (c% "x")),
      .app .pow [.sym (c% "x"), .num (1 / 3)], .app .pow [.sym (c% "x"), .sym (c% "y")]],
    ∃ e', convert unwrap [] true false 30 [] e = some (e', []) ∧
      ∀ (i : Isa) (ρ : Str → i.Vec), evalVec i ρ e' = none := by
  intro e he
  have hnone : ∀ (n : Str) (l : List Expr), n ∈ [(c% "LogSIMD"), (c% "SignSIMD"), nCbrt, nPow] →
      ∀ (i : Isa) (ρ : Str → i.Vec), evalVec i ρ (.app (.fn n) l) = none := by
    intro n l hn i ρ
    rw [evalVec]
    split
    · next args _ =>
      unfold Isa.call
      have : i.macros.find? (fun p => p.1 = n) = none := by
        rw [List.find?_eq_none]
        simp only [List.mem_cons, List.not_mem_nil, or_false] at hn
        intro p hp
        simp only [Isa.macros, List.mem_cons, List.not_mem_nil, or_false] at hp
        rcases hp with rfl | rfl | rfl | rfl | rfl | rfl | rfl | rfl | rfl | rfl | rfl | rfl | rfl <;>
          rcases hn with rfl | rfl | rfl | rfl <;> simp
      rw [this]
    · rfl
  simp only [List.mem_cons, List.not_mem_nil, or_false] at he
  rcases he with rfl | rfl | rfl | rfl
  · exact ⟨fn1 (c% "LogSIMD") (.sym (c% "x")), by decide +kernel, hnone _ _ (by simp)⟩
  · exact ⟨fn1 (c% "SignSIMD") (.sym (c% "x")), by decide +kernel, hnone _ _ (by simp)⟩
  · exact ⟨fn1 nCbrt (.sym (c% "x")), by decide +kernel, hnone _ _ (by simp)⟩
  · exact ⟨fn2 nPow (.sym (c% "x")) (.sym (c% "y")), by decide +kernel, hnone _ _ (by simp)⟩

/-- Non-vacuity: `-2 a b^(-2) - c` (see `exE`) is convertible. -/
example : Convertible exE := by
  refine .add rfl (by simp) ?_
  simp only [List.mem_cons, List.not_mem_nil, or_false, forall_eq_or_imp, forall_eq]
  refine ⟨.mul rfl (by simp) ?_, .mul rfl (by simp) ?_⟩
  · simp only [List.mem_cons, List.not_mem_nil, or_false, forall_eq_or_imp, forall_eq]
    exact ⟨.sym _, .sym _, .sym _, .pow rfl (.sym _) (.inl ⟨by decide +kernel, by norm_num, by norm_num⟩)⟩
  · simp only [List.mem_cons, List.not_mem_nil, or_false, forall_eq_or_imp, forall_eq]
    exact ⟨.sym _, .sym _⟩

/-- Non-vacuity: the valuation `exρ` in each lane of an AVX register. -/
example : ∀ k : Fin (Isa.avx false).width, (fun s => (fun s _ => exρ s : Str → (Isa.avx false).Vec) s k) ∈
    Valuations exD [] := fun _ => exρ_mem

end Verif.SIMD
