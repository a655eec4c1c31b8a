import Verif.SIMD.Props

/-!
# C27: every constant of the converted code is declared with its value
-/
namespace Verif.SIMD
open Verif.Py Verif.Sympy Verif.Sympy.Expr

/-! ### Symbols under a pass -/

theorem mapS_free {g : Table → Expr → Option (Expr × Table)} {J D : Table → Prop} {P : Expr → Prop}
    {S : Str}
    (hg : ∀ d e e' d', g d e = some (e', d') → J d → P e → J d' ∧ (D d → D d') ∧
      ∀ s ∈ e'.free, s ∈ e.free ∨ (s = S ∧ D d')) :
    ∀ (l : List Expr) d l' d', mapS g d l = some (l', d') → J d → (∀ a ∈ l, P a) →
      J d' ∧ (D d → D d') ∧ ∀ a' ∈ l', ∀ s ∈ a'.free, (∃ a ∈ l, s ∈ a.free) ∨ (s = S ∧ D d') := by
  intro l
  induction l with
  | nil =>
    intro d l' d' h hJ _
    simp only [mapS, Option.some.injEq, Prod.mk.injEq] at h
    obtain ⟨rfl, rfl⟩ := h
    exact ⟨hJ, id, by simp⟩
  | cons a l ih =>
    intro d l' d' h hJ hP
    rw [mapS] at h
    split at h
    · cases h
    · next e' d1 h1 =>
      split at h
      · cases h
      · next l1 d2 h2 =>
        simp only [Option.some.injEq, Prod.mk.injEq] at h
        obtain ⟨rfl, rfl⟩ := h
        obtain ⟨j1, m1, q1⟩ := hg _ _ _ _ h1 hJ (hP a (by simp))
        obtain ⟨j2, m2, q2⟩ := ih _ _ _ h2 j1 fun b hb => hP b (by simp [hb])
        refine ⟨j2, m2 ∘ m1, ?_⟩
        intro b hb s hs
        rcases List.mem_cons.1 hb with rfl | hb
        · rcases q1 s hs with h | ⟨h, h'⟩
          · exact .inl ⟨a, by simp, h⟩
          · exact .inr ⟨h, m2 h'⟩
        · rcases q2 b hb s hs with ⟨c, hc, h⟩ | h
          · exact .inl ⟨c, by simp [hc], h⟩
          · exact .inr h

/-- Symbols after a pass: those before it, or the symbol `S` once it is declared. -/
theorem topDown_free {f : Table → Expr → Expr × Table} {J D : Table → Prop} {P : Expr → Prop} {S : Str}
    (hf : ∀ d e, J d → P e → J (f d e).2 ∧ (D d → D (f d e).2) ∧
      (∀ s ∈ (f d e).1.free, s ∈ e.free ∨ (s = S ∧ D (f d e).2)) ∧
      ∀ h l, (f d e).1 = .app h l → ∀ a ∈ l, P a) :
    ∀ fuel d e e' d', topDown f fuel d e = some (e', d') → J d → P e →
      J d' ∧ (D d → D d') ∧ ∀ s ∈ e'.free, s ∈ e.free ∨ (s = S ∧ D d') := by
  intro fuel
  induction fuel with
  | zero => intro d e e' d' h; simp [topDown] at h
  | succ fuel ih =>
    intro d e e' d' h hd he
    rw [topDown] at h
    obtain ⟨j1, m1, f1, p1⟩ := hf d e hd he
    split at h
    · next hh l d1 hfe =>
      rw [hfe] at j1 m1 f1 p1
      split at h
      · cases h
      · next l' d2 hm =>
        simp only [Option.some.injEq, Prod.mk.injEq] at h
        obtain ⟨rfl, rfl⟩ := h
        obtain ⟨j2, m2, f2⟩ := mapS_free ih l d1 l' d2 hm j1 (p1 hh l rfl)
        refine ⟨j2, m2 ∘ m1, ?_⟩
        intro s hs
        rw [free_app] at hs
        obtain ⟨a', ha', hs⟩ := List.mem_flatMap.1 hs
        rcases f2 a' ha' s hs with ⟨a, ha, h⟩ | h
        · rcases f1 s (by rw [free_app]; exact List.mem_flatMap.2 ⟨a, ha, h⟩) with h | ⟨h, h'⟩
          · exact .inl h
          · exact .inr ⟨h, m2 h'⟩
        · exact .inr h
    · next a d1 hna hfe =>
      simp only [Option.some.injEq, Prod.mk.injEq] at h
      obtain ⟨rfl, rfl⟩ := h
      rw [hfe] at j1 m1 f1
      exact ⟨j1, m1, f1⟩

/-! ### The local rules introduce no symbols -/

def FreeSub (e e' : Expr) : Prop := ∀ s ∈ e'.free, s ∈ e.free

theorem FreeSub.rfl {e : Expr} : FreeSub e e := fun _ h => h
theorem FreeSub.trans {a b c : Expr} (h : FreeSub a b) (h' : FreeSub b c) : FreeSub a c :=
  fun s hs => h s (h' s hs)

theorem free_fn1 (n : Str) (a : Expr) : (fn1 n a).free = a.free := by simp [fn1]
theorem free_fn2 (n : Str) (a b : Expr) : (fn2 n a b).free = a.free ++ b.free := by simp [fn2]
theorem free_fn3 (n : Str) (a b c : Expr) : (fn3 n a b c).free = a.free ++ (b.free ++ c.free) := by
  simp [fn3]

macro "free_tac" : tactic => `(tactic|
  (intro s; simp only [free_fn1, free_fn2, free_fn3, List.mem_append]; tauto))

theorem step1a_free (d : Table) (e : Expr) : FreeSub e (step1a d e) := by
  unfold step1a
  split
  · split
    · intro s hs; simpa using hs
    · exact FreeSub.rfl
  · exact FreeSub.rfl

theorem step2_free {I : Interp ℝ} {canon : Expr → Expr} (hc : CanonOk I canon) (d : Table) (e : Expr) :
    FreeSub e (step2 canon d e) := by
  rcases step2_cases canon d e with h | ⟨l, m, j, k, rest, rfl, hm, hk, -, -, hrest, h⟩
  · rw [h]; exact FreeSub.rfl
  · rw [h]
    have hsub : ∀ s ∈ (fn2 nSub k (canon (.app .mul (m.eraseIdx j)))).free, s ∈ (Expr.app .add l).free := by
      intro s hs
      rw [free_fn2, List.mem_append] at hs
      rw [free_app, List.mem_flatMap]
      rcases hs with hs | hs
      · exact ⟨k, hk, hs⟩
      · have := hc.free _ s hs
        rw [free_app, List.mem_flatMap] at this
        obtain ⟨a, ha, hs⟩ := this
        refine ⟨_, hm, ?_⟩
        rw [free_app, List.mem_flatMap]
        exact ⟨a, List.mem_of_mem_eraseIdx ha, hs⟩
    dsimp only
    split
    · intro s hs
      have := hc.free _ s hs
      rw [free_app, List.mem_flatMap] at this
      obtain ⟨a, ha, hs⟩ := this
      rcases List.mem_cons.1 ha with rfl | ha
      · exact hsub s hs
      · rw [hrest] at ha
        rw [free_app, List.mem_flatMap]
        exact ⟨a, List.mem_of_mem_filter ha, hs⟩
    · exact hsub

theorem pairUp_free {n : Str} : ∀ (l : List Expr) (t : Expr) (s : Str), s ∈ (pairUp n l t).free →
    (∃ a ∈ l, s ∈ a.free) ∨ s ∈ t.free
  | [], t, s, h => .inr h
  | [a], t, s, h => by
    rw [pairUp, free_fn2, List.mem_append] at h
    rcases h with h | h
    · exact .inl ⟨a, by simp, h⟩
    · exact .inr h
  | a :: b :: l, t, s, h => by
    rw [pairUp] at h
    rcases pairUp_free l _ s h with ⟨c, hc, h⟩ | h
    · exact .inl ⟨c, by simp [hc], h⟩
    · rw [free_fn2, free_fn2, List.mem_append, List.mem_append] at h
      rcases h with (h | h) | h
      · exact .inl ⟨a, by simp, h⟩
      · exact .inl ⟨b, by simp, h⟩
      · exact .inr h

theorem nest_free {n : Str} {h : Head} {l : List Expr} : FreeSub (.app h l) (nest n l) := by
  intro s hs
  rw [free_app, List.mem_flatMap]
  rcases pairUp_free _ _ s hs with ⟨a, ha, h⟩ | h
  · exact ⟨a, List.mem_of_mem_take ha, h⟩
  · rw [free_app, List.mem_flatMap] at h
    obtain ⟨a, ha, h⟩ := h
    exact ⟨a, List.mem_of_mem_drop ha, h⟩

theorem step3_free (d : Table) (e : Expr) : FreeSub e (step3 d e) := by
  unfold step3
  split
  · exact nest_free
  · exact nest_free
  · exact FreeSub.rfl

theorem step4_free (d : Table) (e : Expr) : FreeSub e (step4 d e) := by
  unfold step4
  split
  · exact FreeSub.rfl
  · next x y h =>
    obtain rfl := as2_eq h
    split
    · next p q hx =>
      obtain rfl := as2_eq hx
      split
      · free_tac
      · split
        · next p' q' hy =>
          obtain rfl := as2_eq hy
          split
          · free_tac
          · exact FreeSub.rfl
        · exact FreeSub.rfl
    · split
      · next p' q' hy =>
        obtain rfl := as2_eq hy
        split
        · free_tac
        · exact FreeSub.rfl
      · exact FreeSub.rfl

theorem step5a_free (d : Table) (e : Expr) : FreeSub e (step5a d e) := by
  unfold step5a
  split
  · exact FreeSub.rfl
  · next x y h =>
    obtain rfl := as2_eq h
    split
    · next b c p q hy => obtain rfl := asAddMulMul_eq hy; free_tac
    · split
      · next b c p q hy => obtain rfl := asAddMulMul_eq hy; free_tac
      · exact FreeSub.rfl

theorem singleFMA_free (e : Expr) : FreeSub e (singleFMA e) := by
  unfold singleFMA
  split
  · next x y h =>
    obtain rfl := as2_eq h
    split
    · next b c hx => obtain rfl := as2_eq hx; free_tac
    · split
      · next b c hy => obtain rfl := as2_eq hy; free_tac
      · exact FreeSub.rfl
  · split
    · next x y h =>
      obtain rfl := as2_eq h
      split
      · next b c hx => obtain rfl := as2_eq hx; free_tac
      · split
        · next b c hy => obtain rfl := as2_eq hy; free_tac
        · exact FreeSub.rfl
    · exact FreeSub.rfl

theorem step5b_free (d : Table) (e : Expr) : FreeSub e (step5b d e) := by
  unfold step5b
  split
  · next a b c h =>
    split
    · next p q hb =>
      split
      · refine (singleFMA_free e).trans ?_
        rw [as3_eq h, as2_eq hb]
        free_tac
      · exact singleFMA_free e
    · exact singleFMA_free e
  · exact singleFMA_free e

theorem step5c_free (d : Table) (e : Expr) : FreeSub e (step5c d e) := by
  unfold step5c
  split
  · next x y h =>
    obtain rfl := as2_eq h
    split
    · next b c p q hy => obtain rfl := as3Mul_eq hy; free_tac
    · exact FreeSub.rfl
  · split
    · next x y h =>
      obtain rfl := as2_eq h
      split
      · next b c p q hy => obtain rfl := as3Mul_eq hy; free_tac
      · split
        · next b c p q hy => obtain rfl := as3Mul_eq hy; free_tac
        · exact FreeSub.rfl
    · exact FreeSub.rfl

theorem dropNeg_free {d : Table} {e b : Expr} (h : dropNeg d e = some b) : FreeSub e b := by
  unfold dropNeg at h
  split at h
  · cases h
  · next p q he =>
    obtain rfl := as2_eq he
    split at h
    · simp only [Option.some.injEq] at h; subst h; free_tac
    · split at h
      · simp only [Option.some.injEq] at h; subst h; free_tac
      · cases h

theorem step5d_free (d : Table) (e : Expr) : FreeSub e (step5d d e) := by
  unfold step5d
  split
  · exact FreeSub.rfl
  · next a b c h =>
    obtain rfl := as3_eq h
    split
    · next b' hb =>
      intro s
      have := dropNeg_free hb s
      simp only [free_fn3, List.mem_append]; tauto
    · split
      · next a' ha =>
        intro s
        have := dropNeg_free ha s
        simp only [free_fn3, List.mem_append]; tauto
      · exact FreeSub.rfl

theorem step5e_free (d : Table) (e : Expr) : FreeSub e (step5e d e) := by
  unfold step5e
  split
  · next a b c h =>
    obtain rfl := as3_eq h
    split
    · free_tac
    · split
      · free_tac
      · exact FreeSub.rfl
  · split
    · next a b c h =>
      obtain rfl := as3_eq h
      split
      · free_tac
      · split
        · free_tac
        · exact FreeSub.rfl
    · exact FreeSub.rfl

theorem step5f_free (d : Table) (e : Expr) : FreeSub e (step5f d e) := by
  unfold step5f
  split
  · next a b c h =>
    obtain rfl := as3_eq h
    split
    · next c' hc =>
      intro s
      have := dropNeg_free hc s
      simp only [free_fn3, List.mem_append]; tauto
    · exact FreeSub.rfl
  · split
    · next a b c h =>
      obtain rfl := as3_eq h
      split
      · next b' hb =>
        intro s
        have := dropNeg_free hb s
        simp only [free_fn3, List.mem_append]; tauto
      · split
        · next p q hb =>
          obtain rfl := as2_eq hb
          split
          · next q' hq =>
            intro s
            have := dropNeg_free hq s
            simp only [free_fn3, free_fn2, List.mem_append]; tauto
          · exact FreeSub.rfl
        · exact FreeSub.rfl
    · exact FreeSub.rfl

theorem step5g_free (d : Table) (e : Expr) : FreeSub e (step5g d e) := by
  unfold step5g
  split
  · next x y h =>
    obtain rfl := as2_eq h
    split
    · next b c hx => obtain rfl := as2_eq hx; free_tac
    · split
      · next b c hy => obtain rfl := as2_eq hy; free_tac
      · exact FreeSub.rfl
  · split
    · next x y h =>
      obtain rfl := as2_eq h
      split
      · next b c hx => obtain rfl := as2_eq hx; free_tac
      · exact FreeSub.rfl
    · exact FreeSub.rfl

theorem topDown_pure_free {g : Table → Expr → Expr} (hg : ∀ d e, FreeSub e (g d e)) {fuel : Nat}
    {d d' : Table} {e e' : Expr} (h : topDown (pureStep g) fuel d e = some (e', d')) :
    d' = d ∧ FreeSub e e' := by
  have := topDown_free (f := pureStep g) (J := fun x => x = d) (D := fun _ => False) (P := fun _ => True)
    (S := []) (fun d1 e hd _ => ⟨hd, id, fun s hs => .inl (hg d1 e s hs), fun _ _ _ _ _ => trivial⟩)
    fuel d e e' d' h rfl trivial
  exact ⟨this.1, fun s hs => (this.2.2 s hs).resolve_right (by simp)⟩

theorem runPasses_pure_free {fuel : Nat} : ∀ (gs : List (Table → Expr → Expr)),
    (∀ g ∈ gs, ∀ d e, FreeSub e (g d e)) → ∀ d e e' d',
    runPasses fuel (gs.map pureStep) d e = some (e', d') → d' = d ∧ FreeSub e e' := by
  intro gs
  induction gs with
  | nil =>
    intro _ d e e' d' h
    simp only [List.map_nil, runPasses, Option.some.injEq, Prod.mk.injEq] at h
    obtain ⟨rfl, rfl⟩ := h
    exact ⟨rfl, FreeSub.rfl⟩
  | cons g gs ih =>
    intro hg d e e' d' h
    rw [List.map_cons] at h
    obtain ⟨e1, d1, h1, h2⟩ := runPasses_cons_some h
    obtain ⟨k1, f1⟩ := topDown_pure_free (hg g (by simp)) h1
    obtain ⟨k2, f2⟩ := ih (fun k hk => hg k (by simp [hk])) _ _ _ _ h2
    exact ⟨k2.trans k1, f1.trans f2⟩

/-! ### Step 1.b -/

/-- No power in the expression has an exponent of value -1/2, -3/2 or -5/2. -/
def NoNegHalf (d : Table) (e : Expr) : Prop :=
  ∀ a x, (Head.pow, [a, x]) ∈ nodes e →
    lookup d x ≠ some (-(1 / 2)) ∧ lookup d x ≠ some (-(3 / 2)) ∧ lookup d x ≠ some (-(5 / 2))

/-- The table the pass started with, possibly with the symbol for one added. -/
def Ext (pre : Str) (d0 d : Table) : Prop := d = d0 ∨
  (d = d0.set (oneSym pre) 1 ∧ ∀ kv ∈ d0, kv.2 ≠ 1)

theorem lookup_set_ne {d : Table} {k : Str} {v : ℚ} {x : Expr} {q : ℚ} (hq : q ≠ v)
    (h : lookup (d.set k v) x = some q) : lookup d x = some q := by
  cases x with
  | sym s =>
    simp only [lookup] at h ⊢
    rw [Dict.get?_set] at h
    split at h
    · simp at h; exact absurd h.symm hq
    · exact h
  | num r => exact h
  | app => exact h

theorem ext_lookup {pre : Str} {d0 d : Table} (h : Ext pre d0 d) {x : Expr} {q : ℚ} (hq : q ≠ 1)
    (hl : lookup d x = some q) : lookup d0 x = some q := by
  rcases h with rfl | ⟨rfl, -⟩
  · exact hl
  · exact lookup_set_ne hq hl

theorem any_one_false {d : Table} (h : ¬(d.any fun kv => decide (kv.2 = 1)) = true) :
    ∀ kv ∈ d, kv.2 ≠ 1 := by
  intro kv hkv h1
  exact h (List.any_eq_true.2 ⟨kv, hkv, by simpa using h1⟩)

theorem declareOne_ext {pre : Str} {d0 d : Table} (h : Ext pre d0 d) (n : ℤ) :
    Ext pre d0 (declareOne pre n d) := by
  unfold declareOne
  split
  · split
    · exact h
    · next hany =>
      have hno := any_one_false hany
      rcases h with rfl | ⟨rfl, h⟩
      · exact .inr ⟨rfl, hno⟩
      · exact absurd rfl (hno (oneSym pre, 1) (Dict.mem_of_get? (Dict.get?_set_self _ _ _)))
  · exact h

theorem intPowNat_free (a : Expr) : ∀ n, FreeSub a (intPowNat a n)
  | 0 => FreeSub.rfl
  | 1 => FreeSub.rfl
  | 2 => by rw [intPowNat]; free_tac
  | n + 3 => by
    have := intPowNat_free a (n + 2)
    rw [intPowNat]
    · intro s
      have := this s
      simp only [free_fn2, List.mem_append]; tauto
    · intro h; omega
    · intro h; omega

theorem intPowNat_nodes (a : Expr) (x : Expr) (b : Expr) : ∀ n,
    (Head.pow, [b, x]) ∈ nodes (intPowNat a n) → (Head.pow, [b, x]) ∈ nodes a
  | 0, h => h
  | 1, h => h
  | 2, h => by simpa [intPowNat, fn2] using h
  | n + 3, h => by
    rw [intPowNat] at h
    · simp only [fn2, nodes_app, List.flatMap_cons, List.flatMap_nil, List.append_nil, List.mem_cons,
        List.mem_append, Prod.mk.injEq, reduceCtorEq, false_and, false_or] at h
      rcases h with h | h
      · exact intPowNat_nodes a x b (n + 2) h
      · exact h
    · intro h; omega
    · intro h; omega

/-- Powers under `step1b`: what becomes of symbols, table and nodes. -/
theorem step1b_decl {canon : Expr → Expr} {pre : Str} {d0 d : Table} (hd : Ext pre d0 d)
    (h1 : ∀ s, (s, 1) ∈ d0 → s = oneSym pre) (e : Expr) (he : NoNegHalf d0 e) :
    Ext pre d0 (step1b canon pre d e).2 ∧
    ((oneSym pre, 1) ∈ d → (oneSym pre, 1) ∈ (step1b canon pre d e).2) ∧
    (∀ s ∈ (step1b canon pre d e).1.free, s ∈ e.free ∨
      (s = oneSym pre ∧ (oneSym pre, 1) ∈ (step1b canon pre d e).2)) ∧
    ∀ h l, (step1b canon pre d e).1 = .app h l → ∀ a ∈ l, NoNegHalf d0 a := by
  have hargs : ∀ h l, e = .app h l → ∀ a ∈ l, NoNegHalf d0 a := by
    rintro h l rfl a ha b x hn
    exact he b x (by rw [nodes_app]; exact List.mem_cons_of_mem _ (List.mem_flatMap.2 ⟨a, ha, hn⟩))
  have hsym : ∀ s, NoNegHalf d0 (.sym s) := fun s b x hn => by simp at hn
  generalize hr : step1b canon pre d e = r
  unfold step1b at hr
  split at hr
  · next a x =>
    have ha := hargs _ _ rfl a (by simp)
    have hx := hargs _ _ rfl x (by simp)
    have hpow : Ext pre d0 (fn2 nPow a x, d).2 ∧
        ((oneSym pre, 1) ∈ d → (oneSym pre, 1) ∈ (fn2 nPow a x, d).2) ∧
        (∀ s ∈ (fn2 nPow a x, d).1.free, s ∈ (Expr.app .pow [a, x]).free ∨
          (s = oneSym pre ∧ (oneSym pre, 1) ∈ (fn2 nPow a x, d).2)) ∧
        ∀ h l, (fn2 nPow a x, d).1 = .app h l → ∀ a ∈ l, NoNegHalf d0 a := by
      refine ⟨hd, id, fun s hs => .inl (by simpa [fn2] using hs), ?_⟩
      intro h l hl b hb
      simp only [fn2, Expr.app.injEq] at hl
      rw [← hl.2] at hb
      simp only [List.mem_cons, List.not_mem_nil, or_false] at hb
      rcases hb with rfl | rfl <;> assumption
    have hone : ∀ n : Str, Ext pre d0 (fn1 n a, d).2 ∧
        ((oneSym pre, 1) ∈ d → (oneSym pre, 1) ∈ (fn1 n a, d).2) ∧
        (∀ s ∈ (fn1 n a, d).1.free, s ∈ (Expr.app .pow [a, x]).free ∨
          (s = oneSym pre ∧ (oneSym pre, 1) ∈ (fn1 n a, d).2)) ∧
        ∀ h l, (fn1 n a, d).1 = .app h l → ∀ a ∈ l, NoNegHalf d0 a := by
      intro n
      refine ⟨hd, id, fun s hs => .inl (by simp [fn1] at hs; simp [hs]), ?_⟩
      intro h l hl b hb
      simp only [fn1, Expr.app.injEq] at hl
      rw [← hl.2] at hb
      simp only [List.mem_cons, List.not_mem_nil, or_false] at hb
      rw [hb]; exact ha
    have hnh := he a x (by simp)
    dsimp only at hr
    split at hr
    · next q hq =>
      split_ifs at hr with c1 c2 c3 c4 c5 c6
      · subst hr; exact hone _
      · exact absurd (ext_lookup hd (by norm_num) (c2 ▸ hq)) hnh.1
      · exact absurd (ext_lookup hd (by norm_num) (c3 ▸ hq)) hnh.2.1
      · exact absurd (ext_lookup hd (by norm_num) (c4 ▸ hq)) hnh.2.2
      · subst hr; exact hone _
      · subst hr
        dsimp only
        have hext := declareOne_ext hd q.num
        refine ⟨hext, ?_, ?_, ?_⟩
        · intro hm
          unfold declareOne
          split
          · split
            · exact hm
            · next hany => exact absurd rfl (any_one_false hany _ hm)
          · exact hm
        · intro s hs
          unfold intPow at hs
          have hin : ∀ k, s ∈ (intPowNat a k).free → s ∈ (Expr.app .pow [a, x]).free := by
            intro k hk
            have := intPowNat_free a k s hk
            simp [this]
          have hdecl : q.num < 0 → (oneSym pre, 1) ∈ declareOne pre q.num d := by
            intro hneg
            unfold declareOne
            rw [if_pos hneg]
            split
            · next hany =>
              obtain ⟨⟨k, v⟩, hkv, hv⟩ := List.any_eq_true.1 hany
              simp only [decide_eq_true_eq] at hv
              subst hv
              rcases hd with rfl | ⟨rfl, -⟩
              · rw [← h1 k hkv]; exact hkv
              · exact Dict.mem_of_get? (Dict.get?_set_self _ _ _)
            · exact Dict.mem_of_get? (Dict.get?_set_self _ _ _)
          split at hs
          · exact .inl (hin _ hs)
          · next hneg =>
            have hd' := hdecl (by omega)
            split at hs
            · rw [free_fn2, List.mem_append] at hs
              rcases hs with hs | hs
              · exact .inr ⟨by simpa using hs, hd'⟩
              · exact .inl (by simp [hs])
            · rw [free_fn2, List.mem_append] at hs
              rcases hs with hs | hs
              · exact .inr ⟨by simpa using hs, hd'⟩
              · exact .inl (hin _ hs)
        · intro h l hl b hb
          have hk : ∀ k, NoNegHalf d0 (intPowNat a k) := fun k c y hn =>
            ha c y (intPowNat_nodes a y c k hn)
          have hsub : ∀ u, NoNegHalf d0 u → u = .app h l → NoNegHalf d0 b := by
            rintro u hu rfl c y hn
            exact hu c y (by rw [nodes_app]; exact List.mem_cons_of_mem _ (List.mem_flatMap.2 ⟨b, hb, hn⟩))
          have hdivs : ∀ u, NoNegHalf d0 u → NoNegHalf d0 (fn2 nDiv (.sym (oneSym pre)) u) := by
            intro u hu c y hn
            exact hu c y (by simpa [fn2] using hn)
          unfold intPow at hl
          split at hl
          · exact hsub _ (hk _) hl
          · split at hl
            · exact hsub _ (hdivs _ ha) hl
            · exact hsub _ (hdivs _ (hk _)) hl
      · subst hr; exact hpow
    · subst hr; exact hpow
  · subst hr
    exact ⟨hd, id, fun s hs => .inl hs, hargs⟩

theorem nodes_step1a_half {fuel : Nat} {d d' : Table} {e e' : Expr}
    (h : topDown (pureStep step1a) fuel d e = some (e', d')) (d0 : Table) (he : NoNegHalf d0 e) :
    NoNegHalf d0 e' := by
  induction fuel generalizing d e e' d' with
  | zero => simp [topDown] at h
  | succ fuel ih =>
    have hmap : ∀ (l : List Expr) d l' d', mapS (topDown (pureStep step1a) fuel) d l = some (l', d') →
        (∀ a ∈ l, NoNegHalf d0 a) → (∀ a ∈ l', NoNegHalf d0 a) ∧
        (∀ b x, l' = [b, x] → ∃ a y, l = [a, y] ∧ lookup d0 x = lookup d0 y) := by
      intro l
      induction l with
      | nil =>
        intro d l' d' h _
        simp only [mapS, Option.some.injEq, Prod.mk.injEq] at h
        obtain ⟨rfl, rfl⟩ := h
        exact ⟨by simp, by simp⟩
      | cons a l ihl =>
        intro d l' d' h hl
        rw [mapS] at h
        split at h
        · cases h
        · next e1 d1 h1 =>
          split at h
          · cases h
          · next l1 d2 h2 =>
            simp only [Option.some.injEq, Prod.mk.injEq] at h
            obtain ⟨rfl, rfl⟩ := h
            obtain ⟨q1, -⟩ := ihl _ _ _ h2 fun b hb => hl b (by simp [hb])
            refine ⟨?_, ?_⟩
            · intro b hb
              rcases List.mem_cons.1 hb with rfl | hb
              · exact ih h1 (hl a (by simp))
              · exact q1 b hb
            · intro b x hbx
              simp only [List.cons.injEq] at hbx
              obtain ⟨rfl, rfl⟩ := hbx
              match l, h2 with
              | [], h2 => simp [mapS] at h2
              | [y], h2 =>
                refine ⟨a, y, rfl, ?_⟩
                simp only [mapS] at h2
                split at h2
                · cases h2
                · next y' d3 h3 =>
                  simp only [Option.some.injEq, Prod.mk.injEq, List.cons.injEq, and_true] at h2
                  obtain ⟨rfl, -⟩ := h2
                  cases fuel with
                  | zero => simp [topDown] at h3
                  | succ fuel =>
                    rw [topDown] at h3
                    cases y with
                    | sym s => simp [pureStep, step1a] at h3; rw [h3.1]
                    | num q => simp [pureStep, step1a] at h3; rw [h3.1]
                    | app hh m =>
                      obtain ⟨hh', m', hy⟩ : ∃ hh' m', step1a d1 (.app hh m) = .app hh' m' := by
                        unfold step1a
                        split
                        · split <;> exact ⟨_, _, rfl⟩
                        · exact ⟨_, _, rfl⟩
                      simp only [pureStep, hy] at h3
                      split at h3
                      · cases h3
                      · simp only [Option.some.injEq, Prod.mk.injEq] at h3
                        rw [← h3.1]; rfl
              | y :: z :: m, h2 =>
                simp only [mapS] at h2
                split at h2
                · cases h2
                · split at h2
                  · cases h2
                  · next h4 =>
                    split at h4
                    · cases h4
                    · split at h4
                      · cases h4
                      · simp only [Option.some.injEq, Prod.mk.injEq] at h4 h2
                        rw [← h4.1] at h2
                        simp at h2
    rw [topDown] at h
    split at h
    · next hh l d1 hf =>
      split at h
      · cases h
      · next l' d2 hm =>
        simp only [Option.some.injEq, Prod.mk.injEq] at h
        obtain ⟨rfl, rfl⟩ := h
        -- the arguments are those of `e`, the head is `pow` only if that of `e` is
        obtain ⟨h0, he0, hhp⟩ : ∃ h0, e = .app h0 l ∧ (hh = .pow → h0 = .pow) := by
          simp only [pureStep, Prod.mk.injEq] at hf
          obtain ⟨hf, -⟩ := hf
          unfold step1a at hf
          split at hf
          · split at hf
            · simp only [Expr.app.injEq] at hf
              obtain ⟨rfl, rfl⟩ := hf
              exact ⟨_, rfl, by simp⟩
            · simp only [Expr.app.injEq] at hf
              obtain ⟨rfl, rfl⟩ := hf
              exact ⟨_, rfl, id⟩
          · exact ⟨hh, hf, id⟩
        subst he0
        obtain ⟨q1, q2⟩ := hmap l _ _ _ hm (by
          intro a ha b x hn
          exact he b x (by
            rw [nodes_app]; exact List.mem_cons_of_mem _ (List.mem_flatMap.2 ⟨a, ha, hn⟩)))
        intro b x hn
        rw [nodes_app] at hn
        rcases List.mem_cons.1 hn with hn | hn
        · simp only [Prod.mk.injEq] at hn
          obtain ⟨h5, h6⟩ := hn
          obtain ⟨a, y, rfl, hlk⟩ := q2 b x h6.symm
          rw [hlk]
          exact he a y (by rw [nodes_app, hhp h5.symm]; exact List.mem_cons_self)
        · obtain ⟨a, ha, hn⟩ := List.mem_flatMap.1 hn
          exact q1 a ha b x hn
    · next a d1 hna hf =>
      simp only [Option.some.injEq, Prod.mk.injEq] at h
      obtain ⟨rfl, rfl⟩ := h
      cases a with
      | sym n => intro b x hn; simp at hn
      | num q => intro b x hn; simp at hn
      | app hh l => exact absurd rfl (hna hh l)

theorem late_free {I : Interp ℝ} {canon : Expr → Expr} (hc : CanonOk I canon) (moreFMAs : Bool) :
    ∀ g ∈ [step2 canon, step3, step4] ++ (if moreFMAs then [step5a] else []) ++
      [step5b] ++ (if moreFMAs then [step5c] else []) ++ [step5d, step5e, step5f, step5g],
      ∀ d e, FreeSub e (g d e) := by
  intro g hg
  simp only [List.mem_append, List.mem_cons, List.not_mem_nil, or_false] at hg
  rcases hg with ((((rfl | rfl | rfl) | hg) | rfl) | hg) | rfl | rfl | rfl | rfl
  · exact step2_free hc
  · exact step3_free
  · exact step4_free
  · split at hg
    · simp at hg; rw [hg]; exact step5a_free
    · simp at hg
  · exact step5b_free
  · split at hg
    · simp at hg; rw [hg]; exact step5c_free
    · simp at hg
  · exact step5d_free
  · exact step5e_free
  · exact step5f_free
  · exact step5g_free

/-- **C27.** Every symbol of the converted expression is a symbol of the original one, or the symbol for
one, which the table then declares with the value one; and the constants of the table that the converted
expression uses keep their declarations, also if unused minus ones are cleaned up.  Partial: powers with
exponents -1/2, -3/2 and -5/2 are excluded (`C27_half_power`), as are tables that have the value one
under another name (`C27_other_one`); for several expressions with clean-up see `C27_clean`. -/
theorem C27_declared_partial (I : Interp ℝ) (canon : Expr → Expr) (hc : CanonOk I canon) (pre : Str)
    (moreFMAs clean : Bool) (fuel : Nat) (d d' : Table) (e e' : Expr) (hwf : d.Wf)
    (hhalf : NoNegHalf d e)
    (h1 : ∀ s q, d.get? s = some q → (q = 1 ↔ s = oneSym pre))
    (h : convert canon pre moreFMAs clean fuel d e = some (e', d')) :
    ∀ s ∈ e'.free,
      (s ∈ e.free ∨ (s = oneSym pre ∧ d'.get? s = some 1)) ∧
      ∀ q, d.get? s = some q → d'.get? s = some q := by
  unfold convert at h
  split at h
  · cases h
  · next e1 d1 hr =>
    simp only [Option.some.injEq, Prod.mk.injEq] at h
    obtain ⟨rfl, hd'⟩ := h
    have hp : passes canon pre moreFMAs = pureStep step1a :: step1b canon pre ::
        ([step2 canon, step3, step4] ++ (if moreFMAs then [step5a] else []) ++
          [step5b] ++ (if moreFMAs then [step5c] else []) ++
          [step5d, step5e, step5f, step5g]).map pureStep := by
      cases moreFMAs <;> rfl
    rw [hp] at hr
    obtain ⟨e1', d1', r1, hr1⟩ := runPasses_cons_some hr
    obtain ⟨e2, d2, r2, hr2⟩ := runPasses_cons_some hr1
    obtain ⟨rfl, f1⟩ := topDown_pure_free step1a_free r1
    have h1' : ∀ s, (s, 1) ∈ d1' → s = oneSym pre := fun s hs =>
      (h1 s 1 (Dict.get?_of_mem hwf hs)).1 rfl
    obtain ⟨j2, -, f2⟩ := topDown_free (J := Ext pre d1') (D := fun d => (oneSym pre, 1) ∈ d)
      (P := NoNegHalf d1') (S := oneSym pre)
      (fun d e hd he => step1b_decl (canon := canon) hd h1' e he) _ _ _ _ _ r2 (.inl rfl)
      (nodes_step1a_half r1 d1' hhalf)
    obtain ⟨rfl, f3⟩ := runPasses_pure_free _ (late_free hc moreFMAs) _ _ _ _ hr2
    have hwf1 : d1.Wf := by
      rcases j2 with rfl | ⟨rfl, -⟩
      · exact hwf
      · exact hwf.set _ _
    -- the clean-up keeps what the result uses
    have hkeep : ∀ s ∈ e1.free, ∀ q, d1.get? s = some q → d'.get? s = some q := by
      intro s hs q hq
      rw [← hd']
      split
      · unfold cleanNeg
        split
        · exact hq
        · next hnot =>
          refine Dict.get?_of_mem ?_ (List.mem_filter.2 ⟨Dict.mem_of_get? hq, ?_⟩)
          · exact hwf1.sublist (List.filter_sublist.map _)
          · simp only [decide_eq_true_eq]
            rintro rfl
            exact hnot hs
      · exact hq
    intro s hs
    refine ⟨?_, ?_⟩
    · rcases f2 s (f3 s hs) with h | ⟨rfl, h⟩
      · exact .inl (f1 s h)
      · exact .inr ⟨rfl, hkeep _ hs 1 (Dict.get?_of_mem hwf1 h)⟩
    · intro q hq
      refine hkeep s hs q ?_
      rcases j2 with rfl | ⟨rfl, hno⟩
      · exact hq
      · by_cases hso : s = oneSym pre
        · subst hso
          exact absurd ((h1 _ q hq).2 rfl) (hno (_, q) (Dict.mem_of_get? hq))
        · rw [Dict.get?_set_ne _ _ hso]; exact hq

/-- The example of C26 meets the hypotheses. -/
example : exD.Wf ∧ NoNegHalf exD exE ∧ ∀ s q, exD.get? s = some q → (q = 1 ↔ s = oneSym []) := by
  refine ⟨by unfold Dict.Wf; decide, ?_, ?_⟩
  · intro a x hn
    simp only [exE, nodes_app, nodes_sym, nodes_num, List.flatMap_cons, List.flatMap_nil, List.append_nil,
      List.nil_append, List.mem_append, List.mem_cons, List.not_mem_nil, or_false, List.cons_append,
      Prod.mk.injEq, reduceCtorEq, false_and, false_or, List.cons.injEq] at hn
    obtain ⟨-, -, rfl, -⟩ := hn
    decide +kernel
  · intro s q h
    simp only [exD, Dict.get?] at h
    split at h
    · next hs => simp at h; subst h; rw [← hs]; decide +kernel
    · split at h
      · next hs => simp at h; subst h; rw [← hs]; decide +kernel
      · cases h

/-! ### Violations -/

/-- **C27 is violated** for `a^(-1/2)`: the result uses `_Integer_1`, which no table entry declares. -/
theorem C27_half_power : ∃ (e e' : Expr) (d' : Table),
    convert unwrap [] true false 30 [] e = some (e', d') ∧ e.free = [(c% "a")] ∧
    oneSym [] ∈ e'.free ∧ d'.get? (oneSym []) = none :=
  ⟨.app .pow [.sym (c% "a"), .num (-(1 / 2))],
    fn2 nDiv (.sym (oneSym [])) (fn1 nSqrt (.sym (c% "a"))), [], by decide +kernel, by decide +kernel,
    by decide +kernel, by decide +kernel⟩

/-- **C27 is violated** for `1/a` if the table has another symbol of value one: the result uses
`_Integer_1`, which is not declared. -/
theorem C27_other_one : ∃ (d d' : Table) (e e' : Expr),
    convert unwrap [] true false 30 d e = some (e', d') ∧ d = [((c% "u"), 1)] ∧ e.free = [(c% "a")] ∧
    oneSym [] ∈ e'.free ∧ d'.get? (oneSym []) = none :=
  ⟨[((c% "u"), 1)], [((c% "u"), 1)], .app .pow [.sym (c% "a"), .num (-1)],
    fn2 nDiv (.sym (oneSym [])) (.sym (c% "a")), by decide +kernel, rfl, by decide +kernel,
    by decide +kernel, by decide +kernel⟩

/-- **C27 is violated** for a block of code with clean-up: a temporary uses minus one, the only output
does not, and the declaration of minus one is deleted. -/
theorem C27_clean : ∃ (d d' : Table) (temps outs temps' outs' : List Expr),
    convertBlock unwrap [] true true 30 d temps outs = some (temps', outs', d') ∧
    d.get? (c% "_NegativeOne_") = some (-1) ∧
    (∃ t ∈ temps', (c% "_NegativeOne_") ∈ t.free) ∧ d'.get? (c% "_NegativeOne_") = none :=
  ⟨[((c% "_NegativeOne_"), -1)], [],
    [.app .mul [.sym (c% "_NegativeOne_"), .sym (c% "a")]],
    [.app .add [.app (.fn (c% "cos")) [.sym (c% "tmp0")], .sym (c% "tmp0")]],
    [fn2 nMul (.sym (c% "_NegativeOne_")) (.sym (c% "a"))],
    [fn2 nAdd (fn1 (c% "CosSIMD") (.sym (c% "tmp0"))) (.sym (c% "tmp0"))],
    by decide +kernel, by decide +kernel, ⟨_, List.mem_cons_self, by decide +kernel⟩, by decide +kernel⟩

end Verif.SIMD
