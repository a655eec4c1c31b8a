import Verif.SIMD.Steps2

/-!
# The conversion terminates (helper lemmas)

`unwrap` is the least SymPy's evaluation does: a sum or product of one argument is that argument and the
empty product is one.
-/
namespace Verif.SIMD
open Verif.Py Verif.Sympy Verif.Sympy.Expr

/-- A concrete stand-in for SymPy's evaluation of sums and products. -/
def unwrap : Expr → Expr
  | .app .mul [] => .num 1
  | .app .mul [x] => x
  | .app .add [x] => x
  | e => e

mutual
def size : Expr → Nat
  | .sym _ => 1
  | .num _ => 1
  | .app _ l => 1 + sizeList l
def sizeList : List Expr → Nat
  | [] => 0
  | e :: l => size e + sizeList l
end

theorem size_app (h : Head) (l : List Expr) : size (.app h l) = 1 + sizeList l := by rw [size]
theorem sizeList_nil : sizeList [] = 0 := by rw [sizeList]
theorem sizeList_cons (e : Expr) (l : List Expr) : sizeList (e :: l) = size e + sizeList l := by
  rw [sizeList]

theorem size_le_sizeList {e : Expr} {l : List Expr} (h : e ∈ l) : size e ≤ sizeList l := by
  induction l with
  | nil => cases h
  | cons a l ih =>
    rw [sizeList_cons]
    rcases List.mem_cons.1 h with rfl | h
    · omega
    · have := ih h; omega

theorem size_arg {e : Expr} {h : Head} {l : List Expr} (he : e ∈ l) : size e < size (.app h l) := by
  have := size_le_sizeList he
  rw [size_app]; omega

/-! ### More fuel does no harm -/

theorem mapS_mono {g g' : Table → Expr → Option (Expr × Table)}
    (H : ∀ d e r, g d e = some r → g' d e = some r) :
    ∀ l d r, mapS g d l = some r → mapS g' d l = some r := by
  intro l
  induction l with
  | nil => intro d r h; exact h
  | cons a l ih =>
    intro d r h
    rw [mapS] at h ⊢
    split at h
    · cases h
    · next e' d1 h1 =>
      rw [H _ _ _ h1]
      dsimp only
      split at h
      · cases h
      · next l' d2 h2 => rw [ih _ _ h2]; exact h

theorem topDown_mono {f : Table → Expr → Expr × Table} : ∀ n m, n ≤ m → ∀ d e r,
    topDown f n d e = some r → topDown f m d e = some r := by
  intro n
  induction n with
  | zero => intro m _ d e r h; simp [topDown] at h
  | succ n ih =>
    intro m hm d e r h
    obtain ⟨m, rfl⟩ : ∃ k, m = k + 1 := ⟨m - 1, by omega⟩
    rw [topDown] at h ⊢
    split at h
    · next hh l d1 hf =>
      split at h
      · cases h
      · next l' d2 h2 =>
        rw [mapS_mono (fun d e r => ih m (by omega) d e r) _ _ _ h2]
        exact h
    · next a d1 hna hf => exact h

/-! ### Passes that succeed -/

def Succ (f : Table → Expr → Expr × Table) (e : Expr) : Prop := ∀ d, ∃ n r, topDown f n d e = some r

theorem mapS_succ {f : Table → Expr → Expr × Table} : ∀ (l : List Expr), (∀ a ∈ l, Succ f a) →
    ∀ d, ∃ n r, mapS (topDown f n) d l = some r := by
  intro l
  induction l with
  | nil => intro _ d; exact ⟨0, _, rfl⟩
  | cons a l ih =>
    intro h d
    obtain ⟨n1, ⟨e', d1⟩, h1⟩ := h a (by simp) d
    obtain ⟨n2, ⟨l', d2⟩, h2⟩ := ih (fun b hb => h b (by simp [hb])) d1
    refine ⟨max n1 n2, (e' :: l', d2), ?_⟩
    rw [mapS, topDown_mono n1 _ (by omega) _ _ _ h1]
    dsimp only
    rw [mapS_mono (fun d e r => topDown_mono n2 (max n1 n2) (by omega) d e r) _ _ _ h2]

theorem succ_of_args {f : Table → Expr → Expr × Table} {e : Expr}
    (h : ∀ d h l, (f d e).1 = .app h l → ∀ a ∈ l, Succ f a) : Succ f e := by
  intro d
  match hf : f d e with
  | (.app hh l, d1) =>
    obtain ⟨n, ⟨l', d2⟩, hn⟩ := mapS_succ l (h d hh l (by rw [hf])) d1
    refine ⟨n + 1, (.app hh l', d2), ?_⟩
    rw [topDown, hf]
    dsimp only
    rw [hn]
  | (.sym s, d1) => exact ⟨1, (.sym s, d1), by rw [topDown, hf]⟩
  | (.num q, d1) => exact ⟨1, (.num q, d1), by rw [topDown, hf]⟩

theorem succ_of_size {f : Table → Expr → Expr × Table}
    (h : ∀ e, (∀ b, size b < size e → Succ f b) → Succ f e) (e : Expr) : Succ f e := by
  generalize hn : size e = n
  induction n using Nat.strongRecOn generalizing e with
  | _ n ih => exact h e fun b hb => ih (size b) (hn ▸ hb) b rfl

/-- A rule whose result has only arguments smaller than the expression. -/
theorem succ_of_shrink {f : Table → Expr → Expr × Table}
    (h : ∀ d e h l, (f d e).1 = .app h l → ∀ a ∈ l, size a < size e) (e : Expr) : Succ f e :=
  succ_of_size (fun e ih => succ_of_args fun d hh l hf a ha => ih a (h d e hh l hf a ha)) e

/-- Shrinking, for one result. -/
def Shr (e e' : Expr) : Prop := ∀ h l, e' = .app h l → ∀ a ∈ l, size a < size e

theorem Shr.rfl {e : Expr} : Shr e e := by
  rintro h l rfl a ha; exact size_arg ha

theorem shr_fn2 {n : Str} {e a b : Expr} (ha : size a < size e) (hb : size b < size e) :
    Shr e (fn2 n a b) := by
  rintro h l heq x hx
  simp only [fn2, Expr.app.injEq] at heq
  rw [← heq.2] at hx
  simp only [List.mem_cons, List.not_mem_nil, or_false] at hx
  rcases hx with rfl | rfl <;> assumption

theorem shr_fn3 {n : Str} {e a b c : Expr} (ha : size a < size e) (hb : size b < size e)
    (hc : size c < size e) : Shr e (fn3 n a b c) := by
  rintro h l heq x hx
  simp only [fn3, Expr.app.injEq] at heq
  rw [← heq.2] at hx
  simp only [List.mem_cons, List.not_mem_nil, or_false] at hx
  rcases hx with rfl | rfl | rfl <;> assumption

theorem size_fn2 (n : Str) (a b : Expr) : size (fn2 n a b) = 1 + (size a + size b) := by
  rw [fn2, size_app, sizeList_cons, sizeList_cons, sizeList_nil]; omega
theorem size_fn3 (n : Str) (a b c : Expr) : size (fn3 n a b c) = 1 + (size a + size b + size c) := by
  rw [fn3, size_app, sizeList_cons, sizeList_cons, sizeList_cons, sizeList_nil]; omega
theorem size_pos (e : Expr) : 0 < size e := by
  cases e with
  | sym => rw [size]; omega
  | num => rw [size]; omega
  | app => rw [size_app]; omega

macro "shr_tac" : tactic => `(tactic|
  (first
    | exact Shr.rfl
    | (apply shr_fn2 <;> simp only [size_fn2, size_fn3] <;> omega)
    | (apply shr_fn3 <;> simp only [size_fn2, size_fn3] <;> omega)))

theorem step4_shr (d : Table) (e : Expr) : Shr e (step4 d e) := by
  unfold step4
  split
  · exact Shr.rfl
  · next x y h =>
    obtain rfl := as2_eq h
    split
    · next p q hx =>
      obtain rfl := as2_eq hx
      split
      · shr_tac
      · split
        · next p' q' hy =>
          obtain rfl := as2_eq hy
          split <;> shr_tac
        · shr_tac
    · split
      · next p' q' hy =>
        obtain rfl := as2_eq hy
        split <;> shr_tac
      · shr_tac

theorem step5a_shr (d : Table) (e : Expr) : Shr e (step5a d e) := by
  unfold step5a
  split
  · exact Shr.rfl
  · next x y h =>
    obtain rfl := as2_eq h
    have := size_pos x
    have := size_pos y
    split
    · next b c p q hy => obtain rfl := asAddMulMul_eq hy; shr_tac
    · split
      · next b c p q hy => obtain rfl := asAddMulMul_eq hy; shr_tac
      · shr_tac

theorem singleFMA_shr (e : Expr) : Shr e (singleFMA e) := by
  unfold singleFMA
  split
  · next x y h =>
    obtain rfl := as2_eq h
    split
    · next b c hx => obtain rfl := as2_eq hx; shr_tac
    · split
      · next b c hy => obtain rfl := as2_eq hy; shr_tac
      · shr_tac
  · split
    · next x y h =>
      obtain rfl := as2_eq h
      split
      · next b c hx => obtain rfl := as2_eq hx; shr_tac
      · split
        · next b c hy => obtain rfl := as2_eq hy; shr_tac
        · shr_tac
    · shr_tac

theorem step5b_shr (d : Table) (e : Expr) : Shr e (step5b d e) := by
  unfold step5b
  split
  · next a b c h =>
    split
    · next p q hb =>
      split
      · have h1 := singleFMA_shr e (.fn nFMS) [a, b, c] (as3_eq h)
        have hb' := h1 b (by simp)
        have hc' := h1 c (by simp)
        rw [as2_eq hb, size_fn2] at hb'
        apply shr_fn3 <;> omega
      · exact singleFMA_shr e
    · exact singleFMA_shr e
  · exact singleFMA_shr e

theorem step5c_shr (d : Table) (e : Expr) : Shr e (step5c d e) := by
  unfold step5c
  split
  · next x y h =>
    obtain rfl := as2_eq h
    split
    · next b c p q hy => obtain rfl := as3Mul_eq hy; have := size_pos b; shr_tac
    · shr_tac
  · split
    · next x y h =>
      obtain rfl := as2_eq h
      split
      · next b c p q hy => obtain rfl := as3Mul_eq hy; have := size_pos b; shr_tac
      · split
        · next b c p q hy => obtain rfl := as3Mul_eq hy; have := size_pos b; shr_tac
        · shr_tac
    · shr_tac

theorem dropNeg_size {d : Table} {e b : Expr} (h : dropNeg d e = some b) : size b < size e := by
  unfold dropNeg at h
  split at h
  · cases h
  · next p q he =>
    obtain rfl := as2_eq he
    rw [size_fn2]
    split at h
    · simp only [Option.some.injEq] at h; subst h; omega
    · split at h
      · simp only [Option.some.injEq] at h; subst h; omega
      · cases h

theorem step5d_shr (d : Table) (e : Expr) : Shr e (step5d d e) := by
  unfold step5d
  split
  · exact Shr.rfl
  · next a b c h =>
    obtain rfl := as3_eq h
    split
    · next b' hb => have := dropNeg_size hb; shr_tac
    · split
      · next a' ha => have := dropNeg_size ha; shr_tac
      · shr_tac

theorem step5e_shr (d : Table) (e : Expr) : Shr e (step5e d e) := by
  unfold step5e
  split
  · next a b c h =>
    obtain rfl := as3_eq h
    split
    · shr_tac
    · split <;> shr_tac
  · split
    · next a b c h =>
      obtain rfl := as3_eq h
      have := size_pos a
      have := size_pos b
      split
      · shr_tac
      · split <;> shr_tac
    · shr_tac

theorem step5f_shr (d : Table) (e : Expr) : Shr e (step5f d e) := by
  unfold step5f
  split
  · next a b c h =>
    obtain rfl := as3_eq h
    split
    · next c' hc => have := dropNeg_size hc; shr_tac
    · shr_tac
  · split
    · next a b c h =>
      obtain rfl := as3_eq h
      split
      · next b' hb => have := dropNeg_size hb; shr_tac
      · split
        · next p q hb =>
          obtain rfl := as2_eq hb
          split
          · next q' hq => have := dropNeg_size hq; shr_tac
          · shr_tac
        · shr_tac
    · shr_tac

theorem step5g_shr (d : Table) (e : Expr) : Shr e (step5g d e) := by
  unfold step5g
  split
  · next x y h =>
    obtain rfl := as2_eq h
    split
    · next b c hx => obtain rfl := as2_eq hx; shr_tac
    · split
      · next b c hy => obtain rfl := as2_eq hy; shr_tac
      · shr_tac
  · split
    · next x y h =>
      obtain rfl := as2_eq h
      split
      · next b c hx => obtain rfl := as2_eq hx; shr_tac
      · shr_tac
    · shr_tac

theorem succ_pure {g : Table → Expr → Expr} (h : ∀ d e, Shr e (g d e)) (e : Expr) :
    Succ (pureStep g) e :=
  succ_of_shrink (fun d e hh l hf a ha => h d e hh l hf a ha) e

theorem step1a_shr (d : Table) (e : Expr) : Shr e (step1a d e) := by
  unfold step1a
  split
  · split
    · rintro h l' heq a ha
      simp only [Expr.app.injEq] at heq
      rw [← heq.2] at ha
      exact size_arg ha
    · exact Shr.rfl
  · exact Shr.rfl

/-! ### Steps 1.b, 2 and 3 -/

theorem succ_fixed {f : Table → Expr → Expr × Table} {h : Head} {l : List Expr}
    (hf : ∀ d, (f d (.app h l)).1 = .app h l) (hl : ∀ a ∈ l, Succ f a) : Succ f (.app h l) := by
  refine succ_of_args fun d hh l' h' a ha => hl a ?_
  rw [hf d] at h'
  simp only [Expr.app.injEq] at h'
  rw [h'.2]; exact ha

theorem succ_atom {f : Table → Expr → Expr × Table} {e : Expr} (hf : ∀ d, (f d e).1 = e)
    (he : ∀ h l, e ≠ .app h l) : Succ f e :=
  succ_of_args fun d hh l h' => absurd (by rw [← h', hf d]) (he hh l)

section
variable (pre : Str)

theorem s1b_fixed_fn (n : Str) (l : List Expr) (d : Table) :
    (step1b unwrap pre d (.app (.fn n) l)).1 = .app (.fn n) l := rfl
theorem s1b_fixed_mul (l : List Expr) (d : Table) :
    (step1b unwrap pre d (.app .mul l)).1 = .app .mul l := rfl

/-- A successful expression whose arguments are successful too. -/
def SuccA (f : Table → Expr → Expr × Table) (e : Expr) : Prop :=
  Succ f e ∧ ∀ h l, e = .app h l → ∀ a ∈ l, Succ f a

theorem succA_fn {f : Table → Expr → Expr × Table} (hf : ∀ n l d, (f d (.app (.fn n) l)).1 = .app (.fn n) l)
    {n : Str} {l : List Expr} (hl : ∀ a ∈ l, Succ f a) : SuccA f (.app (.fn n) l) := by
  refine ⟨succ_fixed (hf n l) hl, ?_⟩
  rintro h l' heq a ha
  simp only [Expr.app.injEq] at heq
  rw [← heq.2] at ha
  exact hl a ha

theorem succA_intPowNat {a : Expr} (ha : SuccA (step1b unwrap pre) a) :
    ∀ n, SuccA (step1b unwrap pre) (intPowNat a n)
  | 0 => ha
  | 1 => ha
  | 2 => succA_fn (s1b_fixed_fn pre) (by simpa using ha.1)
  | n + 3 => by
    rw [intPowNat]
    · exact succA_fn (s1b_fixed_fn pre) (by simpa using ⟨(succA_intPowNat ha (n + 2)).1, ha.1⟩)
    · intro h; omega
    · intro h; omega

theorem succ_step1b (e : Expr) : Succ (step1b unwrap pre) e := by
  refine succ_of_size (fun e ih => ?_) e
  have hone : Succ (step1b unwrap pre) (.sym (oneSym pre)) := succ_atom (fun _ => rfl) (by simp)
  by_cases hp : ∃ a x, e = .app .pow [a, x]
  · obtain ⟨a, x, rfl⟩ := hp
    have hsz : size (.app .pow [a, x]) = 1 + (size a + size x) := by
      rw [size_app, sizeList_cons, sizeList_cons, sizeList_nil]; omega
    have ha : SuccA (step1b unwrap pre) a := by
      refine ⟨ih a (by omega), ?_⟩
      rintro h l rfl b hb
      have := size_arg (h := h) hb
      exact ih b (by omega)
    have hx : Succ (step1b unwrap pre) x := ih x (by omega)
    have hs : Succ (step1b unwrap pre) (fn1 nSqrt a) :=
      (succA_fn (s1b_fixed_fn pre) (by simpa using ha.1)).1
    have hdiv : ∀ y, Succ (step1b unwrap pre) y →
        SuccA (step1b unwrap pre) (fn2 nDiv (.sym (oneSym pre)) y) := fun y hy =>
      succA_fn (s1b_fixed_fn pre) (by simpa using ⟨hone, hy⟩)
    have main : ∀ d, SuccA (step1b unwrap pre) (step1b unwrap pre d (.app .pow [a, x])).1 := by
      intro d
      have hpow : SuccA (step1b unwrap pre) (fn2 nPow a x) :=
        succA_fn (s1b_fixed_fn pre) (by simpa using ⟨ha.1, hx⟩)
      generalize hr : (step1b unwrap pre d (.app .pow [a, x])).1 = r
      unfold step1b at hr
      dsimp only at hr
      split at hr
      · split_ifs at hr <;> subst hr
        · exact succA_fn (s1b_fixed_fn pre) (by simpa using ha.1)
        · exact hdiv _ hs
        · exact hdiv _ (succ_fixed (s1b_fixed_mul pre _) (by simpa using ⟨hs, ha.1⟩))
        · exact hdiv _ (succ_fixed (s1b_fixed_mul pre _) (by simpa using ⟨hs, ha.1⟩))
        · exact succA_fn (s1b_fixed_fn pre) (by simpa using ha.1)
        · dsimp only [intPow]
          split
          · exact succA_intPowNat pre ha _
          · split
            · exact hdiv _ ha.1
            · exact hdiv _ (succA_intPowNat pre ha _).1
        · exact hpow
      · subst hr; exact hpow
    exact succ_of_args fun d h l hf => (main d).2 h l hf
  · refine succ_of_args fun d h l hf b hb => ih b ?_
    have : (step1b unwrap pre d e).1 = e := by
      unfold step1b
      split
      · exact absurd ⟨_, _, rfl⟩ hp
      · rfl
    rw [this] at hf
    rw [hf]
    exact size_arg hb

end

theorem unwrap_mul_cases (l : List Expr) :
    unwrap (.app .mul l) = .num 1 ∨ (∃ x, l = [x] ∧ unwrap (.app .mul l) = x) ∨
      (2 ≤ l.length ∧ unwrap (.app .mul l) = .app .mul l) := by
  match l with
  | [] => exact .inl rfl
  | [x] => exact .inr (.inl ⟨x, rfl, rfl⟩)
  | _ :: _ :: _ => exact .inr (.inr ⟨by simp, rfl⟩)

theorem unwrap_add_cases (l : List Expr) :
    (∃ x, l = [x] ∧ unwrap (.app .add l) = x) ∨ unwrap (.app .add l) = .app .add l := by
  match l with
  | [] => exact .inr rfl
  | [x] => exact .inl ⟨x, rfl, rfl⟩
  | _ :: _ :: _ => exact .inr rfl

theorem succ_step2 (e : Expr) : Succ (pureStep (step2 unwrap)) e := by
  refine succ_of_size (fun e ih => ?_) e
  refine succ_of_args fun d h l hf => ?_
  replace hf : step2 unwrap d e = .app h l := hf
  rcases step2_cases unwrap d e with h' | ⟨s, m, j, k, rest, rfl, hm, hk, -, -, hrest, h'⟩
  · rw [h'] at hf
    subst hf
    exact fun a ha => ih a (size_arg ha)
  · rw [h'] at hf
    have hfn : ∀ n l d, (pureStep (step2 unwrap) d (.app (.fn n) l)).1 = .app (.fn n) l := fun _ _ _ => rfl
    have hmul : Succ (pureStep (step2 unwrap)) (unwrap (.app .mul (m.eraseIdx j))) := by
      have hsub : ∀ b ∈ m.eraseIdx j, Succ (pureStep (step2 unwrap)) b := by
        intro b hb
        have h1 := size_arg (h := .mul) (List.mem_of_mem_eraseIdx hb)
        have h2 := size_arg (h := .add) hm
        exact ih b (by omega)
      rcases unwrap_mul_cases (m.eraseIdx j) with h1 | ⟨x, h1, h2⟩ | ⟨-, h2⟩
      · rw [h1]; exact succ_atom (fun _ => rfl) (by simp)
      · rw [h2]; exact hsub x (by rw [h1]; simp)
      · rw [h2]; exact succ_fixed (fun _ => rfl) hsub
    have hsub : SuccA (pureStep (step2 unwrap)) (fn2 nSub k (unwrap (.app .mul (m.eraseIdx j)))) :=
      succA_fn hfn (by simpa using ⟨ih k (size_arg hk), hmul⟩)
    dsimp only at hf
    split at hf
    · next h0 =>
      rcases unwrap_add_cases (fn2 nSub k (unwrap (.app .mul (m.eraseIdx j))) :: rest) with
        ⟨x, h1, -⟩ | h1
      · simp only [List.cons.injEq] at h1
        rw [h1.2] at h0; simp at h0
      · rw [h1] at hf
        simp only [Expr.app.injEq] at hf
        rw [← hf.2]
        intro a ha
        rcases List.mem_cons.1 ha with rfl | ha
        · exact hsub.1
        · rw [hrest] at ha
          exact ih a (size_arg (List.mem_of_mem_filter ha))
    · exact hsub.2 h l hf

theorem succA_pairUp {n : Str} : ∀ (l : List Expr) (s : Expr), (∀ a ∈ l, Succ (pureStep step3) a) →
    SuccA (pureStep step3) s → SuccA (pureStep step3) (pairUp n l s)
  | [], s, _, hs => hs
  | [a], s, hl, hs => succA_fn (fun _ _ _ => rfl) (by simpa using ⟨hl a (by simp), hs.1⟩)
  | a :: b :: l, s, hl, hs => by
    rw [pairUp]
    have hab : SuccA (pureStep step3) (fn2 n a b) := succA_fn (fun _ _ _ => rfl) (by
      simpa using ⟨hl a (by simp), hl b (by simp)⟩)
    exact succA_pairUp l _ (fun c hc => hl c (by simp [hc]))
      (succA_fn (fun _ _ _ => rfl) (by simpa using ⟨hab.1, hs.1⟩))

theorem succ_step3 (e : Expr) : Succ (pureStep step3) e := by
  refine succ_of_size (fun e ih => ?_) e
  refine succ_of_args fun d h l hf => ?_
  replace hf : step3 d e = .app h l := hf
  have key : ∀ (n : Str) (hh : Head) (m : List Expr), e = .app hh m →
      SuccA (pureStep step3) (nest n m) := by
    rintro n hh m rfl
    exact succA_pairUp _ _ (fun c hc => ih c (size_arg (List.mem_of_mem_take hc)))
      (succA_fn (fun _ _ _ => rfl) fun c hc => ih c (size_arg (List.mem_of_mem_drop hc)))
  unfold step3 at hf
  split at hf
  · exact (key _ _ _ rfl).2 h l hf
  · exact (key _ _ _ rfl).2 h l hf
  · subst hf
    exact fun a ha => ih a (size_arg ha)

/-! ### All passes -/

theorem runPasses_succ : ∀ (fs : List (Table → Expr → Expr × Table)), (∀ f ∈ fs, ∀ e, Succ f e) →
    ∀ d e, ∃ N, ∀ fuel, N ≤ fuel → ∃ r, runPasses fuel fs d e = some r := by
  intro fs
  induction fs with
  | nil => intro _ d e; exact ⟨0, fun _ _ => ⟨_, rfl⟩⟩
  | cons f fs ih =>
    intro h d e
    obtain ⟨n, ⟨e1, d1⟩, h1⟩ := h f (by simp) e d
    obtain ⟨N, hN⟩ := ih (fun g hg => h g (by simp [hg])) d1 e1
    refine ⟨max n N, fun fuel hf => ?_⟩
    rw [runPasses, topDown_mono n fuel (by omega) _ _ _ h1]
    exact hN fuel (by omega)

theorem passes_succ (pre : Str) (more : Bool) : ∀ f ∈ passes unwrap pre more, ∀ e, Succ f e := by
  intro f hf
  simp only [passes, List.mem_append, List.mem_cons, List.not_mem_nil, or_false] at hf
  have h5a : ∀ e, Succ (pureStep step5a) e := succ_pure step5a_shr
  have h5c : ∀ e, Succ (pureStep step5c) e := succ_pure step5c_shr
  rcases hf with ((((rfl | rfl | rfl | rfl | rfl) | hf) | rfl) | hf) | rfl | rfl | rfl | rfl
  · exact succ_pure step1a_shr
  · exact succ_step1b pre
  · exact succ_step2
  · exact succ_step3
  · exact succ_pure step4_shr
  · split at hf
    · simp at hf; rw [hf]; exact h5a
    · simp at hf
  · exact succ_pure step5b_shr
  · split at hf
    · simp at hf; rw [hf]; exact h5c
    · simp at hf
  · exact succ_pure step5d_shr
  · exact succ_pure step5e_shr
  · exact succ_pure step5f_shr
  · exact succ_pure step5g_shr

end Verif.SIMD
