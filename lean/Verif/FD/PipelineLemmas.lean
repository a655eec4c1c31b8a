import Verif.FD.Pipeline
import Verif.FD.NamesProps
import Verif.FD.CoeffsProps

/-!
# Lemmas for the finite-difference pipeline
-/
namespace Verif.FD
open Verif.Py Verif.Helpers Verif.CFunction

/-! ## Stencil points have three components -/

theorem foldlM_inv {α β ε} (P : β → Prop) (f : β → α → Except ε β)
    (hf : ∀ b a b', P b → f b a = .ok b' → P b') (l : List α) (b b' : β) (hb : P b)
    (h : l.foldlM f b = .ok b') : P b' := by
  induction l generalizing b with
  | nil => simp only [List.foldlM_nil, pure, Except.pure, Except.ok.injEq] at h; exact h ▸ hb
  | cons a l ih =>
    rw [List.foldlM_cons] at h
    cases hfa : f b a with
    | error e => rw [hfa] at h; cases h
    | ok c => rw [hfa] at h; exact ih c (hf b a c hb hfa) h

theorem setIdx_len {l l' : List Int} {d v} (h : setIdx l d v = .ok l') : l'.length = l.length := by
  unfold setIdx at h
  split at h
  · cases h; simp
  · cases h

theorem step_len (s w shift ty row) (st : List ℚ × List (List Int)) (i : Nat) (st')
    (hst : ∀ x ∈ st.2, x.length = 3) (h : step s w shift ty row st i = .ok st') : ∀ x ∈ st'.2, x.length = 3 := by
  have key : ∀ (cs : List ℚ) (idx : List Int), idx.length = 3 → ∀ x ∈ (cs, st.2 ++ [idx]).2, x.length = 3 := by
    intro cs idx hl x hx
    rcases List.mem_append.mp hx with hx | hx
    · exact hst x hx
    · rw [List.mem_singleton] at hx; rw [hx]; exact hl
  unfold step at h
  simp only [bind, Except.bind] at h
  repeat' split at h
  all_goals first
    | (cases h; done)
    | (cases h; exact hst)
    | (cases h; exact key _ _ rfl)
    | (cases h; rename_i hi; exact key _ _ (by rw [setIdx_len hi]; rfl))

theorem stepMixed_len (s w shift) (st : List ℚ × List (List Int)) (ij : Nat × Nat) (st')
    (hst : ∀ x ∈ st.2, x.length = 3) (h : stepMixed s w shift st ij = .ok st') : ∀ x ∈ st'.2, x.length = 3 := by
  unfold stepMixed at h
  simp only [bind, Except.bind] at h
  cases hm : minvEntry w shift ij.1 1 with
  | error e => rw [hm] at h; cases h
  | ok m =>
    cases hm2 : minvEntry w shift ij.2 1 with
    | error e => rw [hm, hm2] at h; cases h
    | ok m2 =>
      rw [hm, hm2] at h
      simp only at h
      split at h
      · cases h1 : fromEnd s 1 with
        | error e => rw [h1] at h; cases h
        | ok c1 =>
          cases h2 : fromEnd s 2 with
          | error e => rw [h1, h2] at h; simp only at h; cases hd1 : digitVal c1 <;> rw [hd1] at h <;> cases h
          | ok c2 =>
            rw [h1, h2] at h
            simp only at h
            cases hd1 : digitVal c1 with
            | error e => rw [hd1] at h; cases h
            | ok d1 =>
              cases hd2 : digitVal c2 with
              | error e => rw [hd1, hd2] at h; cases h
              | ok d2 =>
                rw [hd1, hd2] at h
                simp only at h
                split at h
                · cases h
                · rename_i i1 hi1
                  split at h
                  · cases h
                  · rename_i i2 hi2
                    cases h
                    have hl : i2.length = 3 := by rw [setIdx_len hi2, setIdx_len hi1]; rfl
                    intro x hx
                    rcases List.mem_append.mp hx with hx | hx
                    · exact hst x hx
                    · rw [List.mem_singleton] at hx; rw [hx]; exact hl
      · cases h; exact hst

theorem fdcoeffs_len {s : Str} {o : Nat} {r} (h : fdcoeffs s o = .ok r) : ∀ x ∈ r.2, x.length = 3 := by
  unfold fdcoeffs at h
  simp only [bind, Except.bind] at h
  cases hk : derivKind s (effOrder s o + 1) with
  | error e => rw [hk] at h; cases h
  | ok tr =>
    rw [hk] at h
    obtain ⟨ty, row⟩ := tr
    simp only at h
    split at h
    · exact foldlM_inv (P := fun st : List ℚ × List (List Int) => ∀ x ∈ st.2, x.length = 3) _
        (fun b a b' hb hf => step_len _ _ _ _ _ b a b' hb hf) _ _ _ (by simp) h
    · exact foldlM_inv (P := fun st : List ℚ × List (List Int) => ∀ x ∈ st.2, x.length = 3) _
        (fun b a b' hb hf => stepMixed_len _ _ _ b a b' hb hf) _ _ _ (by simp) h

/-! ## Executing a batch of independent declarations -/

def Ext (a b : Env) : Prop := ∀ n x, a n = some x → b n = some x

theorem evalSum_mono {a b : Env} (h : Ext a b) (l : List (ℚ × Str)) {x} (hx : evalSum a l = some x) :
    evalSum b l = some x := by
  induction l generalizing x with
  | nil => exact hx
  | cons cs l ih =>
    obtain ⟨c, s⟩ := cs
    simp only [evalSum, bind, Option.bind] at hx ⊢
    cases hs : a s with
    | none => rw [hs] at hx; cases hx
    | some y =>
      rw [hs] at hx
      cases hl : evalSum a l with
      | none => rw [hl] at hx; cases hx
      | some z => rw [hl] at hx; rw [h s y hs, ih hl]; exact hx

theorem evalProd_mono {a b : Env} (h : Ext a b) (l : List Str) {x} (hx : evalProd a l = some x) :
    evalProd b l = some x := by
  induction l generalizing x with
  | nil => exact hx
  | cons s l ih =>
    simp only [evalProd, bind, Option.bind] at hx ⊢
    cases hs : a s with
    | none => rw [hs] at hx; cases hx
    | some y =>
      rw [hs] at hx
      cases hl : evalProd a l with
      | none => rw [hl] at hx; cases hx
      | some z => rw [hl] at hx; rw [h s y hs, ih hl]; exact hx

theorem eval_mono {mem : Mem} {a b : Env} (h : Ext a b) (s : Stmt) {x} (hx : s.eval mem a = some x) :
    s.eval mem b = some x := by
  cases s with
  | read v gf pt => exact hx
  | fd v t f =>
    simp only [Stmt.eval, bind, Option.bind] at hx ⊢
    cases ht : evalSum a t with
    | none => rw [ht] at hx; cases hx
    | some y =>
      cases hf : evalProd a f with
      | none => rw [ht, hf] at hx; cases hx
      | some z => rw [ht, hf] at hx; rw [evalSum_mono h t ht, evalProd_mono h f hf]; exact hx
  | copy v s => exact h _ _ hx
  | alg v s =>
    simp only [Stmt.eval, Option.map_eq_some_iff] at hx ⊢
    obtain ⟨y, hy, e⟩ := hx
    exact ⟨y, h _ _ hy, e⟩
  | blend v u up dn =>
    simp only [Stmt.eval, bind, Option.bind] at hx ⊢
    cases h1 : a up with
    | none => rw [h1] at hx; cases hx
    | some p =>
      cases h2 : a dn with
      | none => rw [h1, h2] at hx; cases hx
      | some q =>
        rw [h1, h2] at hx
        rw [h up p h1, h dn q h2]
        cases u with
        | none => exact hx
        | some s =>
          simp only at hx ⊢
          cases h3 : a s with
          | none => rw [h3] at hx; cases hx
          | some w => rw [h3] at hx; rw [h s w h3]; exact hx

theorem exec_append (mem : Mem) (l m : List Stmt) (env : Env) :
    exec mem (l ++ m) env = (exec mem l env).bind (exec mem m) := by
  induction l generalizing env with
  | nil => rfl
  | cons s l ih =>
    simp only [List.cons_append, exec, bind, Option.bind]
    cases s.eval mem env with
    | none => rfl
    | some x =>
      simp only
      split
      · rfl
      · rw [ih]; rfl

theorem exec_batch (mem : Mem) (val : Stmt → ℝ) (S : List Stmt) (env : Env)
    (hv : ∀ s ∈ S, s.eval mem env = some (val s)) (hnd : (S.map Stmt.lhs).Nodup)
    (hfresh : ∀ s ∈ S, env s.lhs = none) :
    ∃ env', exec mem S env = some env' ∧ Ext env env' ∧ (∀ s ∈ S, env' s.lhs = some (val s)) ∧
      ∀ n, n ∉ S.map Stmt.lhs → env' n = env n := by
  induction S generalizing env with
  | nil => exact ⟨env, rfl, fun _ _ h => h, by simp, fun _ _ => rfl⟩
  | cons s S ih =>
    rw [List.map_cons, List.nodup_cons] at hnd
    have hs := hfresh s (by simp)
    have hext : Ext env (fun n => if n = s.lhs then some (val s) else env n) := by
      intro n x hn
      have : n ≠ s.lhs := by rintro rfl; rw [hs] at hn; cases hn
      simp [this, hn]
    obtain ⟨env', h1, h2, h3, h4⟩ := ih (fun n => if n = s.lhs then some (val s) else env n)
      (fun t ht => eval_mono hext t (hv t (by simp [ht]))) hnd.2 (by
        intro t ht
        have : t.lhs ≠ s.lhs := fun e => hnd.1 (e ▸ List.mem_map.mpr ⟨t, ht, rfl⟩)
        simp only [this, if_false]
        exact hfresh t (by simp [ht]))
    refine ⟨env', ?_, ?_, ?_, ?_⟩
    · simp only [exec, bind, Option.bind, hv s (by simp), hs]
      exact h1
    · intro n x hn; exact h2 n x (hext n x hn)
    · intro t ht
      rcases List.mem_cons.mp ht with rfl | ht
      · exact h2 _ _ (by simp)
      · exact h3 t ht
    · intro n hn
      simp only [List.map_cons, List.mem_cons, not_or] at hn
      rw [h4 n hn.2]
      simp [hn.1]

theorem insertStmt_perm (x : Stmt) (l : List Stmt) : (insertStmt x l).Perm (x :: l) := by
  induction l with
  | nil => exact .refl _
  | cons y l ih =>
    rw [insertStmt]
    split
    · exact .refl _
    · exact (ih.cons y).trans (.swap ..)

theorem sortStmts_perm (l : List Stmt) : (sortStmts l).Perm l := by
  induction l with
  | nil => exact .refl _
  | cons y l ih => exact (insertStmt_perm y _).trans (ih.cons y)

/-! ## Replacing one occurrence of a marker -/

/-- `replaceAll` leaves a string without the pattern alone. -/
theorem replaceAll_none (pat rep s : Str) (h : ¬ pat <:+: s) : replaceAll pat rep s = s := by
  unfold replaceAll
  induction s with
  | nil => rfl
  | cons c s ih =>
    have h1 : pat.isPrefixOf (c :: s) = false := by
      rw [Bool.eq_false_iff]; intro hh
      exact h (List.isPrefixOf_iff_prefix.1 hh).isInfix
    rw [replaceAux, h1]
    simp only [Bool.false_eq_true, if_false]
    rw [ih]
    intro hi
    obtain ⟨a, b, e⟩ := hi
    exact h ⟨c :: a, b, by rw [← e]; simp⟩

/-- A single occurrence: nothing starts in `a`, nothing is left in `b`. -/
theorem replaceAll_one (pat rep a b : Str) (hp : pat ≠ [])
    (ha : ∀ i, i < a.length → ¬ pat <+: (a ++ (pat ++ b)).drop i) (hb : ¬ pat <:+: b) :
    replaceAll pat rep (a ++ (pat ++ b)) = a ++ (rep ++ b) := by
  unfold replaceAll
  induction a with
  | nil =>
    cases pat with
    | nil => exact absurd rfl hp
    | cons c s =>
      have h1 : (c :: s).isPrefixOf (c :: (s ++ b)) = true := by
        rw [List.isPrefixOf_iff_prefix]; exact ⟨b, by simp⟩
      simp only [List.nil_append, List.cons_append, replaceAux, h1, if_true, List.length_cons, Nat.add_sub_cancel]
      rw [replaceAux_skip]
      congr 1
      exact replaceAll_none _ _ _ hb
  | cons c a ih =>
    have h0 : ¬ pat <+: (c :: a ++ (pat ++ b)) := by simpa using ha 0 (by simp)
    have h0' : pat.isPrefixOf (c :: (a ++ (pat ++ b))) = false := by
      rw [Bool.eq_false_iff]; intro hh
      exact h0 (by simpa using (List.isPrefixOf_iff_prefix.1 hh))
    simp only [List.cons_append, replaceAux, h0', Bool.false_eq_true, if_false]
    congr 1
    apply ih
    intro i hi
    have := ha (i + 1) (by simp; omega)
    simpa using this

end Verif.FD
