import Verif.IndexedExp.Names
import Verif.IndexedExp.SymmetrizeProps
import Verif.CFunction.Props
import Mathlib.Algebra.MvPolynomial.Basic
import Mathlib.Logic.Relation

/-!
# Properties C12 (declared components are distinct) and C13 (derivatives across symmetry axes)
-/
namespace Verif.IndexedExp
open Verif.Py Verif.CFunction

/-! ## C12 -/

theorem dec_digit (n : Nat) (h : n < 10) : dec n = [Nat.digitChar n] := by
  have : ∀ n < 10, dec n = [Nat.digitChar n] := by decide
  exact this n h

theorem digitChar_inj (a b : Nat) (ha : a < 10) (hb : b < 10) (h : Nat.digitChar a = Nat.digitChar b) :
    a = b := by
  have : ∀ a < 10, ∀ b < 10, Nat.digitChar a = Nat.digitChar b → a = b := by decide
  exact this a ha b hb h

theorem flatMap_dec (l : List Nat) (h : ∀ a ∈ l, a < 10) : l.flatMap dec = l.map Nat.digitChar := by
  induction l with
  | nil => rfl
  | cons a l ih =>
    rw [List.flatMap_cons, List.map_cons, dec_digit a (h a (by simp)), ih (fun b hb => h b (by simp [hb]))]
    rfl

theorem map_digit_inj (l m : List Nat) (hl : ∀ a ∈ l, a < 10) (hm : ∀ a ∈ m, a < 10)
    (h : l.map Nat.digitChar = m.map Nat.digitChar) : l = m := by
  induction l generalizing m with
  | nil => simpa using h.symm
  | cons a l ih =>
    cases m with
    | nil => simp at h
    | cons b m =>
      simp only [List.map_cons, List.cons.injEq] at h
      rw [digitChar_inj a b (hl a (by simp)) (hm b (by simp)) h.1,
        ih m (fun c hc => hl c (by simp [hc])) (fun c hc => hm c (by simp [hc])) h.2]

theorem get_create (shape : List Nat) (symbol : Str) (pre idx : List Nat) :
    (create shape symbol pre).get idx =
      if idx.length = shape.length ∧ ∀ k (h1 : k < idx.length) (h2 : k < shape.length),
        idx[k] < shape[k] then some (entry symbol (pre ++ idx)) else none := by
  induction shape generalizing pre idx with
  | nil =>
    cases idx with
    | nil => simp [create, NT.get]
    | cons i is => simp [create, NT.get]
  | cons n rest ih =>
    cases idx with
    | nil => simp [create, NT.get]
    | cons i is =>
      simp only [create, NT.get, List.getElem?_map]
      by_cases hi : i < n
      · rw [List.getElem?_range hi]
        simp only [Option.map_some, Option.bind_some]
        rw [ih]
        have : (is.length = rest.length ∧ ∀ k (h1 : k < is.length) (h2 : k < rest.length),
            is[k] < rest[k]) ↔ ((i :: is).length = (n :: rest).length ∧
            ∀ k (h1 : k < (i :: is).length) (h2 : k < (n :: rest).length),
              (i :: is)[k] < (n :: rest)[k]) := by
          constructor
          · rintro ⟨h1, h2⟩
            refine ⟨by simp [h1], fun k hk1 hk2 => ?_⟩
            cases k with
            | zero => simpa using hi
            | succ k => simpa using h2 k (by simpa using hk1) (by simpa using hk2)
          · rintro ⟨h1, h2⟩
            refine ⟨by simpa using h1, fun k hk1 hk2 => ?_⟩
            have := h2 (k + 1) (by simpa using hk1) (by simpa using hk2)
            simpa using this
        simp only [this, List.append_assoc, List.singleton_append]
      · have hnone : (List.range n)[i]? = none := by simp; omega
        rw [hnone]
        simp only [Option.map_none, Option.bind_none]
        rw [if_neg]
        rintro ⟨_, h2⟩
        have h0 := h2 0 (by simp) (by simp)
        exact hi h0

/-- **C12**, without symmetry: in at most ten dimensions, two index tuples of a declared tensor of any
rank hold the same symbol only if they are the same tuple. -/
theorem C12_distinct_components (rank dim : Nat) (hdim : dim ≤ 10) (base : Str) (hb : base ≠ [])
    (x y : List Nat) (s : Str)
    (hx : (create (List.replicate rank dim) base []).get x = some (some s))
    (hy : (create (List.replicate rank dim) base []).get y = some (some s)) : x = y := by
  rw [get_create] at hx hy
  have bounds : ∀ z : List Nat, (z.length = (List.replicate rank dim).length ∧
      ∀ k (h1 : k < z.length) (h2 : k < (List.replicate rank dim).length),
        z[k] < (List.replicate rank dim)[k]) → ∀ a ∈ z, a < 10 := by
    rintro z ⟨h1, h2⟩ a ha
    obtain ⟨k, hk, rfl⟩ := List.getElem_of_mem ha
    have := h2 k hk (by rw [← h1]; exact hk)
    simp only [List.getElem_replicate] at this
    omega
  split at hx
  · rename_i cx
    split at hy
    · rename_i cy
      simp only [entry, hb, if_false, List.nil_append, Option.some.injEq] at hx hy
      rw [flatMap_dec x (bounds x cx)] at hx
      rw [flatMap_dec y (bounds y cy)] at hy
      rw [← hy] at hx
      exact map_digit_inj x y (bounds x cx) (bounds y cy) (List.append_cancel_left hx)
    · cases hy
  · cases hx

/-- Every valid index tuple holds a symbol (so the statement above is about all entries). -/
theorem C12_all_entries (rank dim : Nat) (base : Str) (hb : base ≠ []) (x : List Nat)
    (hl : x.length = rank) (hx : ∀ a ∈ x, a < dim) :
    (create (List.replicate rank dim) base []).get x = some (some (base ++ x.flatMap dec)) := by
  rw [get_create, if_pos]
  · simp [entry, hb]
  · refine ⟨by simp [hl], fun k h1 h2 => ?_⟩
    rw [List.getElem_replicate]
    exact hx _ (List.getElem_mem _)

/-- The bound is needed: in twelve dimensions `(1, 11)` and `(11, 1)` share the name `a111`. -/
theorem C12_collision_above_ten :
    (create [12, 12] (c% "a") []).get [1, 11] = (create [12, 12] (c% "a") []).get [11, 1] := by
  have h1 := C12_all_entries 2 12 (c% "a") (by simp) [1, 11] rfl (by decide)
  have h2 := C12_all_entries 2 12 (c% "a") (by simp) [11, 1] rfl (by decide)
  exact h1.trans (Eq.trans (by decide) h2.symm)

/-- Index tuples identified by the requested symmetry: one is obtained from the other by exchanging
positions inside the requested groups. -/
def Identified {r : Nat} (l : List SymReq) : (Fin r → Nat) → (Fin r → Nat) → Prop :=
  Relation.EqvGen fun a b => ∃ s ∈ l, ∃ i ∈ s.idx, ∃ j ∈ s.idx, b = exch i j a

theorem go_identified {r : Nat} (l : List SymReq) (L : List (Int × Fin r × Fin r))
    (hL : ∀ o ∈ L, ∃ s ∈ l, o.2.1.val ∈ s.idx ∧ o.2.2.val ∈ s.idx) (x : Fin r → Nat) :
    Identified l x (x ∘ (go x L).2) := by
  induction L with
  | nil => exact Relation.EqvGen.refl _
  | cons o L ih =>
    obtain ⟨sg, p, q⟩ := o
    have ih' := ih (fun o ho => hL o (by simp [ho]))
    simp only [go]
    split
    · obtain ⟨s, hs, h1, h2⟩ := hL (sg, p, q) (by simp)
      refine Relation.EqvGen.trans _ _ _ ih' (Relation.EqvGen.rel _ _ ⟨s, hs, p.val, h1, q.val, h2, ?_⟩)
      rw [exch_eq]; rfl
    · split <;> exact ih'

/-- **C12**, with symmetry: in at most ten dimensions, after imposing any supported symmetry on a
declared tensor (ranks 2 to 4), two nonzero entries hold the same symbol up to sign only if their index
tuples are identified by that symmetry. -/
theorem C12_distinct_up_to_symmetry (r : Nat) (l : List SymReq) (hl : l ∈ requests r) (dim : Nat)
    (hdim : dim ≤ 10) (base : Str) (T' : Tensor r (MvPolynomial Str ℤ))
    (h : symmetrize r (renderReqs l) dim
      (fun x => (MvPolynomial.X (base ++ (List.ofFn x).flatMap dec) : MvPolynomial Str ℤ)) = some T')
    (x y : Fin r → Nat) (hx : ∀ k, x k < dim) (hy : ∀ k, y k < dim) (hne : T' x ≠ 0)
    (hxy : T' x = T' y ∨ T' x = - T' y) : Identified l x y := by
  have hok := okAll_all r l hl
  unfold okAll at hok
  cases hp : passesOf r l with
  | none => rw [hp] at hok; cases hok
  | some L =>
    rw [hp] at hok
    simp only [Bool.and_eq_true, List.all_eq_true, List.any_eq_true, decide_eq_true_eq] at hok
    obtain ⟨⟨_, hpass⟩, _⟩ := hok
    have hL : ∀ o ∈ L, o.1 = 1 ∨ o.1 = -1 := by
      intro o ho
      obtain ⟨s, _, ⟨_, h⟩, _⟩ := hpass o ho
      cases hsa : s.anti <;> simp [hsa] at h <;> simp [h]
    have hL2 : ∀ o ∈ L, ∃ s ∈ l, o.2.1.val ∈ s.idx ∧ o.2.2.val ∈ s.idx := by
      intro o ho
      obtain ⟨s, hs, ⟨⟨h1, h2⟩, _⟩, _⟩ := hpass o ho
      exact ⟨s, hs, h1, h2⟩
    unfold symmetrize at h
    rw [runItems_of_passes dim _ L _ hp] at h
    cases h
    rw [foldl_pass dim L _ x hx] at hne hxy
    rw [foldl_pass dim L _ y hy] at hxy
    have sx := (runL_toL x L hL).1
    have sy := (runL_toL y L hL).1
    have hX : ∀ (a b : Str) (s t : ℤ), s = 1 ∨ s = -1 → (t = 0 ∨ t = 1 ∨ t = -1) →
        ((s : MvPolynomial Str ℤ) * MvPolynomial.X a = (t : MvPolynomial Str ℤ) * MvPolynomial.X b) →
        a = b := by
      intro a b s t hs ht he
      by_contra hab
      have hc := congrArg (MvPolynomial.coeff (Finsupp.single a 1)) he
      have e1 : ∀ (c : ℤ) (p : MvPolynomial Str ℤ), (c : MvPolynomial Str ℤ) * p = MvPolynomial.C c * p := by
        intro c p; simp
      have hne : ¬ (Finsupp.single b 1 : Str →₀ ℕ) = Finsupp.single a 1 := fun hs =>
        hab (Finsupp.single_left_injective one_ne_zero hs).symm
      rw [e1, e1, MvPolynomial.coeff_C_mul, MvPolynomial.coeff_C_mul, MvPolynomial.coeff_X,
        MvPolynomial.coeff_X, if_pos rfl, if_neg hne] at hc
      rcases hs with rfl | rfl <;> simp at hc
    have hsx : (go x L).1 = 1 ∨ (go x L).1 = -1 := by
      rcases sx with h0 | h1
      · rw [h0] at hne; simp at hne
      · exact h1
    have heq : base ++ (List.ofFn (x ∘ (go x L).2)).flatMap dec =
        base ++ (List.ofFn (y ∘ (go y L).2)).flatMap dec := by
      rcases hxy with h1 | h1
      · exact hX _ _ _ _ hsx sy h1
      · refine hX _ _ _ (-(go y L).1) hsx ?_ ?_
        · rcases sy with h | h | h <;> simp [h]
        · rw [h1]; push_cast; ring
    have hb : ∀ (z : Fin r → Nat), (∀ k, z k < dim) → ∀ a ∈ List.ofFn z, a < 10 := by
      intro z hz a ha
      rw [List.mem_ofFn] at ha
      obtain ⟨k, rfl⟩ := ha
      have := hz k
      omega
    have heq2 := List.append_cancel_left heq
    have bx := hb (x ∘ (go x L).2) (fun k => hx _)
    have bY := hb (y ∘ (go y L).2) (fun k => hy _)
    rw [flatMap_dec _ bx, flatMap_dec _ bY] at heq2
    have heq3 := map_digit_inj _ _ bx bY heq2
    have htup := List.ofFn_injective heq3
    have r1 := go_identified l L hL2 x
    have r2 := go_identified l L hL2 y
    rw [htup] at r1
    exact Relation.EqvGen.trans _ _ _ r1 (Relation.EqvGen.symm _ _ r2)

/-- Non-vacuity for C12 with symmetry. -/
example : ∃ T', symmetrize 2 (renderReqs [⟨false, [0,1]⟩]) 3
    (fun x => (MvPolynomial.X ((c% "gDD") ++ (List.ofFn x).flatMap dec) : MvPolynomial Str ℤ)) = some T' :=
  let ⟨T', h, _⟩ := C11_symmetrize 2 [⟨false, [0,1]⟩] (by decide) 3 _
  ⟨T', h⟩

/-! ## C13 -/

theorem zeroList_get (axes : Str) (l l' : List NT) (h : zeroList axes l = .ok l') (i : Nat) :
    (l[i]? = none ∧ l'[i]? = none) ∨ ∃ t t', l[i]? = some t ∧ l'[i]? = some t' ∧
      zeroNT axes t = .ok t' := by
  induction l generalizing l' i with
  | nil => simp only [zeroList] at h; cases h; simp
  | cons t l ih =>
    simp only [zeroList] at h
    cases ht : zeroNT axes t with
    | error e => rw [ht] at h; cases h
    | ok t' =>
      rw [ht] at h
      simp only at h
      cases hl : zeroList axes l with
      | error e => rw [hl] at h; cases h
      | ok m =>
        rw [hl] at h
        cases h
        cases i with
        | zero => right; exact ⟨t, t', by simp, by simp, ht⟩
        | succ i => simpa using ih m hl i

/-- Entry-wise effect of the loops. -/
theorem zeroNT_get (axes : Str) (idx : List Nat) : ∀ (t t' : NT), zeroNT axes t = .ok t' →
    (t.get idx = none ∧ t'.get idx = none) ∨
    ∃ e e', t.get idx = some e ∧ t'.get idx = some e' ∧ zeroEntry axes e = .ok e' := by
  induction idx with
  | nil =>
    intro t t' h
    cases t with
    | leaf e =>
      simp only [zeroNT] at h
      cases he : zeroEntry axes e with
      | error x => rw [he] at h; cases h
      | ok e' => rw [he] at h; cases h; right; exact ⟨e, e', rfl, rfl, he⟩
    | node l =>
      simp only [zeroNT] at h
      cases hl : zeroList axes l with
      | error x => rw [hl] at h; cases h
      | ok l' => rw [hl] at h; cases h; left; exact ⟨rfl, rfl⟩
  | cons i is ih =>
    intro t t' h
    cases t with
    | leaf e =>
      simp only [zeroNT] at h
      cases he : zeroEntry axes e with
      | error x => rw [he] at h; cases h
      | ok e' => rw [he] at h; cases h; left; exact ⟨rfl, rfl⟩
    | node l =>
      simp only [zeroNT] at h
      cases hl : zeroList axes l with
      | error x => rw [hl] at h; cases h
      | ok l' =>
        rw [hl] at h; cases h
        simp only [NT.get]
        rcases zeroList_get axes l l' hl i with ⟨h1, h2⟩ | ⟨u, u', h1, h2, h3⟩
        · rw [h1, h2]; left; exact ⟨rfl, rfl⟩
        · rw [h1, h2]
          exact ih u u' h3

theorem containsSub_false (sub s : Str) (h : ¬ sub <:+: s) : containsSub sub s = false := by
  rw [Bool.eq_false_iff]; intro hh; exact h ((containsSub_iff _ _).1 hh)

/-- Skipping a prefix that contains no `_d`. -/
theorem derivOrder_skip (a rest : Str) (k : Nat) (h : ¬ (c% "_d") <:+: a)
    (hr : rest.head? ≠ some 'd') : derivOrder (a ++ rest) k = derivOrder rest k := by
  induction a with
  | nil => rfl
  | cons c a ih =>
    have h' : ¬ (c% "_d") <:+: a := fun hh => h (hh.trans ⟨[c], [], by simp⟩)
    simp only [List.cons_append, derivOrder]
    rw [if_neg, ih h']
    intro hp
    rw [List.isPrefixOf_iff_prefix] at hp
    obtain ⟨t, ht⟩ := hp
    simp only [List.cons_append, List.nil_append, List.cons.injEq] at ht
    obtain ⟨rfl, ht⟩ := ht
    cases a with
    | nil =>
      simp only [List.nil_append] at ht
      rw [← ht] at hr; simp at hr
    | cons c' a =>
      simp only [List.cons_append, List.cons.injEq] at ht
      obtain ⟨rfl, _⟩ := ht
      exact h ⟨[], a, by simp⟩

theorem derivOrder_none (s : Str) (k : Nat) (h : ¬ (c% "_d") <:+: s) : derivOrder s k = .ok k := by
  have := derivOrder_skip s [] k h (by simp)
  rw [List.append_nil] at this
  rw [this]; rfl

theorem derivOrder_at (tail : Str) (k : Nat) (h3 : ¬ (c% "DDD") <:+: tail)
    (hd : ¬ (c% "_d") <:+: tail) :
    derivOrder ((c% "_d") ++ tail) k = .ok (if containsSub (c% "DD") tail then 2 else k) := by
  have hpre : (c% "_d").isPrefixOf ((c% "_d") ++ tail) = true := by
    rw [List.isPrefixOf_iff_prefix]; exact ⟨tail, rfl⟩
  have e : derivOrder ((c% "_d") ++ tail) k = derivOrder ('d' :: tail)
      (if containsSub (c% "DD") tail then 2 else k) := by
    have e2 : ((c% "_d") ++ tail) = '_' :: 'd' :: tail := rfl
    rw [e2] at hpre ⊢
    conv_lhs => unfold derivOrder
    rw [if_pos hpre]
    simp only [List.drop_succ_cons, List.drop_zero, containsSub_false _ _ h3, Bool.false_eq_true,
      if_false]
  rw [e]
  conv_lhs => unfold derivOrder
  rw [if_neg (by intro hp; rw [List.isPrefixOf_iff_prefix] at hp; obtain ⟨t, ht⟩ := hp; simp at ht)]
  exact derivOrder_none _ _ hd

/-- **C13**: a name without `_d` is never taken for a derivative. -/
theorem C13_non_derivative (axes s : Str) (h : ¬ (c% "_d") <:+: s) : acrossAxis axes s = .ok false := by
  unfold acrossAxis
  rw [containsSub_false _ _ h]
  rfl

/-- The characters of a decimal digit string. -/
def IsDigits (s : Str) : Prop := ∀ c ∈ s, c ≠ 'D' ∧ c ≠ '_' ∧ c ≠ 'd'

theorem not_infix_of_not_mem {a : Char} {sub s : Str} (ha : a ∈ sub) (hs : a ∉ s) : ¬ sub <:+: s :=
  fun h => hs (h.subset ha)

/-- First-derivative operators (`dD`, `dupD`, `ddnD`, `dKOD`, `dfullupD`, `dfulldnD`) after the `d`. -/
def firstOps : List Str :=
  [(c% "D"), (c% "upD"), (c% "dnD"), (c% "KOD"), (c% "fullupD"), (c% "fulldnD")]

/-- **C13**, first derivatives: the entry is zeroed exactly when its derivative index (last character)
is a symmetry axis. The base name must not itself contain `_d`. -/
theorem C13_first_derivative (axes base op digits : Str) (d : Char) (hop : op ∈ firstOps)
    (hb : ¬ (c% "_d") <:+: base) (hdig : IsDigits (digits ++ [d])) :
    acrossAxis axes (base ++ ((c% "_d") ++ (op ++ (digits ++ [d])))) = .ok (axes.contains d) := by
  have hD : 'D' ∉ digits ++ [d] := fun h => (hdig _ h).1 rfl
  have hU : '_' ∉ op ++ (digits ++ [d]) := by
    intro h
    rcases List.mem_append.1 h with h | h
    · have : ∀ o ∈ firstOps, '_' ∉ o := by decide
      exact this op hop h
    · exact (hdig _ h).2.1 rfl
  -- "DD" does not occur
  have hDD : ¬ (c% "DD") <:+: op ++ (digits ++ [d]) := by
    generalize digits ++ [d] = t at hD
    have : ∀ (pre : Str), 'D' ∉ pre → ¬ (c% "DD") <:+: pre ++ 'D' :: t := by
      intro pre
      induction pre with
      | nil =>
        intro _ h
        rw [List.nil_append, List.infix_cons_iff] at h
        rcases h with h | h
        · obtain ⟨u, hu⟩ := h
          simp only [List.cons_append, List.nil_append, List.cons.injEq, true_and] at hu
          apply hD; rw [← hu]; simp
        · exact not_infix_of_not_mem (a := 'D') (by simp) hD h
      | cons c pre ih =>
        intro hc h
        rw [List.cons_append, List.infix_cons_iff] at h
        rcases h with h | h
        · obtain ⟨u, hu⟩ := h
          simp only [List.cons_append, List.nil_append, List.cons.injEq] at hu
          apply hc; rw [hu.1]; simp
        · exact ih (fun h => hc (by simp [h])) h
    simp only [firstOps, List.mem_cons, List.not_mem_nil, or_false] at hop
    rcases hop with rfl | rfl | rfl | rfl | rfl | rfl
    · exact this [] (by simp)
    · exact this (c% "up") (by decide)
    · exact this (c% "dn") (by decide)
    · exact this (c% "KO") (by decide)
    · exact this (c% "fullup") (by decide)
    · exact this (c% "fulldn") (by decide)
  have hDDD : ¬ (c% "DDD") <:+: op ++ (digits ++ [d]) := fun h =>
    hDD (List.IsInfix.trans ⟨[], (c% "D"), rfl⟩ h)
  have hd : ¬ (c% "_d") <:+: op ++ (digits ++ [d]) := not_infix_of_not_mem (a := '_') (by simp) hU
  unfold acrossAxis
  have hcon : containsSub (c% "_d") (base ++ ((c% "_d") ++ (op ++ (digits ++ [d])))) = true := by
    rw [containsSub_iff]; exact ⟨base, op ++ (digits ++ [d]), by simp⟩
  rw [hcon]
  simp only [if_true]
  rw [derivOrder_skip base _ 1 hb (by simp), derivOrder_at _ 1 hDDD hd, containsSub_false _ _ hDD]
  simp

/-- **C13**, second derivatives: zeroed exactly when one of the two derivative indices (the last two
characters) is a symmetry axis. -/
theorem C13_second_derivative (axes base digits : Str) (d1 d2 : Char)
    (hb : ¬ (c% "_d") <:+: base) (hdig : IsDigits (digits ++ [d1, d2])) :
    acrossAxis axes (base ++ ((c% "_d") ++ ((c% "DD") ++ (digits ++ [d1, d2])))) =
      .ok (axes.contains d2 || axes.contains d1) := by
  have hD : 'D' ∉ digits ++ [d1, d2] := fun h => (hdig _ h).1 rfl
  have hU : '_' ∉ (c% "DD") ++ (digits ++ [d1, d2]) := by
    intro h
    rcases List.mem_append.1 h with h | h
    · revert h; decide
    · exact (hdig _ h).2.1 rfl
  have hDDD : ¬ (c% "DDD") <:+: (c% "DD") ++ (digits ++ [d1, d2]) := by
    generalize digits ++ [d1, d2] = t at hD
    intro h
    simp only [List.cons_append, List.nil_append] at h
    rw [List.infix_cons_iff] at h
    rcases h with ⟨u, hu⟩ | h
    · simp only [List.cons_append, List.nil_append, List.cons.injEq, true_and] at hu
      apply hD; rw [← hu]; simp
    · rw [List.infix_cons_iff] at h
      rcases h with ⟨u, hu⟩ | h
      · simp only [List.cons_append, List.nil_append, List.cons.injEq, true_and] at hu
        apply hD; rw [← hu]; simp
      · exact not_infix_of_not_mem (a := 'D') (by simp) hD h
  have hd : ¬ (c% "_d") <:+: (c% "DD") ++ (digits ++ [d1, d2]) :=
    not_infix_of_not_mem (a := '_') (by simp) hU
  have hDD : containsSub (c% "DD") ((c% "DD") ++ (digits ++ [d1, d2])) = true := by
    rw [containsSub_iff]; exact ⟨[], digits ++ [d1, d2], by simp⟩
  unfold acrossAxis
  have hcon : containsSub (c% "_d") (base ++ ((c% "_d") ++ ((c% "DD") ++ (digits ++ [d1, d2])))) = true := by
    rw [containsSub_iff]; exact ⟨base, (c% "DD") ++ (digits ++ [d1, d2]), by simp⟩
  rw [hcon]
  simp only [if_true]
  rw [derivOrder_skip base _ 1 hb (by simp), derivOrder_at _ 1 hDDD hd, hDD]
  simp

theorem isDigits_dec (l : List Nat) (h : ∀ a ∈ l, a < 10) : IsDigits (l.flatMap dec) := by
  rw [flatMap_dec l h]
  intro c hc
  obtain ⟨a, ha, rfl⟩ := List.mem_map.1 hc
  have : ∀ a < 10, Nat.digitChar a ≠ 'D' ∧ Nat.digitChar a ≠ '_' ∧ Nat.digitChar a ≠ 'd' := by decide
  exact this a (h a ha)

theorem zeroList_ok (axes : Str) (l : List NT) (h : ∀ t ∈ l, ∃ t', zeroNT axes t = .ok t') :
    ∃ l', zeroList axes l = .ok l' := by
  induction l with
  | nil => exact ⟨[], rfl⟩
  | cons t l ih =>
    obtain ⟨t', ht⟩ := h t (by simp)
    obtain ⟨l', hl⟩ := ih (fun x hx => h x (by simp [hx]))
    exact ⟨t' :: l', by simp only [zeroList, ht, hl]; rfl⟩

theorem zeroNT_create_ok (axes symbol : Str) (shape pre : List Nat)
    (h : ∀ x, List.Forall₂ (· < ·) x shape → ∃ e, zeroEntry axes (entry symbol (pre ++ x)) = .ok e) :
    ∃ t', zeroNT axes (create shape symbol pre) = .ok t' := by
  induction shape generalizing pre with
  | nil =>
    obtain ⟨e, he⟩ := h [] .nil
    refine ⟨.leaf e, ?_⟩
    rw [List.append_nil] at he
    simp only [create, zeroNT, he]; rfl
  | cons n rest ih =>
    obtain ⟨l', hl⟩ := zeroList_ok axes ((List.range n).map fun i => create rest symbol (pre ++ [i])) (by
      intro t ht
      obtain ⟨i, hi, rfl⟩ := List.mem_map.1 ht
      apply ih
      intro x hx
      have := h (i :: x) (.cons (List.mem_range.1 hi) hx)
      simpa using this)
    exact ⟨.node l', by simp only [create, zeroNT, hl]; rfl⟩

theorem rank_create (symbol : Str) (r dim : Nat) (hd : 1 ≤ dim) (pre : List Nat) :
    (create (List.replicate r dim) symbol pre).rank = r := by
  induction r generalizing pre with
  | zero => rfl
  | succ r ih =>
    obtain ⟨k, rfl⟩ : ∃ k, dim = k + 1 := ⟨dim - 1, by omega⟩
    rw [List.replicate_succ, create, List.range_succ_eq_map, List.map_cons, NT.rank, ih]
    omega

/-- Tensors of rank 0 or more than 4 are rejected when axes are declared. -/
theorem C13_rank_check (axes symbol : Str) (r dim : Nat) (hd : 1 ≤ dim) (hax : axes ≠ []) (hr : r = 0 ∨ 4 < r) :
    zeroOut axes (create (List.replicate r dim) symbol []) = .error .badRank := by
  unfold zeroOut
  rw [if_neg hax, rank_create symbol r dim hd, if_pos (by omega)]

theorem forall₂_replicate {y : List Nat} {r dim : Nat} (h : List.Forall₂ (· < ·) y (List.replicate r dim)) :
    y.length = r ∧ ∀ a ∈ y, a < dim := by
  induction r generalizing y with
  | zero => cases h; simp
  | succ r ih =>
    rw [List.replicate_succ] at h
    cases h with
    | cons h1 h2 =>
      obtain ⟨h3, h4⟩ := ih h2
      refine ⟨by simp [h3], ?_⟩
      intro a ha
      rcases List.mem_cons.1 ha with rfl | ha
      · exact h1
      · exact h4 a ha

theorem tensor_first_aux (axes base op : Str) (rank dim : Nat) (hdim : dim ≤ 10) (hax : axes ≠ [])
    (hop : op ∈ firstOps) (hb : ¬ (c% "_d") <:+: base) (t' : NT)
    (h : zeroOut axes (create (List.replicate (rank + 1) dim) (base ++ (c% "_d") ++ op) []) = .ok t')
    (x : List Nat) (hl : x.length = rank) (hx : ∀ a ∈ x, a < dim) (d : Nat) (hd : d < dim) :
    t'.get (x ++ [d]) = some (if axes.contains (Nat.digitChar d) then none
      else some (base ++ (c% "_d") ++ op ++ (x ++ [d]).flatMap dec)) := by
  have hxd : ∀ a ∈ x ++ [d], a < dim := by
    intro a ha
    rcases List.mem_append.1 ha with h1 | h1
    · exact hx a h1
    · simp at h1; omega
  have hget := C12_all_entries (rank + 1) dim (base ++ (c% "_d") ++ op) (by simp) (x ++ [d])
    (by simp [hl]) hxd
  unfold zeroOut at h
  rw [if_neg hax] at h
  split at h
  · cases h
  · rcases zeroNT_get axes (x ++ [d]) _ _ h with ⟨h1, _⟩ | ⟨e, e', h1, h2, h3⟩
    · rw [hget] at h1; cases h1
    · rw [hget] at h1
      cases h1
      rw [h2]
      have hdig : (x ++ [d]).flatMap dec = x.flatMap dec ++ [Nat.digitChar d] := by
        simp [dec_digit d (by omega)]
      have hid := isDigits_dec (x ++ [d]) (fun a ha => by have := hxd a ha; omega)
      rw [hdig] at hid
      have := C13_first_derivative axes base op (x.flatMap dec) (Nat.digitChar d) hop hb hid
      unfold zeroEntry at h3
      have hassoc : base ++ (c% "_d") ++ op ++ (x ++ [d]).flatMap dec =
          base ++ ((c% "_d") ++ (op ++ (x.flatMap dec ++ [Nat.digitChar d]))) := by
        rw [hdig]; simp
      rw [hassoc] at h3
      simp only [this] at h3
      rw [hassoc]
      cases hc : axes.contains (Nat.digitChar d)
      · rw [hc] at h3; cases h3; rfl
      · rw [hc] at h3; cases h3; rfl

/-- **C13**, whole tensors, first derivatives: with declared symmetry axes, the call succeeds on a
declared first-derivative tensor of rank at most 4 in one to ten dimensions, and the entry with
component indices `x` and derivative index `d` is zero if `d` is one of the axes and is left as declared
otherwise. -/
theorem C13_tensor_first (axes base op : Str) (rank dim : Nat) (hdim : dim ≤ 10) (hax : axes ≠ [])
    (hop : op ∈ firstOps) (hb : ¬ (c% "_d") <:+: base) (hd1 : 1 ≤ dim) (hr : rank + 1 ≤ 4) :
    ∃ t', zeroOut axes (create (List.replicate (rank + 1) dim) (base ++ (c% "_d") ++ op) []) = .ok t' ∧
      ∀ (x : List Nat), x.length = rank → (∀ a ∈ x, a < dim) → ∀ d, d < dim →
        t'.get (x ++ [d]) = some (if axes.contains (Nat.digitChar d) then none
          else some (base ++ (c% "_d") ++ op ++ (x ++ [d]).flatMap dec)) := by
  have hok : ∃ t', zeroOut axes (create (List.replicate (rank + 1) dim) (base ++ (c% "_d") ++ op) []) = .ok t' := by
    unfold zeroOut
    rw [if_neg hax, rank_create _ _ _ hd1, if_neg (by omega)]
    apply zeroNT_create_ok
    intro y hy
    obtain ⟨hl, hlt⟩ := forall₂_replicate hy
    rcases List.eq_nil_or_concat y with rfl | ⟨x, d, rfl⟩
    · simp at hl
    rw [List.concat_eq_append] at hl hlt ⊢
    have hdig : (x ++ [d]).flatMap dec = x.flatMap dec ++ [Nat.digitChar d] := by
      have := hlt d (by simp)
      simp [dec_digit d (by omega)]
    have hid := isDigits_dec (x ++ [d]) (fun a ha => by have := hlt a ha; omega)
    rw [hdig] at hid
    have := C13_first_derivative axes base op (x.flatMap dec) (Nat.digitChar d) hop hb hid
    have he : entry (base ++ (c% "_d") ++ op) ([] ++ (x ++ [d])) =
        some (base ++ ((c% "_d") ++ (op ++ (x.flatMap dec ++ [Nat.digitChar d])))) := by
      unfold entry
      rw [if_neg (by simp), List.nil_append, hdig]
      simp
    rw [he]
    unfold zeroEntry
    simp only [this]
    cases axes.contains (Nat.digitChar d)
    · exact ⟨_, rfl⟩
    · exact ⟨_, rfl⟩
  obtain ⟨t', h⟩ := hok
  exact ⟨t', h, fun x hl hx d hd => tensor_first_aux axes base op rank dim hdim hax hop hb t' h x hl hx d hd⟩
theorem tensor_second_aux (axes base : Str) (rank dim : Nat) (hdim : dim ≤ 10) (hax : axes ≠ [])
    (hb : ¬ (c% "_d") <:+: base) (t' : NT)
    (h : zeroOut axes (create (List.replicate (rank + 2) dim) (base ++ (c% "_d") ++ (c% "DD")) []) = .ok t')
    (x : List Nat) (hl : x.length = rank) (hx : ∀ a ∈ x, a < dim) (d1 d2 : Nat) (hd1 : d1 < dim)
    (hd2 : d2 < dim) :
    t'.get (x ++ [d1, d2]) = some (if axes.contains (Nat.digitChar d2) || axes.contains (Nat.digitChar d1)
      then none else some (base ++ (c% "_d") ++ (c% "DD") ++ (x ++ [d1, d2]).flatMap dec)) := by
  have hxd : ∀ a ∈ x ++ [d1, d2], a < dim := by
    intro a ha
    rcases List.mem_append.1 ha with h1 | h1
    · exact hx a h1
    · simp at h1; omega
  have hget := C12_all_entries (rank + 2) dim (base ++ (c% "_d") ++ (c% "DD")) (by simp) (x ++ [d1, d2])
    (by simp [hl]) hxd
  unfold zeroOut at h
  rw [if_neg hax] at h
  split at h
  · cases h
  · rcases zeroNT_get axes (x ++ [d1, d2]) _ _ h with ⟨h1, _⟩ | ⟨e, e', h1, h2, h3⟩
    · rw [hget] at h1; cases h1
    · rw [hget] at h1
      cases h1
      rw [h2]
      have hdig : (x ++ [d1, d2]).flatMap dec = x.flatMap dec ++ [Nat.digitChar d1, Nat.digitChar d2] := by
        simp [dec_digit d1 (by omega), dec_digit d2 (by omega)]
      have hid := isDigits_dec (x ++ [d1, d2]) (fun a ha => by have := hxd a ha; omega)
      rw [hdig] at hid
      have := C13_second_derivative axes base (x.flatMap dec) (Nat.digitChar d1) (Nat.digitChar d2) hb hid
      unfold zeroEntry at h3
      have hassoc : base ++ (c% "_d") ++ (c% "DD") ++ (x ++ [d1, d2]).flatMap dec =
          base ++ ((c% "_d") ++ ((c% "DD") ++ (x.flatMap dec ++ [Nat.digitChar d1, Nat.digitChar d2]))) := by
        rw [hdig]; simp
      rw [hassoc] at h3
      simp only [this] at h3
      rw [hassoc]
      cases hc : (axes.contains (Nat.digitChar d2) || axes.contains (Nat.digitChar d1))
      · rw [hc] at h3; cases h3; rfl
      · rw [hc] at h3; cases h3; rfl

/-- **C13**, whole tensors, second derivatives. -/
theorem C13_tensor_second (axes base : Str) (rank dim : Nat) (hdim : dim ≤ 10) (hax : axes ≠ [])
    (hb : ¬ (c% "_d") <:+: base) (hd1 : 1 ≤ dim) (hr : rank + 2 ≤ 4) :
    ∃ t', zeroOut axes (create (List.replicate (rank + 2) dim) (base ++ (c% "_d") ++ (c% "DD")) []) = .ok t' ∧
      ∀ (x : List Nat), x.length = rank → (∀ a ∈ x, a < dim) → ∀ d1 d2, d1 < dim → d2 < dim →
        t'.get (x ++ [d1, d2]) = some (if axes.contains (Nat.digitChar d2) || axes.contains (Nat.digitChar d1)
          then none else some (base ++ (c% "_d") ++ (c% "DD") ++ (x ++ [d1, d2]).flatMap dec)) := by
  have hok : ∃ t', zeroOut axes (create (List.replicate (rank + 2) dim) (base ++ (c% "_d") ++ (c% "DD")) []) = .ok t' := by
    unfold zeroOut
    rw [if_neg hax, rank_create _ _ _ hd1, if_neg (by omega)]
    apply zeroNT_create_ok
    intro y hy
    obtain ⟨hl, hlt⟩ := forall₂_replicate hy
    rcases List.eq_nil_or_concat y with rfl | ⟨x', d2, rfl⟩
    · simp at hl
    rcases List.eq_nil_or_concat x' with rfl | ⟨x, d1, rfl⟩
    · simp at hl
    rw [List.concat_eq_append, List.concat_eq_append] at hl hlt ⊢
    have e2 : (x ++ [d1]) ++ [d2] = x ++ [d1, d2] := by simp
    rw [e2] at hlt ⊢
    have hdig : (x ++ [d1, d2]).flatMap dec = x.flatMap dec ++ [Nat.digitChar d1, Nat.digitChar d2] := by
      have h1 := hlt d1 (by simp)
      have h2 := hlt d2 (by simp)
      simp [dec_digit d1 (by omega), dec_digit d2 (by omega)]
    have hid := isDigits_dec (x ++ [d1, d2]) (fun a ha => by have := hlt a ha; omega)
    rw [hdig] at hid
    have := C13_second_derivative axes base (x.flatMap dec) (Nat.digitChar d1) (Nat.digitChar d2) hb hid
    have he : entry (base ++ (c% "_d") ++ (c% "DD")) ([] ++ (x ++ [d1, d2])) =
        some (base ++ ((c% "_d") ++ ((c% "DD") ++ (x.flatMap dec ++ [Nat.digitChar d1, Nat.digitChar d2])))) := by
      unfold entry
      rw [if_neg (by simp), List.nil_append, hdig]
      simp
    rw [he]
    unfold zeroEntry
    simp only [this]
    cases (axes.contains (Nat.digitChar d2) || axes.contains (Nat.digitChar d1))
    · exact ⟨_, rfl⟩
    · exact ⟨_, rfl⟩
  obtain ⟨t', h⟩ := hok
  exact ⟨t', h, fun x hl hx d1 d2 h1 h2 => tensor_second_aux axes base rank dim hdim hax hb t' h x hl hx d1 d2 h1 h2⟩

/-- Non-vacuity for C13: a tensor on which the call succeeds. -/
example : ((zeroOut (c% "2") (create [2, 3] (c% "vU_dupD") [])).toOption.bind
    (fun t => t.get [1, 2])) = some none := by decide

example : ¬ (c% "_d") <:+: (c% "vU") := by rw [← containsSub_iff]; decide

/-- The hypothesis on the base name is needed: a tensor that is not a derivative but whose name contains
`_d` loses components. -/
theorem C13_name_with_d_is_zeroed :
    ((zeroOut (c% "0") (create [3] (c% "v_dampU") [])).toOption.bind (fun t => t.get [0])) =
      some none := by decide

end Verif.IndexedExp
