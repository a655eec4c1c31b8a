import Verif.Helpers.Functional
import Mathlib.Data.List.Nodup
import Mathlib.Data.List.ProdSigma
import Mathlib.Data.List.Pairwise

/-!
# Properties C29 (de-duplication) and C30 (cartesian products)
-/
namespace Verif.Helpers

/-! ## C29 -/

/-- Specification: `out` lists the elements of `l`, each once, in order of first occurrence. -/
structure IsDedup {α} [DecidableEq α] (l out : List α) : Prop where
  /-- no element twice -/
  nodup : out.Nodup
  /-- the same elements -/
  mem : ∀ x, x ∈ out ↔ x ∈ l
  /-- the elements of `out` appear in `l` in that order, `x` before `y` iff the first `x` is before the
  first `y` -/
  order : out.Pairwise (fun x y => l.idxOf x < l.idxOf y)

theorem uniqFrom_mem {α} [DecidableEq α] (l seen : List α) (x : α) :
    x ∈ uniqFrom seen l ↔ x ∈ l ∧ x ∉ seen := by
  induction l generalizing seen with
  | nil => simp [uniqFrom]
  | cons a l ih =>
    unfold uniqFrom
    split
    · rw [ih]; constructor
      · rintro ⟨h1, h2⟩; exact ⟨List.mem_cons_of_mem _ h1, h2⟩
      · rintro ⟨h1, h2⟩
        rcases List.mem_cons.mp h1 with rfl | h1
        · contradiction
        · exact ⟨h1, h2⟩
    · rename_i ha
      rw [List.mem_cons, ih]
      constructor
      · rintro (rfl | ⟨h1, h2⟩)
        · exact ⟨by simp, ha⟩
        · exact ⟨by simp [h1], fun h => h2 (by simp [h])⟩
      · rintro ⟨h1, h2⟩
        by_cases hxa : x = a
        · exact .inl hxa
        · right
          refine ⟨(List.mem_cons.mp h1).resolve_left hxa, ?_⟩
          simp [hxa, h2]

theorem uniqFrom_order {α} [DecidableEq α] (l seen : List α) :
    (uniqFrom seen l).Pairwise (fun x y => l.idxOf x < l.idxOf y) := by
  induction l generalizing seen with
  | nil => simp [uniqFrom]
  | cons a l ih =>
    have key : ∀ s : List α, a ∈ s →
        (uniqFrom s l).Pairwise (fun x y => (a :: l).idxOf x < (a :: l).idxOf y) := by
      intro s hs
      refine (ih s).imp_of_mem ?_
      intro x y hx hy hxy
      have h1 := ((uniqFrom_mem _ _ _).mp hx).2
      have h2 := ((uniqFrom_mem _ _ _).mp hy).2
      rw [List.idxOf_cons_ne _ (by rintro rfl; exact h1 hs), List.idxOf_cons_ne _ (by rintro rfl; exact h2 hs)]
      omega
    unfold uniqFrom
    split
    · exact key _ (by assumption)
    · refine List.pairwise_cons.mpr ⟨?_, key _ (by simp)⟩
      intro y hy
      have h2 := ((uniqFrom_mem _ _ _).mp hy).2
      rw [List.idxOf_cons_self, List.idxOf_cons_ne _ (by rintro rfl; exact h2 (by simp))]
      omega

/-- **C29** for `superfast_uniq`. -/
theorem C29_superfast_uniq {α} [DecidableEq α] (l : List α) : IsDedup l (superfastUniq l) where
  nodup := (uniqFrom_order l []).imp (by rintro a b h rfl; omega)
  mem := fun x => by simp [superfastUniq, uniqFrom_mem]
  order := uniqFrom_order l []

theorem uniquify_eq_aux {α} [DecidableEq α] (l acc : List α) :
    l.foldl (fun acc x => if x ∈ acc then acc else acc ++ [x]) acc = acc ++ uniqFrom acc l := by
  have congr : ∀ (l s t : List α), (∀ x, x ∈ s ↔ x ∈ t) → uniqFrom s l = uniqFrom t l := by
    intro l
    induction l with
    | nil => intros; rfl
    | cons a l ih =>
      intro s t h
      unfold uniqFrom
      by_cases ha : a ∈ s
      · rw [if_pos ha, if_pos ((h a).mp ha), ih s t h]
      · rw [if_neg ha, if_neg (fun h' => ha ((h a).mpr h')), ih (a :: s) (a :: t) (by intro x; simp [h])]
  induction l generalizing acc with
  | nil => simp [uniqFrom]
  | cons a l ih =>
    rw [List.foldl_cons, uniqFrom]
    by_cases ha : a ∈ acc
    · rw [if_pos ha, if_pos ha, ih]
    · rw [if_neg ha, if_neg ha, ih, List.append_assoc, List.singleton_append]
      rw [congr l (acc ++ [a]) (a :: acc) (by intro x; simp [or_comm])]

/-- **C29** for `uniquify`. -/
theorem C29_uniquify {α} [DecidableEq α] (l : List α) : IsDedup l (uniquify l) := by
  have : uniquify l = superfastUniq l := by simp [uniquify, superfastUniq, uniquify_eq_aux]
  rw [this]; exact C29_superfast_uniq l

/-- The specification determines the result. -/
theorem C29_unique {α} [DecidableEq α] (l a b : List α) (ha : IsDedup l a) (hb : IsDedup l b) : a = b := by
  refine (List.Perm.eq_of_pairwise (le := fun x y => l.idxOf x < l.idxOf y) ?_ ha.order hb.order ?_)
  · intro x y _ _ h1 h2; omega
  · exact (List.perm_ext_iff_of_nodup ha.nodup hb.nodup).mpr (fun x => by rw [ha.mem, hb.mem])

example : superfastUniq [3, 1, 3, 2, 1] = [3, 1, 2] := by decide
example : uniquify [3, 1, 3, 2, 1] = [3, 1, 2] := by decide

/-! ## C30 -/

/-- Specification of the order of enumeration: first component slowest. -/
inductive LexBefore {α} [DecidableEq α] : List (List α) → List α → List α → Prop
  | head {it its x y xs ys} : it.idxOf x < it.idxOf y → LexBefore (it :: its) (x :: xs) (y :: ys)
  | tail {it its x xs ys} : LexBefore its xs ys → LexBefore (it :: its) (x :: xs) (x :: ys)

/-- The cartesian product, lexicographically. -/
def cart {α} : List (List α) → List (List α)
  | [] => [[]]
  | a :: rest => a.flatMap fun x => (cart rest).map (x :: ·)

theorem mem_cart {α} (its : List (List α)) (t : List α) :
    t ∈ cart its ↔ List.Forall₂ (fun x it => x ∈ it) t its := by
  induction its generalizing t with
  | nil => simp [cart]
  | cons a rest ih =>
    simp only [cart, List.mem_flatMap, List.mem_map]
    constructor
    · rintro ⟨x, hx, u, hu, rfl⟩
      exact .cons hx ((ih u).mp hu)
    · intro h
      cases h with
      | cons hx hu => exact ⟨_, hx, _, (ih _).mpr hu, rfl⟩

theorem cart_order {α} [DecidableEq α] (its : List (List α)) (h : ∀ it ∈ its, it.Nodup) :
    (cart its).Pairwise (LexBefore its) := by
  induction its with
  | nil => simp [cart]
  | cons a rest ih =>
    have ih := ih (fun it hit => h it (by simp [hit]))
    have ha : a.Nodup := h a (by simp)
    have hidx : a.Pairwise (fun x y => a.idxOf x < a.idxOf y) := by
      rw [List.pairwise_iff_getElem]
      intro i j hi hj hij
      rw [List.Nodup.idxOf_getElem ha, List.Nodup.idxOf_getElem ha]
      exact hij
    rw [cart, List.pairwise_flatMap]
    refine ⟨?_, hidx.imp ?_⟩
    · intro x hx
      rw [List.pairwise_map]
      exact ih.imp (fun hxy => .tail hxy)
    · intro x y hxy u hu v hv
      obtain ⟨u', _, rfl⟩ := List.mem_map.mp hu
      obtain ⟨v', _, rfl⟩ := List.mem_map.mp hv
      exact .head hxy

theorem lex_irrefl {α} [DecidableEq α] (its : List (List α)) (t : List α) : ¬ LexBefore its t t := by
  induction its generalizing t with
  | nil => intro h; cases h
  | cons a rest ih =>
    intro h
    cases h with
    | head h => omega
    | tail h => exact ih _ h

theorem foldl_prodStep {α} [PyIter α] (rest : List (List α)) (A : List (List α))
    (hr : ∀ it ∈ rest, ∀ x ∈ it, chainItem x = [x]) :
    rest.foldl prodStep (A.map .list) = (A.flatMap fun u => (cart rest).map (u ++ ·)).map .list := by
  induction rest generalizing A with
  | nil =>
    rw [List.foldl_nil]; congr 1
    induction A with
    | nil => rfl
    | cons a A ih => rw [List.flatMap_cons, ← ih]; simp [cart]
  | cons b rest ih =>
    rw [List.foldl_cons]
    have hstep : prodStep (A.map .list) b = (A.flatMap fun u => b.map fun y => u ++ [y]).map .list := by
      unfold prodStep
      rw [List.flatMap_map, List.map_flatMap]
      congr 1; funext u
      rw [List.map_map]
      apply List.map_congr_left
      intro y hy
      simp [Partial.flat, hr b (by simp) y hy]
    rw [hstep, ih _ (fun it hit => hr it (by simp [hit])), List.flatMap_assoc]
    congr 1; congr 1; funext u
    rw [cart, List.flatMap_map, List.map_flatMap]
    congr 1; funext y
    rw [List.map_map]
    apply List.map_congr_left
    intro v _
    simp

theorem mapM_toTuple {α} [PyIter α] (A : List (List α)) :
    (A.map Partial.list).mapM Partial.toTuple = (.ok A : Except ProdErr _) := by
  induction A with
  | nil => rfl
  | cons a A ih => rw [List.map_cons, List.mapM_cons, ih]; rfl

/-- **C30**, for at least two iterables (or one with `repeat >= 2`) whose elements are not themselves
unpacked by Python's `iter` (numbers, symbols, one-character strings). -/
theorem C30_product_partial {α} [PyIter α] [DecidableEq α] (a b : List α) (rest : List (List α)) (rep : Option Nat)
    (hel : ∀ it ∈ a :: b :: rest, ∀ x ∈ it, PyIter.items x = none ∨ PyIter.items x = some [x])
    (hnd : ∀ it ∈ a :: b :: rest, it.Nodup) :
    ∃ out, product (a :: b :: rest) rep = .ok out ∧ out.Nodup ∧
      (∀ t, t ∈ out ↔ List.Forall₂ (fun x it => x ∈ it) t (a :: b :: rest)) ∧
      out.Pairwise (LexBefore (a :: b :: rest)) := by
  have hch : ∀ it ∈ a :: b :: rest, ∀ x ∈ it, chainItem x = [x] := by
    intro it hit x hx
    unfold chainItem
    rcases hel it hit x hx with h | h <;> rw [h] <;> rfl
  have horder := cart_order (a :: b :: rest) hnd
  refine ⟨cart (a :: b :: rest), ?_, horder.imp (by rintro x y h rfl; exact lex_irrefl _ _ h), mem_cart _, horder⟩
  have h0 : prodStep (a.map .raw) b = (a.flatMap fun x => b.map fun y => [x, y]).map .list := by
    unfold prodStep
    rw [List.flatMap_map, List.map_flatMap]
    apply List.flatMap_congr
    intro x hx
    rw [List.map_map]
    apply List.map_congr_left
    intro y hy
    simp [Partial.flat, hch a (by simp) x hx, hch b (by simp) y hy]
  have hp : product (a :: b :: rest) rep =
      ((b :: rest).foldl prodStep (a.map .raw)).mapM Partial.toTuple := by
    cases rep <;> rfl
  rw [hp, List.foldl_cons, h0, foldl_prodStep rest _ (fun it hit => hch it (by simp [hit])), mapM_toTuple]
  congr 1
  rw [cart, List.flatMap_assoc]
  congr 1; funext x
  rw [cart, List.flatMap_map, List.map_flatMap]
  congr 1; funext y
  rw [List.map_map]
  rfl

/-- **C30** for `product(it, repeat=n)` with `n >= 2`: all `n`-tuples over `it`. -/
theorem C30_repeat_partial {α} [PyIter α] [DecidableEq α] (a : List α) (n : Nat) (hn : 2 ≤ n)
    (hel : ∀ x ∈ a, PyIter.items x = none ∨ PyIter.items x = some [x]) (hnd : a.Nodup) :
    ∃ out, product [a] (some n) = .ok out ∧ out.Nodup ∧
      (∀ t, t ∈ out ↔ t.length = n ∧ ∀ x ∈ t, x ∈ a) ∧
      out.Pairwise (LexBefore (List.replicate n a)) := by
  obtain ⟨m, rfl⟩ : ∃ m, n = m + 2 := ⟨n - 2, by omega⟩
  have hrep : ∀ it ∈ a :: a :: List.replicate m a, it = a := by
    intro it hit
    have : it ∈ List.replicate (m + 2) a := by simpa [List.replicate_succ] using hit
    exact List.eq_of_mem_replicate this
  obtain ⟨out, h1, h2, h3, h4⟩ := C30_product_partial a a (List.replicate m a) none
    (fun it hit x hx => hel x (by rw [← hrep it hit]; exact hx)) (fun it hit => by rw [hrep it hit]; exact hnd)
  refine ⟨out, ?_, h2, ?_, ?_⟩
  · rw [← h1]
    unfold product
    simp only [show 1 < m + 2 by omega, if_true, List.replicate_succ]
  · intro t
    rw [h3 t]
    have : ∀ (k : Nat) (t : List α), List.Forall₂ (fun x it => x ∈ it) t (List.replicate k a) ↔
        t.length = k ∧ ∀ x ∈ t, x ∈ a := by
      intro k
      induction k with
      | zero => intro t; cases t <;> simp
      | succ k ih =>
        intro t
        cases t with
        | nil => simp [List.replicate_succ]
        | cons x t => simp only [List.replicate_succ, List.forall₂_cons, ih]; simp; tauto
    exact this (m + 2) t
  · simpa [List.replicate_succ] using h4

/-- Integers: not iterable. -/
instance : PyIter Nat := ⟨fun _ => none⟩
/-- Strings: a string's items are its one-character strings. -/
instance : PyIter (List Char) := ⟨fun s => some (s.map fun c => [c])⟩

example : ∃ out, product [[1, 2], [3, 4]] none = .ok out ∧ out = [[1, 3], [1, 4], [2, 3], [2, 4]] := ⟨_, rfl, rfl⟩
example : (∀ it ∈ [[1, 2], [3, 4]], ∀ x ∈ it, PyIter.items x = none ∨ PyIter.items x = some [x]) ∧
    ∀ it ∈ [[1, 2], [3, 4]], it.Nodup := by decide

/-- The property fails for one iterable of numbers: a `TypeError` instead of one-element tuples. -/
theorem C30_single_fails : product [[1, 2, 3]] none = .error .typeError := rfl

/-- The property fails for elements that are strings of several characters: they are split up. -/
theorem C30_strings_fail : product [[(c% "ab")], [(c% "c")]] none = .ok [[(c% "a"), (c% "b"), (c% "c")]] := rfl

end Verif.Helpers
