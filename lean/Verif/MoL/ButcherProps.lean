import Verif.MoL.Butcher
import Mathlib.Algebra.BigOperators.Intervals
import Mathlib.Algebra.Order.Ring.Abs
import Mathlib.Tactic.Ring
import Mathlib.Tactic.Linarith
import Mathlib.Tactic.FieldSimp
import Mathlib.Tactic.Positivity

/-!
# C38: the Butcher tables have the advertised order

Specification (Butcher's order theory): a Runge–Kutta method with coefficients `a i j`, weights
`b i` and abscissae `c i = Σ_j a i j` has order `p` iff for every rooted tree `t` with at most `p`
nodes `Σ_i b i * Φ_i(t) = 1/γ(t)`, where `Φ_i` is the elementary weight and `γ` the density.
`RTree`, `size`, `gamma`, `weight`, `RKMethod`, `HasOrder` below are that specification; they do
not mention how tables are stored.
-/

open Finset

namespace Verif.MoL

/-! ## Specification -/

/-- Rooted (ordered) trees. -/
inductive RTree where
  | node (children : List RTree)

mutual
/-- Number of nodes. -/
def RTree.size : RTree → Nat
  | .node ts => RTree.sizes ts + 1
def RTree.sizes : List RTree → Nat
  | [] => 0
  | t :: ts => RTree.size t + RTree.sizes ts
end

mutual
/-- Density: `γ([t₁ … t_m]) = |t| γ(t₁) ⋯ γ(t_m)`. -/
def RTree.gamma : RTree → Nat
  | .node ts => (RTree.sizes ts + 1) * RTree.gammas ts
def RTree.gammas : List RTree → Nat
  | [] => 1
  | t :: ts => RTree.gamma t * RTree.gammas ts
end

mutual
/-- Elementary weight: `Φ_i([t₁ … t_m]) = Π_k Σ_j a_{ij} Φ_j(t_k)`. -/
def RTree.weight (s : Nat) (a : Nat → Nat → ℝ) : RTree → Nat → ℝ
  | .node ts, i => RTree.weights s a ts i
def RTree.weights (s : Nat) (a : Nat → Nat → ℝ) : List RTree → Nat → ℝ
  | [], _ => 1
  | t :: ts, i => (∑ j ∈ range s, a i j * RTree.weight s a t j) * RTree.weights s a ts i
end

/-- A Runge–Kutta method with `s` stages. -/
structure RKMethod where
  s : Nat
  a : Nat → Nat → ℝ
  b : Nat → ℝ
  c : Nat → ℝ

/-- Row-sum condition, explicitness and the order conditions, up to an error `ε`. -/
structure HasOrderUpTo (ε : ℝ) (m : RKMethod) (p : Nat) : Prop where
  explicit : ∀ i j, i ≤ j → m.a i j = 0
  row_sum : ∀ i < m.s, |∑ j ∈ range m.s, m.a i j - m.c i| ≤ ε
  order : ∀ t : RTree, t.size ≤ p →
    |∑ i ∈ range m.s, m.b i * t.weight m.s m.a i - 1 / (t.gamma : ℝ)| ≤ ε

/-- The method has order (at least) `p`. -/
structure HasOrder (m : RKMethod) (p : Nat) : Prop where
  explicit : ∀ i j, i ≤ j → m.a i j = 0
  row_sum : ∀ i < m.s, ∑ j ∈ range m.s, m.a i j = m.c i
  order : ∀ t : RTree, t.size ≤ p →
    ∑ i ∈ range m.s, m.b i * t.weight m.s m.a i = 1 / (t.gamma : ℝ)

/-! ## Reading a table as a method -/

/-- The abscissa of a row, if its first cell is a number. -/
def Row.abscissa? {K : Type*} (x : Row K) : Option K :=
  match x.head with
  | .num c => some c
  | .str _ => none

/-- The stage rows: those whose first cell is a number. -/
def Table.stages {K : Type*} (t : Table K) : List (Row K) := t.filter fun x => x.abscissa?.isSome

/-- The rows of weights: those whose first cell is the given string. -/
def Table.weightRows {K : Type*} (t : Table K) (lbl : String) : List (List K) :=
  t.filterMap fun x => match x.head with
    | .num _ => none
    | .str s => if s = lbl then some x.tail else none

/-- The Runge–Kutta method a table with stage rows `st` and weights `w` describes: `a i j` is cell
`j+1` of stage row `i`, `c i` its first cell (missing cells are zero). -/
noncomputable def methodOf (st : List (Row Q21)) (w : List Q21) : RKMethod where
  s := st.length
  a i j := ((st[i]?.bind fun x => x.tail[j]?).map Q21.val).getD 0
  b i := (w[i]?.map Q21.val).getD 0
  c i := ((st[i]?.bind Row.abscissa?).map Q21.val).getD 0

/-- `t` describes a method of order `p` through its weight row labelled `lbl`: there is exactly one
such row, it has one weight per stage, and the method has order `p`. -/
def TableOrder (t : Table Q21) (lbl : String) (p : Nat) : Prop :=
  ∃ w, t.weightRows lbl = [w] ∧ w.length = t.stages.length ∧ HasOrder (methodOf t.stages w) p

def TableOrderUpTo (ε : ℝ) (t : Table Q21) (lbl : String) (p : Nat) : Prop :=
  ∃ w, t.weightRows lbl = [w] ∧ w.length = t.stages.length ∧
    HasOrderUpTo ε (methodOf t.stages w) p

theorem RTree.size_pos : ∀ t : RTree, 0 < t.size
  | .node _ => by rw [RTree.size]; omega

theorem RTree.exists_node (t : RTree) : ∃ f, t = .node f := by cases t; exact ⟨_, rfl⟩

/-! ## Integer arithmetic with a common denominator -/

/-- `a + b √21` with integers. -/
structure Z21 where
  a : Int
  b : Int
deriving DecidableEq

namespace Z21
def add (x y : Z21) : Z21 := ⟨x.a + y.a, x.b + y.b⟩
def mul (x y : Z21) : Z21 := ⟨x.a * y.a + 21 * (x.b * y.b), x.a * y.b + x.b * y.a⟩
noncomputable def val (x : Z21) : ℝ := (x.a : ℝ) + (x.b : ℝ) * Real.sqrt 21

theorem val_zero : val ⟨0, 0⟩ = 0 := by simp [val]
theorem val_one : val ⟨1, 0⟩ = 1 := by simp [val]
theorem val_int (n : Int) : val ⟨n, 0⟩ = n := by simp [val]
theorem val_add (x y : Z21) : (add x y).val = x.val + y.val := by
  simp only [val, add]; push_cast; ring
theorem val_mul (x y : Z21) : (mul x y).val = x.val * y.val := by
  have h : Real.sqrt 21 * Real.sqrt 21 = 21 := Real.mul_self_sqrt (by norm_num)
  simp only [val, mul]; push_cast; linear_combination (-(x.b : ℝ) * y.b) * h

def dot : List Z21 → List Z21 → Z21
  | x :: xs, y :: ys => add (mul x y) (dot xs ys)
  | _, _ => ⟨0, 0⟩

theorem val_dot (xs ys : List Z21) (n : Nat) (h : min xs.length ys.length ≤ n) :
    (dot xs ys).val = ∑ j ∈ range n,
      ((xs[j]?).map val).getD 0 * ((ys[j]?).map val).getD 0 := by
  induction xs generalizing ys n with
  | nil => simp [dot, val_zero]
  | cons x xs ih =>
    cases ys with
    | nil => simp [dot, val_zero]
    | cons y ys =>
      simp only [List.length_cons] at h
      obtain ⟨m, rfl⟩ : ∃ m, n = m + 1 := ⟨n - 1, by omega⟩
      rw [dot, val_add, val_mul, sum_range_succ', ih ys m (by omega)]
      simp [add_comm]

/-- A dictionary number times the common denominator. -/
def scale (D : Nat) (x : Q21) : Z21 := ⟨x.a * (D / x.d : Nat), x.b * (D / x.d : Nat)⟩

theorem val_scale (D : Nat) (x : Q21) (h0 : x.d ≠ 0) (hd : x.d ∣ D) :
    (scale D x).val = D * x.val := by
  obtain ⟨k, rfl⟩ := hd
  have : x.d * k / x.d = k := Nat.mul_div_cancel_left k (Nat.pos_of_ne_zero h0)
  simp only [val, scale, this, Q21.val]
  have h : (x.d : ℝ) ≠ 0 := by exact_mod_cast h0
  push_cast
  field_simp

mutual
/-- All elementary weights of a tree at once, times `D^(size - 1)`. -/
def vec (rows : List (List Z21)) : RTree → List Z21
  | .node ts => vecs rows ts
def vecs (rows : List (List Z21)) : List RTree → List Z21
  | [] => rows.map fun _ => ⟨1, 0⟩
  | t :: ts => List.zipWith mul (rows.map fun x => dot x (vec rows t)) (vecs rows ts)
end

mutual
theorem length_vec (rows : List (List Z21)) : ∀ t, (vec rows t).length = rows.length
  | .node ts => by rw [vec]; exact length_vecs rows ts
theorem length_vecs (rows : List (List Z21)) : ∀ ts, (vecs rows ts).length = rows.length
  | [] => by simp [vecs]
  | _ :: ts => by simp [vecs, length_vecs rows ts]
end

mutual
theorem val_vec (rows : List (List Z21)) (D : ℝ) (a : Nat → Nat → ℝ)
    (ha : ∀ i x, rows[i]? = some x → ∀ j, ((x[j]?).map val).getD 0 = D * a i j) :
    ∀ t i, i < rows.length →
      (((vec rows t)[i]?).map val).getD 0 = D ^ (t.size - 1) * t.weight rows.length a i
  | .node ts, i, hi => by
    rw [vec, RTree.weight, RTree.size, Nat.add_sub_cancel]
    exact val_vecs rows D a ha ts i hi
theorem val_vecs (rows : List (List Z21)) (D : ℝ) (a : Nat → Nat → ℝ)
    (ha : ∀ i x, rows[i]? = some x → ∀ j, ((x[j]?).map val).getD 0 = D * a i j) :
    ∀ ts i, i < rows.length →
      (((vecs rows ts)[i]?).map val).getD 0
        = D ^ (RTree.sizes ts) * RTree.weights rows.length a ts i
  | [], i, hi => by
    simp [vecs, RTree.sizes, RTree.weights, hi, val_one]
  | t :: ts, i, hi => by
    have ih1 := val_vec rows D a ha t
    have ih2 := val_vecs rows D a ha ts i hi
    have hl := length_vecs rows ts
    rw [List.getElem?_eq_getElem (by omega)] at ih2
    rw [vecs, List.getElem?_zipWith, List.getElem?_map, List.getElem?_eq_getElem hi,
      List.getElem?_eq_getElem (by omega)]
    simp only [Option.map_some, Option.getD_some] at ih2 ⊢
    rw [val_mul, ih2, val_dot _ _ rows.length (by rw [length_vec]; omega), RTree.weights,
      RTree.sizes, pow_add]
    have e : ∀ j ∈ range rows.length,
        (((rows[i])[j]?).map val).getD 0 * (((vec rows t)[j]?).map val).getD 0
          = D ^ t.size * (a i j * t.weight rows.length a j) := by
      intro j hj
      rw [ha i _ (List.getElem?_eq_getElem hi), ih1 j (mem_range.1 hj)]
      obtain ⟨k, hk⟩ : ∃ k, t.size = k + 1 := ⟨t.size - 1, by have := t.size_pos; omega⟩
      rw [hk, Nat.add_sub_cancel, pow_succ]
      ring
    rw [sum_congr rfl e, ← mul_sum]
    ring
end
end Z21

/-! ## The finite check

The kernel evaluates the check; to keep it from recomputing unevaluated numbers, the definitions
below are written in continuation-passing style with functions that force numbers to literals. -/

def forceNat {α : Sort*} (n : Nat) (k : Nat → α) : α :=
  match n with
  | .zero => k .zero
  | .succ m => k (.succ m)

def forceInt {α : Sort*} (z : Int) (k : Int → α) : α :=
  match z with
  | .ofNat n => forceNat n fun n => k (.ofNat n)
  | .negSucc n => forceNat n fun n => k (.negSucc n)

def forceZ {α : Sort*} (z : Z21) (k : Z21 → α) : α :=
  forceInt z.a fun a => forceInt z.b fun b => k ⟨a, b⟩

def forceList {α : Sort*} {β : Type*} (f : β → (β → α) → α) : List β → (List β → α) → α
  | [], k => k []
  | x :: xs, k => f x fun x => forceList f xs fun xs => k (x :: xs)

theorem forceNat_eq {α : Sort*} (n : Nat) (k : Nat → α) : forceNat n k = k n := by cases n <;> rfl
theorem forceInt_eq {α : Sort*} (z : Int) (k : Int → α) : forceInt z k = k z := by
  cases z <;> simp [forceInt, forceNat_eq]
theorem forceZ_eq {α : Sort*} (z : Z21) (k : Z21 → α) : forceZ z k = k z := by
  simp [forceZ, forceInt_eq]
theorem forceList_eq {α : Sort*} {β : Type*} (f : β → (β → α) → α)
    (hf : ∀ x k, f x k = k x) (l : List β) (k : List β → α) : forceList f l k = k l := by
  induction l generalizing k with
  | nil => rfl
  | cons x xs ih => rw [forceList, hf, ih]

/-- Summary of a forest: `(Π γ(t_k), vecs)`. -/
abbrev Summ := Nat × List Z21

def forceSumm {α : Sort*} (x : Summ) (k : Summ → α) : α :=
  forceNat x.1 fun g => forceList forceZ x.2 fun v => k (g, v)
theorem forceSumm_eq {α : Sort*} (x : Summ) (k : Summ → α) : forceSumm x k = k x := by
  simp [forceSumm, forceNat_eq, forceList_eq _ forceZ_eq]

def summ (rows : List (List Z21)) (f : List RTree) : Summ := (RTree.gammas f, Z21.vecs rows f)

/-- Summaries of the forests `node f :: g`, `f` of size `k` and `g` from the second list. -/
def combine (rows : List (List Z21)) (k : Nat) (F G : List Summ) : List Summ :=
  F.flatMap fun x =>
    forceNat ((k + 1) * x.1) fun gam =>
      forceList forceZ (rows.map fun y => Z21.dot y x.2) fun u =>
        G.map fun y => (gam * y.1, List.zipWith Z21.mul u y.2)

def nextSumms (rows : List (List Z21)) (T : List (List Summ)) : List Summ :=
  (T.zip T.reverse).zipIdx.flatMap fun p => combine rows p.2 p.1.1 p.1.2

/-- Summaries of all forests with `0, …, n` nodes. -/
def summTab (rows : List (List Z21)) : Nat → List (List Summ)
  | 0 => [[(1, rows.map fun _ => ⟨1, 0⟩)]]
  | n + 1 => summTab rows n ++ [nextSumms rows (summTab rows n)]

/-- The same, forcing the intermediate results. -/
def summTable {α : Sort*} (rows : List (List Z21)) : Nat → (List (List Summ) → α) → α
  | 0, k => k [[(1, rows.map fun _ => ⟨1, 0⟩)]]
  | n + 1, k => summTable rows n fun T =>
      forceList forceSumm (nextSumms rows T) fun L =>
        forceList (fun x k => k x) (T ++ [L]) k

theorem summTable_eq {α : Sort*} (rows : List (List Z21)) (n : Nat) (k : List (List Summ) → α) :
    summTable rows n k = k (summTab rows n) := by
  induction n generalizing k with
  | zero => rfl
  | succ n ih =>
    rw [summTable, ih, forceList_eq _ forceSumm_eq, forceList_eq _ (fun x k => rfl)]
    rfl

theorem mem_combine (rows : List (List Z21)) (F G : List Summ) (f g : List RTree)
    (hf : summ rows f ∈ F) (hg : summ rows g ∈ G) :
    summ rows (RTree.node f :: g) ∈ combine rows (RTree.sizes f) F G := by
  rw [combine, List.mem_flatMap]
  refine ⟨_, hf, ?_⟩
  rw [forceNat_eq, forceList_eq _ forceZ_eq, List.mem_map]
  exact ⟨_, hg, by simp [summ, RTree.gammas, RTree.gamma, Z21.vecs, Z21.vec]⟩

theorem summTab_length (rows : List (List Z21)) (n : Nat) : (summTab rows n).length = n + 1 := by
  induction n with
  | zero => rfl
  | succ n ih => simp [summTab, ih]

theorem summTab_stable (rows : List (List Z21)) (n k : Nat) (h : k ≤ n) :
    (summTab rows n)[k]? = (summTab rows k)[k]? := by
  induction n with
  | zero => rw [Nat.le_zero.1 h]
  | succ n ih =>
    rcases Nat.lt_or_ge n k with h' | h'
    · rw [Nat.le_antisymm h h']
    · rw [summTab, List.getElem?_append_left (by rw [summTab_length]; omega)]
      exact ih h'

/-- Every forest is summarised at its size. -/
theorem summ_complete (rows : List (List Z21)) (n : Nat) :
    ∀ f : List RTree, RTree.sizes f = n →
      ∃ L, (summTab rows n)[n]? = some L ∧ summ rows f ∈ L := by
  induction n using Nat.strong_induction_on with
  | _ n ih =>
    intro f hf
    match f with
    | [] =>
      subst hf
      exact ⟨_, rfl, by simp [summ, RTree.gammas, Z21.vecs]⟩
    | t :: g =>
      obtain ⟨f', rfl⟩ := t.exists_node
      simp only [RTree.sizes, RTree.size] at hf
      obtain ⟨m, rfl⟩ : ∃ m, n = m + 1 := ⟨n - 1, by omega⟩
      obtain ⟨L1, h1, m1⟩ := ih (RTree.sizes f') (by omega) f' rfl
      obtain ⟨L2, h2, m2⟩ := ih (RTree.sizes g) (by omega) g rfl
      refine ⟨nextSumms rows (summTab rows m), ?_, ?_⟩
      · rw [summTab, List.getElem?_append_right (by rw [summTab_length])]
        simp [summTab_length]
      · simp only [nextSumms, List.mem_flatMap]
        refine ⟨((L1, L2), RTree.sizes f'), ?_, mem_combine rows L1 L2 f' g m1 m2⟩
        rw [← summTab_stable rows m _ (by omega)] at h1 h2
        rw [List.mem_zipIdx_iff_getElem?, List.getElem?_zip_eq_some]
        refine ⟨h1, ?_⟩
        rw [List.getElem?_reverse (by rw [summTab_length]; omega), summTab_length]
        rw [← h2]
        congr 1
        omega

/-- Common denominator of a list of numbers. -/
def commonDen (l : List Q21) : Nat := l.foldl (fun D x => Nat.lcm D x.d) 1

/-- Numbers of a list have nonzero denominators dividing `D`. -/
def densOk (D : Nat) (l : List Q21) : Bool := l.all fun x => x.d != 0 && D % x.d == 0

def shapeOk (D : Nat) (st : List (Row Q21)) (w : List Q21) : Bool :=
  D != 0 && densOk D w && (st.all fun x => densOk D x.tail && densOk D x.abscissa?.toList) &&
  (st.zipIdx.all fun p => decide (p.1.tail.length ≤ p.2)) && w.length == st.length

/-- Test of one tree: `γ(t)`, `D^|t| Σ b Φ(t)`, `D^|t|`. -/
def exactOk (g : Nat) (z : Z21) (Dn : Nat) : Bool := (g : Int) * z.a == (Dn : Int) && z.b == 0

/-- Test of one tree: `|Σ b Φ(t) - 1/γ(t)| ≤ 1/E`. -/
def approxOk (E : Nat) (g : Nat) (z : Z21) (Dn : Nat) : Bool :=
  decide (((g : Int) * z.a - (Dn : Int)).natAbs * E ≤ g * Dn) && z.b == 0

/-- Test all summaries of the forests of size `n`. -/
def testLevel (ok : Nat → Z21 → Nat → Bool) (b : List Z21) (D n : Nat) (L : List Summ) : Bool :=
  forceNat (D ^ (n + 1)) fun Dn =>
    L.all fun x => forceNat ((n + 1) * x.1) fun g => forceZ (Z21.dot b x.2) fun z => ok g z Dn

/-- Order conditions up to order `p`, in integers. -/
def checkOrder (ok : Nat → Z21 → Nat → Bool) (D : Nat) (st : List (Row Q21)) (w : List Q21)
    (p : Nat) : Bool :=
  forceNat D fun D =>
  forceList (forceList forceZ) (st.map fun x => x.tail.map (Z21.scale D)) fun rows =>
  forceList forceZ (w.map (Z21.scale D)) fun b =>
  match p with
  | 0 => true
  | n + 1 => summTable rows n fun T => T.zipIdx.all fun q => testLevel ok b D q.2 q.1

/-- Row sums: test `D Σ_j a_ij` against `D c_i`. -/
def rowSumOk (ok : Z21 → Z21 → Bool) (D : Nat) (st : List (Row Q21)) : Bool :=
  st.all fun x => match x.head with
    | .num c => ok (x.tail.foldr (fun y z => Z21.add (Z21.scale D y) z) ⟨0, 0⟩) (Z21.scale D c)
    | .str _ => false

def exactEq (x y : Z21) : Bool := x.a == y.a && x.b == y.b
def approxEq (E D : Nat) (x y : Z21) : Bool :=
  decide ((x.a - y.a).natAbs * E ≤ D) && x.b == y.b

/-- All conditions for the weight row labelled `lbl` of a table. -/
def checkTable (t : Table Q21) (lbl : String) (p : Nat) : Bool :=
  match t.weightRows lbl with
  | [w] =>
    forceNat (commonDen (w ++ t.stages.flatMap fun x => x.tail ++ x.abscissa?.toList)) fun D =>
      shapeOk D t.stages w && rowSumOk exactEq D t.stages && checkOrder exactOk D t.stages w p
  | _ => false

def checkTableUpTo (E : Nat) (t : Table Q21) (lbl : String) (p : Nat) : Bool :=
  match t.weightRows lbl with
  | [w] =>
    forceNat (commonDen (w ++ t.stages.flatMap fun x => x.tail ++ x.abscissa?.toList)) fun D =>
      shapeOk D t.stages w && rowSumOk (approxEq E D) D t.stages &&
        checkOrder (approxOk E) D t.stages w p
  | _ => false

/-! ## Soundness of the check -/

section
variable {D : Nat} {st : List (Row Q21)} {w : List Q21}

theorem densOk_val {l : List Q21} (h : densOk D l = true) (x : Q21) (hx : x ∈ l) :
    (Z21.scale D x).val = D * x.val := by
  have := List.all_eq_true.1 h x hx
  simp only [Bool.and_eq_true, bne_iff_ne, ne_eq, beq_iff_eq] at this
  exact Z21.val_scale D x this.1 (Nat.dvd_of_mod_eq_zero this.2)

theorem densOk_getD {l : List Q21} (h : densOk D l = true) (j : Nat) :
    (((l.map (Z21.scale D))[j]?).map Z21.val).getD 0 = D * ((l[j]?).map Q21.val).getD 0 := by
  rw [List.getElem?_map]
  cases e : l[j]? with
  | none => simp
  | some x => simpa using densOk_val h x (List.mem_of_getElem? e)

structure Shape (D : Nat) (st : List (Row Q21)) (w : List Q21) : Prop where
  pos : D ≠ 0
  hw : densOk D w = true
  htail : ∀ x ∈ st, densOk D (Row.tail x) = true
  hhead : ∀ x ∈ st, densOk D x.abscissa?.toList = true
  len : ∀ (i : Nat) (x : Row Q21), st[i]? = some x → x.tail.length ≤ i
  wlen : w.length = st.length

theorem shape_of (h : shapeOk D st w = true) : Shape D st w := by
  simp only [shapeOk, Bool.and_eq_true, bne_iff_ne, ne_eq, beq_iff_eq, List.all_eq_true,
    decide_eq_true_eq] at h
  obtain ⟨⟨⟨⟨h1, h2⟩, h3⟩, h4⟩, h5⟩ := h
  exact ⟨h1, h2, fun x hx => (h3 x hx).1, fun x hx => (h3 x hx).2,
    fun i x hx => h4 (x, i) (List.mem_zipIdx_iff_getElem?.2 hx), h5⟩

theorem explicit_of (h : Shape D st w) (i j : Nat) (hij : i ≤ j) : (methodOf st w).a i j = 0 := by
  simp only [methodOf]
  cases e : st[i]? with
  | none => rfl
  | some x =>
    have := h.len i x e
    rw [Option.bind_some, List.getElem?_eq_none (by omega)]
    rfl

theorem ha_of (h : Shape D st w) (i : Nat) (x : List Z21)
    (hx : (st.map fun x => x.tail.map (Z21.scale D))[i]? = some x) (j : Nat) :
    ((x[j]?).map Z21.val).getD 0 = D * (methodOf st w).a i j := by
  rw [List.getElem?_map] at hx
  cases e : st[i]? with
  | none => rw [e] at hx; cases hx
  | some y =>
    rw [e] at hx
    cases hx
    rw [densOk_getD (h.htail y (List.mem_of_getElem? e)) j]
    simp [methodOf, e]

theorem checkOrder_sound (ok : Nat → Z21 → Nat → Bool) (h : Shape D st w) (p : Nat)
    (hc : checkOrder ok D st w p = true) (t : RTree) (ht : t.size ≤ p) :
    ∃ z : Z21, ok t.gamma z (D ^ t.size) = true ∧
      z.val = (D : ℝ) ^ t.size *
        ∑ i ∈ range (methodOf st w).s, (methodOf st w).b i *
          t.weight (methodOf st w).s (methodOf st w).a i := by
  obtain ⟨f, rfl⟩ := t.exists_node
  rw [RTree.size] at ht
  obtain ⟨n, rfl⟩ : ∃ n, p = n + 1 := ⟨p - 1, by omega⟩
  set rows := st.map fun x => x.tail.map (Z21.scale D) with hrows
  have hrl : rows.length = st.length := by simp [hrows]
  rw [checkOrder, forceNat_eq, forceList_eq _ (forceList_eq _ forceZ_eq),
    forceList_eq _ forceZ_eq] at hc
  simp only [summTable_eq, List.all_eq_true] at hc
  obtain ⟨L, hL, hm⟩ := summ_complete rows _ f rfl
  rw [← summTab_stable rows n _ (by omega)] at hL
  have := hc (L, RTree.sizes f) (List.mem_zipIdx_iff_getElem?.2 hL)
  simp only [testLevel, forceNat_eq, List.all_eq_true, forceZ_eq] at this
  have := this _ hm
  refine ⟨Z21.dot (w.map (Z21.scale D)) (summ rows f).2, ?_, ?_⟩
  · rw [RTree.gamma, RTree.size]
    exact this
  · simp only [summ]
    rw [Z21.val_dot _ _ st.length (by rw [List.length_map, h.wlen]; omega)]
    rw [mul_sum]
    refine sum_congr rfl fun i hi => ?_
    have hv := Z21.val_vecs rows D (methodOf st w).a (ha_of h) f i
      (by rw [hrl]; exact mem_range.1 hi)
    rw [hv, densOk_getD h.hw, RTree.weight, RTree.size, pow_succ, hrl]
    show (D : ℝ) * (methodOf st w).b i * _ = _ * ((methodOf st w).b i * _)
    show _ = _ * ((methodOf st w).b i * RTree.weights st.length _ _ _)
    ring

theorem val_foldr (l : List Q21) (h : densOk D l = true) (n : Nat) (hn : l.length ≤ n) :
    (l.foldr (fun y z => Z21.add (Z21.scale D y) z) ⟨0, 0⟩).val
      = D * ∑ j ∈ range n, ((l[j]?).map Q21.val).getD 0 := by
  induction l generalizing n with
  | nil => simp [Z21.val_zero]
  | cons x xs ih =>
    simp only [List.length_cons] at hn
    obtain ⟨m, rfl⟩ : ∃ m, n = m + 1 := ⟨n - 1, by omega⟩
    have h' : densOk D xs = true := by
      simp only [densOk, List.all_cons, Bool.and_eq_true] at h; exact h.2
    rw [List.foldr_cons, Z21.val_add, ih h' m (by omega), sum_range_succ',
      densOk_val h x (by simp)]
    simp
    ring

theorem rowSum_sound (ok : Z21 → Z21 → Bool) (h : Shape D st w) (hc : rowSumOk ok D st = true)
    (i : Nat) (hi : i < (methodOf st w).s) :
    ∃ x y : Z21, ok x y = true ∧ x.val = D * ∑ j ∈ range (methodOf st w).s, (methodOf st w).a i j ∧
      y.val = D * (methodOf st w).c i := by
  have hi' : i < st.length := hi
  have e : st[i]? = some st[i] := List.getElem?_eq_getElem hi'
  have hx := List.all_eq_true.1 hc st[i] (List.getElem_mem hi')
  have hh := h.hhead st[i] (List.getElem_mem hi')
  have hlen := h.len i _ e
  cases eh : st[i].head with
  | str s => rw [eh] at hx; simp at hx
  | num c =>
    rw [eh] at hx
    refine ⟨_, _, hx, ?_, ?_⟩
    · rw [val_foldr _ (h.htail _ (List.getElem_mem hi')) st.length (by omega)]
      simp [methodOf, e]
    · have ha : st[i].abscissa? = some c := by simp [Row.abscissa?, eh]
      rw [ha] at hh
      rw [densOk_val hh c (by simp)]
      simp [methodOf, e, ha]

theorem gamma_pos_aux : ∀ t : RTree, 0 < t.gamma := by
  intro t
  induction t using RTree.rec (motive_2 := fun ts => 0 < RTree.gammas ts) with
  | node ts ih => rw [RTree.gamma]; exact Nat.mul_pos (by omega) ih
  | nil => simp [RTree.gammas]
  | cons t ts h1 h2 => rw [RTree.gammas]; exact Nat.mul_pos h1 h2

theorem z_real (z : Z21) (h : z.b = 0) : z.val = z.a := by simp [Z21.val, h]

end

theorem checkTable_sound (t : Table Q21) (lbl : String) (p : Nat) (h : checkTable t lbl p = true) :
    TableOrder t lbl p := by
  rw [checkTable] at h
  split at h
  case h_2 => cases h
  case h_1 w hw =>
  rw [forceNat_eq] at h
  set D := commonDen _
  simp only [Bool.and_eq_true] at h
  obtain ⟨⟨h1, h2⟩, h3⟩ := h
  have hs := shape_of h1
  have hD : (D : ℝ) ≠ 0 := by exact_mod_cast hs.pos
  refine ⟨w, hw, hs.wlen, explicit_of hs, ?_, ?_⟩
  · intro i hi
    obtain ⟨x, y, hxy, hx, hy⟩ := rowSum_sound _ hs h2 i hi
    have : x = y := by
      simp only [exactEq, Bool.and_eq_true, beq_iff_eq] at hxy
      cases x; cases y; simp_all
    rw [this] at hx
    exact mul_left_cancel₀ hD (hx.symm.trans hy)
  · intro t ht
    obtain ⟨z, hz, hv⟩ := checkOrder_sound _ hs p h3 t ht
    simp only [exactOk, Bool.and_eq_true, beq_iff_eq] at hz
    rw [z_real z hz.2] at hv
    have hg : (t.gamma : ℝ) ≠ 0 := by exact_mod_cast (gamma_pos_aux t).ne'
    have e : (t.gamma : ℝ) * z.a = (D : ℝ) ^ t.size := by exact_mod_cast hz.1
    rw [hv] at e
    have hDn : (D : ℝ) ^ t.size ≠ 0 := pow_ne_zero _ hD
    rw [eq_div_iff hg]
    apply mul_left_cancel₀ hDn
    linear_combination e

theorem checkTableUpTo_sound (E : Nat) (hE : 0 < E) (t : Table Q21) (lbl : String) (p : Nat)
    (h : checkTableUpTo E t lbl p = true) : TableOrderUpTo (1 / E) t lbl p := by
  rw [checkTableUpTo] at h
  split at h
  case h_2 => cases h
  case h_1 w hw =>
  rw [forceNat_eq] at h
  set D := commonDen _
  simp only [Bool.and_eq_true] at h
  obtain ⟨⟨h1, h2⟩, h3⟩ := h
  have hs := shape_of h1
  have hD : (0 : ℝ) < D := by exact_mod_cast Nat.pos_of_ne_zero hs.pos
  have hE' : (0 : ℝ) < E := by exact_mod_cast hE
  refine ⟨w, hw, hs.wlen, explicit_of hs, ?_, ?_⟩
  · intro i hi
    obtain ⟨x, y, hxy, hx, hy⟩ := rowSum_sound _ hs h2 i hi
    simp only [approxEq, Bool.and_eq_true, decide_eq_true_eq, beq_iff_eq] at hxy
    have e : x.val - y.val = ((x.a - y.a : Int) : ℝ) := by
      simp only [Z21.val, hxy.2]; push_cast; ring
    have hb : |((x.a - y.a : Int) : ℝ)| * E ≤ D := by
      have : ((x.a - y.a).natAbs : ℝ) * E ≤ D := by exact_mod_cast hxy.1
      rwa [Nat.cast_natAbs, Int.cast_abs] at this
    rw [← e, hx, hy, ← mul_sub, abs_mul, abs_of_pos hD] at hb
    rw [le_div_iff₀ hE']
    nlinarith
  · intro t ht
    obtain ⟨z, hz, hv⟩ := checkOrder_sound _ hs p h3 t ht
    simp only [approxOk, Bool.and_eq_true, decide_eq_true_eq, beq_iff_eq] at hz
    rw [z_real z hz.2] at hv
    have hg : (0 : ℝ) < t.gamma := by exact_mod_cast gamma_pos_aux t
    have hDn : (0 : ℝ) < (D : ℝ) ^ t.size := pow_pos hD _
    have hb : |(t.gamma : ℝ) * z.a - (D : ℝ) ^ t.size| * E ≤ t.gamma * (D : ℝ) ^ t.size := by
      have : (((t.gamma : Int) * z.a - ((D ^ t.size : Nat) : Int)).natAbs : ℝ) * E
          ≤ t.gamma * (D ^ t.size : Nat) := by exact_mod_cast hz.1
      rw [Nat.cast_natAbs, Int.cast_abs] at this
      push_cast at this
      exact this
    rw [hv] at hb
    generalize (∑ i ∈ range (methodOf _ w).s, (methodOf _ w).b i * t.weight _ _ i : ℝ) = S at hb ⊢
    have e : (t.gamma : ℝ) * ((D : ℝ) ^ t.size * S) - (D : ℝ) ^ t.size
        = (t.gamma * (D : ℝ) ^ t.size) * (S - 1 / t.gamma) := by field_simp
    rw [e, abs_mul, abs_of_pos (mul_pos hg hDn)] at hb
    have hp := mul_pos hg hDn
    rw [le_div_iff₀ hE']
    nlinarith

/-! ## C38 -/

/-- **C38.**  Every table of the dictionary other than the two with rounded coefficients describes,
through its `""` row (or `"HO"` row, for the adaptive pairs), an explicit Runge–Kutta method that
satisfies the row-sum condition and the order conditions of *every* rooted tree with at most as
many nodes as the advertised order.  (`AHE`, `ABS`, `ARKF`, `ACK`, `ADP5` are the adaptive pairs.) -/
theorem C38_order : ∀ e ∈ butcherDict, e.1 ≠ "DP8" → e.1 ≠ "ADP8" →
    TableOrder e.2.1 (if e.1 ∈ ["AHE", "ABS", "ARKF", "ACK", "ADP5"] then "HO" else "") e.2.2 := by
  have h : (butcherDict.all fun e => e.1 == "DP8" || e.1 == "ADP8" ||
      checkTable e.2.1 (if e.1 ∈ ["AHE", "ABS", "ARKF", "ACK", "ADP5"] then "HO" else "") e.2.2)
      = true := by decide +kernel
  intro e he h1 h2
  have := List.all_eq_true.1 h e he
  simp only [Bool.or_eq_true, beq_iff_eq, h1, h2, false_or] at this
  exact checkTable_sound _ _ _ this

/-- **C38.**  The embedded (`"LO"`) rows have one order less than advertised for the pair. -/
theorem C38_embedded_order : ∀ e ∈ butcherDict, e.1 ∈ ["AHE", "ABS", "ARKF", "ACK", "ADP5"] →
    TableOrder e.2.1 "LO" (e.2.2 - 1) := by
  have h : (butcherDict.all fun e => !(decide (e.1 ∈ ["AHE", "ABS", "ARKF", "ACK", "ADP5"])) ||
      checkTable e.2.1 "LO" (e.2.2 - 1)) = true := by decide +kernel
  intro e he h1
  have := List.all_eq_true.1 h e he
  simp only [Bool.or_eq_true, Bool.not_eq_true', decide_eq_false_iff_not, h1, not_true,
    false_or] at this
  exact checkTable_sound _ _ _ this

/-- **C38.**  The Dormand–Prince 8 table (rationals rounded to about 19 digits) satisfies the row
sums and all order-8 conditions up to 2·10⁻¹⁷. -/
theorem C38_DP8_order : ∀ e ∈ butcherDict, e.1 = "DP8" ∨ e.1 = "ADP8" →
    e.2.2 = 8 ∧ TableOrderUpTo (1 / (5 * 10 ^ 16 : ℕ)) e.2.1 (if e.1 = "DP8" then "" else "HO") 8 := by
  have h : (butcherDict.all fun e => !(decide (e.1 = "DP8" ∨ e.1 = "ADP8")) ||
      (e.2.2 == 8 && checkTableUpTo (5 * 10 ^ 16) e.2.1 (if e.1 = "DP8" then "" else "HO") 8))
      = true := by decide +kernel
  intro e he h1
  have := List.all_eq_true.1 h e he
  simp only [Bool.or_eq_true, Bool.not_eq_true', decide_eq_false_iff_not, h1, not_true,
    false_or, Bool.and_eq_true, beq_iff_eq] at this
  exact ⟨this.1, checkTableUpTo_sound _ (by norm_num) _ _ _ this.2⟩

/-- The embedded seventh-order row of `ADP8`. -/
theorem C38_ADP8_embedded : TableOrderUpTo (1 / (5 * 10 ^ 16 : ℕ)) tblADP8 "LO" 7 :=
  checkTableUpTo_sound _ (by norm_num) _ _ _ (by decide +kernel)

/-- The keys of the dictionary. -/
example : butcherDict.map (·.1) = ["Euler", "RK2 Heun", "RK2 MP", "RK2 Ralston", "RK3",
    "RK3 Heun", "RK3 Ralston", "SSPRK3", "RK4", "DP5", "DP5alt", "CK5", "DP6", "L6", "DP8", "AHE",
    "ABS", "ARKF", "ACK", "ADP5", "ADP8"] := rfl

end Verif.MoL
