import Verif.Py.Str
import Mathlib.Algebra.BigOperators.Group.List.Basic
import Mathlib.Algebra.Field.Basic
import Mathlib.Data.Rat.Cast.Defs

/-!
# SymPy expressions as the code sees them

NRPy looks at SymPy objects through `.func`, `.args`, `free_symbols`, equality, `xreplace`/`subs` and
`preorder_traversal`.  An expression is a symbol, a number or a function applied to arguments.

Simplifications: symbols are identified by their names (SymPy also compares assumptions); numbers are
rationals (SymPy's `Float` is not modelled); relations, Booleans and piecewise expressions are ordinary
function applications.
-/
namespace Verif.Sympy
open Verif.Py

/-- `.func` of a composite expression. -/
inductive Head
  | add
  | mul
  | pow
  | fn (name : Str)
  deriving DecidableEq, Repr

inductive Expr
  | sym (name : Str)
  | num (q : ℚ)
  | app (h : Head) (args : List Expr)

namespace Expr

theorem ind {P : Expr → Prop} (hs : ∀ n, P (sym n)) (hq : ∀ q, P (num q))
    (ha : ∀ h l, (∀ e ∈ l, P e) → P (app h l)) : ∀ e, P e
  | sym n => hs n
  | num q => hq q
  | app h l => ha h l (indList l)
where
  indList : ∀ l : List Expr, ∀ e ∈ l, P e
    | [], e, he => by cases he
    | a :: l, e, he => by
      rcases List.mem_cons.mp he with h | h
      · exact h ▸ ind hs hq ha a
      · exact indList l e h

mutual
def decEq : (a b : Expr) → Decidable (a = b)
  | sym n, sym m => if h : n = m then isTrue (by rw [h]) else isFalse (by simpa using h)
  | num p, num q => if h : p = q then isTrue (by rw [h]) else isFalse (by simpa using h)
  | app h l, app h' l' =>
    if hh : h = h' then
      match decEqList l l' with
      | isTrue hl => isTrue (by rw [hh, hl])
      | isFalse hl => isFalse (by simp [hl])
    else isFalse (by simp [hh])
  | sym _, num _ => isFalse (by simp)
  | sym _, app .. => isFalse (by simp)
  | num _, sym _ => isFalse (by simp)
  | num _, app .. => isFalse (by simp)
  | app .., sym _ => isFalse (by simp)
  | app .., num _ => isFalse (by simp)
def decEqList : (a b : List Expr) → Decidable (a = b)
  | [], [] => isTrue rfl
  | [], _ :: _ => isFalse (by simp)
  | _ :: _, [] => isFalse (by simp)
  | a :: l, b :: m =>
    match decEq a b with
    | isTrue h => match decEqList l m with
      | isTrue h' => isTrue (by rw [h, h'])
      | isFalse h' => isFalse (by simp [h'])
    | isFalse h => isFalse (by simp [h])
end

instance : DecidableEq Expr := decEq

/-! ### Free symbols -/

mutual
/-- `free_symbols`, as a list (with repetitions, in preorder). -/
def free : Expr → List Str
  | sym n => [n]
  | num _ => []
  | app _ l => freeList l
def freeList : List Expr → List Str
  | [] => []
  | e :: l => free e ++ freeList l
end

theorem freeList_eq (l : List Expr) : freeList l = l.flatMap free := by
  induction l with
  | nil => rfl
  | cons e l ih => rw [freeList, ih, List.flatMap_cons]

@[simp] theorem free_sym (n : Str) : free (sym n) = [n] := by rw [free]
@[simp] theorem free_num (q : ℚ) : free (num q) = [] := by rw [free]
@[simp] theorem free_app (h : Head) (l : List Expr) : free (app h l) = l.flatMap free := by
  rw [free, freeList_eq]

/-! ### Substitution -/

mutual
/-- Structural replacement of a symbol. -/
def subst (x : Str) (v : Expr) : Expr → Expr
  | sym n => if n = x then v else sym n
  | num q => num q
  | app h l => app h (substList x v l)
def substList (x : Str) (v : Expr) : List Expr → List Expr
  | [] => []
  | e :: l => subst x v e :: substList x v l
end

theorem substList_eq (x : Str) (v : Expr) (l : List Expr) : substList x v l = l.map (subst x v) := by
  induction l with
  | nil => rfl
  | cons e l ih => rw [substList, ih, List.map_cons]

@[simp] theorem subst_sym (x : Str) (v : Expr) (n : Str) :
    subst x v (sym n) = if n = x then v else sym n := by rw [subst]
@[simp] theorem subst_num (x : Str) (v : Expr) (q : ℚ) : subst x v (num q) = num q := by rw [subst]
@[simp] theorem subst_app (x : Str) (v : Expr) (h : Head) (l : List Expr) :
    subst x v (app h l) = app h (l.map (subst x v)) := by
  rw [subst, substList_eq]

/-! ### Values -/

/-- Meaning of powers and of named functions; arbitrary. -/
structure Interp (K : Type) where
  pow : K → K → K
  fn : Str → List K → K

section
variable {K : Type} [Field K]

def Interp.app (I : Interp K) : Head → List K → K
  | .add, l => l.sum
  | .mul, l => l.prod
  | .pow, [a, b] => I.pow a b
  | .pow, l => I.fn (c% "Pow") l
  | .fn n, l => I.fn n l

mutual
/-- Value of an expression for the valuation `ρ` of its symbols. -/
def eval (I : Interp K) (ρ : Str → K) : Expr → K
  | sym n => ρ n
  | num q => (q : K)
  | app h l => I.app h (evalList I ρ l)
def evalList (I : Interp K) (ρ : Str → K) : List Expr → List K
  | [] => []
  | e :: l => eval I ρ e :: evalList I ρ l
end

theorem evalList_eq (I : Interp K) (ρ : Str → K) (l : List Expr) :
    evalList I ρ l = l.map (eval I ρ) := by
  induction l with
  | nil => rfl
  | cons e l ih => rw [evalList, ih, List.map_cons]

variable (I : Interp K) (ρ : Str → K)

@[simp] theorem eval_sym (n : Str) : eval I ρ (sym n) = ρ n := by rw [eval]
@[simp] theorem eval_num (q : ℚ) : eval I ρ (num q) = (q : K) := by rw [eval]
@[simp] theorem eval_app (h : Head) (l : List Expr) :
    eval I ρ (app h l) = I.app h (l.map (eval I ρ)) := by
  rw [eval, evalList_eq]

/-- The value depends only on the free symbols. -/
theorem eval_congr {ρ ρ' : Str → K} (e : Expr) (h : ∀ n ∈ free e, ρ n = ρ' n) :
    eval I ρ e = eval I ρ' e := by
  induction e using Expr.ind with
  | hs n => simpa using h
  | hq q => simp
  | ha f l ih =>
    rw [eval_app, eval_app]
    congr 1
    apply List.map_congr_left
    intro e he
    exact ih e he fun n hn => h n (by rw [free_app]; exact List.mem_flatMap.2 ⟨e, he, hn⟩)

/-- Replacing a symbol by an expression of the same value changes nothing. -/
theorem eval_subst (x : Str) (v e : Expr) (h : ρ x = eval I ρ v) :
    eval I ρ (subst x v e) = eval I ρ e := by
  induction e using Expr.ind with
  | hs n =>
    rw [subst_sym]
    split
    · next hn => subst hn; simp [h]
    · rfl
  | hq q => simp
  | ha f l ih =>
    rw [subst_app, eval_app, eval_app, List.map_map]
    congr 1
    apply List.map_congr_left
    intro e he
    exact ih e he

end

theorem free_subst (x : Str) (v e : Expr) (n : Str) (h : n ∈ free (subst x v e)) :
    (n ∈ free e ∧ n ≠ x) ∨ (n ∈ free v ∧ x ∈ free e) := by
  induction e using Expr.ind with
  | hs m =>
    rw [subst_sym] at h
    split at h
    · next hm => exact .inr ⟨h, by simp [hm]⟩
    · next hm =>
      have : n = m := by simpa using h
      subst this
      exact .inl ⟨by simp, hm⟩
  | hq q => simp at h
  | ha f l ih =>
    rw [subst_app, free_app] at h
    obtain ⟨a, ha, hn⟩ := List.mem_flatMap.1 h
    obtain ⟨e, he, rfl⟩ := List.mem_map.1 ha
    simp only [free_app, List.mem_flatMap]
    rcases ih e he hn with ⟨h1, h2⟩ | ⟨h1, h2⟩
    · exact .inl ⟨⟨e, he, h1⟩, h2⟩
    · exact .inr ⟨h1, ⟨e, he, h2⟩⟩

end Expr
end Verif.Sympy
