import Verif.Sympy.Expr
import Mathlib.Data.List.Nodup

/-!
# Model of `ExprTree` (nrpy/helpers/expr_tree.py)
-/
namespace Verif.Sympy
open Verif.Py

/-- `.func` and `.args` of an expression; atoms have no arguments. -/
def Expr.args : Expr → List Expr
  | .app _ l => l
  | _ => []

/-- `ExprTree.Node` (expr_tree.py:54-84): `func` is the function of the parent expression. -/
inductive Tree
  | node (expr : Expr) (func : Option Head) (children : List Tree)

namespace Tree

def expr : Tree → Expr
  | node e _ _ => e

def children : Tree → List Tree
  | node _ _ c => c

mutual
/-- A new node for `arg` with everything below it (expr_tree.py:112-117). -/
def ofExpr (f : Option Head) : Expr → Tree
  | .app h l => node (.app h l) f (ofArgs h l)
  | .sym n => node (.sym n) f []
  | .num q => node (.num q) f []
/-- The loop over `node.expr.args` (expr_tree.py:114-117). -/
def ofArgs (h : Head) : List Expr → List Tree
  | [] => []
  | e :: l => ofExpr (some h) e :: ofArgs h l
end

/-- `ExprTree(expr)` (expr_tree.py:87-94). -/
def mk (e : Expr) : Tree := ofExpr none e

/-- Children built from an expression. -/
def argTrees : Expr → List Tree
  | .app h l => ofArgs h l
  | _ => []

/-- `build(node, clear)` (expr_tree.py:95-116). -/
def build (clear : Bool) : Tree → Tree
  | node e f c => node e f ((if clear then [] else c) ++ argTrees e)

mutual
/-- `preorder` (expr_tree.py:118-139); each node is reported with its position. -/
def preorder (p : List Nat) : Tree → List (List Nat × Expr)
  | node e _ c => (p, e) :: preorderFrom p 0 c
def preorderFrom (p : List Nat) : Nat → List Tree → List (List Nat × Expr)
  | _, [] => []
  | i, t :: l => preorder (p ++ [i]) t ++ preorderFrom p (i + 1) l
end

mutual
/-- `postorder` (expr_tree.py:141-162). -/
def postorder (p : List Nat) : Tree → List (List Nat × Expr)
  | node e _ c => postorderFrom p 0 c ++ [(p, e)]
def postorderFrom (p : List Nat) : Nat → List Tree → List (List Nat × Expr)
  | _, [] => []
  | i, t :: l => postorder (p ++ [i]) t ++ postorderFrom p (i + 1) l
end

mutual
/-- `reconstruct` with `evaluate=False` (expr_tree.py:164-182): in postorder every node with children
gets `expr.func` applied to the children's expressions.  `Symbol(...)` or `Integer(...)` applied to
expressions raises `TypeError` (`none`). -/
def reconstruct : Tree → Option Tree
  | node e f [] => some (node e f [])
  | node e f (t :: l) => match reconstruct t, reconstructs l with
    | some t', some l' => match e with
      | .app h _ => some (node (.app h (t'.expr :: l'.map expr)) f (t' :: l'))
      | _ => none
    | _, _ => none
def reconstructs : List Tree → Option (List Tree)
  | [] => some []
  | t :: l => match reconstruct t, reconstructs l with
    | some t', some l' => some (t' :: l')
    | _, _ => none
end

/-- Assigning `node.expr = v; tree.build(node)` at the node with position `p` (how the callers edit a
tree, e.g. simd.py:336-340). -/
def editAt (v : Expr) : List Nat → Tree → Option Tree
  | [], node _ f c => some (build true (node v f c))
  | i :: p, node e f c => match c[i]? with
    | none => none
    | some t => match editAt v p t with
      | none => none
      | some t' => some (node e f (c.set i t'))

end Tree

/-! ## Specification: positions -/

/-- Subexpression at a position. -/
def Expr.at : List Nat → Expr → Option Expr
  | [], e => some e
  | i :: p, e => match e.args[i]? with
    | none => none
    | some a => Expr.at p a

/-- Expression with the subexpression at a position replaced. -/
def Expr.setAt (v : Expr) : List Nat → Expr → Option Expr
  | [], _ => some v
  | i :: p, .app h l => match l[i]? with
    | none => none
    | some a => match Expr.setAt v p a with
      | none => none
      | some a' => some (.app h (l.set i a'))
  | _ :: _, _ => none

namespace Tree

theorem ofArgs_eq (h : Head) (l : List Expr) : ofArgs h l = l.map (ofExpr (some h)) := by
  induction l with
  | nil => rfl
  | cons e l ih => rw [ofArgs, ih, List.map_cons]

theorem ofExpr_eq (f : Option Head) (e : Expr) : ofExpr f e = node e f (argTrees e) := by
  cases e <;> rfl

@[simp] theorem expr_ofExpr (f : Option Head) (e : Expr) : (ofExpr f e).expr = e := by
  rw [ofExpr_eq]; rfl

theorem map_expr_ofArgs (h : Head) (l : List Expr) : (ofArgs h l).map expr = l := by
  rw [ofArgs_eq, List.map_map]
  conv_rhs => rw [← List.map_id l]
  apply List.map_congr_left
  intro e _
  simp

theorem reconstructs_ofArgs (h : Head) (l : List Expr)
    (ih : ∀ e ∈ l, ∀ f, reconstruct (ofExpr f e) = some (ofExpr f e)) :
    reconstructs (ofArgs h l) = some (ofArgs h l) := by
  induction l with
  | nil => rfl
  | cons e l ihl =>
    rw [ofArgs, reconstructs, ih e (by simp), ihl fun a ha => ih a (by simp [ha])]

theorem reconstruct_ofExpr (e : Expr) : ∀ f, reconstruct (ofExpr f e) = some (ofExpr f e) := by
  induction e using Expr.ind with
  | hs n => intro f; rfl
  | hq q => intro f; rfl
  | ha h l ih =>
    intro f
    rw [ofExpr]
    cases l with
    | nil => rfl
    | cons a l =>
      rw [ofArgs, reconstruct, ih a (by simp), reconstructs_ofArgs h l fun e he => ih e (by simp [he])]
      simp [map_expr_ofArgs]

/-- **C28, round trip.**  Building the tree of an expression and reconstructing gives the expression. -/
theorem C28_round_trip (e : Expr) : (reconstruct (mk e)).map expr = some e := by
  rw [mk, reconstruct_ofExpr]
  simp

/-- **C28, editing.**  Replacing the expression of a node, rebuilding below it and reconstructing gives
the original expression with the subexpression at that position replaced. -/
theorem C28_edit (v : Expr) (p : List Nat) (e e' : Expr) (h : Expr.setAt v p e = some e') :
    ∃ t, editAt v p (mk e) = some t ∧ (reconstruct t).map expr = some e' := by
  suffices H : ∀ f, ∃ t, editAt v p (ofExpr f e) = some t ∧
      ∃ t', reconstruct t = some t' ∧ t'.expr = e' by
    obtain ⟨t, h1, t', h2, h3⟩ := H none
    exact ⟨t, h1, by rw [h2, Option.map_some, h3]⟩
  induction p generalizing e e' with
  | nil =>
    intro f
    have : e' = v := by simpa [Expr.setAt] using h.symm
    subst this
    refine ⟨ofExpr f e', ?_, ofExpr f e', reconstruct_ofExpr e' f, by simp⟩
    rw [ofExpr_eq f e, editAt, build, if_pos rfl, List.nil_append, ← ofExpr_eq]
  | cons i p ih =>
    intro f
    cases e with
    | sym n => simp [Expr.setAt] at h
    | num q => simp [Expr.setAt] at h
    | app hd l =>
      rw [Expr.setAt] at h
      split at h
      · cases h
      · next a ha =>
        split at h
        · cases h
        · next a' ha' =>
          cases h
          obtain ⟨t, h1, t', h2, h3⟩ := ih a a' ha' (some hd)
          have hget : (ofArgs hd l)[i]? = some (ofExpr (some hd) a) := by
            rw [ofArgs_eq, List.getElem?_map, ha]; rfl
          refine ⟨node (.app hd l) f ((ofArgs hd l).set i t), ?_, ?_⟩
          · rw [ofExpr, editAt, hget]
            simp only [h1]
          · -- reconstruct the list with one edited element
            have hl : ∀ (l : List Expr) (i : Nat), l[i]? = some a →
                ∃ ts, reconstructs ((ofArgs hd l).set i t) = some ts ∧
                  ts.map expr = l.set i a' := by
              intro l
              induction l with
              | nil => intro i hi; simp at hi
              | cons b l ihl =>
                intro i hi
                cases i with
                | zero =>
                  refine ⟨t' :: ofArgs hd l, ?_, ?_⟩
                  · rw [ofArgs, List.set_cons_zero, reconstructs, h2,
                      reconstructs_ofArgs hd l fun e _ => reconstruct_ofExpr e]
                  · simp [h3, map_expr_ofArgs]
                | succ i =>
                  obtain ⟨ts, g1, g2⟩ := ihl i (by simpa using hi)
                  refine ⟨ofExpr (some hd) b :: ts, ?_, ?_⟩
                  · rw [ofArgs, List.set_cons_succ, reconstructs, reconstruct_ofExpr, g1]
                  · simp [g2]
            obtain ⟨ts, g1, g2⟩ := hl l i ha
            have hne : ∃ b c, (ofArgs hd l).set i t = b :: c := by
              rcases hs : (ofArgs hd l).set i t with _ | ⟨b, c⟩
              · have := congrArg List.length hs
                rw [List.length_set] at this
                have h0 : ofArgs hd l = [] := List.length_eq_zero_iff.1 this
                rw [h0] at hget; simp at hget
              · exact ⟨b, c, rfl⟩
            obtain ⟨b, c, hbc⟩ := hne
            rw [hbc] at g1 ⊢
            rw [reconstructs] at g1
            split at g1
            · next tb tc hb hc =>
              cases g1
              refine ⟨node (.app hd (tb.expr :: tc.map expr)) f (tb :: tc), ?_, ?_⟩
              · rw [reconstruct, hb, hc]
              · show Expr.app hd (tb.expr :: tc.map expr) = _
                rw [← g2]; rfl
            · cases g1

/-! ### Traversals -/

theorem preorder_prefix (e : Expr) : ∀ (f : Option Head) (p : List Nat),
    ∀ x ∈ preorder p (ofExpr f e), ∃ q, x.1 = p ++ q ∧ Expr.at q e = some x.2 := by
  induction e using Expr.ind with
  | hs n => intro f p x hx; simp [ofExpr, preorder, preorderFrom] at hx; subst hx; exact ⟨[], by simp, rfl⟩
  | hq n => intro f p x hx; simp [ofExpr, preorder, preorderFrom] at hx; subst hx; exact ⟨[], by simp, rfl⟩
  | ha h l ih =>
    intro f p x hx
    rw [ofExpr, preorder] at hx
    rcases List.mem_cons.1 hx with rfl | hx
    · exact ⟨[], by simp, rfl⟩
    · have key : ∀ (m : List Expr) (i : Nat), (∀ e ∈ m, e ∈ l) →
          x ∈ preorderFrom p i (ofArgs h m) →
          ∃ j a q, m[j]? = some a ∧ x.1 = p ++ (i + j) :: q ∧ Expr.at q a = some x.2 := by
        intro m
        induction m with
        | nil => intro i _ hx; simp [ofArgs, preorderFrom] at hx
        | cons a m ihm =>
          intro i hm hx
          rw [ofArgs, preorderFrom] at hx
          rcases List.mem_append.1 hx with hx | hx
          · obtain ⟨q, h1, h2⟩ := ih a (hm a (by simp)) (some h) (p ++ [i]) x hx
            exact ⟨0, a, q, rfl, by simp [h1], h2⟩
          · obtain ⟨j, b, q, h1, h2, h3⟩ := ihm (i + 1) (fun e he => hm e (by simp [he])) hx
            exact ⟨j + 1, b, q, by simpa using h1, by rw [h2]; congr 2; omega, h3⟩
      obtain ⟨j, a, q, h1, h2, h3⟩ := key l 0 (fun e he => he) hx
      refine ⟨j :: q, by simpa using h2, ?_⟩
      rw [Expr.at]
      show (match l[j]? with | none => none | some a => Expr.at q a) = _
      rw [h1]; exact h3

theorem preorder_complete (q : List Nat) : ∀ (e s : Expr) (f : Option Head) (p : List Nat),
    Expr.at q e = some s → (p ++ q, s) ∈ preorder p (ofExpr f e) := by
  induction q with
  | nil =>
    intro e s f p h
    have : e = s := by simpa [Expr.at] using h
    subst this
    rw [ofExpr_eq, preorder]
    simp
  | cons i q ih =>
    intro e s f p h
    cases e with
    | sym n => simp [Expr.at, Expr.args] at h
    | num n => simp [Expr.at, Expr.args] at h
    | app hd l =>
      rw [Expr.at] at h
      simp only [Expr.args] at h
      split at h
      · cases h
      · next a ha =>
        rw [ofExpr, preorder]
        refine List.mem_cons_of_mem _ ?_
        have key : ∀ (m : List Expr) (k j : Nat), m[j]? = some a →
            (p ++ (k + j) :: q, s) ∈ preorderFrom p k (ofArgs hd m) := by
          intro m
          induction m with
          | nil => intro k j hj; simp at hj
          | cons b m ihm =>
            intro k j hj
            rw [ofArgs, preorderFrom]
            cases j with
            | zero =>
              have : b = a := by simpa using hj
              subst this
              have := ih b s (some hd) (p ++ [k]) h
              exact List.mem_append.2 (.inl (by simpa using this))
            | succ j =>
              have := ihm (k + 1) j (by simpa using hj)
              refine List.mem_append.2 (.inr ?_)
              rw [show k + (j + 1) = k + 1 + j by omega]
              exact this
        have := key l 0 i ha
        simpa using this

theorem prefixes_disjoint {p q q' : List Nat} {i j : Nat} (h : p ++ i :: q <+: p ++ j :: q') : i = j := by
  have := (List.prefix_append_right_inj p).1 h
  exact (List.cons_prefix_cons.1 this).1

theorem preorder_from_pos {h : Head} {p : List Nat} {x : List Nat × Expr} (m : List Expr) :
    ∀ (i : Nat), x ∈ preorderFrom p i (ofArgs h m) → ∃ j q, i ≤ j ∧ x.1 = p ++ j :: q := by
  induction m with
  | nil => intro i hx; simp [ofArgs, preorderFrom] at hx
  | cons a m ih =>
    intro i hx
    rw [ofArgs, preorderFrom] at hx
    rcases List.mem_append.1 hx with hx | hx
    · obtain ⟨q, h1, _⟩ := preorder_prefix a (some h) (p ++ [i]) x hx
      exact ⟨i, q, le_rfl, by simp [h1]⟩
    · obtain ⟨j, q, h1, h2⟩ := ih (i + 1) hx
      exact ⟨j, q, by omega, h2⟩

theorem preorder_order (e : Expr) : ∀ (f : Option Head) (p : List Nat),
    (preorder p (ofExpr f e)).Pairwise fun a b => ¬ b.1 <+: a.1 := by
  induction e using Expr.ind with
  | hs n => intro f p; simp [ofExpr, preorder, preorderFrom]
  | hq n => intro f p; simp [ofExpr, preorder, preorderFrom]
  | ha h l ih =>
    intro f p
    rw [ofExpr, preorder]
    refine List.pairwise_cons.2 ⟨?_, ?_⟩
    · intro b hb hpre
      obtain ⟨j, q, _, h2⟩ := preorder_from_pos l 0 hb
      have := hpre.length_le
      rw [h2] at this
      simp only [List.length_append, List.length_cons] at this
      omega
    · have key : ∀ (m : List Expr) (i : Nat), (∀ e ∈ m, e ∈ l) →
          (preorderFrom p i (ofArgs h m)).Pairwise fun a b => ¬ b.1 <+: a.1 := by
        intro m
        induction m with
        | nil => intro i _; simp [ofArgs, preorderFrom]
        | cons a m ihm =>
          intro i hm
          rw [ofArgs, preorderFrom]
          refine List.pairwise_append.2 ⟨ih a (hm a (by simp)) _ _, ihm (i + 1) fun e he => hm e (by simp [he]), ?_⟩
          intro x hx y hy hpre
          obtain ⟨q, h1, _⟩ := preorder_prefix a (some h) (p ++ [i]) x hx
          obtain ⟨j, q', h2, h3⟩ := preorder_from_pos m (i + 1) hy
          rw [h1, h3, List.append_assoc] at hpre
          have := prefixes_disjoint hpre
          omega
      exact key l 0 fun e he => he

/-- The two traversals visit the same nodes. -/
theorem postorder_perm (e : Expr) : ∀ (f : Option Head) (p : List Nat),
    (postorder p (ofExpr f e)).Perm (preorder p (ofExpr f e)) := by
  induction e using Expr.ind with
  | hs n => intro f p; exact .refl _
  | hq n => intro f p; exact .refl _
  | ha h l ih =>
    intro f p
    rw [ofExpr, preorder, postorder]
    refine (List.perm_append_singleton _ _).trans (List.Perm.cons _ ?_)
    have key : ∀ (m : List Expr) (i : Nat), (∀ e ∈ m, e ∈ l) →
        (postorderFrom p i (ofArgs h m)).Perm (preorderFrom p i (ofArgs h m)) := by
      intro m
      induction m with
      | nil => intro i _; exact .refl _
      | cons a m ihm =>
        intro i hm
        rw [ofArgs, preorderFrom, postorderFrom]
        exact (ih a (hm a (by simp)) _ _).append (ihm (i + 1) fun e he => hm e (by simp [he]))
    exact key l 0 fun e he => he

theorem postorder_order (e : Expr) : ∀ (f : Option Head) (p : List Nat),
    (postorder p (ofExpr f e)).Pairwise fun a b => ¬ a.1 <+: b.1 := by
  induction e using Expr.ind with
  | hs n => intro f p; simp [ofExpr, postorder, postorderFrom]
  | hq n => intro f p; simp [ofExpr, postorder, postorderFrom]
  | ha h l ih =>
    intro f p
    rw [ofExpr, postorder]
    have hperm : ∀ (m : List Expr) (i : Nat),
        (postorderFrom p i (ofArgs h m)).Perm (preorderFrom p i (ofArgs h m)) := by
      intro m
      induction m with
      | nil => intro i; exact .refl _
      | cons a m ihm =>
        intro i
        rw [ofArgs, preorderFrom, postorderFrom]
        exact (postorder_perm a _ _).append (ihm (i + 1))
    refine List.pairwise_append.2 ⟨?_, by simp, ?_⟩
    · have key : ∀ (m : List Expr) (i : Nat), (∀ e ∈ m, e ∈ l) →
          (postorderFrom p i (ofArgs h m)).Pairwise fun a b => ¬ a.1 <+: b.1 := by
        intro m
        induction m with
        | nil => intro i _; simp [ofArgs, postorderFrom]
        | cons a m ihm =>
          intro i hm
          rw [ofArgs, postorderFrom]
          refine List.pairwise_append.2 ⟨ih a (hm a (by simp)) _ _, ihm (i + 1) fun e he => hm e (by simp [he]), ?_⟩
          intro x hx y hy hpre
          obtain ⟨q, h1, _⟩ := preorder_prefix a (some h) (p ++ [i]) x ((postorder_perm a _ _).mem_iff.1 hx)
          obtain ⟨j, q', h2, h3⟩ := preorder_from_pos m (i + 1) ((hperm m (i + 1)).mem_iff.1 hy)
          rw [h1, h3, List.append_assoc] at hpre
          have := prefixes_disjoint hpre
          omega
      exact key l 0 fun e he => he
    · intro a ha b hb hpre
      have : b = (p, Expr.app h l) := by simpa using hb
      subst this
      obtain ⟨j, q, _, h2⟩ := preorder_from_pos l 0 ((hperm l 0).mem_iff.1 ha)
      have := hpre.length_le
      rw [h2] at this
      simp only [List.length_append, List.length_cons] at this
      omega

/-- **C28, preorder.**  The traversal reports exactly the positions of the expression with their
subexpressions, each position once, and never an ancestor after a descendant. -/
theorem C28_preorder (e : Expr) :
    (∀ q s, (q, s) ∈ preorder [] (mk e) ↔ Expr.at q e = some s) ∧
    ((preorder [] (mk e)).map Prod.fst).Nodup ∧
    (preorder [] (mk e)).Pairwise fun a b => ¬ b.1 <+: a.1 := by
  refine ⟨fun q s => ⟨fun h => ?_, fun h => ?_⟩, ?_, preorder_order e none []⟩
  · obtain ⟨q', h1, h2⟩ := preorder_prefix e none [] (q, s) h
    have : q = q' := by simpa using h1
    rw [this]; exact h2
  · exact preorder_complete q e s none [] h
  · rw [List.Nodup, List.pairwise_map]
    exact (preorder_order e none []).imp fun {a b} h (hab : a.1 = b.1) => h (hab ▸ List.prefix_refl _)

/-- **C28, postorder.**  The same positions, each once, and never a descendant after an ancestor. -/
theorem C28_postorder (e : Expr) :
    (∀ q s, (q, s) ∈ postorder [] (mk e) ↔ Expr.at q e = some s) ∧
    ((postorder [] (mk e)).map Prod.fst).Nodup ∧
    (postorder [] (mk e)).Pairwise fun a b => ¬ a.1 <+: b.1 := by
  refine ⟨fun q s => ?_, ?_, postorder_order e none []⟩
  · rw [mk, (postorder_perm e none []).mem_iff]
    exact (C28_preorder e).1 q s
  · rw [List.Nodup, List.pairwise_map]
    exact (postorder_order e none []).imp fun {a b} h (hab : a.1 = b.1) => h (hab ▸ List.prefix_refl _)

/-- Non-vacuity: `cos(a + b)**2` with `a + b` replaced by `a*b` (expr_tree.py:46-51). -/
example : let e := Expr.app .pow [.app (.fn (c% "cos")) [.app .add [.sym (c% "a"), .sym (c% "b")]], .num 2]
    let v := Expr.app .mul [.sym (c% "a"), .sym (c% "b")]
    Expr.setAt v [0, 0] e = some (.app .pow [.app (.fn (c% "cos")) [v], .num 2]) ∧
    (preorder [] (mk e)).map Prod.fst = [[], [0], [0, 0], [0, 0, 0], [0, 0, 1], [1]] :=
  ⟨rfl, rfl⟩

end Tree
end Verif.Sympy
