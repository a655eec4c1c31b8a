import Verif.SIMD.Model
import Mathlib.Analysis.SpecialFunctions.Pow.Real
import Mathlib.Data.Real.Sign
import Mathlib.Tactic.Linarith
import Mathlib.Tactic.Ring
import Mathlib.Tactic.FieldSimp

/-!
# Meaning of expressions with SIMD intrinsics, and the traversal lemma
-/
namespace Verif.SIMD
open Verif.Py Verif.Sympy Verif.Sympy.Expr

/-- Meaning of the functions of SymPy and of the intrinsics over the real numbers: the comments of
nrpy/helpers/simd.py:44-149 (`AbsSIMD_check`, ..., `signSIMD_check`).  Other functions are arbitrary. -/
structure Sem (I : Interp ℝ) : Prop where
  pow : ∀ x y, I.pow x y = x ^ y
  abs : ∀ x, I.fn (c% "Abs") [x] = |x|
  exp : ∀ x, I.fn (c% "exp") [x] = Real.exp x
  log : ∀ x, I.fn (c% "log") [x] = Real.log x
  sin : ∀ x, I.fn (c% "sin") [x] = Real.sin x
  cos : ∀ x, I.fn (c% "cos") [x] = Real.cos x
  sign : ∀ x, I.fn (c% "sign") [x] = Real.sign x
  absS : ∀ x, I.fn (c% "AbsSIMD") [x] = |x|
  expS : ∀ x, I.fn (c% "ExpSIMD") [x] = Real.exp x
  logS : ∀ x, I.fn (c% "LogSIMD") [x] = Real.log x
  sinS : ∀ x, I.fn (c% "SinSIMD") [x] = Real.sin x
  cosS : ∀ x, I.fn (c% "CosSIMD") [x] = Real.cos x
  signS : ∀ x, I.fn (c% "SignSIMD") [x] = Real.sign x
  sqrtS : ∀ x, I.fn (c% "SqrtSIMD") [x] = √x
  cbrtS : ∀ x, I.fn (c% "CbrtSIMD") [x] = x ^ (1 / 3 : ℝ)
  powS : ∀ x y, I.fn (c% "PowSIMD") [x, y] = x ^ y
  addS : ∀ x y, I.fn (c% "AddSIMD") [x, y] = x + y
  subS : ∀ x y, I.fn (c% "SubSIMD") [x, y] = x - y
  mulS : ∀ x y, I.fn (c% "MulSIMD") [x, y] = x * y
  divS : ∀ x y, I.fn (c% "DivSIMD") [x, y] = x / y
  fma : ∀ x y z, I.fn (c% "FusedMulAddSIMD") [x, y, z] = x * y + z
  fms : ∀ x y z, I.fn (c% "FusedMulSubSIMD") [x, y, z] = x * y - z
  nfma : ∀ x y z, I.fn (c% "NegFusedMulAddSIMD") [x, y, z] = -x * y + z
  nfms : ∀ x y z, I.fn (c% "NegFusedMulSubSIMD") [x, y, z] = -x * y - z

/-- Number of arguments of the functions the conversion knows. -/
def arityOf (n : Str) : Option Nat :=
  if n ∈ [(c% "Abs"), (c% "exp"), (c% "log"), (c% "sin"), (c% "cos"), (c% "sign"), (c% "AbsSIMD"),
      (c% "ExpSIMD"), (c% "LogSIMD"), (c% "SinSIMD"), (c% "CosSIMD"), (c% "SignSIMD"), nSqrt, nCbrt]
  then some 1
  else if n ∈ [nAdd, nSub, nMul, nDiv, nPow] then some 2
  else if n ∈ [nFMA, nFMS, nNFMA, nNFMS] then some 3
  else none

/-! ### Nodes of an expression -/

mutual
/-- All composite subexpressions, as head and arguments. -/
def nodes : Expr → List (Head × List Expr)
  | .sym _ => []
  | .num _ => []
  | .app h l => (h, l) :: nodesList l
def nodesList : List Expr → List (Head × List Expr)
  | [] => []
  | e :: l => nodes e ++ nodesList l
end

theorem nodesList_eq (l : List Expr) : nodesList l = l.flatMap nodes := by
  induction l with
  | nil => rfl
  | cons e l ih => rw [nodesList, ih, List.flatMap_cons]

@[simp] theorem nodes_sym (n : Str) : nodes (.sym n) = [] := by rw [nodes]
@[simp] theorem nodes_num (q : ℚ) : nodes (.num q) = [] := by rw [nodes]
@[simp] theorem nodes_app (h : Head) (l : List Expr) :
    nodes (.app h l) = (h, l) :: l.flatMap nodes := by rw [nodes, nodesList_eq]

section
variable (I : Interp ℝ) (C : Set (Str → ℝ))

/-- The value of an expression as a function of the valuations in `C`. -/
noncomputable def V (e : Expr) : C → ℝ := fun ρ => eval I ρ.1 e

/-- Every node satisfies `ok`, which may depend on the head and on the values of the arguments. -/
def AllN (ok : Head → List (C → ℝ) → Prop) (e : Expr) : Prop :=
  ∀ n ∈ nodes e, ok n.1 (n.2.map (V I C))

variable {I C}

theorem V_congr {h : Head} {l l' : List Expr} (hl : l'.map (V I C) = l.map (V I C)) :
    V I C (.app h l') = V I C (.app h l) := by
  funext ρ
  simp only [V, eval_app]
  have := congrArg (List.map fun v : C → ℝ => v ρ) hl
  simp only [List.map_map] at this
  have e : ((fun v : C → ℝ => v ρ) ∘ V I C) = eval I ρ.1 := rfl
  rw [e] at this
  rw [this]

@[simp] theorem allN_sym (ok) (n : Str) : AllN I C ok (.sym n) := by simp [AllN]
@[simp] theorem allN_num (ok) (q : ℚ) : AllN I C ok (.num q) := by simp [AllN]
theorem allN_app (ok) (h : Head) (l : List Expr) :
    AllN I C ok (.app h l) ↔ ok h (l.map (V I C)) ∧ ∀ a ∈ l, AllN I C ok a := by
  simp only [AllN, nodes_app, List.mem_cons, List.mem_flatMap]
  constructor
  · intro H
    exact ⟨H _ (.inl rfl), fun a ha n hn => H n (.inr ⟨a, ha, hn⟩)⟩
  · rintro ⟨h1, h2⟩ n (rfl | ⟨a, ha, hn⟩)
    · exact h1
    · exact h2 a ha n hn

theorem AllN.mono {ok ok' : Head → List (C → ℝ) → Prop} (H : ∀ h l, ok h l → ok' h l) {e : Expr}
    (h : AllN I C ok e) : AllN I C ok' e := fun n hn => H _ _ (h n hn)

/-! ### The traversal -/

theorem mapS_spec {g : Table → Expr → Option (Expr × Table)} {J : Table → Prop} {P Q : Expr → Prop}
    (hg : ∀ d e e' d', g d e = some (e', d') → J d → P e → J d' ∧ V I C e' = V I C e ∧ Q e') :
    ∀ (l : List Expr) d l' d', mapS g d l = some (l', d') → J d → (∀ a ∈ l, P a) →
      J d' ∧ l'.map (V I C) = l.map (V I C) ∧ ∀ a ∈ l', Q a := by
  intro l
  induction l with
  | nil =>
    intro d l' d' h hJ _
    simp only [mapS, Option.some.injEq, Prod.mk.injEq] at h
    obtain ⟨rfl, rfl⟩ := h
    exact ⟨hJ, rfl, by simp⟩
  | cons a l ih =>
    intro d l' d' h hJ hP
    rw [mapS] at h
    split at h
    · cases h
    · next e' d1 h1 =>
      split at h
      · cases h
      · next l1 d2 h2 =>
        simp only [Option.some.injEq, Prod.mk.injEq] at h
        obtain ⟨rfl, rfl⟩ := h
        obtain ⟨j1, v1, q1⟩ := hg _ _ _ _ h1 hJ (hP a (by simp))
        obtain ⟨j2, v2, q2⟩ := ih _ _ _ h2 j1 fun b hb => hP b (by simp [hb])
        exact ⟨j2, by rw [List.map_cons, List.map_cons, v1, v2], by
          intro b hb
          rcases List.mem_cons.1 hb with rfl | hb
          · exact q1
          · exact q2 b hb⟩

/-- A pass keeps values if its local rule does; the rule is applied to expressions all of whose nodes are
`okP`, and the pass leaves expressions all of whose nodes are `okQ`. -/
theorem topDown_spec {f : Table → Expr → Expr × Table} {J : Table → Prop}
    {okP okQ : Head → List (C → ℝ) → Prop}
    (hJ : ∀ d e, J d → AllN I C okP e → J (f d e).2)
    (hval : ∀ d e, J d → AllN I C okP e → V I C (f d e).1 = V I C e)
    (hargs : ∀ d e h l, J d → AllN I C okP e → (f d e).1 = .app h l → ∀ a ∈ l, AllN I C okP a)
    (hroot : ∀ d e h l, J d → AllN I C okP e → (f d e).1 = .app h l → okQ h (l.map (V I C))) :
    ∀ fuel d e e' d', topDown f fuel d e = some (e', d') → J d → AllN I C okP e →
      J d' ∧ V I C e' = V I C e ∧ AllN I C okQ e' := by
  intro fuel
  induction fuel with
  | zero => intro d e e' d' h; simp [topDown] at h
  | succ fuel ih =>
    intro d e e' d' h hd he
    rw [topDown] at h
    have j1 := hJ d e hd he
    have v1 := hval d e hd he
    split at h
    · next hh l d1 hf =>
      rw [hf] at j1 v1
      split at h
      · cases h
      · next l' d2 hm =>
        simp only [Option.some.injEq, Prod.mk.injEq] at h
        obtain ⟨rfl, rfl⟩ := h
        obtain ⟨j2, v2, q2⟩ := mapS_spec ih l d1 l' d2 hm j1
          (hargs d e hh l hd he (by rw [hf]))
        refine ⟨j2, (V_congr v2).trans v1, (allN_app _ _ _).2 ⟨?_, q2⟩⟩
        rw [v2]
        exact hroot d e hh l hd he (by rw [hf])
    · next a d1 hna hf =>
      simp only [Option.some.injEq, Prod.mk.injEq] at h
      obtain ⟨rfl, rfl⟩ := h
      rw [hf] at j1 v1
      refine ⟨j1, v1, ?_⟩
      cases a with
      | sym n => simp
      | num q => simp
      | app hh l => exact absurd rfl (hna hh l)

/-- The same for a rule that leaves the table alone and keeps `ok`. -/
theorem topDown_pure {g : Table → Expr → Expr} {J : Table → Prop} {ok : Head → List (C → ℝ) → Prop}
    (hval : ∀ d e, J d → AllN I C ok e → V I C (g d e) = V I C e)
    (hok : ∀ d e, J d → AllN I C ok e → AllN I C ok (g d e)) :
    ∀ fuel d e e' d', topDown (pureStep g) fuel d e = some (e', d') → J d → AllN I C ok e →
      J d' ∧ V I C e' = V I C e ∧ AllN I C ok e' := by
  apply topDown_spec
  · intro d e hd _; exact hd
  · exact hval
  · intro d e h l hd he hf a ha
    have := hok d e hd he
    rw [show g d e = .app h l from hf, allN_app] at this
    exact this.2 a ha
  · intro d e h l hd he hf
    have := hok d e hd he
    rw [show g d e = .app h l from hf, allN_app] at this
    exact this.1

end

/-! ### Recognisers -/

theorem as2_eq {n : Str} {e a b : Expr} (h : as2 n e = some (a, b)) : e = fn2 n a b := by
  unfold as2 at h
  split at h
  · next m x y =>
    split at h
    · next hm => simp at h; obtain ⟨rfl, rfl⟩ := h; rw [hm]; rfl
    · cases h
  · cases h

theorem as3_eq {n : Str} {e a b c : Expr} (h : as3 n e = some (a, b, c)) : e = fn3 n a b c := by
  unfold as3 at h
  split at h
  · next m x y z =>
    split at h
    · next hm => simp at h; obtain ⟨rfl, rfl, rfl⟩ := h; rw [hm]; rfl
    · cases h
  · cases h

/-- The valuation gives every symbol of the table its value. -/
def Consistent (d : Table) (ρ : Str → ℝ) : Prop := ∀ s q, d.get? s = some q → ρ s = q

theorem lookup_eval {I : Interp ℝ} {d : Table} {ρ : Str → ℝ} (h : Consistent d ρ) {e : Expr} {q : ℚ}
    (hl : lookup d e = some q) : eval I ρ e = q := by
  cases e with
  | sym s => rw [eval_sym]; exact h s q hl
  | num r => simp [lookup] at hl; simp [hl]
  | app => simp [lookup] at hl

theorem isVal_eval {I : Interp ℝ} {d : Table} {ρ : Str → ℝ} (h : Consistent d ρ) {e : Expr} {q : ℚ}
    (hl : isVal d q e = true) : eval I ρ e = q :=
  lookup_eval h (by simpa [isVal] using hl)

/-! ### Values of intrinsics -/

section
variable {I : Interp ℝ} (hI : Sem I) (ρ : Str → ℝ) (a b c : Expr)
include hI

theorem ev_add : eval I ρ (fn2 nAdd a b) = eval I ρ a + eval I ρ b := by
  simp [fn2, Interp.app, hI.addS]
theorem ev_sub : eval I ρ (fn2 nSub a b) = eval I ρ a - eval I ρ b := by
  simp [fn2, Interp.app, hI.subS]
theorem ev_mul : eval I ρ (fn2 nMul a b) = eval I ρ a * eval I ρ b := by
  simp [fn2, Interp.app, hI.mulS]
theorem ev_div : eval I ρ (fn2 nDiv a b) = eval I ρ a / eval I ρ b := by
  simp [fn2, Interp.app, hI.divS]
theorem ev_pow : eval I ρ (fn2 nPow a b) = eval I ρ a ^ eval I ρ b := by
  simp [fn2, Interp.app, hI.powS]
theorem ev_sqrt : eval I ρ (fn1 nSqrt a) = √(eval I ρ a) := by
  simp [fn1, Interp.app, hI.sqrtS]
theorem ev_cbrt : eval I ρ (fn1 nCbrt a) = eval I ρ a ^ (1 / 3 : ℝ) := by
  simp [fn1, Interp.app, hI.cbrtS]
theorem ev_fma : eval I ρ (fn3 nFMA a b c) = eval I ρ a * eval I ρ b + eval I ρ c := by
  simp [fn3, Interp.app, hI.fma]
theorem ev_fms : eval I ρ (fn3 nFMS a b c) = eval I ρ a * eval I ρ b - eval I ρ c := by
  simp [fn3, Interp.app, hI.fms]
theorem ev_nfma : eval I ρ (fn3 nNFMA a b c) = -eval I ρ a * eval I ρ b + eval I ρ c := by
  simp [fn3, Interp.app, hI.nfma]
theorem ev_nfms : eval I ρ (fn3 nNFMS a b c) = -eval I ρ a * eval I ρ b - eval I ρ c := by
  simp [fn3, Interp.app, hI.nfms]

end
end Verif.SIMD
