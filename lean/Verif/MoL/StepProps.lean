import Verif.MoL.Step
import Mathlib.Algebra.BigOperators.Intervals
import Mathlib.Tactic.Ring
import Mathlib.Tactic.Linarith
import Mathlib.Tactic.FieldSimp

/-!
# C36: one generated time step is one step of the Runge–Kutta method of the table
-/

open Finset

namespace Verif.MoL
open Verif.Py

variable {K Pt : Type} [Field K] [DecidableEq K]

/-! ## Specification -/

/-- `t` is the explicit Butcher table with `s ≥ 1` stages, coefficients `a i j` (`j < i`), weights
`b` and abscissae `c`: stage row `i` is `[c i, a i 0, …, a i (i-1)]`, the last row is
`["", b 0, …, b (s-1)]`. -/
structure IsTable (t : Table K) (s : Nat) (a : Nat → Nat → K) (b c : Nat → K) : Prop where
  len : t.length = s + 1
  pos : 1 ≤ s
  stage : ∀ i < s, t[i]? = some ⟨.num (c i), (List.range i).map (a i)⟩
  last : t[s]? = some ⟨.str "", (List.range s).map b⟩

/-- One step of the Runge–Kutta method `a, b, c` for `y' = F(t, y)` with step `dt` from `(t, y)`,
with `post` applied to every stage value and to the result: `y'` is the result. -/
def IsRKStep (s : Nat) (a : Nat → Nat → K) (b c : Nat → K) (F : K → (Pt → K) → (Pt → K))
    (post : (Pt → K) → (Pt → K)) (t dt : K) (y y' : Pt → K) : Prop :=
  ∃ Y k : Nat → Pt → K,
    Y 0 = y ∧
    (∀ i, i + 1 < s → Y (i + 1) = post fun x => y x + dt * ∑ j ∈ range (i + 1), a (i + 1) j * k j x) ∧
    (∀ i < s, k i = F (t + c i * dt) (Y i)) ∧
    y' = post fun x => y x + dt * ∑ i ∈ range s, b i * k i x

/-- What is assumed about the user's code on grid `g`, with `I` the set of interior points: the
right-hand-side call sets every interior point of the output to `F` (other points may keep any
value); the post call (boundary conditions) keeps interior points and sets the others from interior
values.  `I = everything`, `post = id` is the special case without boundary conditions. -/
structure UserOk (u : User K Pt) (g : Nat) (I : Pt → Prop) (F : K → (Pt → K) → (Pt → K)) : Prop where
  rhs : ∀ τ v old x, I x → u.rhs g τ v old x = F τ v x
  keep : ∀ v x, I x → u.post g v x = v x
  det : ∀ v w : Pt → K, (∀ x, I x → v x = w x) → u.post g v = u.post g w

/-- The storage-saving algorithms need: the diagonal RK3 algorithm (chosen when the name contains
`RK3`) three stages and `a₂₁ ≠ 0`; Euler one stage of weight one; the general diagonal algorithm at
least two stages, a nonzero last weight and nonzero subdiagonal entries `a_{i+1,i}` for `i ≥ 1`.
Tables that are not diagonal need nothing. -/
def Admissible (name : Str) (s : Nat) (a : Nat → Nat → K) (b : Nat → K) : Prop :=
  (∀ i < s, ∀ j, j + 1 < i → a i j = 0) →
    if nameHasRK3 name then s = 3 ∧ a 1 0 ≠ 0
    else if name = (c% "Euler") then s = 1 ∧ b 0 = 1
    else 2 ≤ s ∧ b (s - 1) ≠ 0 ∧ ∀ i, 1 ≤ i → i + 1 < s → a (i + 1) i ≠ 0

/-! ## Table access -/

section
variable {t : Table K} {s : Nat} {a : Nat → Nat → K} {b c : Nat → K}

theorem IsTable.cell_stage (h : IsTable t s a b c) (i j : Nat) (hi : i < s) (hj : j < i) :
    cell t i (j + 1) = .ok (a i j) := by
  simp [cell, h.stage i hi, hj]

theorem IsTable.cell_last (h : IsTable t s a b c) (j : Nat) (hj : j < s) :
    cell t s (j + 1) = .ok (b j) := by
  simp [cell, h.last, hj]

theorem IsTable.offset (h : IsTable t s a b c) (i : Nat) (hi : i < s) :
    offset t i = .ok (c i) := by
  simp [MoL.offset, h.stage i hi]

theorem mem_diagPairs (L i j : Nat) : (i, j) ∈ diagPairs L ↔ i < L ∧ 1 ≤ j ∧ j < i := by
  simp only [diagPairs, List.mem_flatMap, List.mem_range, List.mem_map, List.mem_filter,
    decide_eq_true_eq, Prod.mk.injEq]
  constructor
  · rintro ⟨x, hx, y, ⟨hy, hy0⟩, rfl, rfl⟩; omega
  · rintro ⟨h1, h2, h3⟩; exact ⟨i, h1, j, ⟨h3, by omega⟩, rfl, rfl⟩

theorem diagLoop_eq (h : IsTable t s a b c) (l : List (Nat × Nat))
    (hl : ∀ p ∈ l, p.1 < s ∧ 1 ≤ p.2 ∧ p.2 < p.1) :
    diagLoop t l = .ok (decide (∀ p ∈ l, a p.1 (p.2 - 1) = 0)) := by
  induction l with
  | nil => simp [diagLoop]
  | cons p l ih =>
    obtain ⟨i, j⟩ := p
    obtain ⟨h1, h2, h3⟩ := hl (i, j) (by simp)
    obtain ⟨j, rfl⟩ : ∃ j', j = j' + 1 := ⟨j - 1, by simp at h2; omega⟩
    simp only at h1 h3
    rw [diagLoop, h.cell_stage i j h1 (by omega)]
    simp only
    split
    · next h0 =>
      rw [ih fun p hp => hl p (by simp [hp])]
      simp [h0]
    · next h0 => simp [h0]

/-- The mathematical meaning of `is_diagonal_Butcher`. -/
def Diagonal (s : Nat) (a : Nat → Nat → K) : Prop := ∀ i < s, ∀ j, j + 1 < i → a i j = 0

theorem isDiagonal_eq (h : IsTable t s a b c) :
    ∃ d : Bool, isDiagonal t = .ok d ∧ (d = true ↔ Diagonal s a) := by
  refine ⟨_, diagLoop_eq h _ ?_, ?_⟩
  · rintro ⟨i, j⟩ hp
    rw [mem_diagPairs, h.len] at hp
    simpa using hp
  · rw [decide_eq_true_iff]
    constructor
    · intro hp i hi j hj
      have := hp (i, j + 1) ((mem_diagPairs _ _ _).2 ⟨by rw [h.len]; omega, by omega, hj⟩)
      simpa using this
    · rintro hd ⟨i, j⟩ hp
      rw [mem_diagPairs, h.len] at hp
      exact hd i (by omega) (j - 1) (by omega)

end

/-! ## The Runge–Kutta stages exist -/

section
variable (s : Nat) (a : Nat → Nat → K) (c : Nat → K) (F : K → (Pt → K) → (Pt → K))
  (post : (Pt → K) → (Pt → K)) (t dt : K) (y : Pt → K)

/-- Stage value from the stage derivatives. -/
def rkY (k : Nat → Pt → K) : Nat → Pt → K
  | 0 => y
  | i + 1 => post fun x => y x + dt * ∑ j ∈ range (i + 1), a (i + 1) j * k j x

/-- The first `n` stage derivatives. -/
def rkSeq : Nat → Nat → Pt → K
  | 0 => fun _ _ => 0
  | n + 1 => Function.update (rkSeq n) n (F (t + c n * dt) (rkY a post dt y (rkSeq n) n))

theorem rkSeq_stable (n j : Nat) (h : j < n) :
    rkSeq a c F post t dt y n j = rkSeq a c F post t dt y (j + 1) j := by
  induction n with
  | zero => omega
  | succ n ih =>
    rcases Nat.lt_or_ge j n with h' | h'
    · rw [rkSeq, Function.update_of_ne (by omega), ih h']
    · rw [Nat.le_antisymm (Nat.lt_succ_iff.1 h) h']

/-- The stage derivatives. -/
def rkK (i : Nat) : Pt → K := rkSeq a c F post t dt y (i + 1) i

theorem rkY_congr (k k' : Nat → Pt → K) (i : Nat) (h : ∀ j < i, k j = k' j) :
    rkY a post dt y k i = rkY a post dt y k' i := by
  cases i with
  | zero => rfl
  | succ i =>
    simp only [rkY]
    congr 1
    funext x
    congr 2
    exact sum_congr rfl fun j hj => by rw [h j (mem_range.1 hj)]

theorem rkK_eq (i : Nat) :
    rkK a c F post t dt y i
      = F (t + c i * dt) (rkY a post dt y (rkK a c F post t dt y) i) := by
  rw [rkK, rkSeq, Function.update_self]
  congr 1
  exact rkY_congr _ _ _ _ _ _ _ fun j hj => rkSeq_stable a c F post t dt y i j hj

theorem isRKStep_mk (b : Nat → K) :
    IsRKStep s a b c F post t dt y
      (post fun x => y x + dt * ∑ i ∈ range s, b i * rkK a c F post t dt y i x) :=
  ⟨rkY a post dt y (rkK a c F post t dt y), rkK a c F post t dt y, rfl, fun _ _ => rfl,
    fun i _ => rkK_eq a c F post t dt y i, rfl⟩

end

/-! ## Independence of the grids -/

/-- All substeps on one grid. -/
def runOne (u : User K Pt) (g : Nat) (tStart dt : K) (prog : List (Substep K)) (m : Mem K Pt) :
    Mem K Pt :=
  prog.foldl (fun m s => runSubstep u g (tStart + s.time * dt) dt s m) m

theorem runGrids_grids (u : User K Pt) (tStart dt : K) (s : Substep K) (n : Nat)
    (σ : CState K Pt) (g : Nat) :
    (runGrids u tStart dt s n σ).grids g
      = if g < n then runSubstep u g (tStart + s.time * dt) dt s (σ.grids g) else σ.grids g := by
  induction n with
  | zero => simp [runGrids]
  | succ n ih =>
    have e : runGrids u tStart dt s (n + 1) σ
        = { runGrids u tStart dt s n σ with
            time := tStart + s.time * dt
            grids := Function.update (runGrids u tStart dt s n σ).grids n
              (runSubstep u n (tStart + s.time * dt) dt s ((runGrids u tStart dt s n σ).grids n)) } := by
      simp [runGrids, List.range_succ]
    rw [e]
    by_cases hg : g = n
    · subst hg
      simp [ih]
    · simp only [Function.update_of_ne hg, ih]
      by_cases h1 : g < n
      · simp [h1, Nat.lt_succ_of_lt h1]
      · have h2 : ¬ g < n + 1 := by omega
        simp [h1, h2]

theorem runGrids_nn (u : User K Pt) (tStart dt : K) (s : Substep K) (n : Nat)
    (σ : CState K Pt) : (runGrids u tStart dt s n σ).nn = σ.nn := by
  unfold runGrids
  induction (List.range n) generalizing σ with
  | nil => rfl
  | cons g l ih => rw [List.foldl_cons, ih]

theorem stepForward_spec (u : User K Pt) (dt : K) (prog : List (Substep K)) (n : Nat)
    (σ : CState K Pt) :
    (stepForward u dt prog n σ).nn = σ.nn + 1 ∧
    (stepForward u dt prog n σ).time = ((σ.nn : K) + 1) * dt ∧
    ∀ g < n, (stepForward u dt prog n σ).grids g = runOne u g σ.time dt prog (σ.grids g) := by
  have key : ∀ (t0 : K) (prog : List (Substep K)) (σ : CState K Pt),
      (prog.foldl (fun σ' s => runGrids u t0 dt s n σ') σ).nn = σ.nn ∧
      ∀ g < n, (prog.foldl (fun σ' s => runGrids u t0 dt s n σ') σ).grids g
        = runOne u g t0 dt prog (σ.grids g) := by
    intro t0 prog
    induction prog with
    | nil => intro σ; exact ⟨rfl, fun _ _ => rfl⟩
    | cons s l ih =>
      intro σ
      obtain ⟨h1, h2⟩ := ih (runGrids u t0 dt s n σ)
      refine ⟨by rw [List.foldl_cons, h1, runGrids_nn], fun g hg => ?_⟩
      rw [List.foldl_cons, h2 g hg, runGrids_grids, if_pos hg]
      rfl
  obtain ⟨h1, h2⟩ := key σ.time prog σ
  exact ⟨by simp [stepForward, h1], by simp [stepForward, h1], fun g hg => h2 g hg⟩

/-! ## The three algorithms -/

section
variable {t : Table K} {s : Nat} {a : Nat → Nat → K} {b c : Nat → K}

/-- The right-hand side of stage `s` of the general algorithm. -/
theorem generalRhs_eq (i : Nat) (coef : Nat → K) (l : List Nat)
    (hl : ∀ m ∈ l, cell t (i + 1) (m + 1) = .ok (coef m)) (acc : Ex K) :
    ∃ e, generalRhs t i l acc = .ok e ∧
      ∀ dt env, e.eval dt env = acc.eval dt env + dt * (l.map fun m => coef m * env (.k m)).sum := by
  induction l generalizing acc with
  | nil => exact ⟨acc, rfl, fun dt env => by simp⟩
  | cons m l ih =>
    have hm := hl m (by simp)
    have hl' : ∀ m ∈ l, cell t (i + 1) (m + 1) = .ok (coef m) := fun m h => hl m (by simp [h])
    simp only [generalRhs, hm, bind, Except.bind]
    by_cases h0 : coef m = 0
    · obtain ⟨e, he, hv⟩ := ih hl' acc
      refine ⟨e, by simpa [h0] using he, fun dt env => ?_⟩
      rw [hv]; simp [h0]
    · by_cases h1 : coef m = 1
      · obtain ⟨e, he, hv⟩ := ih hl' (.add acc (.mul .dt (.sym (.k m))))
        refine ⟨e, by simpa [h0, h1] using he, fun dt env => ?_⟩
        rw [hv]; simp [h1, Ex.eval]; ring
      · obtain ⟨e, he, hv⟩ := ih hl' (.add acc (.mul (.mul .dt (.sym (.k m))) (.num (coef m))))
        refine ⟨e, by simpa [h0, h1] using he, fun dt env => ?_⟩
        rw [hv]; simp [Ex.eval]; ring

theorem list_sum_range (n : Nat) (f : Nat → K) :
    ((List.range n).map f).sum = ∑ j ∈ range n, f j := by
  induction n with
  | zero => simp
  | succ n ih => rw [List.range_succ, List.map_append, List.sum_append, ih, sum_range_succ]; simp

theorem mapM_ok' {α β ε : Type} (f : α → Except ε β) (g : α → β) (l : List α)
    (h : ∀ x ∈ l, f x = .ok (g x)) : l.mapM f = .ok (l.map g) := by
  induction l with
  | nil => rfl
  | cons a l ih =>
    rw [List.mapM_cons, h a (by simp), ih (fun x hx => h x (by simp [hx]))]; rfl

instance : Nonempty (Substep K) := ⟨⟨0, .yn, .yn, [], []⟩⟩

theorem mapM_range_ok (f : Nat → Except Err (Substep K)) (n : Nat)
    (h : ∀ i < n, ∃ x, f i = .ok x) :
    ∃ g : Nat → Substep K,
      (List.range n).mapM f = .ok ((List.range n).map g) ∧ ∀ i < n, f i = .ok (g i) := by
  choose! g hg using h
  exact ⟨g, mapM_ok' f g _ fun i hi => hg i (List.mem_range.1 hi), hg⟩

theorem runOne_range (u : User K Pt) (g : Nat) (t0 dt : K) (st : Nat → Substep K)
    (Inv : Nat → Mem K Pt → Prop) (m : Mem K Pt) (h0 : Inv 0 m) (n : Nat)
    (hs : ∀ i < n, ∀ m, Inv i m → Inv (i + 1) (runSubstep u g (t0 + (st i).time * dt) dt (st i) m)) :
    Inv n (runOne u g t0 dt ((List.range n).map st) m) := by
  induction n with
  | zero => exact h0
  | succ n ih =>
    rw [List.range_succ, List.map_append, runOne, List.foldl_append]
    exact hs n (by omega) _ (ih fun i hi => hs i (by omega))

/-- General algorithm. -/
theorem general_ok (h : IsTable t s a b c) (u : User K Pt) (g : Nat) (I : Pt → Prop)
    (F : K → (Pt → K) → (Pt → K)) (hu : UserOk u g I F) (t0 dt : K) (m : Mem K Pt) :
    ∃ prog, (List.range s).mapM (generalStep t s) = .ok prog ∧
      IsRKStep s a b c F (u.post g) t0 dt (m .yn) (runOne u g t0 dt prog m .yn) := by
  set y := m .yn with hy
  set k := rkK a c F (u.post g) t0 dt y with hk
  set Y := rkY a (u.post g) dt y k with hY
  -- the coefficients used by substep `i`
  set coef : Nat → Nat → K := fun i j => if i + 1 = s then b j else a (i + 1) j with hcoef
  have hcell : ∀ i < s, ∀ j ∈ List.range (i + 1), cell t (i + 1) (j + 1) = .ok (coef i j) := by
    intro i hi j hj
    have hj := List.mem_range.1 hj
    simp only [hcoef]
    split
    · next e => rw [e]; exact h.cell_last j (by omega)
    · exact h.cell_stage (i + 1) j (by omega) hj
  have hstep : ∀ i < s, ∃ e : Ex K, generalStep t s i = .ok
      { time := c i, rhsIn := if i = 0 then .yn else .nextY, rhsOut := .k i
        upd := [(if i = s - 1 then Buf.yn else .nextY, e)]
        post := [if i = s - 1 then Buf.yn else .nextY] } ∧
      ∀ dt env, e.eval dt env = env .yn + dt * ∑ j ∈ range (i + 1), coef i j * env (.k j) := by
    intro i hi
    obtain ⟨e, he, hv⟩ := generalRhs_eq i (coef i) (List.range (i + 1)) (hcell i hi) (.sym .yn)
    refine ⟨e, ?_, fun dt env => ?_⟩
    · simp only [generalStep, he, h.offset i hi, bind, Except.bind, pure, Except.pure]
    · rw [hv, list_sum_range]; rfl
  obtain ⟨st, hprog, hst⟩ := mapM_range_ok (generalStep t s) s fun i hi =>
    ⟨_, (hstep i hi).choose_spec.1⟩
  refine ⟨_, hprog, ?_⟩
  have hs1 := h.pos
  let Inv : Nat → Mem K Pt → Prop := fun n m =>
      (n < s → m .yn = y ∧ (1 ≤ n → m .nextY = Y n) ∧ ∀ j < n, ∀ x, I x → m (.k j) x = k j x) ∧
      (n = s → m .yn = u.post g fun x => y x + dt * ∑ i ∈ range s, b i * k i x)
  have key : Inv s (runOne u g t0 dt ((List.range s).map st) m) := by
    refine runOne_range u g t0 dt st Inv m ?_ s ?_
    · exact ⟨fun _ => ⟨rfl, fun h => by omega, fun j hj => by omega⟩, fun h => by omega⟩
    · rintro i hi m ⟨hinv, -⟩
      obtain ⟨h1, h2, h3⟩ := hinv hi
      obtain ⟨e, he, hv⟩ := hstep i hi
      rw [hst i hi] at he
      have hsti : st i = _ := Except.ok.inj he
      rw [hsti]
      have hin : m (if i = 0 then Buf.yn else .nextY) = Y i := by
        split
        · next h0 => subst h0; rw [h1]; rfl
        · exact h2 (by omega)
      have hki : ∀ old x, I x → u.rhs g (t0 + c i * dt) (Y i) old x = k i x := by
        intro old x hx
        rw [hu.rhs _ _ _ _ hx, hk, rkK_eq]
      -- memory after the call
      set m1 := Mem.set m (.k i) (u.rhs g (t0 + c i * dt) (m (if i = 0 then Buf.yn else .nextY))
        (m (.k i))) with hm1
      have hm1k : ∀ j < i + 1, ∀ x, I x → m1 (.k j) x = k j x := by
        intro j hj x hx
        by_cases e : j = i
        · subst e
          rw [hm1, Mem.set, Function.update_self, hin]
          exact hki _ x hx
        · rw [hm1, Mem.set, Function.update_of_ne (by simpa using e)]
          exact h3 j (by omega) x hx
      have hm1y : m1 .yn = y := by rw [hm1, Mem.set, Function.update_of_ne (by simp), h1]
      set lhs : Buf := if i = s - 1 then Buf.yn else .nextY with hlhs
      have hval : ∀ x, I x → (fun x => e.eval dt fun b => m1 b x) x
          = y x + dt * ∑ j ∈ range (i + 1), coef i j * k j x := by
        intro x hx
        simp only [hv, hm1y]
        congr 2
        exact sum_congr rfl fun j hj => by rw [hm1k j (mem_range.1 hj) x hx]
      have hrun : runSubstep u g (t0 + c i * dt) dt
          { time := c i, rhsIn := if i = 0 then .yn else .nextY, rhsOut := .k i
            upd := [(lhs, e)], post := [lhs] } m
          = Mem.set (Mem.set m1 lhs fun x => e.eval dt fun b => m1 b x) lhs
              (u.post g fun x => y x + dt * ∑ j ∈ range (i + 1), coef i j * k j x) := by
        simp only [runSubstep, runUpd, List.foldl_cons, List.foldl_nil]
        rw [← hm1]
        congr 1
        rw [Mem.set, Function.update_self]
        exact hu.det _ _ hval
      rw [hrun]
      constructor
      · intro hn
        have hl : lhs = .nextY := by rw [hlhs, if_neg (by omega)]
        rw [hl]
        refine ⟨?_, fun _ => ?_, ?_⟩
        · simp [Mem.set, hm1y]
        · simp only [Mem.set, Function.update_self, hY, rkY, hcoef, if_neg (by omega : ¬ i + 1 = s)]
        · intro j hj x hx
          simp only [Mem.set]
          rw [Function.update_of_ne (by simp), Function.update_of_ne (by simp)]
          exact hm1k j hj x hx
      · intro hn
        have hl : lhs = .yn := by rw [hlhs, if_pos (by omega)]
        rw [hl]
        simp only [Mem.set, Function.update_self, hcoef, hn, if_true]
  rw [key.2 rfl]
  exact isRKStep_mk s a c F (u.post g) t0 dt y b

/-- Euler. -/
theorem euler_ok (h : IsTable t s a b c) (hs : s = 1) (hb : b 0 = 1) (u : User K Pt) (g : Nat)
    (I : Pt → Prop) (F : K → (Pt → K) → (Pt → K)) (hu : UserOk u g I F) (t0 dt : K)
    (m : Mem K Pt) :
    ∃ p, eulerStep t = .ok p ∧
      IsRKStep s a b c F (u.post g) t0 dt (m .yn) (runOne u g t0 dt [p] m .yn) := by
  refine ⟨_, by rw [eulerStep, h.offset 0 (by omega)]; rfl, ?_⟩
  convert isRKStep_mk s a c F (u.post g) t0 dt (m .yn) b using 1
  simp only [runOne, List.foldl_cons, List.foldl_nil, runSubstep, runUpd, Mem.set,
    Function.update_self]
  refine hu.det _ _ fun x hx => ?_
  subst hs
  have : rkK a c F (u.post g) t0 dt (m .yn) 0 x = F (t0 + c 0 * dt) (m .yn) x := by
    rw [rkK_eq]; rfl
  simp only [sum_range_one, hb, this, Ex.eval]
  rw [Function.update_self, Function.update_of_ne (by simp), hu.rhs _ _ _ _ hx]
  ring

/-- Diagonal RK3. -/
theorem rk3_ok (h : IsTable t s a b c) (hs : s = 3) (hd : Diagonal s a) (ha : a 1 0 ≠ 0)
    (u : User K Pt) (g : Nat)
    (I : Pt → Prop) (F : K → (Pt → K) → (Pt → K)) (hu : UserOk u g I F) (t0 dt : K)
    (m : Mem K Pt) :
    ∃ prog, rk3Diag t = .ok prog ∧
      IsRKStep s a b c F (u.post g) t0 dt (m .yn) (runOne u g t0 dt prog m .yn) := by
  subst hs
  have hprog := show rk3Diag t = .ok _ by
    unfold rk3Diag
    rw [h.offset 0 (by omega), h.cell_stage 1 0 (by omega) (by omega), h.offset 1 (by omega),
      h.cell_last 0 (by omega), h.cell_last 1 (by omega), h.cell_stage 2 1 (by omega) (by omega),
      h.offset 2 (by omega), h.cell_last 2 (by omega)]
    rfl
  refine ⟨_, hprog, ?_⟩
  set y := m .yn with hy
  set k := rkK a c F (u.post g) t0 dt y with hk
  set Y := rkY a (u.post g) dt y k with hY
  have hk' : ∀ i, k i = F (t0 + c i * dt) (Y i) := fun i => rkK_eq a c F (u.post g) t0 dt y i
  have hY0 : Y 0 = y := rfl
  convert isRKStep_mk 3 a c F (u.post g) t0 dt y b using 1
  -- first substep
  have e1 : ∀ old, (u.post g fun x => a 1 0 * u.rhs g (t0 + c 0 * dt) y old x * dt + y x) = Y 1 := by
    intro old
    refine hu.det _ _ fun x hx => ?_
    rw [hu.rhs _ _ _ _ hx, ← hY0, ← hk' 0, hY0, sum_range_one]
    ring
  have a20 : a 2 0 = 0 := hd 2 (by omega) 0 (by omega)
  have e2 : ∀ old, (u.post g fun x => a 2 1 * u.rhs g (t0 + c 1 * dt) (Y 1) old x * dt + y x)
      = Y 2 := by
    intro old
    refine hu.det _ _ fun x hx => ?_
    rw [hu.rhs _ _ _ _ hx, ← hk' 1, sum_range_succ, sum_range_one, a20]
    ring
  have hY1 : ∀ x, I x → Y 1 x = y x + dt * (a 1 0 * k 0 x) := by
    intro x hx
    show u.post g _ x = _
    rw [hu.keep _ _ hx, sum_range_one]
  simp only [runOne, List.foldl_cons, List.foldl_nil, runSubstep, runUpd, Mem.set, Ex.eval]
  simp [Function.update_self, Function.update_of_ne, ← hy]
  simp only [e1, e2]
  refine hu.det _ _ fun x hx => ?_
  rw [hu.keep _ _ hx, hu.rhs _ _ _ _ hx, hu.rhs _ _ _ _ hx, ← hk' 1, ← hk' 2, hY1 x hx,
    sum_range_succ, sum_range_succ, sum_range_one]
  field_simp
  ring

/-- Output buffer of substep `i` of the diagonal algorithm. -/
def outBuf (i : Nat) : Buf := if i % 2 = 0 then .kOdd else .kEven

theorem diagStep_eq (h : IsTable t s a b c) (i : Nat) (hi : i < s) :
    ∃ st, diagStep t s i = .ok st ∧ st.time = c i ∧
      st.rhsIn = (if i = 0 then .yn else outBuf (i - 1)) ∧ st.rhsOut = outBuf i ∧
      (i = s - 1 → b i ≠ 0 → ∃ e : Ex K, st.upd = [(.yn, e)] ∧ st.post = [.yn] ∧
        ∀ dt env, e.eval dt env = env .yn + env .runningTotal + env (outBuf i) * dt * b i) ∧
      (i ≠ s - 1 → i = 0 → ∃ e1 e2 : Ex K, st.upd = [(.runningTotal, e1), (outBuf i, e2)] ∧
        st.post = [outBuf i] ∧ (∀ dt env, e1.eval dt env = env (outBuf i) * dt * b i) ∧
        ∀ dt env, e2.eval dt env = env .yn + env (outBuf i) * dt * a (i + 1) i) ∧
      (i ≠ s - 1 → i ≠ 0 → a (i + 1) i ≠ 0 → ∃ e2 : Ex K, st.post = [outBuf i] ∧
        (∀ dt env, e2.eval dt env = env .yn + env (outBuf i) * dt * a (i + 1) i) ∧
        ((b i = 0 ∧ st.upd = [(outBuf i, e2)]) ∨
          ∃ e1 : Ex K, st.upd = [(.runningTotal, e1), (outBuf i, e2)] ∧
            ∀ dt env, e1.eval dt env = env .runningTotal + env (outBuf i) * dt * b i)) := by
  have hin : (if i = 0 then Buf.yn else if i % 2 = 0 then .kEven else .kOdd)
      = (if i = 0 then .yn else outBuf (i - 1)) := by
    split
    · rfl
    · unfold outBuf
      split <;> split <;> first | rfl | omega
  have hout : (if i = 0 then Buf.kOdd else if i % 2 = 0 then .kOdd else .kEven) = outBuf i := by
    unfold outBuf
    split
    · next h0 => subst h0; rfl
    · rfl
  by_cases hl : i = s - 1
  · refine ⟨_, by
      unfold diagStep
      rw [hin, hout, h.cell_last i hi, h.offset i hi]
      simp only [bind, Except.bind, pure, Except.pure, if_neg (not_not.2 hl)]
      rfl, rfl, rfl, rfl, ?_, fun hne => absurd hl hne, fun hne => absurd hl hne⟩
    intro _ hb
    refine ⟨_, if_pos hb, rfl, fun dt env => ?_⟩
    split
    · rfl
    · next h1 => simp only [Ex.eval, not_not.1 h1]; ring
  · have ha := h.cell_stage (i + 1) i (by omega) (by omega)
    by_cases h0 : i = 0
    · refine ⟨_, by
        unfold diagStep
        rw [hin, hout, h.cell_last i hi, h.offset i hi, ha]
        simp only [bind, Except.bind, pure, Except.pure, if_pos hl, if_pos h0]
        rfl, rfl, ?_, rfl, fun hne => absurd hne hl, ?_, fun _ hne => absurd h0 hne⟩
      · rw [if_pos h0]
      · intro _ _
        exact ⟨_, _, rfl, rfl, fun _ _ => rfl, fun _ _ => rfl⟩
    · refine ⟨_, by
        unfold diagStep
        rw [hin, hout, h.cell_last i hi, h.offset i hi, ha]
        simp only [bind, Except.bind, pure, Except.pure, if_pos hl, if_neg h0]
        rfl, rfl, ?_, rfl, fun hne => absurd hne hl, fun _ hne => absurd hne h0, ?_⟩
      · rw [if_neg h0]
      · intro _ _ hane
        refine ⟨if a (i + 1) i ≠ 1
            then Ex.add (.sym .yn) (.mul (.mul (.sym (outBuf i)) .dt) (.num (a (i + 1) i)))
            else .add (.sym .yn) (.mul (.sym (outBuf i)) .dt), rfl, fun dt env => ?_, ?_⟩
        · split
          · rfl
          · next h1 => simp only [Ex.eval, not_not.1 h1]; ring
        · by_cases hb : b i = 0
          · left; exact ⟨hb, by rw [if_neg (not_not.2 hb), if_pos hane]; rfl⟩
          · right
            refine ⟨_, by rw [if_pos hb, if_pos hane]; rfl, fun dt env => ?_⟩
            split
            · rfl
            · next h1 => simp only [Ex.eval, not_not.1 h1]; ring

theorem outBuf_ne (i : Nat) : outBuf i ≠ .yn ∧ outBuf i ≠ .runningTotal := by
  unfold outBuf; split <;> simp

/-- Diagonal algorithm. -/
theorem diag_ok (h : IsTable t s a b c) (hd : Diagonal s a) (hs : 2 ≤ s) (hbl : b (s - 1) ≠ 0)
    (hsub : ∀ i, 1 ≤ i → i + 1 < s → a (i + 1) i ≠ 0) (u : User K Pt) (g : Nat) (I : Pt → Prop)
    (F : K → (Pt → K) → (Pt → K)) (hu : UserOk u g I F) (t0 dt : K) (m : Mem K Pt) :
    ∃ prog, (List.range s).mapM (diagStep t s) = .ok prog ∧
      IsRKStep s a b c F (u.post g) t0 dt (m .yn) (runOne u g t0 dt prog m .yn) := by
  set y := m .yn with hy
  set k := rkK a c F (u.post g) t0 dt y with hk
  set Y := rkY a (u.post g) dt y k with hY
  have hki : ∀ i old x, I x → u.rhs g (t0 + c i * dt) (Y i) old x = k i x := by
    intro i old x hx
    rw [hu.rhs _ _ _ _ hx, hk, rkK_eq]
  have hYs : ∀ i, i + 1 < s → ∀ v : Pt → K,
      (∀ x, I x → v x = y x + k i x * dt * a (i + 1) i) → u.post g v = Y (i + 1) := by
    intro i hi v hv
    refine hu.det _ _ fun x hx => ?_
    rw [hv x hx, sum_range_succ, sum_eq_zero, zero_add]
    · ring
    · intro j hj
      rw [hd (i + 1) hi j (by have := mem_range.1 hj; omega), zero_mul]
  obtain ⟨st, hprog, hst⟩ := mapM_range_ok (diagStep t s) s fun i hi =>
    ⟨_, (diagStep_eq h i hi).choose_spec.1⟩
  refine ⟨_, hprog, ?_⟩
  let Inv : Nat → Mem K Pt → Prop := fun n m =>
    (n < s → m .yn = y ∧ (1 ≤ n → m (outBuf (n - 1)) = Y n ∧
      ∀ x, I x → m .runningTotal x = dt * ∑ j ∈ range n, b j * k j x)) ∧
    (n = s → m .yn = u.post g fun x => y x + dt * ∑ i ∈ range s, b i * k i x)
  have key : Inv s (runOne u g t0 dt ((List.range s).map st) m) := by
    refine runOne_range u g t0 dt st Inv m ⟨fun _ => ⟨rfl, fun h => by omega⟩, fun h => by omega⟩ s ?_
    rintro i hi m ⟨hinv, -⟩
    obtain ⟨h1, h2⟩ := hinv hi
    obtain ⟨st', hst', htime, hin, hout, hlast, hfirst, hmid⟩ := diagStep_eq h i hi
    obtain rfl : st i = st' := by
      have := hst i hi
      rw [hst'] at this
      exact (Except.ok.inj this).symm
    have hinv : m (st i).rhsIn = Y i := by
      rw [hin]
      split
      · next h0 => subst h0; rw [h1]; rfl
      · exact (h2 (by omega)).1
    obtain ⟨ho1, ho2⟩ := outBuf_ne i
    set m1 := Mem.set m (outBuf i) (u.rhs g (t0 + c i * dt) (Y i) (m (outBuf i))) with hm1
    have m1o : ∀ x, I x → m1 (outBuf i) x = k i x := by
      intro x hx
      rw [hm1, Mem.set, Function.update_self]
      exact hki i _ x hx
    have m1y : m1 .yn = y := by rw [hm1, Mem.set, Function.update_of_ne ho1.symm, h1]
    have m1r : m1 .runningTotal = m .runningTotal := by
      rw [hm1, Mem.set, Function.update_of_ne ho2.symm]
    have hrun : runSubstep u g (t0 + (st i).time * dt) dt (st i) m
        = (st i).post.foldl (fun m b => m.set b (u.post g (m b))) (runUpd dt m1 (st i).upd) := by
      rw [runSubstep, hinv, hout, htime]
    rw [hrun]
    by_cases hl : i = s - 1
    · -- final substep
      obtain ⟨e, hupd, hpost, hv⟩ := hlast hl (by rw [hl]; exact hbl)
      rw [hupd, hpost]
      refine ⟨fun hn => by omega, fun hn => ?_⟩
      simp only [runUpd, List.foldl_cons, List.foldl_nil, Mem.set, Function.update_self]
      refine hu.det _ _ fun x hx => ?_
      rw [hv, m1y, m1r, m1o x hx, (h2 (by omega)).2 x hx, ← hn, sum_range_succ]
      ring
    · refine ⟨fun hn => ?_, fun hn => by omega⟩
      have hi1 : i + 1 < s := by omega
      by_cases h0 : i = 0
      · obtain ⟨e1, e2, hupd, hpost, hv1, hv2⟩ := hfirst hl h0
        rw [hupd, hpost]
        simp only [runUpd, List.foldl_cons, List.foldl_nil, Mem.set, Nat.add_sub_cancel]
        refine ⟨?_, fun _ => ⟨?_, ?_⟩⟩
        · rw [Function.update_of_ne ho1.symm, Function.update_of_ne ho1.symm,
            Function.update_of_ne (by simp), m1y]
        · rw [Function.update_self, Function.update_self]
          exact hYs i hi1 _ fun x hx => by rw [hv2, m1y, m1o x hx]
        · intro x hx
          rw [Function.update_of_ne ho2.symm, Function.update_of_ne ho2.symm,
            Function.update_self, hv1, m1o x hx]
          subst h0
          rw [sum_range_one]; ring
      · obtain ⟨e2, hpost, hv2, hcase⟩ := hmid hl h0 (hsub i (by omega) hi1)
        have hY' : (u.post g fun x => e2.eval dt fun b => m1 b x) = Y (i + 1) :=
          hYs i hi1 _ fun x hx => by rw [hv2, m1y, m1o x hx]
        rw [hpost]
        rcases hcase with ⟨hb0, hupd⟩ | ⟨e1, hupd, hv1⟩
        · rw [hupd]
          simp only [runUpd, List.foldl_cons, List.foldl_nil, Mem.set, Nat.add_sub_cancel]
          refine ⟨?_, fun _ => ⟨?_, ?_⟩⟩
          · rw [Function.update_of_ne ho1.symm, Function.update_of_ne ho1.symm, m1y]
          · rw [Function.update_self, Function.update_self, hY']
          · intro x hx
            rw [Function.update_of_ne ho2.symm, Function.update_of_ne ho2.symm, m1r,
              (h2 (by omega)).2 x hx, sum_range_succ, hb0]
            ring
        · rw [hupd]
          simp only [runUpd, List.foldl_cons, List.foldl_nil, Mem.set, Nat.add_sub_cancel]
          refine ⟨?_, fun _ => ⟨?_, ?_⟩⟩
          · rw [Function.update_of_ne ho1.symm, Function.update_of_ne ho1.symm,
              Function.update_of_ne (by simp), m1y]
          · rw [Function.update_self, Function.update_self, hY']
          · intro x hx
            rw [Function.update_of_ne ho2.symm, Function.update_of_ne ho2.symm,
              Function.update_self, hv1, m1r, m1o x hx, (h2 (by omega)).2 x hx, sum_range_succ]
            ring
  rw [key.2 rfl]
  exact isRKStep_mk s a c F (u.post g) t0 dt y b

end

/-! ## C36 -/

/-- **C36.**  For every explicit table, every admissible choice of algorithm, every user right-hand
side and boundary condition, every state, time, step and number of grids: generation succeeds and
one run of the generated time step leaves on every grid, in `y_n`, exactly one step of the table's
Runge–Kutta method (stage derivatives evaluated at `t + c_i dt`); `nn` is incremented and the time
set to `(nn+1) dt`. -/
theorem C36_step_is_RK (name : Str) (t : Table K) (s : Nat) (a : Nat → Nat → K) (b c : Nat → K)
    (h : IsTable t s a b c) (hadm : Admissible name s a b) :
    ∃ prog, stepProgram name t = .ok prog ∧
      ∀ (u : User K Pt) (I : Nat → Pt → Prop) (F : Nat → K → (Pt → K) → (Pt → K)) (n : Nat),
        (∀ g < n, UserOk u g (I g) (F g)) → ∀ (dt : K) (σ : CState K Pt),
        let σ' := stepForward u dt prog n σ
        (∀ g < n, IsRKStep s a b c (F g) (u.post g) σ.time dt (σ.grids g .yn) (σ'.grids g .yn)) ∧
        σ'.nn = σ.nn + 1 ∧ σ'.time = ((σ.nn : K) + 1) * dt := by
  obtain ⟨d, hdiag, hd⟩ := isDiagonal_eq h
  have hnames : ∃ x, gfNames name t = .ok x := by
    unfold gfNames
    rw [hdiag]
    simp only [bind, Except.bind, pure, Except.pure]
    repeat' split
    all_goals exact ⟨_, rfl⟩
  obtain ⟨names, hnames⟩ := hnames
  have hlast : t.getLast? = some ⟨.str "", (List.range s).map b⟩ := by
    rw [List.getLast?_eq_getElem?, h.len]; exact h.last
  have hlen : t.length - 1 = s := by rw [h.len]; rfl
  suffices H : ∃ prog, stepProgram name t = .ok prog ∧
      ∀ (u : User K Pt) (g : Nat) (I : Pt → Prop) (F : K → (Pt → K) → (Pt → K)),
        UserOk u g I F → ∀ (t0 dt : K) (m : Mem K Pt),
        IsRKStep s a b c F (u.post g) t0 dt (m .yn) (runOne u g t0 dt prog m .yn) by
    obtain ⟨prog, hp, H⟩ := H
    refine ⟨prog, hp, fun u I F n hu dt σ => ?_⟩
    obtain ⟨h1, h2, h3⟩ := stepForward_spec u dt prog n σ
    refine ⟨fun g hg => ?_, h1, h2⟩
    rw [h3 g hg]
    exact H u g (I g) (F g) (hu g hg) σ.time dt (σ.grids g)
  have hunf : stepProgram name t =
      (if d && nameHasRK3 name then rk3Diag t
      else if !d then (List.range s).mapM (generalStep t s)
      else if name = (c% "Euler") then do return [← eulerStep t]
      else (List.range s).mapM (diagStep t s)) := by
    unfold stepProgram
    rw [hnames, hlast, hdiag, hlen]
    simp only [bind, Except.bind, ne_eq, not_true, if_false]
  rw [hunf]
  -- a table that is run through one of the algorithms does not depend on the user's code
  have noUser : User K Pt := ⟨fun _ _ v _ => v, fun _ v => v⟩
  cases d with
  | false =>
    simp only [Bool.false_and, Bool.false_eq_true, if_false, Bool.not_false, if_true]
    obtain ⟨prog, hp, -⟩ := general_ok h (Pt := Pt) ⟨fun _ _ v _ => v, fun _ v => v⟩ 0
      (fun _ => True) (fun _ v => v) ⟨fun _ _ _ _ _ => rfl, fun _ _ _ => rfl,
        fun v w hvw => funext fun x => hvw x trivial⟩ 0 0 fun _ _ => 0
    refine ⟨prog, hp, fun u g I F hu t0 dt m => ?_⟩
    obtain ⟨prog', hp', H⟩ := general_ok h u g I F hu t0 dt m
    rw [hp] at hp'
    rw [Except.ok.inj hp']
    exact H
  | true =>
    have hD := hd.1 rfl
    have hA := hadm hD
    simp only [Bool.true_and, Bool.not_true, Bool.false_eq_true, if_false]
    have triv : UserOk (⟨fun _ _ v _ => v, fun _ v => v⟩ : User K Pt) 0 (fun _ => True)
        (fun _ v => v) := ⟨fun _ _ _ _ _ => rfl, fun _ _ _ => rfl,
        fun v w hvw => funext fun x => hvw x trivial⟩
    by_cases h3 : nameHasRK3 name = true
    · rw [if_pos h3] at hA ⊢
      obtain ⟨prog, hp, -⟩ := rk3_ok h hA.1 hD hA.2 _ 0 _ _ triv 0 0 fun _ _ => 0
      refine ⟨prog, hp, fun u g I F hu t0 dt m => ?_⟩
      obtain ⟨prog', hp', H⟩ := rk3_ok h hA.1 hD hA.2 u g I F hu t0 dt m
      rw [hp] at hp'
      rw [Except.ok.inj hp']
      exact H
    · rw [if_neg h3] at hA ⊢
      by_cases hE : name = (c% "Euler")
      · rw [if_pos hE] at hA ⊢
        obtain ⟨p, hp, -⟩ := euler_ok h hA.1 hA.2 _ 0 _ _ triv 0 0 fun _ _ => 0
        refine ⟨[p], by rw [hp]; rfl, fun u g I F hu t0 dt m => ?_⟩
        obtain ⟨p', hp', H⟩ := euler_ok h hA.1 hA.2 u g I F hu t0 dt m
        rw [hp] at hp'
        rw [Except.ok.inj hp']
        exact H
      · rw [if_neg hE] at hA ⊢
        obtain ⟨prog, hp, -⟩ := diag_ok h hD hA.1 hA.2.1 hA.2.2 _ 0 _ _ triv 0 0 fun _ _ => 0
        refine ⟨prog, hp, fun u g I F hu t0 dt m => ?_⟩
        obtain ⟨prog', hp', H⟩ := diag_ok h hD hA.1 hA.2.1 hA.2.2 u g I F hu t0 dt m
        rw [hp] at hp'
        rw [Except.ok.inj hp']
        exact H

end Verif.MoL
