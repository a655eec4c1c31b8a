import Verif.Precompute.Model
import Verif.Helpers.FunctionalProps
import Verif.CurviBC.Lists
import Mathlib.Analysis.SpecialFunctions.Trigonometric.Deriv

/-!
# C105: the precomputed reference metric

Specification: `FExpr` is an expression made of numbers, sums, products, powers, the functions of one coordinate and their
derivatives; `FExpr.value` is its value when the functions are given.
-/
namespace Verif.Precompute
open Verif.Py Verif.Sympy Verif.Helpers Verif.CurviBC

/-- Sums, products and powers. -/
inductive Op
  | add | mul | pow

def Op.head : Op → Head
  | .add => .add
  | .mul => .mul
  | .pow => .pow

/-- Expressions for hatted quantities. -/
inductive FExpr
  | num (q : ℚ)
  | op (h : Op) (l : List FExpr)
  /-- A function at its coordinate. -/
  | call (f : Fn)
  /-- The derivative of order `n + 1`. -/
  | der (f : Fn) (n : ℕ)

namespace FExpr

theorem ind {P : FExpr → Prop} (hq : ∀ q, P (num q)) (hc : ∀ f, P (call f)) (hd : ∀ f n, P (der f n))
    (ha : ∀ h l, (∀ e ∈ l, P e) → P (op h l)) : ∀ e, P e
  | num q => hq q
  | call f => hc f
  | der f n => hd f n
  | op h l => ha h l (indList l)
where
  indList : ∀ l : List FExpr, ∀ e ∈ l, P e
    | [], e, he => by cases he
    | a :: l, e, he => by
      rcases List.mem_cons.mp he with h | h
      · exact h ▸ ind hq hc hd ha a
      · exact indList l e h

mutual
/-- The value at the point `x` for the functions `F`. -/
noncomputable def value (I : Expr.Interp ℝ) (F : Fn → ℝ → ℝ) (x : Fin 3 → ℝ) : FExpr → ℝ
  | num q => (q : ℝ)
  | op h l => I.app h.head (valueList I F x l)
  | call f => F f (x f.dir)
  | der f n => iteratedDeriv (n + 1) (F f) (x f.dir)
noncomputable def valueList (I : Expr.Interp ℝ) (F : Fn → ℝ → ℝ) (x : Fin 3 → ℝ) : List FExpr → List ℝ
  | [] => []
  | e :: l => value I F x e :: valueList I F x l
end

mutual
/-- The SymPy expression. -/
def toExpr : FExpr → Expr
  | num q => .num q
  | op h l => .app h.head (toExprList l)
  | call f => f.call
  | der f n => f.der (n + 1)
def toExprList : List FExpr → List Expr
  | [] => []
  | e :: l => toExpr e :: toExprList l
end

theorem valueList_eq (I : Expr.Interp ℝ) (F : Fn → ℝ → ℝ) (x : Fin 3 → ℝ) (l : List FExpr) :
    valueList I F x l = l.map (value I F x) := by
  induction l with
  | nil => rw [valueList]; rfl
  | cons e l ih => rw [valueList, ih, List.map_cons]

theorem toExprList_eq (l : List FExpr) : toExprList l = l.map toExpr := by
  induction l with
  | nil => rw [toExprList]; rfl
  | cons e l ih => rw [toExprList, ih, List.map_cons]

end FExpr

/-! ### Names -/

/-- The variable for the derivative of order `n` (`n = 0`: the function). -/
def varName (f : Fn) : ℕ → Str
  | 0 => f.name
  | n + 1 => f.name ++ (c% "__D") ++ List.replicate n 'D' ++ List.replicate (n + 1) ((xx f.dir).getLast?.getD ' ')

theorem replDerList_eq (l : List Expr) : replDerList l = l.map replDer := by
  induction l with
  | nil => rw [replDerList]; rfl
  | cons e l ih => rw [replDerList, ih, List.map_cons]

theorem replFunList_eq (l : List Expr) : replFunList l = l.map replFun := by
  induction l with
  | nil => rw [replFunList]; rfl
  | cons e l ih => rw [replFunList, ih, List.map_cons]

theorem flatten_replicate (n : ℕ) (c : Char) : (List.replicate n [c]).flatten = List.replicate n c := by
  induction n with
  | zero => rfl
  | succ n ih => rw [List.replicate_succ, List.flatten_cons, ih, List.replicate_succ]; rfl

/-- The code names derivatives as in `varName`. -/
theorem make_der (f : Fn) (n : ℕ) : makeReplacements (f.der (n + 1)) = .sym (varName f (n + 1)) := by
  have e : replDer (f.der (n + 1)) = .sym (varName f (n + 1)) := by
    unfold Fn.der
    rw [replDer, if_pos rfl]
    congr 1
    have h1 : before (c% "_funcform(") (strOf f.call) = f.name := by cases f <;> decide
    have h2 : (strOf (.sym (xx f.dir))).drop 2 = [(xx f.dir).getLast?.getD ' '] := by cases f <;> decide
    have h3 : ((n + 1 : ℕ) : ℚ).num.toNat = n + 1 := by
      rw [Rat.num_natCast]; rfl
    rw [derName, h1, h2, h3, flatten_replicate]
    rfl
  rw [makeReplacements, e, replFun]

theorem make_call (f : Fn) : makeReplacements f.call = .sym f.name := by
  have h1 : containsSub (c% "_funcform") (f.name ++ (c% "_funcform")) = true := by cases f <;> decide
  have h2 : before (c% "_funcform") (f.name ++ (c% "_funcform")) = f.name := by cases f <;> decide
  have e : replDer f.call = f.call := by
    unfold Fn.call
    rw [replDer, if_neg (by cases f <;> decide), replDerList_eq]
    simp [replDer]
  rw [makeReplacements, e]
  unfold Fn.call
  rw [replFun]
  rw [if_pos h1, h2]

theorem make_op (h : Op) (l : List Expr) : makeReplacements (.app h.head l) = .app h.head (l.map makeReplacements) := by
  cases h <;> simp [makeReplacements, Op.head, replDer, replFun, replDerList_eq, replFunList_eq, Function.comp_def]

theorem split2_none {s : Str} (h : '_' ∉ s) : split2 '_' '_' s = [s] := by
  induction s with
  | nil => simp [split2]
  | cons c s ih =>
    rw [List.mem_cons, not_or] at h
    cases s with
    | nil => simp [split2]
    | cons d s =>
      rw [split2, if_neg (by rintro ⟨rfl, -⟩; exact h.1 rfl), ih h.2]

theorem replaceAll_none {s : Str} (h : '_' ∉ s) : replaceAll (c% "_funcform") [] s = s := by
  unfold replaceAll
  induction s with
  | nil => simp [replaceAux]
  | cons c s ih =>
    rw [List.mem_cons, not_or] at h
    rw [replaceAux, if_neg ?_, ih h.2]
    rw [List.isPrefixOf_cons_cons]
    simp [h.1]

/-- The variable is read back as the function and the directions. -/
theorem parse_varName (f : Fn) (n : ℕ) : parse (varName f n) = some (f, List.replicate n f.dir) := by
  cases n with
  | zero => cases f <;> decide
  | succ n =>
    set t : Str := 'D' :: List.replicate n 'D' ++ List.replicate (n + 1) ((xx f.dir).getLast?.getD ' ') with ht
    have hv : varName f (n + 1) = f.name ++ ['_', '_'] ++ t := by
      rw [varName, ht]; simp
    have hc : (xx f.dir).getLast?.getD ' ' ≠ '_' ∧ (xx f.dir).getLast?.getD ' ' ≠ 'D' ∧ (xx f.dir).getLast?.getD ' ' ≠ 'd' ∧
        digit ((xx f.dir).getLast?.getD ' ') = some f.dir := by cases f <;> decide
    have h_ : '_' ∉ t := by
      rw [ht]
      simp only [List.cons_append, List.mem_cons, List.mem_append, List.mem_replicate, not_or]
      refine ⟨by decide, fun h => absurd h.2 (by decide), fun h => hc.1 h.2.symm⟩
    have hs : split2 '_' '_' (varName f (n + 1)) = [f.name, t] := by
      rw [hv]
      cases f <;> simp [split2, Fn.name, split2_none h_]
    have hcon : containsSub (c% "__") (varName f (n + 1)) = true := by
      rw [hv]
      cases f <;> simp [containsSub, Fn.name]
    have hb : replaceAll (c% "_funcform") [] f.name = f.name := by cases f <;> decide
    have hf : fnOf f.name = some f := by cases f <;> decide
    have hd : directions t = some (List.replicate (n + 1) f.dir) := by
      unfold directions
      have : (t.filter fun c => c ≠ 'd' ∧ c ≠ 'D') = List.replicate (n + 1) ((xx f.dir).getLast?.getD ' ') := by
        rw [ht]
        simp [hc.2.1, hc.2.2.1]
      rw [this]
      generalize n + 1 = m
      induction m with
      | zero => rfl
      | succ m ih => rw [List.replicate_succ, List.mapM_cons, hc.2.2.2, ih]; rfl
    unfold parse
    simp only [hs, hcon, if_true, List.headD_cons, List.getD_cons_succ, List.getD_cons_zero]
    rw [hb, hf, replaceAll_none h_, hd]
    rfl

/-! ### Assumptions about SymPy and the coordinate system -/

/-- The expression of the derivative of order `n`. -/
def D (diff : Expr → Str → Expr) (base : Fn → Expr) (f : Fn) (n : ℕ) : Expr := (fun e => diff e (xx f.dir))^[n] (base f)

/-- `diff` differentiates and introduces no symbols; the function of a coordinate mentions that coordinate only, and code
parameters; `str` of a symbol is its name, and `str` of other expressions has names of functions only if they occur. -/
structure Ok (I : Expr.Interp ℝ) (diff : Expr → Str → Expr) (base : Fn → Expr) (str : Expr → Str) : Prop where
  diff_val : ∀ (f : Fn) (n : ℕ) (ρ : Str → ℝ), Expr.eval I ρ (diff (D diff base f n) (xx f.dir)) =
    deriv (fun t => Expr.eval I (Function.update ρ (xx f.dir) t) (D diff base f n)) (ρ (xx f.dir))
  diff_free : ∀ e x n, n ∈ (diff e x).free → n ∈ e.free
  base_dir : ∀ f d, xx d ∈ (base f).free → d = f.dir
  base_par : ∀ f, ∀ n ∈ (base f).free, containsSub (c% "_of_xx") n = false
  str_sym : ∀ n, str (.sym n) = n
  str_other : ∀ e : Expr, (∀ n ∈ e.free, containsSub (c% "_of_xx") n = false) → containsSub (c% "_of_xx") (str e) = false

/-- The functions of the coordinate system, for given code parameters. -/
noncomputable def functions (I : Expr.Interp ℝ) (base : Fn → Expr) (ρ : Str → ℝ) (f : Fn) (t : ℝ) : ℝ :=
  Expr.eval I (Function.update ρ (xx f.dir) t) (base f)

section
variable {I : Expr.Interp ℝ} {diff : Expr → Str → Expr} {base : Fn → Expr} {str : Expr → Str}

theorem D_succ (f : Fn) (n : ℕ) : D diff base f (n + 1) = diff (D diff base f n) (xx f.dir) := Function.iterate_succ_apply' ..

theorem D_foldl (f : Fn) (n : ℕ) :
    (List.replicate n f.dir).foldl (fun e d => diff e (xx d)) (base f) = D diff base f n := by
  unfold D
  generalize base f = b
  induction n generalizing b with
  | zero => rfl
  | succ n ih => rw [List.replicate_succ, List.foldl_cons, ih, Function.iterate_succ_apply]

theorem D_free (h : Ok I diff base str) (f : Fn) (n : ℕ) {v : Str} (hv : v ∈ (D diff base f n).free) : v ∈ (base f).free := by
  induction n with
  | zero => exact hv
  | succ n ih => rw [D_succ] at hv; exact ih (h.diff_free _ _ _ hv)

theorem D_val (h : Ok I diff base str) (f : Fn) (n : ℕ) (ρ : Str → ℝ) :
    Expr.eval I ρ (D diff base f n) = iteratedDeriv n (functions I base ρ f) (ρ (xx f.dir)) := by
  induction n generalizing ρ with
  | zero =>
    rw [iteratedDeriv_zero, functions, Function.update_eq_self]
    rfl
  | succ n ih =>
    rw [D_succ, h.diff_val, iteratedDeriv_succ]
    congr 1
    funext t
    rw [ih, Function.update_self]
    congr 1
    funext u
    unfold functions
    rw [Function.update_idem]

/-- The value at a point depends on the coordinate and the parameters. -/
theorem D_val' (h : Ok I diff base str) (f : Fn) (n : ℕ) (ρ : Str → ℝ) (t : ℝ) :
    Expr.eval I (Function.update ρ (xx f.dir) t) (D diff base f n) = iteratedDeriv n (functions I base ρ f) t := by
  rw [D_val h, Function.update_self]
  congr 1
  funext u
  unfold functions
  rw [Function.update_idem]

/-! ### The table of variables -/

theorem mapM_exists {α β : Type} {g : α → Option β} : ∀ {l : List α}, (∀ v ∈ l, ∃ t, g v = some t) →
    ∃ ts, l.mapM g = some ts ∧ List.Forall₂ (fun v t => g v = some t) l ts
  | [], _ => ⟨[], rfl, .nil⟩
  | a :: l, h => by
    obtain ⟨t, ht⟩ := h a List.mem_cons_self
    obtain ⟨ts, e, hf⟩ := mapM_exists (g := g) (l := l) fun v hv => h v (List.mem_cons_of_mem _ hv)
    exact ⟨t :: ts, by rw [List.mapM_cons, ht, e]; rfl, .cons ht hf⟩

theorem forall₂_mem {α β : Type} {R : α → β → Prop} {l : List α} {m : List β} (h : List.Forall₂ R l m) {t : β} (ht : t ∈ m) :
    ∃ v ∈ l, R v t := by
  induction h with
  | nil => cases ht
  | cons hr _ ih =>
    rcases List.mem_cons.1 ht with rfl | ht
    · exact ⟨_, List.mem_cons_self, hr⟩
    · obtain ⟨v, hv, hr⟩ := ih ht
      exact ⟨v, List.mem_cons_of_mem _ hv, hr⟩

/-- The expression mentions a coordinate. -/
def dep (e : Expr) : Bool := mentions e 0 || mentions e 1 || mentions e 2

/-- What an entry is. -/
def GoodEntry (diff : Expr → Str → Expr) (base : Fn → Expr) (t : Entry) : Prop :=
  ∃ f n, t = ⟨varName f n, if dep (D diff base f n) then .sym (varName f n) else D diff base f n, D diff base f n⟩

theorem entries_eq {vars : List Str} (hv : ∀ v ∈ vars, ∃ f n, v = varName f n) :
    ∃ ts, entries diff base vars = some ts ∧ ts.map Entry.name = vars ∧ ∀ t ∈ ts, GoodEntry diff base t := by
  have key : ∀ f n, ((parse (varName f n)).map fun (p : Fn × List (Fin 3)) =>
      let e := p.2.foldl (fun e d => diff e (xx d)) (base p.1)
      (⟨varName f n, if mentions e 0 || mentions e 1 || mentions e 2 then .sym (varName f n) else e, e⟩ : Entry)) =
      some ⟨varName f n, if dep (D diff base f n) then .sym (varName f n) else D diff base f n, D diff base f n⟩ := by
    intro f n
    rw [parse_varName, Option.map_some]
    simp only [D_foldl]
    rfl
  obtain ⟨ts, e, hf⟩ := mapM_exists (l := vars) (g := fun v => (parse v).map fun (p : Fn × List (Fin 3)) =>
      let e := p.2.foldl (fun e d => diff e (xx d)) (base p.1)
      (⟨v, if mentions e 0 || mentions e 1 || mentions e 2 then .sym v else e, e⟩ : Entry)) (by
    intro v h
    obtain ⟨f, n, rfl⟩ := hv v h
    exact ⟨_, key f n⟩)
  refine ⟨ts, e, ?_, fun t ht => ?_⟩
  · clear e hv
    induction hf with
    | nil => rfl
    | cons h _ ih =>
      rw [List.map_cons, ih]
      congr 1
      rw [Option.map_eq_some_iff] at h
      obtain ⟨p, -, rfl⟩ := h
      rfl
  · obtain ⟨v, hv', h⟩ := forall₂_mem hf ht
    obtain ⟨f, n, rfl⟩ := hv v hv'
    have h' := (key f n).symm.trans h
    exact ⟨f, n, (Option.some.inj h').symm⟩

theorem ofxx_varName (f : Fn) (n : ℕ) : containsSub (c% "_of_xx") (varName f n) = true := by
  cases n <;> cases f <;> simp [varName, Fn.name, containsSub]

theorem mentions_D (h : Ok I diff base str) (f : Fn) (n : ℕ) {d : Fin 3} (hm : mentions (D diff base f n) d = true) : d = f.dir :=
  h.base_dir f d (D_free h f n (of_decide_eq_true hm))

theorem dep_iff (h : Ok I diff base str) (f : Fn) (n : ℕ) : dep (D diff base f n) = true ↔ mentions (D diff base f n) f.dir = true := by
  unfold dep
  rw [Bool.or_eq_true, Bool.or_eq_true]
  constructor
  · rintro ((hm | hm) | hm)
    all_goals
      have := mentions_D h f n hm
      rw [← this]
      exact hm
  · intro hm
    generalize f.dir = d at hm
    fin_cases d
    · exact .inl (.inl hm)
    · exact .inl (.inr hm)
    · exact .inr hm

theorem kind_D (h : Ok I diff base str) (f : Fn) (n : ℕ) (hd : dep (D diff base f n) = true) :
    kind (D diff base f n) = some (.one f.dir) := by
  have h1 := (dep_iff h f n).1 hd
  have h2 : ∀ d, d ≠ f.dir → mentions (D diff base f n) d = false := fun d hne => by
    by_contra hc
    exact hne (mentions_D h f n (by simpa using hc))
  unfold kind
  generalize f.dir = d at h1 h2
  fin_cases d
  · have h1' : mentions (D diff base f n) 0 = true := h1
    simp [h1', h2 1 (by decide), h2 2 (by decide)]
  · have h1' : mentions (D diff base f n) 1 = true := h1
    simp [h1', h2 0 (by decide), h2 2 (by decide)]
  · have h1' : mentions (D diff base f n) 2 = true := h1
    simp [h1', h2 0 (by decide), h2 1 (by decide)]

theorem size_D (h : Ok I diff base str) (f : Fn) (n : ℕ) (hd : dep (D diff base f n) = true) (N : Fin 3 → ℤ) (m : Str) (k : Kind) :
    size N ⟨m, k, D diff base f n⟩ = N f.dir := by
  have h1 := (dep_iff h f n).1 hd
  have h2 : ∀ d, d ≠ f.dir → mentions (D diff base f n) d = false := fun d hne => by
    by_contra hc
    exact hne (mentions_D h f n (by simpa using hc))
  unfold size
  generalize f.dir = d at h1 h2
  fin_cases d
  · have h1' : mentions (D diff base f n) 0 = true := h1
    simp [h1', h2 1 (by decide), h2 2 (by decide)]
  · have h1' : mentions (D diff base f n) 1 = true := h1
    simp [h1', h2 0 (by decide), h2 2 (by decide)]
  · have h1' : mentions (D diff base f n) 2 = true := h1
    simp [h1', h2 0 (by decide), h2 1 (by decide)]

/-! ### The arrays -/

theorem str_entry (h : Ok I diff base str) {t : Entry} (ht : GoodEntry diff base t) :
    containsSub (c% "_of_xx") (str t.indep) = dep t.val := by
  obtain ⟨f, n, rfl⟩ := ht
  cases hd : dep (D diff base f n)
  · simp only [Bool.false_eq_true, if_false]
    exact h.str_other _ fun v hv => h.base_par f v (D_free h f n hv)
  · simp only [if_true]
    rw [h.str_sym]
    exact ofxx_varName f n

/-- The arrays are the variables that depend on a coordinate. -/
theorem arrays_eq (h : Ok I diff base str) {ts : List Entry} (ht : ∀ t ∈ ts, GoodEntry diff base t)
    (hn : (ts.map Entry.name).Nodup) :
    ∃ as, arrays str ts = some as ∧ (as.map Arr.name).Nodup ∧
      (∀ a ∈ as, ∃ f n, a = ⟨varName f n, .one f.dir, D diff base f n⟩ ∧ dep (D diff base f n) = true) ∧
      ∀ t ∈ ts, dep t.val = true → ∃ k, (⟨t.name, k, t.val⟩ : Arr) ∈ as := by
  set fs := ts.filter fun t => containsSub (c% "_of_xx") (str t.indep) with hfs
  have hmem : ∀ t ∈ fs, t ∈ ts ∧ dep t.val = true := by
    intro t h'
    obtain ⟨h1, h2⟩ := List.mem_filter.1 h'
    exact ⟨h1, by rw [← str_entry h (ht t h1)]; exact h2⟩
  have key : ∀ t ∈ fs, ∃ f n, t.name = varName f n ∧ dep (D diff base f n) = true ∧
      ((kind t.val).map fun k => (⟨str t.indep, k, t.val⟩ : Arr)) = some ⟨varName f n, .one f.dir, D diff base f n⟩ := by
    intro t h'
    obtain ⟨h1, h2⟩ := hmem t h'
    obtain ⟨f, n, rfl⟩ := ht t h1
    simp only at h2
    refine ⟨f, n, rfl, h2, ?_⟩
    simp only [h2, if_true]
    rw [kind_D h f n h2, h.str_sym]
    rfl
  obtain ⟨as, e, hf⟩ := mapM_exists (l := fs) (g := fun t => (kind t.val).map fun k => (⟨str t.indep, k, t.val⟩ : Arr))
    fun t h' => by
      obtain ⟨f, n, -, -, e⟩ := key t h'
      exact ⟨_, e⟩
  have hname : as.map Arr.name = fs.map Entry.name := by
    have : ∀ (l : List Entry) (m : List Arr), (∀ t ∈ l, t ∈ fs) →
        List.Forall₂ (fun t a => ((kind t.val).map fun k => (⟨str t.indep, k, t.val⟩ : Arr)) = some a) l m →
        m.map Arr.name = l.map Entry.name := by
      intro l m hl hf
      induction hf with
      | nil => rfl
      | cons hr _ ih =>
        rw [List.map_cons, List.map_cons, ih fun t ht => hl t (List.mem_cons_of_mem _ ht)]
        obtain ⟨f, n, e1, -, e2⟩ := key _ (hl _ List.mem_cons_self)
        rw [e2] at hr
        rw [← Option.some.inj hr, e1]
    exact this fs as (fun _ h => h) hf
  refine ⟨as, e, ?_, fun a ha => ?_, fun t h1 h2 => ?_⟩
  · rw [hname]
    exact hn.sublist (List.filter_sublist.map _)
  · obtain ⟨t, ht', hr⟩ := forall₂_mem hf ha
    obtain ⟨f, n, -, hd, e2⟩ := key t ht'
    rw [e2] at hr
    exact ⟨f, n, (Option.some.inj hr).symm, hd⟩
  · have h3 : t ∈ fs := List.mem_filter.2 ⟨h1, by rw [str_entry h (ht t h1)]; exact h2⟩
    obtain ⟨a, ha, hr⟩ := forall₂_mem hf.flip h3
    obtain ⟨f, n, e1, -, e2⟩ := key t h3
    have e3 := hr
    rw [Option.map_eq_some_iff] at hr
    obtain ⟨k, -, e4⟩ := hr
    rw [e2] at e3
    refine ⟨k, ?_⟩
    have : a = ⟨t.name, k, t.val⟩ := by
      have e5 := Option.some.inj e3
      rw [← e4] at e5 ⊢
      have e6 := congrArg Arr.name e5
      simp only at e6
      rw [e1, e6]
    rw [← this]
    exact ha

/-! ### The contents of the arrays -/

theorem put_fold (n : Str) (ws : List (ℤ × ℝ)) (M : Mem) :
    (∀ m i, m ≠ n → ws.foldl (fun M w => Mem.put M n w) M m i = M m i) ∧
    (∀ i v, (∀ w ∈ ws, w.1 = i → w.2 = v) → (∃ w ∈ ws, w.1 = i) → ws.foldl (fun M w => Mem.put M n w) M n i = v) := by
  induction ws generalizing M with
  | nil => exact ⟨fun _ _ _ => rfl, fun _ _ _ h => by obtain ⟨_, h, _⟩ := h; cases h⟩
  | cons w ws ih =>
    refine ⟨fun m i hm => ?_, fun i v hv hi => ?_⟩
    · rw [List.foldl_cons, (ih _).1 m i hm, Mem.put, if_neg fun h => hm h.1]
    · rw [List.foldl_cons]
      by_cases hx : ∃ w' ∈ ws, w'.1 = i
      · exact (ih _).2 i v (fun w' h => hv w' (List.mem_cons_of_mem _ h)) hx
      · have e : ∀ (ws : List (ℤ × ℝ)) (M : Mem), (¬ ∃ w' ∈ ws, w'.1 = i) →
            ws.foldl (fun M w => Mem.put M n w) M n i = M n i := by
          intro ws
          induction ws with
          | nil => intros; rfl
          | cons a ws ih =>
            intro M h
            rw [List.foldl_cons, ih _ fun ⟨w', h', e⟩ => h ⟨w', List.mem_cons_of_mem _ h', e⟩, Mem.put,
              if_neg fun e => h ⟨a, List.mem_cons_self, e.2.symm⟩]
        rw [e ws _ hx]
        obtain ⟨w', h', e'⟩ := hi
        rcases List.mem_cons.1 h' with rfl | h'
        · rw [Mem.put, if_pos ⟨rfl, e'.symm⟩]
          exact hv _ List.mem_cons_self e'
        · exact absurd ⟨w', h', e'⟩ hx

theorem defines_read {N : Fin 3 → ℤ} {xs : Fin 3 → ℤ → ℝ} {ρ : Str → ℝ} {as : List Arr} (hn : (as.map Arr.name).Nodup)
    {a : Arr} (ha : a ∈ as) {d : Fin 3} (hk : a.kind = .one d) {i : ℤ} (h0 : 0 ≤ i) (h1 : i < N d) (M : Mem) :
    defines I N xs ρ as M a.name i = Expr.eval I (Function.update ρ (xx d) (xs d i)) a.val := by
  have other : ∀ (as : List Arr) (M : Mem) (m : Str) (i : ℤ), m ∉ as.map Arr.name → defines I N xs ρ as M m i = M m i := by
    intro as
    induction as with
    | nil => intros; rfl
    | cons b as ih =>
      intro M m i hm
      rw [List.map_cons, List.mem_cons, not_or] at hm
      unfold defines at ih ⊢
      rw [List.foldl_cons, ih _ _ _ hm.2, (put_fold _ _ _).1 _ _ hm.1]
  induction as generalizing M with
  | nil => cases ha
  | cons b as ih =>
    rw [List.map_cons, List.nodup_cons] at hn
    rcases List.mem_cons.1 ha with rfl | ha
    · have e := other as ((writes I N xs ρ a).foldl (fun M w => M.put a.name w) M) a.name i hn.1
      unfold defines at e ⊢
      rw [List.foldl_cons, e]
      refine (put_fold _ _ _).2 i _ ?_ ?_
      · intro w hw e
        rw [writes, hk] at hw
        obtain ⟨j, -, rfl⟩ := List.mem_map.1 hw
        simp only at e ⊢
        rw [e]
      · refine ⟨(i, Expr.eval I (Function.update ρ (xx d) (xs d i)) a.val), ?_, rfl⟩
        rw [writes, hk]
        exact List.mem_map.2 ⟨i, mem_counter.2 ⟨h0, h1⟩, rfl⟩
    · have e := ih hn.2 ha ((writes I N xs ρ b).foldl (fun M w => M.put b.name w) M)
      unfold defines at e ⊢
      rw [List.foldl_cons]
      exact e

theorem mem_readOrder {as : List Arr} {a : Arr} : a ∈ readOrder as ↔ a ∈ as := by
  unfold readOrder
  simp only [List.flatMap_cons, List.flatMap_nil, List.append_nil, List.mem_append, List.mem_filter, decide_eq_true_eq]
  constructor
  · tauto
  · intro h
    generalize level a.kind = d
    fin_cases d <;> simp [h]

theorem env_fold {v : Arr → ℝ} (L : List Arr) (hL : ∀ a ∈ L, ∀ b ∈ L, a.name = b.name → a = b) (ρ : Str → ℝ) :
    (∀ a ∈ L, L.foldl (fun σ a => Function.update σ a.name (v a)) ρ a.name = v a) ∧
    ∀ n, n ∉ L.map Arr.name → L.foldl (fun σ a => Function.update σ a.name (v a)) ρ n = ρ n := by
  have other : ∀ (L : List Arr) (ρ : Str → ℝ) (n : Str), n ∉ L.map Arr.name →
      L.foldl (fun σ a => Function.update σ a.name (v a)) ρ n = ρ n := by
    intro L
    induction L with
    | nil => intros; rfl
    | cons b L ih =>
      intro ρ n hn
      rw [List.map_cons, List.mem_cons, not_or] at hn
      rw [List.foldl_cons, ih _ _ hn.2, Function.update_of_ne hn.1]
  refine ⟨?_, other L ρ⟩
  induction L generalizing ρ with
  | nil => intro a ha; cases ha
  | cons b L ih =>
    intro a ha
    rw [List.foldl_cons]
    by_cases hx : a.name ∈ L.map Arr.name
    · obtain ⟨a', h', e⟩ := List.mem_map.1 hx
      have := hL a' (List.mem_cons_of_mem _ h') a ha e
      subst this
      exact ih (fun x hx y hy => hL x (List.mem_cons_of_mem _ hx) y (List.mem_cons_of_mem _ hy)) _ _ h'
    · rw [other _ _ _ hx]
      rcases List.mem_cons.1 ha with rfl | ha
      · rw [Function.update_self]
      · exact absurd (List.mem_map.2 ⟨a, ha, rfl⟩) hx

theorem inj_of_nodup {as : List Arr} (hn : (as.map Arr.name).Nodup) : ∀ a ∈ as, ∀ b ∈ as, a.name = b.name → a = b :=
  fun _ ha _ hb e => List.inj_on_of_nodup_map hn ha hb e

/-- SIMD: lane `l` has the variables of the point `l` further in direction 0. -/
theorem simd_eq (N : Fin 3 → ℤ) (as : List Arr) (M : Mem) (p : Fin 3 → ℤ) (l : ℕ) (ρ : Str → ℝ) :
    kernelEnvSIMD N as M p l ρ = kernelEnv N as M (Function.update p 0 (p 0 + l)) ρ := by
  unfold kernelEnvSIMD kernelEnv
  congr 1
  funext σ a
  congr 2
  rcases a.kind with d | _
  · fin_cases d <;> simp [level, place]
  · simp [level, place]
    ring

/-! ### Substitution of the constants -/

theorem finish_eval {ts : List Entry} {σ : Str → ℝ} (h : ∀ t ∈ ts, σ t.name = Expr.eval I σ t.indep) (e : Expr) :
    Expr.eval I σ (finish ts e) = Expr.eval I σ e := by
  unfold finish
  induction ts generalizing e with
  | nil => rfl
  | cons t ts ih =>
    rw [List.foldl_cons, ih fun t' h' => h t' (List.mem_cons_of_mem _ h')]
    exact Expr.eval_subst I σ _ _ _ (h t List.mem_cons_self)

/-- Symbols of the result. -/
theorem finish_free {ts : List Entry} (e : Expr) {n : Str} (hn : n ∈ (finish ts e).free) :
    (n ∈ e.free ∧ ∀ t ∈ ts, t.name = n → t.indep = .sym n) ∨ ∃ t ∈ ts, t.indep ≠ .sym t.name ∧ n ∈ t.indep.free := by
  unfold finish at hn
  induction ts generalizing e with
  | nil => exact .inl ⟨hn, fun _ h => by cases h⟩
  | cons t ts ih =>
    rw [List.foldl_cons] at hn
    rcases ih _ hn with ⟨h1, h2⟩ | ⟨t', h', h3⟩
    · by_cases hc : t.indep = .sym t.name
      · have hs : n ∈ e.free := by
          rcases Expr.free_subst _ _ _ _ h1 with h | h
          · exact h.1
          · rw [hc, Expr.free_sym, List.mem_singleton] at h
            rw [h.1]; exact h.2
        refine .inl ⟨hs, fun t' h' e' => ?_⟩
        rcases List.mem_cons.1 h' with rfl | h'
        · rw [hc, e']
        · exact h2 t' h' e'
      · rcases Expr.free_subst _ _ _ _ h1 with h | h
        · refine .inl ⟨h.1, fun t' h' e' => ?_⟩
          rcases List.mem_cons.1 h' with rfl | h'
          · exact absurd e'.symm h.2
          · exact h2 t' h' e'
        · exact .inr ⟨t, List.mem_cons_self, hc, h.1⟩
    · exact .inr ⟨t', List.mem_cons_of_mem _ h', h3⟩

/-! ### The values in the kernels -/

/-- The values that the variables stand for. -/
noncomputable def target (I : Expr.Interp ℝ) (base : Fn → Expr) (ρ : Str → ℝ) (x : Fin 3 → ℝ) (n : Str) : ℝ :=
  if containsSub (c% "_of_xx") n then
    match parse n with
    | some (f, ds) => iteratedDeriv ds.length (functions I base ρ f) (x f.dir)
    | none => 0
  else ρ n

theorem target_var (ρ : Str → ℝ) (x : Fin 3 → ℝ) (f : Fn) (n : ℕ) :
    target I base ρ x (varName f n) = iteratedDeriv n (functions I base ρ f) (x f.dir) := by
  rw [target, if_pos (ofxx_varName f n), parse_varName]
  simp only [List.length_replicate]

theorem target_par (ρ : Str → ℝ) (x : Fin 3 → ℝ) {n : Str} (h : containsSub (c% "_of_xx") n = false) :
    target I base ρ x n = ρ n := by
  rw [target, if_neg (by rw [h]; decide)]

theorem make_value (ρ : Str → ℝ) (x : Fin 3 → ℝ) (e : FExpr) :
    Expr.eval I (target I base ρ x) (makeReplacements e.toExpr) = e.value I (functions I base ρ) x := by
  induction e using FExpr.ind with
  | hq q => simp [FExpr.toExpr, FExpr.value, makeReplacements, replDer, replFun, Expr.eval]
  | hc f =>
    rw [FExpr.toExpr, FExpr.value, make_call, Expr.eval]
    have := target_var (I := I) (base := base) ρ x f 0
    rw [iteratedDeriv_zero] at this
    exact this
  | hd f n =>
    rw [FExpr.toExpr, FExpr.value, make_der, Expr.eval]
    exact target_var ρ x f (n + 1)
  | ha h l ih =>
    rw [FExpr.toExpr, FExpr.value, make_op, Expr.eval, FExpr.toExprList_eq, FExpr.valueList_eq, Expr.evalList_eq]
    congr 1
    rw [List.map_map, List.map_map]
    exact List.map_congr_left ih

theorem make_free (e : FExpr) {v : Str} (hv : v ∈ (makeReplacements e.toExpr).free) : ∃ f n, v = varName f n := by
  induction e using FExpr.ind with
  | hq q => simp [FExpr.toExpr, makeReplacements, replDer, replFun, Expr.free] at hv
  | hc f =>
    rw [FExpr.toExpr, make_call, Expr.free, List.mem_singleton] at hv
    exact ⟨f, 0, hv⟩
  | hd f n =>
    rw [FExpr.toExpr, make_der, Expr.free, List.mem_singleton] at hv
    exact ⟨f, n + 1, hv⟩
  | ha h l ih =>
    rw [FExpr.toExpr, make_op, Expr.free, Expr.freeList_eq, FExpr.toExprList_eq, List.mem_flatMap] at hv
    obtain ⟨e, he, hv⟩ := hv
    rw [List.map_map] at he
    obtain ⟨e', he', rfl⟩ := List.mem_map.1 he
    exact ih e' he' hv

/-- The variables that the code collects from the expressions. -/
def Collected (es : List FExpr) (vars : List Str) : Prop :=
  vars.Nodup ∧ ∀ v, v ∈ vars ↔ ∃ e ∈ es, v ∈ (makeReplacements e.toExpr).free

/-- **C105, symbols.** In the expressions that reach the kernels the symbols are arrays of `rfmstruct` or parameters of the
coordinate system; no coordinate is left. -/
theorem C105_symbols (h : Ok I diff base str) {es : List FExpr} {vars : List Str} (hv : Collected es vars) :
    ∃ ts, entries diff base vars = some ts ∧ ∀ ts' : List Entry, ts'.Perm ts → ∃ as, arrays str ts' = some as ∧
      (as.map Arr.name).Nodup ∧ ∀ e ∈ es, ∀ n ∈ (finish ts (makeReplacements e.toExpr)).free,
        n ∈ as.map Arr.name ∨ (∃ f, n ∈ (base f).free) ∧ n ∉ as.map Arr.name ∧ ∀ d, n ≠ xx d := by
  have hvar : ∀ v ∈ vars, ∃ f n, v = varName f n := fun v h' => by
    obtain ⟨e, -, h'⟩ := (hv.2 v).1 h'
    exact make_free e h'
  obtain ⟨ts, e1, hn, hg⟩ := entries_eq (diff := diff) (base := base) hvar
  refine ⟨ts, e1, fun ts' hp => ?_⟩
  obtain ⟨as, e2, hnd, ha, hall⟩ := arrays_eq h (ts := ts') (fun t ht => hg t (hp.subset ht))
    ((hp.map Entry.name).nodup_iff.2 (by rw [hn]; exact hv.1))
  refine ⟨as, e2, hnd, fun e he n hnf => ?_⟩
  rcases finish_free _ hnf with ⟨h1, h2⟩ | ⟨t, ht, h3, h4⟩
  · have hmem : n ∈ ts.map Entry.name := by rw [hn]; exact (hv.2 n).2 ⟨e, he, h1⟩
    obtain ⟨t, ht, rfl⟩ := List.mem_map.1 hmem
    have hs := h2 t ht rfl
    have hd : dep t.val = true := by
      rw [← str_entry h (hg t ht), hs, h.str_sym]
      obtain ⟨f, k, rfl⟩ := hg t ht
      exact ofxx_varName f k
    obtain ⟨k, hk⟩ := hall t (hp.symm.subset ht) hd
    exact .inl (List.mem_map.2 ⟨_, hk, rfl⟩)
  · obtain ⟨f, k, rfl⟩ := hg t ht
    simp only at h3 h4
    cases hd : dep (D diff base f k) with
    | true => rw [hd, if_pos rfl] at h3; exact absurd rfl h3
    | false =>
      rw [hd, if_neg (by decide)] at h4
      have hb := D_free h f k h4
      refine .inr ⟨⟨f, hb⟩, fun hc => ?_, fun d hc => ?_⟩
      · obtain ⟨a, ha', rfl⟩ := List.mem_map.1 hc
        obtain ⟨f', k', rfl, -⟩ := ha a ha'
        have := h.base_par f _ hb
        rw [ofxx_varName] at this
        exact absurd this (by decide)
      · subst hc
        have hm : mentions (D diff base f k) d = true := decide_eq_true h4
        have hdd := mentions_D h f k hm
        rw [hdd, ← dep_iff h f k, hd] at hm
        exact absurd hm (by decide)

/-- **C105, values.** In a kernel with precomputation, at every point and whatever the arrays held before, every hatted
quantity has the value that it has in terms of the functions of the coordinate system and their derivatives; with SIMD, lane
`l` has the value at the point `l` further. -/
theorem C105_values (h : Ok I diff base str) {es : List FExpr} {vars : List Str} (hv : Collected es vars) :
    ∃ ts, entries diff base vars = some ts ∧ ∀ ts' : List Entry, ts'.Perm ts → ∃ as, arrays str ts' = some as ∧
      ∀ e ∈ es, ∀ (N : Fin 3 → ℤ) (xs : Fin 3 → ℤ → ℝ) (junk : Mem) (ρ : Str → ℝ) (p : Fin 3 → ℤ), (∀ d, 0 ≤ p d ∧ p d < N d) →
        Expr.eval I (kernelEnv N as (defines I N xs ρ as junk) p ρ) (finish ts (makeReplacements e.toExpr)) =
          e.value I (functions I base ρ) (fun d => xs d (p d)) ∧
        ∀ l : ℕ, p 0 + l < N 0 →
          Expr.eval I (kernelEnvSIMD N as (defines I N xs ρ as junk) p l ρ) (finish ts (makeReplacements e.toExpr)) =
            e.value I (functions I base ρ) (fun d => xs d (if d = 0 then p 0 + l else p d)) := by
  obtain ⟨ts0, e0, H⟩ := C105_symbols h hv
  have hvar : ∀ v ∈ vars, ∃ f n, v = varName f n := fun v h' => by
    obtain ⟨e, -, h'⟩ := (hv.2 v).1 h'
    exact make_free e h'
  obtain ⟨ts, e1, hn, hg⟩ := entries_eq (diff := diff) (base := base) hvar
  have : ts0 = ts := Option.some.inj (e0.symm.trans e1)
  subst this
  refine ⟨ts0, e1, fun ts' hp => ?_⟩
  obtain ⟨as, e2, hnd, ha, hall⟩ := arrays_eq h (ts := ts') (fun t ht => hg t (hp.subset ht))
    ((hp.map Entry.name).nodup_iff.2 (by rw [hn]; exact hv.1))
  obtain ⟨as', e2', -, hsym⟩ := H ts' hp
  have : as' = as := Option.some.inj (e2'.symm.trans e2)
  subst this
  have main : ∀ e ∈ es, ∀ (N : Fin 3 → ℤ) (xs : Fin 3 → ℤ → ℝ) (junk : Mem) (ρ : Str → ℝ) (p : Fin 3 → ℤ),
      (∀ d, 0 ≤ p d ∧ p d < N d) →
      Expr.eval I (kernelEnv N as' (defines I N xs ρ as' junk) p ρ) (finish ts0 (makeReplacements e.toExpr)) =
        e.value I (functions I base ρ) (fun d => xs d (p d)) := by
    intro e he N xs junk ρ p hp'
    have hinj : ∀ a ∈ readOrder as', ∀ b ∈ readOrder as', a.name = b.name → a = b := fun a h1 b h2 =>
      inj_of_nodup hnd a (mem_readOrder.1 h1) b (mem_readOrder.1 h2)
    obtain ⟨henv, henv'⟩ := env_fold (v := fun a => defines I N xs ρ as' junk a.name (place N a.kind p)) (readOrder as') hinj ρ
    rw [Expr.eval_congr I (ρ' := target I base ρ fun d => xs d (p d)), finish_eval, make_value]
    · intro t ht
      obtain ⟨f, n, rfl⟩ := hg t ht
      simp only
      cases hd : dep (D diff base f n) with
      | true => rw [if_pos rfl]; rfl
      | false =>
        rw [if_neg (by decide), target_var, ← D_val' h f n ρ (xs f.dir (p f.dir))]
        refine Expr.eval_congr I _ fun m hm => ?_
        rw [target_par _ _ (h.base_par f m (D_free h f n hm)), Function.update_of_ne]
        rintro rfl
        have hc := (dep_iff h f n).2 (decide_eq_true hm)
        rw [hd] at hc
        exact absurd hc (by decide)
    · intro n hn'
      rcases hsym e he n hn' with h1 | ⟨⟨f, h1⟩, h2, -⟩
      · obtain ⟨a, ha', rfl⟩ := List.mem_map.1 h1
        have h3 := henv a (mem_readOrder.2 ha')
        obtain ⟨f, k, rfl, -⟩ := ha a ha'
        unfold kernelEnv
        rw [h3]
        simp only [place]
        rw [defines_read hnd ha' rfl (hp' f.dir).1 (hp' f.dir).2, target_var]
        exact D_val' h f k ρ _
      · have h3 : n ∉ (readOrder as').map Arr.name := fun hc => by
          obtain ⟨a, h4, rfl⟩ := List.mem_map.1 hc
          exact h2 (List.mem_map.2 ⟨a, mem_readOrder.1 h4, rfl⟩)
        unfold kernelEnv
        rw [henv' n h3, target_par _ _ (h.base_par f n h1)]
  refine ⟨as', e2, fun e he N xs junk ρ p hp' => ⟨main e he N xs junk ρ p hp', fun l hl => ?_⟩⟩
  rw [simd_eq, main e he N xs junk ρ (Function.update p 0 (p 0 + l))]
  · congr 1
    funext d
    congr 1
    by_cases hd : d = 0
    · subst hd; rw [Function.update_self, if_pos rfl]
    · rw [Function.update_of_ne hd, if_neg hd]
  · intro d
    by_cases hd : d = 0
    · subst hd
      rw [Function.update_self]
      have := hp' 0
      omega
    · rw [Function.update_of_ne hd]; exact hp' d

/-- **C105, memory.** Every array is allocated once and freed once; what `rfm_precompute_defines` writes and what a kernel
reads is within the allocation, and every element is written. -/
theorem C105_memory (h : Ok I diff base str) {es : List FExpr} {vars : List Str} (hv : Collected es vars) :
    ∃ ts, entries diff base vars = some ts ∧ ∀ ts' : List Entry, ts'.Perm ts → ∃ as, arrays str ts' = some as ∧
      ∀ N : Fin 3 → ℤ, frees as = (mallocs N as).map Prod.fst ∧ (frees as).Nodup ∧
        ∀ a ∈ as, (a.name, size N a) ∈ mallocs N as ∧
          (∀ xs ρ, (∀ w ∈ writes I N xs ρ a, 0 ≤ w.1 ∧ w.1 < size N a) ∧
            ∀ i, 0 ≤ i → i < size N a → ∃ w ∈ writes I N xs ρ a, w.1 = i) ∧
          ∀ p : Fin 3 → ℤ, (∀ d, 0 ≤ p d ∧ p d < N d) → 0 ≤ place N a.kind p ∧ place N a.kind p < size N a := by
  have hvar : ∀ v ∈ vars, ∃ f n, v = varName f n := fun v h' => by
    obtain ⟨e, -, h'⟩ := (hv.2 v).1 h'
    exact make_free e h'
  obtain ⟨ts, e1, hn, hg⟩ := entries_eq (diff := diff) (base := base) hvar
  refine ⟨ts, e1, fun ts' hp => ?_⟩
  obtain ⟨as, e2, hnd, ha, hall⟩ := arrays_eq h (ts := ts') (fun t ht => hg t (hp.subset ht))
    ((hp.map Entry.name).nodup_iff.2 (by rw [hn]; exact hv.1))
  refine ⟨as, e2, fun N => ⟨?_, hnd, fun a ha' => ⟨List.mem_map.2 ⟨a, ha', rfl⟩, ?_, ?_⟩⟩⟩
  · rw [mallocs, List.map_map]; rfl
  · intro xs ρ
    obtain ⟨f, k, rfl, hd⟩ := ha a ha'
    rw [size_D h f k hd]
    simp only [writes]
    refine ⟨fun w hw => ?_, fun i h0 h1 => ?_⟩
    · obtain ⟨i, hi, rfl⟩ := List.mem_map.1 hw
      exact mem_counter.1 hi
    · exact ⟨_, List.mem_map.2 ⟨i, mem_counter.2 ⟨h0, h1⟩, rfl⟩, rfl⟩
  · intro p hp'
    obtain ⟨f, k, rfl, hd⟩ := ha a ha'
    rw [size_D h f k hd]
    exact hp' f.dir

end

theorem insertStr_perm (x : Str) : ∀ l : List Str, (insertStr x l).Perm (x :: l)
  | [] => List.Perm.refl _
  | y :: l => by
    rw [insertStr]
    split
    · exact List.Perm.refl _
    · exact ((insertStr_perm x l).cons y).trans (List.Perm.swap x y l)

theorem sortedStr_perm : ∀ l : List Str, (sortedStr l).Perm l
  | [] => List.Perm.refl _
  | x :: l => (insertStr_perm x (sortedStr l)).trans ((sortedStr_perm l).cons x)

/-- **C105, coordinates.** The name of each function ends in the coordinate it depends on. -/
theorem C105_dir (f : Fn) : xx f.dir <:+ f.name := by cases f <;> decide

/-- **C105, struct.** `rfm_struct` has the member for each array of each coordinate system, once, and no others. -/
theorem C105_struct (systems : List (List Arr)) :
    (structMembers systems).Nodup ∧ ∀ s, s ∈ structMembers systems ↔
      ∃ as ∈ systems, ∃ a ∈ as, s = (c% "REAL *restrict ") ++ a.name ++ [';'] := by
  have hp : (structMembers systems).Perm _ := sortedStr_perm _
  refine ⟨hp.nodup_iff.2 (C29_superfast_uniq _).nodup, fun s => ?_⟩
  rw [hp.mem_iff, (C29_superfast_uniq _).mem, List.mem_flatMap]
  constructor
  · rintro ⟨as, h1, h2⟩
    simp only [List.mem_append, List.mem_map] at h2
    rcases h2 with (⟨a, h3, e⟩ | ⟨a, h3, e⟩) | ⟨a, h3, e⟩ <;> exact ⟨as, h1, a, h3, e.symm⟩
  · rintro ⟨as, h1, a, h2, rfl⟩
    refine ⟨as, h1, ?_⟩
    simp only [List.mem_append]
    exact .inr (List.mem_map.2 ⟨a, h2, rfl⟩)

example : structMembers [[⟨(c% "f1_of_xx1"), .one 1, .num 0⟩], [⟨(c% "f0_of_xx0"), .one 0, .num 0⟩, ⟨(c% "f1_of_xx1"), .one 1, .num 0⟩]] =
    [(c% "REAL *restrict f0_of_xx0;"), (c% "REAL *restrict f1_of_xx1;")] := by decide +kernel

/-! ### Scaled spherical coordinates meet the assumptions -/

noncomputable def exI : Expr.Interp ℝ where
  pow := fun a _ => a
  fn := fun g l => if g = (c% "sin") then Real.sin (l.headD 0) else if g = (c% "cos") then Real.cos (l.headD 0) else 0

def exSin (n : Str) : Expr := .app (.fn (c% "sin")) [.sym n]
def exCos (n : Str) : Expr := .app (.fn (c% "cos")) [.sym n]

/-- Enough of `sp.diff` for the functions below. -/
def exDiff : Expr → Str → Expr
  | .sym n, x => .num (if n = x then 1 else 0)
  | .app (.fn g) [.sym n], x =>
    if n = x then
      if g = (c% "sin") then exCos n else if g = (c% "cos") then .app .mul [.num (-1), exSin n] else .num 0
    else .num 0
  | .app .mul [.num q, e], x => .app .mul [.num q, exDiff e x]
  | .app .mul [.sym a, e], x => if a = x then .num 0 else .app .mul [.sym a, exDiff e x]
  | _, _ => .num 0

/-- `AMPL * xx0` and `sin(xx1)`; the other functions are not used. -/
def exBase : Fn → Expr
  | .f0 => .app .mul [.sym (c% "AMPL"), .sym (c% "xx0")]
  | .f1 => exSin (c% "xx1")
  | _ => .num 1

def exStr : Expr → Str
  | .sym n => n
  | _ => []

inductive Good (x : Str) : Expr → Prop
  | num (q : ℚ) : Good x (.num q)
  | sym : Good x (.sym x)
  | sin : Good x (exSin x)
  | cos : Good x (exCos x)
  | mul (q : ℚ) {e} : Good x e → Good x (.app .mul [.num q, e])
  | par {a : Str} {e} : a ≠ x → Good x e → Good x (.app .mul [.sym a, e])

theorem Good.diff {x : Str} {e : Expr} (h : Good x e) : Good x (exDiff e x) ∧ ∀ (ρ : Str → ℝ) (u : ℝ),
    HasDerivAt (fun t => Expr.eval exI (Function.update ρ x t) e) (Expr.eval exI (Function.update ρ x u) (exDiff e x)) u := by
  induction h with
  | num q =>
    refine ⟨.num 0, fun ρ u => ?_⟩
    simpa [exDiff] using hasDerivAt_const u (q : ℝ)
  | sym =>
    refine ⟨.num _, fun ρ u => ?_⟩
    simpa [exDiff] using hasDerivAt_id' u
  | sin =>
    refine ⟨by simp [exSin, exDiff]; exact .cos, fun ρ u => ?_⟩
    simpa [exDiff, exSin, exCos, exI, Expr.Interp.app] using Real.hasDerivAt_sin u
  | cos =>
    refine ⟨by simp [exCos, exDiff]; exact .mul _ .sin, fun ρ u => ?_⟩
    simpa [exDiff, exSin, exCos, exI, Expr.Interp.app] using Real.hasDerivAt_cos u
  | @mul q e _ ih =>
    have e1 : exDiff (.app .mul [.num q, e]) x = .app .mul [.num q, exDiff e x] := by rw [exDiff]
    refine ⟨by rw [e1]; exact .mul q ih.1, fun ρ u => ?_⟩
    rw [e1]
    simpa [Expr.Interp.app] using (ih.2 ρ u).const_mul (q : ℝ)
  | @par a e ha _ ih =>
    have e1 : exDiff (.app .mul [.sym a, e]) x = .app .mul [.sym a, exDiff e x] := by rw [exDiff, if_neg ha]
    refine ⟨by rw [e1]; exact .par ha ih.1, fun ρ u => ?_⟩
    rw [e1]
    simpa [Expr.Interp.app, Function.update_of_ne ha] using (ih.2 ρ u).const_mul (ρ a)

theorem exDiff_free (e : Expr) (x n : Str) (h : n ∈ (exDiff e x).free) : n ∈ e.free := by
  induction e using Expr.ind with
  | hs m => simp [exDiff] at h
  | hq q => simp [exDiff] at h
  | ha hd l ih =>
    unfold exDiff at h
    split at h
    · simp at h
    · rename_i e' _ g m he
      injection he with h1 h2
      subst h2
      split_ifs at h <;> simp_all [exCos, exSin]
    · rename_i q e' he
      injection he with h1 h2
      subst h2
      simp at h ⊢
      exact ih e' (by simp) h
    · rename_i a e' he
      injection he with h1 h2
      subst h2
      split_ifs at h
      · simp at h
      · simp at h ⊢
        exact h.imp id (ih e' (by simp))
    · simp at h

theorem exOk : Ok exI exDiff exBase exStr where
  diff_val f n ρ := by
    have hg : ∀ n, Good (xx f.dir) (D exDiff exBase f n) := by
      intro n
      induction n with
      | zero =>
        cases f
        · exact .par (by decide) .sym
        · exact .sin
        all_goals exact .num 1
      | succ n ih => rw [D_succ]; exact ih.diff.1
    have := (hg n).diff.2 ρ (ρ (xx f.dir))
    rw [Function.update_eq_self] at this
    exact this.deriv.symm
  diff_free := exDiff_free
  base_dir f d h := by
    cases f <;> fin_cases d <;> simp_all [exBase, exSin, Fn.dir, xx]
  base_par f n h := by
    cases f <;> simp [exBase, exSin] at h
    · rcases h with rfl | rfl <;> decide
    · subst h; decide
  str_sym n := rfl
  str_other e h := by
    cases e with
    | sym n => exact h n (by simp)
    | _ => rfl

/-- A component of the metric and a derivative. -/
def exEs : List FExpr := [.op .mul [.call .f0, .call .f0, .call .f1], .der .f0 0, .der .f1 0]

example : Collected exEs [(c% "f0_of_xx0"), (c% "f1_of_xx1"), (c% "f0_of_xx0__D0"), (c% "f1_of_xx1__D1")] := by
  refine ⟨by decide, fun v => ?_⟩
  simp [exEs, FExpr.toExpr, FExpr.toExprList, make_op, make_call, make_der, varName, Fn.name, Fn.dir, xx]
  tauto

/-- `f0_of_xx0__D0` is the parameter `AMPL` and needs no array. -/
example : ((entries exDiff exBase [(c% "f0_of_xx0"), (c% "f1_of_xx1"), (c% "f0_of_xx0__D0"), (c% "f1_of_xx1__D1")]).bind (arrays exStr)).map
    (fun as => as.map fun a => (a.name, a.kind)) =
    some [((c% "f0_of_xx0"), .one 0), ((c% "f1_of_xx1"), .one 1), ((c% "f1_of_xx1__D1"), .one 1)] := by decide +kernel

/-- **C105, dimensions.** An array of one direction is for an expression that mentions this coordinate and no other; one of two directions for an
expression that mentions the first two. -/
theorem C105_kind {e : Expr} {k : Kind} (h : kind e = some k) :
    (∀ d, k = .one d → ∀ d', xx d' ∈ e.free ↔ d' = d) ∧ (k = .two → xx 0 ∈ e.free ∧ xx 1 ∈ e.free) := by
  have hm : ∀ d, (mentions e d = true) = (xx d ∈ e.free) := fun d => by simp [mentions]
  unfold kind at h
  simp only [hm] at h
  constructor
  · rintro d rfl d'
    split at h
    · rename_i c; cases h; fin_cases d' <;> simp [c]
    · split at h
      · rename_i c; cases h; fin_cases d' <;> simp [c]
      · split at h
        · rename_i c; cases h; fin_cases d' <;> simp [c]
        · split at h <;> cases h
  · rintro rfl
    split at h
    · cases h
    · split at h
      · cases h
      · split at h
        · cases h
        · split at h
          · assumption
          · cases h

/-- **C105, arrays of two directions.** What a kernel reads at a point is the value of the expression at the first two coordinates of the point. -/
theorem C105_two (N : Fin 3 → ℤ) (xs : Fin 3 → ℤ → ℝ) (ρ : Str → ℝ) (a : Arr) (hk : a.kind = .two) (junk : Mem) (p : Fin 3 → ℤ)
    (hp : ∀ d, 0 ≤ p d ∧ p d < N d) :
    kernelEnv N [a] (defines I N xs ρ [a] junk) p ρ a.name =
      Expr.eval I (Function.update (Function.update ρ (xx 0) (xs 0 (p 0))) (xx 1) (xs 1 (p 1))) a.val := by
  have e : readOrder [a] = [a] := by simp [readOrder, level, hk]
  unfold kernelEnv
  rw [e]
  simp only [List.foldl_cons, List.foldl_nil, Function.update_self, place, hk, defines]
  refine (put_fold _ _ _).2 _ _ ?_ ?_
  · intro w hw e
    rw [writes, hk] at hw
    simp only [List.mem_flatMap, List.mem_map, mem_counter] at hw
    obtain ⟨i1, h1, i0, h0, rfl⟩ := hw
    simp only at e ⊢
    have h2 := hp 0
    have e0 : i0 = p 0 := by
      have := congrArg (· % N 0) e
      simp only [Int.add_mul_emod_self_left] at this
      rwa [Int.emod_eq_of_lt h0.1 h0.2, Int.emod_eq_of_lt h2.1 h2.2] at this
    have e1 : i1 = p 1 := by
      subst e0
      exact mul_left_cancel₀ (show N 0 ≠ 0 by omega) (by omega)
    rw [e0, e1]
  · rw [writes, hk]
    refine ⟨_, List.mem_flatMap.2 ⟨p 1, mem_counter.2 (hp 1), List.mem_map.2 ⟨p 0, mem_counter.2 (hp 0), rfl⟩⟩, rfl⟩

/-- An expression of two coordinates. -/
example : kind (.app (.fn (c% "f")) [.sym (xx 0), .sym (xx 1)]) = some .two := by decide +kernel

end Verif.Precompute
