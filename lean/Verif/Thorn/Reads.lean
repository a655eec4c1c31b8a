import Verif.Thorn.Files
import Mathlib.Data.Real.Basic

/-!
# C108: parameters read by the functions of a thorn

ETLegacy/CodeParameters.py and CarpetX/CodeParameters.py.  The emitted statements are modelled instead of their text;
`REAL` is the real numbers; with SIMD all lanes have the same value, so one lane is modelled.
-/
namespace Verif.Thorn
open Verif.Py Verif.Params
attribute [-instance] LinearOrder.toDecidableEq

/-! ### Model -/

/-- The statements that are emitted. -/
inductive CStmt
  /-- `const CCTK_REAL *v = CCTK_ParameterGet("p", "thorn", NULL);` -/
  | pointer (v p thorn : Str)
  /-- `const CCTK_REAL v = *w;` or `const REAL_SIMD_ARRAY v = ConstSIMD(*w);` -/
  | deref (v w : Str)
  /-- `const CCTK_REAL v = 1.0/CCTK_DELTA_SPACE(d);` -/
  | spacing (v : Str) (d : Option Char)
  /-- `const REAL_SIMD_ARRAY v = ConstSIMD(w);` -/
  | copy (v w : Str)
  /-- `const T v = CCTK_ParameterGet("p", "thorn", NULL);` for a type that is not a pointer. -/
  | direct (v p thorn : Str)
  /-- `DECLARE_CCTK_PARAMETERS` -/
  | declare
deriving DecidableEq

/-- The two infrastructures. -/
inductive Infra
  | legacy | carpetX
deriving DecidableEq

/-- `read_CCTK_REAL_CodeParameter` (ETLegacy/CodeParameters.py:80-99, CarpetX/CodeParameters.py:74-90). -/
def readReal (k : Infra) (simd : Bool) (name thorn : Str) : List CStmt :=
  if (c% "invdxx").isPrefixOf name then
    if simd then [.spacing ((c% "NOSIMD") ++ name) name.getLast?, .copy name ((c% "NOSIMD") ++ name)]
    else [.spacing name name.getLast?]
  else if simd then [.pointer ((c% "NOSIMD") ++ name) name thorn, .deref name ((c% "NOSIMD") ++ name)]
  else match k with
    | .legacy => [.pointer (name ++ (c% "ptr")) name thorn, .deref name (name ++ (c% "ptr"))]
    | .carpetX => []

/-- The order of tuples of strings. -/
def pairLe (a b : Str × Str) : Bool := if a.1 = b.1 then strLe a.2 b.2 else strLe a.1 b.1

/-- Insertion into a sorted list. -/
def insertPair (x : Str × Str) : List (Str × Str) → List (Str × Str)
  | [] => [x]
  | y :: l => if pairLe x y then x :: y :: l else y :: insertPair x l

/-- `sorted(list_of_tuples__thorn_CodeParameter)`. -/
def sortedPairs (l : List (Str × Str)) : List (Str × Str) := l.foldr insertPair []

/-- The body of the loop (ETLegacy lines 103-118, CarpetX lines 96-111); errors are `none`. -/
def readOne (k : Infra) (reg : Dict Str CodeParam) (simd : Bool) (tn : Str × Str) : Option (List CStmt) :=
  (reg.get? tn.2).bind fun c =>
    if containsSub (c% "char") c.cparamType then none
    else if c.cparamType = (c% "CCTK_REAL") ∨ c.cparamType = (c% "REAL") then some (readReal k simd tn.2 tn.1)
    else some [.direct tn.2 tn.2 c.module]

/-- The names of the inverse grid spacings. -/
def invdxx : List Str := [(c% "invdxx0"), (c% "invdxx1"), (c% "invdxx2")]

/-- `read_CodeParameters` (ETLegacy lines 101-123, CarpetX lines 92-116). -/
def readCodeParameters (k : Infra) (reg : Dict Str CodeParam) (l : List (Str × Str)) (simd inv : Bool) : Option (List CStmt) :=
  ((sortedPairs l).mapM (readOne k reg simd)).map fun ss =>
    (if l ≠ [] ∧ k = .carpetX ∧ simd = false then [.declare] else []) ++ ss.flatten ++
      (if inv then invdxx.flatMap fun n => readReal k simd n [] else [])

/-! ### C semantics -/

/-- Values of variables: numbers, or the address of the parameter `name` of `thorn`. -/
inductive Val
  | num (x : ℝ)
  | addr (thorn name : Str)

/-- What the statements depend on: the parameters of the thorns, the grid spacings, and the parameters that
`DECLARE_CCTK_PARAMETERS` declares, each with its thorn. -/
structure Cactus where
  param : Str → Str → ℝ
  delta : Char → ℝ
  own : List (Str × Str)

/-- A declaration; a second declaration of a name is an error. -/
def decl (σ : Str → Option Val) (v : Str) (x : Val) : Option (Str → Option Val) :=
  match σ v with
  | none => some fun w => if w = v then some x else σ w
  | some _ => none

/-- `DECLARE_CCTK_PARAMETERS`. -/
def declAll (K : Cactus) (σ : Str → Option Val) : Option (Str → Option Val) :=
  K.own.foldlM (fun σ tn => decl σ tn.2 (.num (K.param tn.1 tn.2))) σ

/-- One statement; `none` is an error of the compiler. -/
noncomputable def exec (K : Cactus) (σ : Str → Option Val) : CStmt → Option (Str → Option Val)
  | .pointer v p t => decl σ v (.addr t p)
  | .deref v w => match σ w with
    | some (.addr t p) => decl σ v (.num (K.param t p))
    | _ => none
  | .spacing v d => d.bind fun c => decl σ v (.num (1 / K.delta c))
  | .copy v w => match σ w with
    | some x => decl σ v x
    | none => none
  | .direct v p t => decl σ v (.addr t p)
  | .declare => declAll K σ

/-- All statements, in a function without other local variables. -/
noncomputable def run (K : Cactus) (l : List CStmt) : Option (Str → Option Val) := l.foldlM (exec K) fun _ => none

/-! ### Claims -/

theorem insertPair_perm (x : Str × Str) (l : List (Str × Str)) : (insertPair x l).Perm (x :: l) := by
  induction l with
  | nil => exact List.Perm.refl _
  | cons y l ih =>
    rw [insertPair]
    split
    · exact List.Perm.refl _
    · exact (ih.cons y).trans (List.Perm.swap x y l)

theorem sortedPairs_perm (l : List (Str × Str)) : (sortedPairs l).Perm l := by
  induction l with
  | nil => exact List.Perm.refl _
  | cons x l ih => exact (insertPair_perm x _).trans (ih.cons x)

/-- The auxiliary variable of a parameter. -/
def aux (simd : Bool) (n : Str) : Str := if simd then (c% "NOSIMD") ++ n else n ++ (c% "ptr")

/-- A parameter of type real that is not an inverse grid spacing. -/
def RealParam (reg : Dict Str CodeParam) (n : Str) : Prop :=
  ∃ c, reg.get? n = some c ∧ (c.cparamType = (c% "CCTK_REAL") ∨ c.cparamType = (c% "REAL")) ∧ ¬ (c% "invdxx") <+: n

theorem readOne_real {k : Infra} {reg : Dict Str CodeParam} {simd : Bool} (hk : simd = true ∨ k = .legacy) {tn : Str × Str}
    (h : RealParam reg tn.2) :
    readOne k reg simd tn = some [.pointer (aux simd tn.2) tn.2 tn.1, .deref tn.2 (aux simd tn.2)] := by
  obtain ⟨c, h1, h2, h3⟩ := h
  have hp : ¬ (c% "invdxx").isPrefixOf tn.2 = true := fun hh => h3 (List.isPrefixOf_iff_prefix.1 hh)
  have hc : ¬ containsSub (c% "char") c.cparamType = true := by rcases h2 with h | h <;> rw [h] <;> decide
  rw [readOne, h1]
  show (if containsSub (c% "char") c.cparamType = true then none else _) = _
  rw [if_neg hc, if_pos h2, readReal.eq_def, if_neg hp]
  cases simd
  · rcases hk with h | rfl
    · cases h
    · rfl
  · rfl

theorem decl_fresh {σ : Str → Option Val} {v : Str} (h : σ v = none) (x : Val) :
    decl σ v x = some fun w => if w = v then some x else σ w := by
  unfold decl
  rw [h]

/-- The state after reading the parameters in `l`. -/
noncomputable def after (K : Cactus) (simd : Bool) : List (Str × Str) → (Str → Option Val) → Str → Option Val
  | [], σ => σ
  | tn :: l, σ => after K simd l fun w => if w = tn.2 then some (.num (K.param tn.1 tn.2)) else
      if w = aux simd tn.2 then some (.addr tn.1 tn.2) else σ w

theorem aux_ne (simd : Bool) (n : Str) : n ≠ aux simd n := by
  intro h
  have := congrArg List.length h
  unfold aux at this
  split at this <;> simp at this
  omega

theorem aux_inj {simd : Bool} {a b : Str} (h : aux simd a = aux simd b) : a = b := by
  unfold aux at h
  split at h
  · exact List.append_cancel_left h
  · exact List.append_cancel_right h

theorem after_other (K : Cactus) (simd : Bool) (w : Str) : ∀ (l : List (Str × Str)) (σ : Str → Option Val),
    (∀ tn ∈ l, w ≠ tn.2 ∧ w ≠ aux simd tn.2) → after K simd l σ w = σ w
  | [], _, _ => rfl
  | tn :: l, σ, h => by
    obtain ⟨h1, h2⟩ := h tn List.mem_cons_self
    rw [after, after_other K simd w l _ fun x hx => h x (List.mem_cons_of_mem _ hx), if_neg h1, if_neg h2]

theorem run_reals (K : Cactus) (simd : Bool) : ∀ (l : List (Str × Str)) (σ : Str → Option Val), (l.map Prod.snd).Nodup →
    (∀ a ∈ l, ∀ b ∈ l, a.2 ≠ aux simd b.2) → (∀ tn ∈ l, σ tn.2 = none ∧ σ (aux simd tn.2) = none) →
    (l.flatMap fun tn => [CStmt.pointer (aux simd tn.2) tn.2 tn.1, .deref tn.2 (aux simd tn.2)]).foldlM (exec K) σ = some (after K simd l σ)
  | [], σ, _, _, _ => rfl
  | tn :: l, σ, hn, hx, hσ => by
    rw [List.map_cons, List.nodup_cons] at hn
    obtain ⟨h1, h2⟩ := hσ tn List.mem_cons_self
    have hne := aux_ne simd tn.2
    rw [List.flatMap_cons, List.foldlM_append, List.foldlM_cons]
    have e1 : exec K σ (.pointer (aux simd tn.2) tn.2 tn.1) = some fun w => if w = aux simd tn.2 then some (.addr tn.1 tn.2) else σ w :=
      decl_fresh h2 _
    have e2 : exec K (fun w => if w = aux simd tn.2 then some (.addr tn.1 tn.2) else σ w) (.deref tn.2 (aux simd tn.2)) =
        some fun w => if w = tn.2 then some (.num (K.param tn.1 tn.2)) else if w = aux simd tn.2 then some (.addr tn.1 tn.2) else σ w := by
      simp only [exec, if_true]
      exact decl_fresh (by rw [if_neg hne]; exact h1) _
    rw [e1]
    simp only [Option.bind_eq_bind, Option.bind_some, List.foldlM_cons, List.foldlM_nil, e2, pure]
    rw [after]
    refine run_reals K simd l _ hn.2 (fun a ha b hb => hx a (List.mem_cons_of_mem _ ha) b (List.mem_cons_of_mem _ hb)) fun x hx' => ?_
    have g1 : x.2 ≠ tn.2 := fun h => hn.1 (List.mem_map.2 ⟨x, hx', h⟩)
    obtain ⟨h3, h4⟩ := hσ x (List.mem_cons_of_mem _ hx')
    constructor
    · rw [if_neg g1, if_neg (hx x (List.mem_cons_of_mem _ hx') tn List.mem_cons_self), h3]
    · rw [if_neg (Ne.symm (hx tn List.mem_cons_self x (List.mem_cons_of_mem _ hx'))), if_neg (fun h => g1 (aux_inj h)), h4]

theorem after_self (K : Cactus) (simd : Bool) : ∀ (l : List (Str × Str)) (σ : Str → Option Val), (l.map Prod.snd).Nodup →
    (∀ a ∈ l, ∀ b ∈ l, a.2 ≠ aux simd b.2) → ∀ tn ∈ l, after K simd l σ tn.2 = some (.num (K.param tn.1 tn.2))
  | [], _, _, _, _, h => by cases h
  | x :: l, σ, hn, hx, tn, h => by
    rw [List.map_cons, List.nodup_cons] at hn
    rw [after]
    rcases List.mem_cons.1 h with rfl | h
    · rw [after_other, if_pos rfl]
      exact fun y hy => ⟨fun e => hn.1 (List.mem_map.2 ⟨y, hy, e.symm⟩), hx _ List.mem_cons_self y (List.mem_cons_of_mem _ hy)⟩
    · exact after_self K simd l _ hn.2 (fun a ha b hb => hx a (List.mem_cons_of_mem _ ha) b (List.mem_cons_of_mem _ hb)) tn h

/-- Names that begin with `invdxx` or `NOSIMDinvdxx` are not those of parameters. -/
theorem inv_run (K : Cactus) (k : Infra) (simd : Bool) (σ : Str → Option Val)
    (h : ∀ n ∈ invdxx, σ n = none ∧ σ ((c% "NOSIMD") ++ n) = none) :
    ∃ τ, (invdxx.flatMap fun n => readReal k simd n []).foldlM (exec K) σ = some τ ∧
      (∀ w, w ∉ invdxx → (∀ n ∈ invdxx, w ≠ (c% "NOSIMD") ++ n) → τ w = σ w) ∧
      τ (c% "invdxx0") = some (.num (1 / K.delta '0')) ∧ τ (c% "invdxx1") = some (.num (1 / K.delta '1')) ∧
      τ (c% "invdxx2") = some (.num (1 / K.delta '2')) := by
  have h0 := h (c% "invdxx0") (by decide)
  have h1 := h (c% "invdxx1") (by decide)
  have h2 := h (c% "invdxx2") (by decide)
  cases simd
  · have e : (invdxx.flatMap fun n => readReal k false n []) = [.spacing (c% "invdxx0") (some '0'), .spacing (c% "invdxx1") (some '1'),
      .spacing (c% "invdxx2") (some '2')] := by cases k <;> decide
    rw [e]
    simp only [List.foldlM_cons, List.foldlM_nil, exec, Option.bind_some, Option.bind_eq_bind, pure]
    rw [decl_fresh h0.1]
    simp only [Option.bind_some]
    rw [decl_fresh (by rw [if_neg (by decide)]; exact h1.1)]
    simp only [Option.bind_some]
    rw [decl_fresh (by rw [if_neg (by decide), if_neg (by decide)]; exact h2.1)]
    refine ⟨_, rfl, fun w hw _ => ?_, ?_, ?_, ?_⟩
    · simp only [invdxx, List.mem_cons, List.not_mem_nil, or_false, not_or] at hw
      simp only [hw.1, hw.2.1, hw.2.2, if_false]
    all_goals simp
  · have e : (invdxx.flatMap fun n => readReal k true n []) = [.spacing (c% "NOSIMDinvdxx0") (some '0'), .copy (c% "invdxx0") (c% "NOSIMDinvdxx0"),
      .spacing (c% "NOSIMDinvdxx1") (some '1'), .copy (c% "invdxx1") (c% "NOSIMDinvdxx1"),
      .spacing (c% "NOSIMDinvdxx2") (some '2'), .copy (c% "invdxx2") (c% "NOSIMDinvdxx2")] := by cases k <;> decide
    have g0 : σ (c% "NOSIMDinvdxx0") = none := h0.2
    have g1 : σ (c% "NOSIMDinvdxx1") = none := h1.2
    have g2 : σ (c% "NOSIMDinvdxx2") = none := h2.2
    rw [e]
    simp only [List.foldlM_cons, List.foldlM_nil, exec, Option.bind_some, Option.bind_eq_bind, pure]
    rw [decl_fresh g0]
    simp only [Option.bind_some, if_true]
    rw [decl_fresh (by rw [if_neg (by decide)]; exact h0.1)]
    simp only [Option.bind_some]
    rw [decl_fresh (by rw [if_neg (by decide), if_neg (by decide)]; exact g1)]
    simp only [Option.bind_some, if_true]
    rw [decl_fresh (by rw [if_neg (by decide), if_neg (by decide), if_neg (by decide)]; exact h1.1)]
    simp only [Option.bind_some]
    rw [decl_fresh (by rw [if_neg (by decide), if_neg (by decide), if_neg (by decide), if_neg (by decide)]; exact g2)]
    simp only [Option.bind_some, if_true]
    rw [decl_fresh (by rw [if_neg (by decide), if_neg (by decide), if_neg (by decide), if_neg (by decide), if_neg (by decide)]; exact h2.1)]
    refine ⟨_, rfl, fun w hw hw' => ?_, ?_, ?_, ?_⟩
    · simp only [invdxx, List.mem_cons, List.not_mem_nil, or_false, not_or] at hw
      have k0 : w ≠ (c% "NOSIMDinvdxx0") := hw' (c% "invdxx0") (by decide)
      have k1 : w ≠ (c% "NOSIMDinvdxx1") := hw' (c% "invdxx1") (by decide)
      have k2 : w ≠ (c% "NOSIMDinvdxx2") := hw' (c% "invdxx2") (by decide)
      simp only [hw.1, hw.2.1, hw.2.2, k0, k1, k2, if_false]
    all_goals simp

theorem mapM_const {α β : Type} {g : α → Option β} {f : α → β} : ∀ {l : List α}, (∀ a ∈ l, g a = some (f a)) → l.mapM g = some (l.map f)
  | [], _ => rfl
  | a :: l, h => by
    rw [List.mapM_cons, h a List.mem_cons_self, mapM_const fun x hx => h x (List.mem_cons_of_mem _ hx)]
    rfl

/-- **C108.** In a function that reads real parameters, with SIMD or in ETLegacy, each variable has the value of the parameter
in its thorn, and the inverse spacings are those of the grid.  The names must not be equal to auxiliary ones. -/
theorem C108_values_partial (K : Cactus) (k : Infra) (reg : Dict Str CodeParam) (l : List (Str × Str)) (simd inv : Bool)
    (hk : simd = true ∨ k = .legacy) (hr : ∀ tn ∈ l, RealParam reg tn.2) (hn : (l.map Prod.snd).Nodup)
    (hx : ∀ a ∈ l, ∀ b ∈ l, a.2 ≠ aux simd b.2) (ho : ∀ a ∈ l, ∀ n ∈ invdxx, a.2 ≠ (c% "NOSIMD") ++ n) :
    ∃ ss σ, readCodeParameters k reg l simd inv = some ss ∧ run K ss = some σ ∧
      (∀ tn ∈ l, σ tn.2 = some (.num (K.param tn.1 tn.2))) ∧
      (inv = true → σ (c% "invdxx0") = some (.num (1 / K.delta '0')) ∧ σ (c% "invdxx1") = some (.num (1 / K.delta '1')) ∧
        σ (c% "invdxx2") = some (.num (1 / K.delta '2'))) := by
  have hp := sortedPairs_perm l
  have hn' : ((sortedPairs l).map Prod.snd).Nodup := (hp.map _).nodup_iff.2 hn
  have hx' : ∀ a ∈ sortedPairs l, ∀ b ∈ sortedPairs l, a.2 ≠ aux simd b.2 := fun a ha b hb => hx a (hp.subset ha) b (hp.subset hb)
  have hpre : ∀ tn ∈ l, ∀ n ∈ invdxx, n ≠ tn.2 ∧ n ≠ aux simd tn.2 ∧ (c% "NOSIMD") ++ n ≠ tn.2 ∧ (c% "NOSIMD") ++ n ≠ aux simd tn.2 := by
    intro tn htn n hnn
    obtain ⟨c, -, -, h3⟩ := hr tn htn
    have hin : (c% "invdxx") <+: n := by
      simp only [invdxx, List.mem_cons, List.not_mem_nil, or_false] at hnn
      rcases hnn with rfl | rfl | rfl <;> decide
    have hlast : n.getLast? ≠ some 'r' ∧ n.head? ≠ some 'N' := by
      simp only [invdxx, List.mem_cons, List.not_mem_nil, or_false] at hnn
      rcases hnn with rfl | rfl | rfl <;> decide
    refine ⟨fun h => h3 (h ▸ hin), fun h => ?_, fun h => ho tn htn n hnn h.symm, fun h => ?_⟩
    · cases simd
      · refine hlast.1 ?_
        rw [h]
        show (tn.2 ++ (c% "ptr")).getLast? = some 'r'
        rw [List.getLast?_append]
        rfl
      · refine hlast.2 ?_
        rw [h]
        rfl
    · cases simd
      · have : ((c% "NOSIMD") ++ n).getLast? = some 'r' := by
          rw [h]
          show (tn.2 ++ (c% "ptr")).getLast? = some 'r'
          rw [List.getLast?_append]
          rfl
        rw [List.getLast?_append] at this
        cases hg : n.getLast? with
        | none => rw [hg] at this; revert this; decide
        | some c => rw [hg] at this; exact hlast.1 (hg.trans this)
      · exact h3 (List.append_cancel_left h ▸ hin)
  have e1 : readCodeParameters k reg l simd inv = some ((sortedPairs l).flatMap (fun tn =>
      [CStmt.pointer (aux simd tn.2) tn.2 tn.1, .deref tn.2 (aux simd tn.2)]) ++ (if inv then invdxx.flatMap fun n => readReal k simd n [] else [])) := by
    unfold readCodeParameters
    rw [mapM_const (f := fun tn => [CStmt.pointer (aux simd tn.2) tn.2 tn.1, .deref tn.2 (aux simd tn.2)])
      fun tn h => readOne_real hk (hr tn (hp.subset h))]
    have hd : ¬ (l ≠ [] ∧ k = .carpetX ∧ simd = false) := by
      rintro ⟨-, rfl, rfl⟩
      rcases hk with h | h <;> cases h
    rw [Option.map_some, if_neg hd, List.nil_append, List.flatMap_def]
    rfl
  have e2 := run_reals K simd (sortedPairs l) (fun _ => none) hn' hx' fun _ _ => ⟨rfl, rfl⟩
  have e3 := after_self K simd (sortedPairs l) (fun _ => none) hn' hx'
  cases inv
  · refine ⟨_, _, e1, ?_, fun tn h => e3 tn (hp.symm.subset h), fun h => by cases h⟩
    rw [run, if_neg Bool.false_ne_true, List.append_nil, e2]
  · obtain ⟨τ, e4, h5, h6⟩ := inv_run K k simd (after K simd (sortedPairs l) fun _ => none) (fun n hnn => by
      constructor
      · rw [after_other]
        exact fun tn h => ⟨(hpre tn (hp.subset h) n hnn).1, (hpre tn (hp.subset h) n hnn).2.1⟩
      · rw [after_other]
        exact fun tn h => ⟨(hpre tn (hp.subset h) n hnn).2.2.1, (hpre tn (hp.subset h) n hnn).2.2.2⟩)
    refine ⟨_, τ, e1, ?_, fun tn h => ?_, fun _ => h6⟩
    · rw [run, if_pos rfl, List.foldlM_append, e2]
      exact e4
    · rw [h5 tn.2 (fun hc => (hpre tn h _ hc).1 rfl) (fun n hnn => ho tn h n hnn), e3 tn (hp.symm.subset h)]

/-- A parameter. -/
def mkParam (t m n : Str) : Str × CodeParam := (n, ⟨t, m, n, unset, [], false, false, false, false, []⟩)

example : ∃ (reg : Dict Str CodeParam) (l : List (Str × Str)), (∀ tn ∈ l, RealParam reg tn.2) ∧ (l.map Prod.snd).Nodup ∧
    (∀ simd, ∀ a ∈ l, ∀ b ∈ l, a.2 ≠ aux simd b.2) ∧ (∀ a ∈ l, ∀ n ∈ invdxx, a.2 ≠ (c% "NOSIMD") ++ n) ∧ l.length = 2 := by
  refine ⟨[mkParam (c% "REAL") (c% "m") (c% "eta"), mkParam (c% "CCTK_REAL") (c% "m") (c% "kappa")],
    [((c% "T"), (c% "kappa")), ((c% "U"), (c% "eta"))], ?_, by decide, by decide, by decide, rfl⟩
  intro tn h
  simp only [List.mem_cons, List.not_mem_nil, or_false] at h
  rcases h with rfl | rfl
  · exact ⟨_, rfl, .inl rfl, by decide⟩
  · exact ⟨_, rfl, .inr rfl, by decide⟩

/-- Parameters of other types get an address instead of their value, and that of their module instead of their thorn. -/
theorem C108_int_violation (K : Cactus) (simd : Bool) :
    let reg : Dict Str CodeParam := [mkParam (c% "CCTK_INT") (c% "mod") (c% "n")]
    ∃ ss σ, readCodeParameters .legacy reg [((c% "T"), (c% "n"))] simd false = some ss ∧ run K ss = some σ ∧
      σ (c% "n") = some (.addr (c% "mod") (c% "n")) := by
  refine ⟨[.direct (c% "n") (c% "n") (c% "mod")], fun w => if w = (c% "n") then some (.addr (c% "mod") (c% "n")) else none, ?_, rfl, if_pos rfl⟩
  cases simd <;> decide

/-- In CarpetX without SIMD such a parameter of the thorn is declared twice, and real ones of other thorns are not read. -/
theorem C108_carpetX_violation (K : Cactus) (hK : K.own = [((c% "T"), (c% "n"))]) :
    (∃ ss, readCodeParameters .carpetX [mkParam (c% "CCTK_INT") (c% "T") (c% "n")] [((c% "T"), (c% "n"))] false false = some ss ∧ run K ss = none) ∧
    ∃ ss σ, readCodeParameters .carpetX [mkParam (c% "CCTK_REAL") (c% "U") (c% "x")] [((c% "U"), (c% "x"))] false false = some ss ∧
      run K ss = some σ ∧ σ (c% "x") = none := by
  have e : declAll K (fun _ => none) = some fun w => if w = (c% "n") then some (.num (K.param (c% "T") (c% "n"))) else none := by
    unfold declAll
    rw [hK]
    rfl
  constructor
  · refine ⟨[.declare, .direct (c% "n") (c% "n") (c% "T")], by decide, ?_⟩
    simp only [run, List.foldlM_cons, List.foldlM_nil, exec, Option.bind_eq_bind, e, Option.bind_some]
    simp [decl]
  · refine ⟨[.declare], fun w => if w = (c% "n") then some (.num (K.param (c% "T") (c% "n"))) else none, by decide, ?_, ?_⟩
    · simp only [run, List.foldlM_cons, List.foldlM_nil, exec, Option.bind_eq_bind, e, Option.bind_some, pure]
    · exact if_neg (by decide)

example : ∃ (d : Funcs) (reg : Dict Str CodeParam), (∀ k c, reg.get? k = some c → c.name = k) ∧
    paramCCL d reg (c% "T") = some [((c% "REAL"), (c% "eta"), unset), ((c% "CCTK_INT"), (c% "n"), unset)] ∧
    paramCCL d reg (c% "U") = none := by
  refine ⟨[((c% "b"), ⟨(c% "b"), (c% "T"), (c% "T"), [], [(c% "n"), (c% "eta")], []⟩), ((c% "c"), ⟨(c% "c"), (c% "U"), (c% "U"), [], [(c% "zz")], []⟩),
    ((c% "a"), ⟨(c% "a"), (c% "T"), (c% "T"), [], [(c% "n")], []⟩)],
    [mkParam (c% "CCTK_INT") (c% "m") (c% "n"), mkParam (c% "REAL") (c% "m") (c% "eta")], ?_, by decide +kernel, by decide +kernel⟩
  intro k c h
  have h' := Dict.mem_of_get? h
  simp only [List.mem_cons, List.not_mem_nil, or_false, mkParam, Prod.mk.injEq] at h'
  rcases h' with ⟨rfl, rfl⟩ | ⟨rfl, rfl⟩ <;> rfl

theorem declAll_ok (K : Cactus) : ∀ (own : List (Str × Str)) (σ : Str → Option Val), (own.map Prod.snd).Nodup → (∀ tn ∈ own, σ tn.2 = none) →
    ∃ τ, own.foldlM (fun σ tn => decl σ tn.2 (.num (K.param tn.1 tn.2))) σ = some τ ∧
      (∀ tn ∈ own, τ tn.2 = some (.num (K.param tn.1 tn.2))) ∧ ∀ w, w ∉ own.map Prod.snd → τ w = σ w
  | [], σ, _, _ => ⟨σ, rfl, by simp, fun _ _ => rfl⟩
  | x :: own, σ, hn, h => by
    rw [List.map_cons, List.nodup_cons] at hn
    obtain ⟨τ, e, h1, h2⟩ := declAll_ok K own (fun w => if w = x.2 then some (.num (K.param x.1 x.2)) else σ w) hn.2 (fun tn ht => by
      rw [if_neg (fun hc => hn.1 (List.mem_map.2 ⟨tn, ht, hc⟩))]
      exact h tn (List.mem_cons_of_mem _ ht))
    refine ⟨τ, ?_, ?_, ?_⟩
    · rw [List.foldlM_cons, decl_fresh (h x List.mem_cons_self)]
      exact e
    · intro tn ht
      rcases List.mem_cons.1 ht with rfl | ht
      · rw [h2 _ hn.1, if_pos rfl]
      · exact h1 tn ht
    · intro w hw
      rw [List.map_cons, List.mem_cons, not_or] at hw
      rw [h2 w hw.2, if_neg hw.1]

/-- **C108, CarpetX without SIMD.** Real parameters that the thorn declares or shares have their values. -/
theorem C108_carpetX_partial (K : Cactus) (reg : Dict Str CodeParam) (l : List (Str × Str)) (hl : l ≠ []) (inv : Bool)
    (hr : ∀ tn ∈ l, RealParam reg tn.2) (hown : ∀ tn ∈ l, tn ∈ K.own) (hn : (K.own.map Prod.snd).Nodup)
    (ho : ∀ n ∈ invdxx, n ∉ K.own.map Prod.snd ∧ (c% "NOSIMD") ++ n ∉ K.own.map Prod.snd) :
    ∃ ss σ, readCodeParameters .carpetX reg l false inv = some ss ∧ run K ss = some σ ∧
      (∀ tn ∈ l, σ tn.2 = some (.num (K.param tn.1 tn.2))) ∧
      (inv = true → σ (c% "invdxx0") = some (.num (1 / K.delta '0')) ∧ σ (c% "invdxx1") = some (.num (1 / K.delta '1')) ∧
        σ (c% "invdxx2") = some (.num (1 / K.delta '2'))) := by
  have hp := sortedPairs_perm l
  have e0 : ∀ tn ∈ sortedPairs l, readOne .carpetX reg false tn = some [] := by
    intro tn h
    obtain ⟨c, h1, h2, h3⟩ := hr tn (hp.subset h)
    have hp : ¬ (c% "invdxx").isPrefixOf tn.2 = true := fun hh => h3 (List.isPrefixOf_iff_prefix.1 hh)
    have hc : ¬ containsSub (c% "char") c.cparamType = true := by rcases h2 with h | h <;> rw [h] <;> decide
    rw [readOne, h1]
    show (if containsSub (c% "char") c.cparamType = true then none else _) = _
    rw [if_neg hc, if_pos h2, readReal.eq_def, if_neg hp]
    rfl
  have e1 : readCodeParameters .carpetX reg l false inv = some (.declare :: (if inv then invdxx.flatMap fun n => readReal .carpetX false n [] else [])) := by
    unfold readCodeParameters
    rw [mapM_const (f := fun _ => []) e0, Option.map_some, if_pos ⟨hl, rfl, rfl⟩]
    have : ((sortedPairs l).map fun _ => ([] : List CStmt)).flatten = [] := by
      rw [List.flatten_eq_nil_iff]; simp
    rw [this]
    rfl
  obtain ⟨τ, e2, h1, h2⟩ := declAll_ok K K.own (fun _ => none) hn fun _ _ => rfl
  have e3 : exec K (fun _ => none) .declare = some τ := e2
  cases inv
  · refine ⟨_, τ, e1, ?_, fun tn h => h1 tn (hown tn h), fun h => by cases h⟩
    rw [run, List.foldlM_cons, e3]
    rfl
  · obtain ⟨ρ, e4, h5, h6⟩ := inv_run K .carpetX false τ (fun n hnn => ⟨h2 _ (ho n hnn).1, h2 _ (ho n hnn).2⟩)
    refine ⟨_, ρ, e1, ?_, fun tn h => ?_, fun _ => h6⟩
    · rw [run, List.foldlM_cons, e3]
      exact e4
    · have hm : tn.2 ∈ K.own.map Prod.snd := List.mem_map.2 ⟨tn, hown tn h, rfl⟩
      rw [h5 tn.2 (fun hc => (ho _ hc).1 hm) (fun n hnn hc => (ho n hnn).2 (hc ▸ hm)), h1 tn (hown tn h)]

example : ∃ (K : Cactus) (reg : Dict Str CodeParam) (l : List (Str × Str)), l ≠ [] ∧ (∀ tn ∈ l, RealParam reg tn.2) ∧ (∀ tn ∈ l, tn ∈ K.own) ∧
    (K.own.map Prod.snd).Nodup ∧ ∀ n ∈ invdxx, n ∉ K.own.map Prod.snd ∧ (c% "NOSIMD") ++ n ∉ K.own.map Prod.snd := by
  refine ⟨⟨fun _ _ => 2, fun _ => 1, [((c% "T"), (c% "eta")), ((c% "T"), (c% "n"))]⟩, [mkParam (c% "REAL") (c% "m") (c% "eta")],
    [((c% "T"), (c% "eta"))], by decide, ?_, by decide, by decide, by decide⟩
  intro tn h
  rw [List.mem_singleton] at h
  subst h
  exact ⟨_, rfl, .inr rfl, by decide⟩

end Verif.Thorn
