import Verif.BHaH.Defaults
import Mathlib.Data.List.Nodup
import Mathlib.Data.List.Perm.Basic
import Mathlib.Tactic.Common

/-!
# Structs of parameters, their default values, and the headers that read them (C115)
-/
namespace Verif.BHaH.Defaults

/-! ### Specification -/

/-- The value that a parameter should have at the start. -/
def wanted (p : CP) : CVal :=
  match p.kind with
  | .chars _ => .chars p.default.text
  | .array n => .array (List.replicate n (match p.default with | .bool b => (if b then "true" else "false").toList | v => v.text))
  | _ => .expr (match p.default with | .bool b => (if b then "true" else "false").toList | v => v.text)

/-- Defaults that survive the way into the C code: no upper-case letters in the text of expressions, and texts that fit into the array and have no percent sign. -/
def Val.Plain (k : Kind) (v : Val) : Prop :=
  match k with
  | .chars n => v.text.length < n ∧ '%' ∉ v.text
  | _ => match v with | .bool _ => True | v => lower v.text = v.text

/-- The type of the default fits the type of the parameter. -/
def Fits (p : CP) : Prop :=
  match p.kind, p.default with
  | .scalar _, .bool _ => True
  | .scalar _, .num _ => True
  | .scalar r, .str _ => r = true
  | .scalar _, _ => False
  | _, _ => True

/-- Registered parameters: the names are different, as keys of a dictionary. -/
def Registered (ps : List CP) : Prop := (ps.map CP.name).Nodup

/-- The parameter has a default that is put into the struct. -/
def HasDefault (p : CP) : Prop := p.default ≠ .unset ∧ p.kind ≠ .define

/-! ### Lemmas -/

/-- The member that a statement sets. -/
def Stmt.target : Stmt → Text
  | .snprintf n _ _ => n
  | .forSet n _ _ => n
  | .set n _ => n

/-- The value that it gets. -/
def Stmt.value : Stmt → CVal
  | .snprintf _ size f => match formatted f with | some t => .chars (t.take (size - 1)) | none => .junk
  | .forSet _ size v => .array (List.replicate size v)
  | .set _ v => .expr v

theorem exec_eq (s : Struct) (x : Stmt) : exec s x = Function.update s x.target x.value := by cases x <;> rfl

theorem fold_other : ∀ (l : List Stmt) (s : Struct) (n : Text), n ∉ l.map Stmt.target → l.foldl exec s n = s n
  | [], _, _, _ => rfl
  | x :: l, s, n, h => by
    rw [List.map_cons, List.mem_cons, not_or] at h
    rw [List.foldl_cons, fold_other l _ n h.2, exec_eq, Function.update_of_ne h.1]

theorem fold_mem : ∀ (l : List Stmt) (s : Struct) (x : Stmt), x ∈ l → (l.map Stmt.target).Nodup → l.foldl exec s x.target = x.value
  | [], _, _, h, _ => absurd h (by simp)
  | y :: l, s, x, h, hn => by
    rw [List.map_cons, List.nodup_cons] at hn
    rw [List.foldl_cons]
    rcases List.mem_cons.1 h with rfl | h
    · rw [fold_other l _ _ hn.1, exec_eq, Function.update_self]
    · exact fold_mem l _ x h hn.2

theorem stmt_target {p : CP} {x : Stmt} (h : stmt p = some x) : x.target = p.name := by
  unfold stmt at h
  split at h
  · rw [← Option.some.inj h]; rfl
  · rw [← Option.some.inj h]; rfl
  · split at h
    · rw [← Option.some.inj h]; rfl
    · rw [← Option.some.inj h]; rfl
    · split at h
      · rw [← Option.some.inj h]; rfl
      · cases h
    · cases h
    · cases h
  · cases h

theorem formatted_plain : ∀ t : Text, '%' ∉ t → formatted t = some t
  | [], _ => rfl
  | c :: t, h => by
    rw [List.mem_cons, not_or] at h
    have h1 : c ≠ '%' := fun e => h.1 e.symm
    unfold formatted
    split
    · rename_i e; cases e
    · rename_i e; exact absurd (List.cons.inj e).1 h1
    · rename_i e; exact absurd (List.cons.inj e).1 h1
    · rename_i e
      obtain ⟨rfl, rfl⟩ := List.cons.inj e
      rw [formatted_plain t h.2]; rfl

theorem lower_bool (b : Bool) : lower (Val.bool b).text = (if b then "true" else "false").toList := by cases b <;> decide

theorem stmt_value {p : CP} {x : Stmt} (h : stmt p = some x) (hp : p.default.Plain p.kind) : x.value = wanted p := by
  obtain ⟨name, kind, dflt, common, addToH⟩ := p
  cases kind with
  | define => cases h
  | chars n =>
    rw [← Option.some.inj (show some _ = some x from h)]
    obtain ⟨h1, h2⟩ := hp
    simp only [Stmt.value, wanted]
    rw [formatted_plain _ h2]
    simp only
    rw [List.take_of_length_le (show dflt.text.length ≤ n - 1 by have h1' : dflt.text.length < n := h1; omega)]
  | array n =>
    rw [← Option.some.inj (show some _ = some x from h)]
    simp only [Stmt.value, wanted]
    cases dflt with
    | bool b => simp only; rw [lower_bool]
    | _ => simp only; rw [show lower _ = _ from hp]
  | scalar r =>
    cases dflt with
    | bool b => rw [← Option.some.inj (show some _ = some x from h)]; simp only [Stmt.value, wanted]; rw [lower_bool]
    | num t => rw [← Option.some.inj (show some _ = some x from h)]; simp only [Stmt.value, wanted]; rw [show lower _ = _ from hp]
    | str s =>
      cases r with
      | true => rw [← Option.some.inj (show some _ = some x from h)]; simp only [Stmt.value, wanted]; rw [show lower _ = _ from hp]
      | false => cases h
    | unset => cases h
    | other t => cases h

theorem mapM_targets : ∀ (ps : List CP) (l : List Stmt), ps.mapM stmt = some l → l.map Stmt.target = ps.map CP.name ∧ ∀ p ∈ ps, ∃ x ∈ l, stmt p = some x
  | [], l, h => by
    rw [List.mapM_nil] at h
    rw [← Option.some.inj (show some [] = some l from h)]
    simp
  | p :: ps, l, h => by
    rw [List.mapM_cons] at h
    cases hs : stmt p with
    | none => rw [hs] at h; cases h
    | some x =>
      cases hm : ps.mapM stmt with
      | none => rw [hs, hm] at h; cases h
      | some l' =>
        rw [hs, hm] at h
        rw [← Option.some.inj (show some (x :: l') = some l from h)]
        obtain ⟨h1, h2⟩ := mapM_targets ps l' hm
        refine ⟨by rw [List.map_cons, List.map_cons, h1, stmt_target hs], ?_⟩
        intro q hq
        rcases List.mem_cons.1 hq with rfl | hq
        · exact ⟨x, by simp, hs⟩
        · obtain ⟨y, hy, e⟩ := h2 q hq
          exact ⟨y, by simp [hy], e⟩

/-- Everything about the function for one struct: members with a default get it, the others keep their value. -/
theorem struct_values {ps : List CP} (hr : Registered ps) {common : Bool} {l order : List Stmt} (hl : stmts common ps = some l) (ho : order.Perm l) (s : Struct) :
    (∀ p ∈ ps, p.commondata = common → HasDefault p → p.default.Plain p.kind → order.foldl exec s p.name = wanted p) ∧
      ∀ n, (∀ p ∈ ps, p.name = n → p.commondata = common → ¬HasDefault p) → order.foldl exec s n = s n := by
  obtain ⟨h1, h2⟩ := mapM_targets _ _ hl
  have hnd : (l.map Stmt.target).Nodup := by
    rw [h1]
    exact hr.sublist (List.filter_sublist.map _)
  have hnd' : (order.map Stmt.target).Nodup := ((ho.map _).nodup_iff).2 hnd
  constructor
  · intro p hp hc hd hpl
    have hin : p ∈ chosen common ps := List.mem_filter.2 ⟨hp, by simp [hc, hd.1, hd.2]⟩
    obtain ⟨x, hx, e⟩ := h2 p hin
    have := fold_mem order s x (ho.mem_iff.2 hx) hnd'
    rw [stmt_target e, stmt_value e hpl] at this
    exact this
  · intro n hn
    refine fold_other order s n ?_
    intro hc
    rw [(ho.map _).mem_iff, h1] at hc
    obtain ⟨p, hp, e⟩ := List.mem_map.1 hc
    obtain ⟨hp1, hp2⟩ := List.mem_filter.1 hp
    simp only [decide_eq_true_eq] at hp2
    exact hn p hp1 e hp2.1 hp2.2

/-! ### Claims -/

/-- **C115** (common parameters): after the call each common parameter with a default has it, and every other member of the struct keeps its value, in whatever order
the statements stand. Missing for the full property: texts with upper-case letters, percent signs, or that do not fit. -/
theorem C115_common_partial {ps : List CP} (hr : Registered ps) {l order : List Stmt} (hl : stmts true ps = some l) (ho : order.Perm l) (c : Struct) :
    (∀ p ∈ ps, p.commondata = true → HasDefault p → p.default.Plain p.kind → setCommon order c p.name = wanted p) ∧
      ∀ n, (∀ p ∈ ps, p.name = n → p.commondata = true → ¬HasDefault p) → setCommon order c n = c n :=
  struct_values hr hl ho c

theorem setParams_at (order : List Stmt) : ∀ (N : ℕ) (g : ℕ → Struct) (i : ℕ), setParams order N g i = if i < N then order.foldl exec (g i) else g i
  | 0, g, i => by simp [setParams]
  | N + 1, g, i => by
    have ih := setParams_at order N g
    unfold setParams at ih ⊢
    rw [List.range_succ, List.foldl_append, List.foldl_cons, List.foldl_nil]
    by_cases h : i = N
    · subst h
      rw [Function.update_self, ih, if_neg (Nat.lt_irrefl _), if_pos (Nat.lt_succ_self _)]
    · rw [Function.update_of_ne h, ih]
      by_cases h' : i < N
      · rw [if_pos h', if_pos (by omega)]
      · rw [if_neg h', if_neg (by omega)]

/-- **C115** (parameters of grids): after the call each parameter with a default has it on each grid below `NUMGRIDS`; the other members of these grids and all members of other grids
keep their values. -/
theorem C115_params_partial {ps : List CP} (hr : Registered ps) {l order : List Stmt} (hl : stmts false ps = some l) (ho : order.Perm l) (N : ℕ) (g : ℕ → Struct) :
    (∀ i < N, ∀ p ∈ ps, p.commondata = false → HasDefault p → p.default.Plain p.kind → setParams order N g i p.name = wanted p) ∧
      (∀ i < N, ∀ n, (∀ p ∈ ps, p.name = n → p.commondata = false → ¬HasDefault p) → setParams order N g i n = g i n) ∧ ∀ i, N ≤ i → setParams order N g i = g i := by
  refine ⟨?_, ?_, ?_⟩
  · intro i hi p hp hc hd hpl
    rw [setParams_at, if_pos hi]
    exact (struct_values hr hl ho (g i)).1 p hp hc hd hpl
  · intro i hi n hn
    rw [setParams_at, if_pos hi]
    exact (struct_values hr hl ho (g i)).2 n hn
  · intro i hi
    rw [setParams_at, if_neg (by omega)]

theorem mapM_none : ∀ ps : List CP, ps.mapM stmt = none ↔ ∃ p ∈ ps, stmt p = none
  | [] => by simp
  | p :: ps => by
    rw [List.mapM_cons]
    cases hs : stmt p with
    | none => simp [hs]
    | some x =>
      have ih := mapM_none ps
      cases hm : ps.mapM stmt with
      | none =>
        obtain ⟨q, hq, e⟩ := ih.1 hm
        exact ⟨fun _ => ⟨q, by simp [hq], e⟩, fun _ => rfl⟩
      | some l =>
        constructor
        · intro h; cases h
        · rintro ⟨q, hq, e⟩
          rcases List.mem_cons.1 hq with rfl | hq
          · rw [hs] at e; cases e
          · rw [ih.2 ⟨q, hq, e⟩] at hm; cases hm

/-- **C115** (exception): the exception is raised exactly if a parameter of the struct has a default whose type does not fit. -/
theorem C115_error (common : Bool) (ps : List CP) : stmts common ps = none ↔ ∃ p ∈ ps, p.commondata = common ∧ HasDefault p ∧ ¬Fits p := by
  have key : ∀ p : CP, HasDefault p → (stmt p = none ↔ ¬Fits p) := by
    rintro ⟨name, kind, dflt, common, addToH⟩ ⟨h1, h2⟩
    cases kind with
    | define => exact absurd rfl h2
    | chars n => cases dflt <;> simp [stmt, Fits]
    | array n => cases dflt <;> simp [stmt, Fits]
    | scalar r => cases dflt <;> cases r <;> simp [stmt, Fits]
  unfold stmts
  rw [mapM_none]
  constructor
  · rintro ⟨p, hp, e⟩
    obtain ⟨hp1, hp2⟩ := List.mem_filter.1 hp
    simp only [decide_eq_true_eq] at hp2
    exact ⟨p, hp1, hp2.1, hp2.2, (key p hp2.2).1 e⟩
  · rintro ⟨p, hp, hc, hd, hf⟩
    exact ⟨p, List.mem_filter.2 ⟨hp, by simp [hc, hd.1, hd.2]⟩, (key p hd).2 hf⟩

/-- **C115** (members): each parameter that is not a macro is a member of exactly the struct it belongs to, and the functions set members of their struct only. -/
theorem C115_members {ps : List CP} (hr : Registered ps) (common : Bool) :
    (∀ p ∈ ps, p.name ∈ members common ps ↔ p.kind ≠ .define ∧ p.commondata = common) ∧ (members common ps).Nodup ∧
      ∀ l, stmts common ps = some l → ∀ x ∈ l, x.target ∈ members common ps := by
  have inj : ∀ p ∈ ps, ∀ q ∈ ps, p.name = q.name → p = q := fun p hp q hq e => List.inj_on_of_nodup_map hr hp hq e
  refine ⟨?_, hr.sublist (List.filter_sublist.map _), ?_⟩
  · intro p hp
    unfold members
    constructor
    · intro h
      obtain ⟨q, hq, e⟩ := List.mem_map.1 h
      obtain ⟨hq1, hq2⟩ := List.mem_filter.1 hq
      rw [← inj q hq1 p hp e]
      simpa using hq2
    · intro h
      exact List.mem_map.2 ⟨p, List.mem_filter.2 ⟨hp, by simpa using h⟩, rfl⟩
  · intro l hl x hx
    have h1 := (mapM_targets _ _ hl).1
    have : x.target ∈ (chosen common ps).map CP.name := by rw [← h1]; exact List.mem_map_of_mem hx
    obtain ⟨p, hp, e⟩ := List.mem_map.1 this
    obtain ⟨hp1, hp2⟩ := List.mem_filter.1 hp
    simp only [decide_eq_true_eq] at hp2
    rw [← e]
    exact List.mem_map.2 ⟨p, List.mem_filter.2 ⟨hp1, by simp [hp2.1, hp2.2.2]⟩, rfl⟩

/-- Strings of a struct fit into their arrays. -/
def StringsFit (ps : List CP) (common params : Struct) : Prop :=
  ∀ p ∈ ps, ∀ n s, p.kind = .chars n → (if p.commondata then common else params) p.name = .chars s → s.length < n

/-- **C115** (headers): in a function that includes the header each parameter listed there is a variable of the same name with the value that the struct of the parameter has; no name is declared twice. -/
theorem C115_header {ps : List CP} (hr : Registered ps) (only : Bool) (common params : Struct) (hf : StringsFit ps common params) :
    (header only common params ps).map Prod.fst = (ps.filter fun p => p.addToH ∧ ¬(only ∧ ¬p.commondata)).map CP.name ∧ ((header only common params ps).map Prod.fst).Nodup ∧
      ∀ p ∈ ps, p.addToH = true → (only = true → p.commondata = true) → (p.name, (if p.commondata then common else params) p.name) ∈ header only common params ps := by
  have h1 : (header only common params ps).map Prod.fst = (inHeader only ps).map CP.name := by
    unfold header
    rw [List.map_map]
    refine List.map_congr_left fun p _ => ?_
    simp only [Function.comp, local1]
    split <;> rfl
  refine ⟨h1, ?_, ?_⟩
  · rw [h1]; exact hr.sublist (List.filter_sublist.map _)
  · intro p hp ha ho
    refine List.mem_map.2 ⟨p, List.mem_filter.2 ⟨hp, ?_⟩, ?_⟩
    · cases only <;> simp_all
    · unfold local1
      cases hk : p.kind with
      | chars n =>
        simp only
        cases hv : (if p.commondata then common else params) p.name with
        | chars s =>
          have := hf p hp n s hk hv
          simp only [copyChars]
          rw [List.take_of_length_le (by omega)]
        | _ => rfl
      | _ => rfl

/-- **C115** (vector header): each scalar parameter listed is a variable with its value, a `REAL` one with its value in all lanes. -/
theorem C115_simd {ps : List CP} (splat : CVal → CVal) (only : Bool) (common params : Struct) :
    ∀ p ∈ ps, ∀ r, p.kind = .scalar r → p.addToH = true → (only = true → p.commondata = true) →
      (p.name, if r then splat ((if p.commondata then common else params) p.name) else (if p.commondata then common else params) p.name) ∈ headerSimd splat only common params ps := by
  intro p hp r hk ha ho
  unfold headerSimd
  refine List.mem_flatMap.2 ⟨p, List.mem_filter.2 ⟨List.mem_filter.2 ⟨hp, ?_⟩, by rw [hk]⟩, ?_⟩
  · cases only <;> simp_all
  · cases r <;> simp [hk]

/-- **C115** (vector header, finding): a parameter whose name is that of a `REAL` parameter with `NOSIMD` in front is declared twice. -/
theorem C115_simd_violation : ∃ ps : List CP, Registered ps ∧ ∀ splat common params, ¬((headerSimd splat false common params ps).map Prod.fst).Nodup := by
  refine ⟨[⟨"a".toList, .scalar true, .num "1".toList, true, true⟩, ⟨"NOSIMDa".toList, .scalar false, .num "1".toList, true, true⟩], by unfold Registered; decide, ?_⟩
  intro splat common params
  have : (headerSimd splat false common params [⟨"a".toList, .scalar true, .num "1".toList, true, true⟩, ⟨"NOSIMDa".toList, .scalar false, .num "1".toList, true, true⟩]).map Prod.fst =
      ["NOSIMDa".toList, "a".toList, "NOSIMDa".toList] := rfl
  rw [this]
  decide

/-- **C115** (start): if the default of `NUMGRIDS` is the number of coordinate systems or larger, all parameters with a default have it on all grids when the grids are set up. -/
theorem C115_start_partial {ps : List CP} (hr : Registered ps) {lp oc op : List Stmt} (hl : stmts false ps = some lp) (ho : op.Perm lp) (parse : Struct → Struct)
    {defaultNum numCoord : ℕ} (hn : numCoord ≤ defaultNum) (m : Mem) :
    ∀ i < (start oc op parse defaultNum numCoord m).numGrids, ∀ p ∈ ps, p.commondata = false → HasDefault p → p.default.Plain p.kind →
      (start oc op parse defaultNum numCoord m).grids i p.name = wanted p := by
  intro i hi p hp hc hd hpl
  exact (C115_params_partial hr hl ho defaultNum _).1 i (Nat.lt_of_lt_of_le hi hn) p hp hc hd hpl

/-- **C115** (start, finding): `NUMGRIDS` is set to the number of coordinate systems after the parameters of the grids have been set. Grids from the default of `NUMGRIDS` on keep what the memory held, although
the comment says that all `MAXNUMGRIDS` grids are set. -/
theorem C115_start_violation (oc op : List Stmt) (parse : Struct → Struct) (defaultNum numCoord : ℕ) (m : Mem) (i : ℕ) (h1 : defaultNum ≤ i) (h2 : i < numCoord) :
    i < (start oc op parse defaultNum numCoord m).numGrids ∧ (start oc op parse defaultNum numCoord m).grids i = m.grids i := by
  refine ⟨h2, ?_⟩
  show setParams op defaultNum (setParams op defaultNum m.grids) i = m.grids i
  rw [setParams_at, if_neg (by omega), setParams_at, if_neg (by omega)]

/-- **C115** (upper case, finding): the default `M_PI` of a `REAL` becomes `m_pi`, which C does not know. -/
theorem C115_case_violation : stmt ⟨"angle".toList, .scalar true, .str "M_PI".toList, true, true⟩ = some (.set "angle".toList "m_pi".toList) := by decide

/-- **C115** (percent, finding): a default text is used as a format: a percent sign with nothing behind it is undefined, and two percent signs become one. -/
theorem C115_percent_violation (s : Struct) : exec s (.snprintf "label".toList 100 "50%".toList) "label".toList = .junk ∧
    exec s (.snprintf "label".toList 100 "50%%".toList) "label".toList = .chars "50%".toList := by
  constructor
  · simp only [exec, Function.update_self]; decide
  · simp only [exec, Function.update_self]; decide

/-- **C115** (length, finding): a default text that does not fit is cut off without a message. -/
theorem C115_long_violation (s : Struct) (n : Text) (size : ℕ) (t : Text) (ht : '%' ∉ t) (hs : size ≤ t.length) (h0 : 0 < size) :
    ∃ x, stmt ⟨n, .chars size, .str t, true, true⟩ = some x ∧ exec s x n = .chars (t.take (size - 1)) ∧ exec s x n ≠ .chars t := by
  have e : exec s (.snprintf n size t) n = .chars (t.take (size - 1)) := by
    simp only [exec, Function.update_self]
    rw [formatted_plain t ht]
  refine ⟨_, rfl, e, ?_⟩
  show exec s (.snprintf n size t) n ≠ _
  rw [e]
  intro h
  have := congrArg List.length (CVal.chars.inj h)
  rw [List.length_take] at this
  omega

/-- Parameters that meet the hypotheses. -/
def demo : List CP := [⟨"a".toList, .scalar true, .num "1.5".toList, true, true⟩, ⟨"flag".toList, .scalar false, .bool true, false, true⟩,
  ⟨"outdir".toList, .chars 100, .str "Out".toList, true, true⟩, ⟨"list".toList, .array 3, .num "0".toList, true, false⟩, ⟨"MAX".toList, .define, .str "15".toList, false, false⟩,
  ⟨"free".toList, .scalar true, .unset, false, true⟩]

example : Registered demo ∧ stmts true demo = some [.set "a".toList "1.5".toList, .snprintf "outdir".toList 100 "Out".toList, .forSet "list".toList 3 "0".toList] ∧
    stmts false demo = some [.set "flag".toList "true".toList] ∧ members false demo = ["flag".toList, "free".toList] := by
  refine ⟨by unfold Registered; decide, by decide, by decide, by decide⟩

example : (Val.num "1.5".toList).Plain (.scalar true) ∧ (Val.str "Out".toList).Plain (.chars 100) := by
  refine ⟨?_, ?_, ?_⟩
  · show lower _ = _; decide
  · decide
  · decide

end Verif.BHaH.Defaults
