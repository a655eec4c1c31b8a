import Verif.CodeGen.KernelFn
import Verif.CodeGen.KernelClaims
import Verif.BHaH.ParfileRoundTrip

/-!
# C80: kernels that call a C function for each derivative operator
-/
namespace Verif.CodeGen
open Verif.Py Verif.Sympy Verif.Sympy.Expr Verif.CSE Verif.Helpers Verif.CFunction
open Verif.FD hiding exec exec_append

/-! ## Specification -/

/-- The parameters hold the arguments; nothing else is known in the function. -/
def bindParams (ps : List Str) (vs : List ℝ) : Str → ℝ := (ps.zip vs).foldl (fun σ p => Function.update σ p.1 p.2) fun _ => 0

/-- What a function returns. -/
noncomputable def FFun.value (I : Interp ℝ) (f : FFun) (vs : List ℝ) : ℝ := exec I f.body.code (bindParams f.params vs) (c% "FD_result")

/-- One call. -/
noncomputable def runCall (I : Interp ℝ) (funs : List FFun) (σ : Str → ℝ) (c : Call) : Str → ℝ :=
  match funs.find? fun f => f.name = c.fn with
  | some f => Function.update σ c.lhs (f.value I (c.args.map σ))
  | none => σ

/-- Running the kernel. -/
noncomputable def FKernel.run (mem : Mem) (I : Interp ℝ) (K : FKernel) (σ : Str → ℝ) : Str → ℝ :=
  exec I K.main.code (exec I K.ups.code (runAlgs K.algs (exec I K.copies.code
    (K.calls.foldl (runCall I K.funs) (runReads mem K.reads σ)))))

/-- The statements of the kernel: the name on the left and the names used on the right. -/
def FKernel.decls (K : FKernel) : List (Str × List Str) :=
  K.reads.map (fun r => (r.var, [])) ++ (K.calls.map (fun c => (c.lhs, c.args)) ++ K.copies.code.map (fun p => (p.1, p.2.free))) ++
    K.algs.map (fun p => (p.1, [p.2])) ++ K.ups.code.map (fun p => (p.1, p.2.free)) ++ K.main.code.map (fun p => (p.1, p.2.free))

/-- The C compiler accepts the kernel, with the functions in front of it. -/
structure FKernel.Compiles (K : FKernel) (known : Str → Prop) : Prop where
  scope : Scoped known K.decls
  one : (K.funs.map FFun.name).Nodup
  calls : ∀ c ∈ K.calls, ∃ f ∈ K.funs, f.name = c.fn ∧ f.params.length = c.args.length
  params : ∀ f ∈ K.funs, f.params.Nodup
  bodies : ∀ f ∈ K.funs, Scoped (· ∈ f.params) (f.body.code.map fun p => (p.1, p.2.free))
  result : ∀ f ∈ K.funs, (c% "FD_result") ∈ f.body.code.map Prod.fst

/-! ## Sorting -/

theorem strLe_append (p a b : Str) : strLe (p ++ a) (p ++ b) = strLe a b := by
  induction p with
  | nil => rfl
  | cons c p ih => rw [List.cons_append, List.cons_append, strLe, if_pos rfl, ih]

theorem sortedStr_append (p : Str) (l : List Str) : sortedStr (l.map (p ++ ·)) = (sortedStr l).map (p ++ ·) := by
  have hi : ∀ (x : Str) (l : List Str), insertStr (p ++ x) (l.map (p ++ ·)) = (insertStr x l).map (p ++ ·) := by
    intro x l
    induction l with
    | nil => rfl
    | cons y l ih =>
      rw [List.map_cons, insertStr, insertStr, strLe_append]
      split
      · rfl
      · rw [ih]; rfl
  induction l with
  | nil => rfl
  | cons x l ih =>
    show insertStr (p ++ x) (sortedStr (l.map (p ++ ·))) = (insertStr x (sortedStr l)).map (p ++ ·)
    rw [ih, hi]

theorem paramNames (L : Lib) (type : Str) (f : FDF) :
    (f.paramDecls L type).map (declName type) = sortedStr (f.symbols L) := by
  unfold FDF.paramDecls
  have := sortedStr_append ((c% "const ") ++ type ++ (c% " ")) (f.symbols L)
  rw [this, List.map_map]
  conv_rhs => rw [← List.map_id (sortedStr (f.symbols L))]
  apply List.map_congr_left
  intro n _
  simp only [Function.comp, declName, List.drop_left, id]

theorem insertCall_perm (x : Call) (l : List Call) : (insertCall x l).Perm (x :: l) := by
  induction l with
  | nil => exact .refl _
  | cons y l ih =>
    unfold insertCall
    split
    · exact .refl _
    · exact (List.Perm.cons y ih).trans (List.Perm.swap x y l)

theorem sortCalls_perm (l : List Call) : (sortCalls l).Perm l := by
  induction l with
  | nil => exact .refl _
  | cons x l ih => exact (insertCall_perm x _).trans (List.Perm.cons x ih)

/-! ## Parameters -/

theorem bindParams_map (σ : Str → ℝ) (g : Str → Str) (ps : List Str) (n : Str) (h : n ∈ ps) :
    bindParams ps ((ps.map g).map σ) n = σ (g n) := by
  unfold bindParams
  have key : ∀ (l : List Str) (τ : Str → ℝ), (n ∈ l ∨ τ n = σ (g n)) →
      (l.zip ((l.map g).map σ)).foldl (fun σ p => Function.update σ p.1 p.2) τ n = σ (g n) := by
    intro l
    induction l with
    | nil => intro τ h; exact h.resolve_left (by simp)
    | cons a l ih =>
      intro τ h
      rw [List.map_cons, List.map_cons, List.zip_cons_cons, List.foldl_cons]
      apply ih
      by_cases hn : n ∈ l
      · exact .inl hn
      · right
        by_cases e : n = a
        · subst e; rw [Function.update_self]
        · rw [Function.update_of_ne e]
          rcases h with h | h
          · rcases List.mem_cons.1 h with h | h
            · exact absurd h e
            · exact absurd h hn
          · exact h
  exact key ps _ (.inl h)

/-! ## The registry -/

theorem register_nil (order : Nat) (pr : Str → Expr × Dict Str ℚ) (ops : List Str) (hnd : ops.Nodup) :
    register [] order (ops.map fun op => (op, pr op)) = .ok (ops.map fun op => (op, ⟨order, op, (pr op).2, (pr op).1⟩)) := by
  have h1 : ∀ (l : List Str) (d : Dict Str FDF), l.Nodup → (∀ op ∈ l, op ∉ d.keys) →
      (l.map fun op => (op, pr op)).foldl (fun (d : Dict Str FDF) p => d.set p.1 ⟨order, p.1, p.2.2, p.2.1⟩) d =
        d ++ l.map fun op => (op, ⟨order, op, (pr op).2, (pr op).1⟩) := by
    intro l
    induction l with
    | nil => intro d _ _; simp
    | cons a l ih =>
      intro d hn hd
      rw [List.nodup_cons] at hn
      have hset : ∀ (d : Dict Str FDF) (v : FDF), a ∉ d.keys → d.set a v = d ++ [(a, v)] := by
        intro d v h
        induction d with
        | nil => rfl
        | cons kv d ihd =>
          have hne : kv.1 ≠ a := by rintro rfl; simp [Dict.keys] at h
          have h' : a ∉ Dict.keys d := by
            intro h2; exact h (by simp [Dict.keys] at h2 ⊢; exact .inr h2)
          unfold Dict.set
          simp [hne, ihd h']
      rw [List.map_cons, List.foldl_cons, hset _ _ (hd a (by simp)), ih _ hn.2]
      · simp
      · intro op hop hk
        simp only [Dict.keys, List.map_append, List.mem_append, List.map_cons, List.map_nil, List.mem_singleton] at hk
        rcases hk with hk | rfl
        · exact hd op (by simp [hop]) hk
        · exact hn.1 hop
  unfold register
  rw [h1 ops [] hnd (by simp [Dict.keys]), List.nil_append]
  have key : ∀ (l : List Str) (k : ℕ), ops.drop k = l →
      ((l.map fun op => (op, (⟨order, op, (pr op).2, (pr op).1⟩ : FDF))).zipIdx k).mapM (fun kv =>
        match (ops.map fun op => (op, pr op))[kv.2]? with
        | some p => (.ok (kv.1.1, { kv.1.2 with expr := p.2.1 }) : Except KErr (Str × FDF))
        | none => .error .indexError) = .ok (l.map fun op => (op, ⟨order, op, (pr op).2, (pr op).1⟩)) := by
    intro l
    induction l with
    | nil => intro k _; rfl
    | cons a l ih =>
      intro k hk
      have hlt : k < ops.length := by
        by_contra h
        rw [List.drop_eq_nil_of_le (by omega)] at hk; cases hk
      rw [List.drop_eq_getElem_cons hlt] at hk
      obtain ⟨e1, e2⟩ := List.cons.inj hk
      rw [List.map_cons, List.zipIdx_cons, List.mapM_cons]
      simp only [List.getElem?_map, List.getElem?_eq_getElem hlt, Option.map_some, e1, bind, Except.bind, pure, Except.pure]
      simp only [List.getElem?_map] at ih
      rw [ih (k + 1) e2]
  exact key ops 0 rfl

/-! ## Names -/

theorem infix_pre {c : Char} {w P A : Str} (hc : c ∉ P) (h : (c :: w) <:+: P ++ A) : (c :: w) <:+: A := by
  induction P with
  | nil => exact h
  | cons x P ih =>
    rcases List.infix_cons_iff.1 h with h | h
    · exact absurd (by rw [(List.cons_prefix_cons.1 h).1]; simp) hc
    · exact ih (fun hx => hc (List.mem_cons_of_mem _ hx)) h

theorem infix_sep {x : Char} {w A B : Str} (hx : x ∉ w) (h : w <:+: A ++ x :: B) : w <:+: A ∨ w <:+: B := by
  induction A with
  | nil =>
    rcases List.infix_cons_iff.1 h with h | h
    · cases w with
      | nil => exact .inl (List.nil_infix)
      | cons c w => exact absurd (by rw [(List.cons_prefix_cons.1 h).1]; simp) hx
    · exact .inr h
  | cons a A ih =>
    rcases List.infix_cons_iff.1 h with h | h
    · left
      have h' : w <+: (a :: A) ++ x :: B := h
      rcases Nat.le_total w.length (a :: A).length with hl | hl
      · exact (List.prefix_of_prefix_length_le h' (List.prefix_append _ _) hl).isInfix
      · obtain ⟨t, rfl⟩ := List.prefix_of_prefix_length_le (List.prefix_append _ _) h' hl
        have ht := (List.prefix_append_right_inj _).1 h'
        cases t with
        | nil => simp
        | cons y t => exact absurd (by rw [(List.cons_prefix_cons.1 ht).1]; simp) hx
    · exact (ih h).imp_left fun h => h.trans (List.suffix_cons _ _).isInfix

/-- The pattern of the prototype. -/
abbrev fdproto : Str := (c% "FDPROTO")

theorem noT_infix {n : Str} (h : 'T' ∉ n) : ¬ fdproto <:+: n := fun hi => h (hi.subset (by decide))

theorem op_noT {gfs d} (h : Good gfs fiveOps d) : 'T' ∉ d.op := by
  have := h.op
  revert this
  generalize d.op = o
  revert o
  decide

theorem fdLhs_proto {gfs d} (h : Good gfs fiveOps d) (hp : ∀ gf ∈ gfs, ¬ fdproto <:+: gf) : ¬ fdproto <:+: fdLhs d := by
  have h1 : ¬ fdproto <:+: d.name := by
    intro hi
    rw [name_eq] at hi
    rcases infix_sep (by decide) hi with h' | h'
    · exact hp _ h.base (h'.trans (List.prefix_append _ _).isInfix)
    · refine noT_infix ?_ h'
      unfold DerivName.tail
      simp only [List.mem_append, not_or]
      exact ⟨⟨op_noT h, digits_no h.shape.comps (by decide)⟩, digits_no h.shape.dirs (by decide)⟩
  unfold fdLhs
  split
  · exact fun hi => h1 (infix_pre (by decide) hi)
  · exact h1

theorem name_ddn_iff {gfs d} (h : Good gfs fiveOps d) (hc : ∀ gf ∈ gfs, CleanGf gf) :
    containsSub (c% "_ddnD") d.name = true ↔ d.op = (c% "ddnD") := by
  rw [containsSub_iff, name_eq]
  constructor
  · intro hi
    rcases us_infix hi (by decide) (tail_no_us h.shape) with h1 | h1
    · exact absurd h1 (front_der h hc _ (by decide))
    · unfold DerivName.tail at h1
      rcases good_cases h with ⟨c, _, hd, ho⟩ | ⟨c1, _, c2, _, hd, ho⟩
      · rcases ho with e | e | e | e
        · rw [e] at h1; simp at h1
        · rw [e] at h1; simp at h1
        · rw [e] at h1; simp at h1
        · exact e
      · rw [ho] at h1; simp at h1
  · intro e
    exact ⟨d.front, d.comps ++ d.dirs, by simp [DerivName.tail, e]⟩

theorem cname_noT {gfs d} (h : Good gfs fiveOps d) (o : Nat) (T : Dict Str ℚ) (e : Expr) : 'T' ∉ FDF.cname ⟨o, d.operator, T, e⟩ := by
  unfold FDF.cname DerivName.operator
  simp only [List.mem_append, not_or]
  exact ⟨⟨⟨by decide, op_noT h, digits_no h.shape.dirs (by decide)⟩, by decide⟩,
    fun hd => absurd (isDigit_of_mem_dec hd) (by decide)⟩

theorem call_eq (L : Lib) {gfs d} (h : Good gfs fiveOps d) (hc : ∀ gf ∈ gfs, CleanGf gf) (hp : ∀ gf ∈ gfs, ¬ fdproto <:+: gf)
    (o : Nat) (T : Dict Str ℚ) (e : Expr) : FDF.call L ⟨o, d.operator, T, e⟩ d.base d.name =
      ⟨fdLhs d, FDF.cname ⟨o, d.operator, T, e⟩, (sortedStr (FDF.symbols L ⟨o, d.operator, T, e⟩)).map (replaceAll fdproto d.base)⟩ := by
  unfold FDF.call
  have hv : (if (containsSub (c% "_dupD") d.name || containsSub (c% "_ddnD") d.name) = true then (c% "UpwindAlgInput") ++ d.name
      else d.name) = fdLhs d := by
    unfold fdLhs upw
    have h1 := name_dup_iff h hc
    have h2 := name_ddn_iff h hc
    by_cases a : d.op = (c% "dupD")
    · rw [h1.2 a, a]; simp
    · by_cases b : d.op = (c% "ddnD")
      · rw [h2.2 b, b]; simp
      · have a' : containsSub (c% "_dupD") d.name = false := by rw [Bool.eq_false_iff]; exact fun h => a (h1.1 h)
        have b' : containsSub (c% "_ddnD") d.name = false := by rw [Bool.eq_false_iff]; exact fun h => b (h2.1 h)
        simp [a', b', a, b]
  simp only
  rw [hv, replaceAll_none _ _ _ (fdLhs_proto h hp), replaceAll_none _ _ _ (noT_infix (cname_noT h o T e))]

theorem cname_inj {o : Nat} {a b : Str} {T T' : Dict Str ℚ} {e e' : Expr} (h : FDF.cname ⟨o, a, T, e⟩ = FDF.cname ⟨o, b, T', e'⟩) :
    a = b := by
  unfold FDF.cname at h
  simp only [List.append_assoc] at h
  have h := List.append_cancel_left h
  exact List.append_cancel_right h

theorem replaceAll_toGf (gf n : Str) : replaceAll fdproto gf n = toGf gf n := by
  unfold toGf
  split
  · rfl
  · rename_i h
    rw [containsSub_iff] at h
    exact replaceAll_none _ _ _ h

theorem const_mark {n : Str} (h : Reserved part1 n) : containsSub (c% "FDPart1_") n = true := by
  rw [containsSub_iff]
  obtain ⟨q, -, rfl⟩ := h
  unfold constName ratName negName part1
  split
  · exact (show (c% "FDPart1_") <+: _ from ⟨(c% "NegativeOne_"), rfl⟩).isInfix
  · split
    · simp only [List.append_assoc]
      exact (show (c% "FDPart1_") <+: _ from ⟨(c% "Rational_") ++ _, rfl⟩).isInfix
    · simp only [List.append_assoc]
      exact (show (c% "FDPart1_") <+: _ from ⟨(c% "Integer_") ++ _, rfl⟩).isInfix

/-! ## Functions -/

/-- What is known of a prototype. -/
structure ProtoOk (I : Interp ℝ) (L : Lib) (m : Nat) (d : DerivName) (r : Expr × Dict Str ℚ) : Prop where
  consts : Consts part1 r.2
  fine : Fine (po part1) L.isFun r.1
  free : ∀ n ∈ r.1.free, n ∈ r.2.keys ∨ (∃ t ∈ protoTerms m fdproto d.operator, n = t.2) ∨ n ∈ invs d
  value : ∀ ρ : Str → ℝ, eval I (withTable r.2 ρ) r.1 =
    ((protoTerms m fdproto d.operator).map fun t => (t.1 : ℝ) * ρ t.2).sum * ((invs d).map ρ).prod

theorem proto_term_shape {m : Nat} {op : Str} {t : ℚ × Str} (ht : t ∈ protoTerms m fdproto op) : ∃ a, t.2 = fdproto ++ sufStr a := by
  obtain ⟨ct, -, rfl⟩ := List.mem_map.1 ht
  exact ⟨_, rfl⟩

theorem ProtoOk.symbols {I : Interp ℝ} {L : Lib} (hL : KLibOk I L) {m : Nat} {gfs d} (hd : Good gfs fiveOps d)
    {r : Expr × Dict Str ℚ} (h : ProtoOk I L m d r) (o : Nat) (n : Str) :
    n ∈ FDF.symbols L ⟨o, d.operator, r.2, r.1⟩ ↔ n ∈ r.1.free ∧ n ∉ r.2.keys := by
  unfold FDF.symbols
  simp only [List.mem_filter, List.mem_dedup, decide_eq_true_eq, hL.p1.order]
  refine and_congr_right fun hf => ⟨fun hc hk => ?_, fun hk => ?_⟩
  · rw [const_mark (h.consts.keys hk)] at hc; cases hc
  · rw [Bool.eq_false_iff]
    intro hc
    rw [containsSub_iff] at hc
    rcases (h.free n hf).resolve_left hk with ⟨t, ht, rfl⟩ | hi
    · obtain ⟨a, ha⟩ := proto_term_shape ht
      rw [ha] at hc
      have h1 : 'a' ∈ fdproto ++ sufStr a := hc.subset (by decide)
      rcases List.mem_append.1 h1 with h2 | h2
      · exact absurd h2 (by decide)
      · rcases mem_sufStr h2 with h3 | h3
        · exact absurd h3 (by decide)
        · exact absurd h3 (by decide)
    · obtain ⟨c, hcd, rfl⟩ := List.mem_map.1 hi
      have h1 : 'F' ∈ (c% "invdxx") ++ [c] := hc.subset (by decide)
      have h2 := hd.dirs c hcd
      revert h1
      simp only [List.mem_cons, List.not_mem_nil, or_false] at h2
      rcases h2 with rfl | rfl | rfl <;> decide

theorem fun_spec {I : Interp ℝ} {L : Lib} (hL : KLibOk I L) {m : Nat} {gfs d} (hd : Good gfs fiveOps d)
    {r : Expr × Dict Str ℚ} (h : ProtoOk I L m d r) (golden : Bool) (o : Nat) :
    ∃ b, cCodegen L (partOpts part1 golden r.2) [r.1] [resultName] = .ok b ∧
      Scoped (· ∈ sortedStr (FDF.symbols L ⟨o, d.operator, r.2, r.1⟩)) (b.code.map fun p => (p.1, p.2.free)) ∧
      (c% "FD_result") ∈ b.code.map Prod.fst ∧
      ∀ τ : Str → ℝ, exec I b.code τ (c% "FD_result") = eval I (withTable r.2 τ) r.1 := by
  have hnp : ∀ n ∈ r.1.free, n ∈ r.2.keys ∨ (¬ Part n ∧ n ≠ resultName) := by
    intro n hn
    rcases h.free n hn with hk | ⟨t, ht, rfl⟩ | hi
    · exact .inl hk
    · obtain ⟨a, ha⟩ := proto_term_shape ht
      rw [ha]
      exact .inr ⟨proto_part _, by simp [resultName, fdproto]⟩
    · obtain ⟨c, -, rfl⟩ := List.mem_map.1 hi
      exact .inr ⟨inv_part _, by simp [resultName]⟩
  obtain ⟨b, b1, b2, b3, b4, b5, b6, -⟩ := part_spec part_p1 hL.p1 golden r.2 h.consts.wf (fun n hn => h.consts.keys hn) (.inr rfl)
    [(resultName, r.1)] (by simp [names]) (by simp only [names, List.map_cons, List.map_nil, List.mem_singleton, forall_eq]; unfold Part; decide)
    (by
      simp only [names, List.map_cons, List.map_nil, List.mem_singleton, forall_eq]
      intro hf
      rcases hnp _ hf with hk | hk
      · exact absurd (reserved_part part_p1 (h.consts.keys hk)) (by unfold Part; decide)
      · exact hk.2 rfl)
    (by
      simp only [List.mem_singleton, forall_eq]
      exact fun n hn => (hnp n hn).imp_right And.left)
    (by
      simp only [List.mem_singleton, forall_eq]
      exact fun _ _ => h.fine)
  refine ⟨b, b1, ?_, ?_, fun τ => b6 τ (resultName, r.1) (by simp)⟩
  · refine scoped_code b2 b3 ?_ ?_
    · rintro n ⟨-, hk, q, hq, hf⟩
      simp only [List.mem_singleton] at hq
      subst hq
      rw [mem_sortedStr, h.symbols hL hd]
      exact ⟨hf, hk⟩
    · intro n hn hs
      rw [mem_sortedStr, h.symbols hL hd] at hs
      have hh := (hnp n hs.1).resolve_left hs.2
      rcases b4 n hn with h' | h'
      · simp only [names, List.map_cons, List.map_nil, List.mem_singleton] at h'
        exact hh.2 h'
      · exact hh.1 (part_p1.trans h')
  · exact b5 resultName (by simp [names])

/-- Calling the function of an operator gives the finite difference of the gridfunction. -/
theorem call_value {I : Interp ℝ} {L : Lib} (hL : KLibOk I L) {m : Nat} {gfs d} (hd : Good gfs fiveOps d)
    {r : Expr × Dict Str ℚ} (h : ProtoOk I L m d r) (o : Nat) (σ : Str → ℝ) :
    eval I (withTable r.2 (bindParams (sortedStr (FDF.symbols L ⟨o, d.operator, r.2, r.1⟩))
      (((sortedStr (FDF.symbols L ⟨o, d.operator, r.2, r.1⟩)).map (replaceAll fdproto d.base)).map σ))) r.1 = fdValue m d σ := by
  have h1 : eval I (withTable r.2 (bindParams (sortedStr (FDF.symbols L ⟨o, d.operator, r.2, r.1⟩))
      (((sortedStr (FDF.symbols L ⟨o, d.operator, r.2, r.1⟩)).map (replaceAll fdproto d.base)).map σ))) r.1 =
      eval I (withTable r.2 fun n => σ (toGf d.base n)) r.1 := by
    refine eval_congr I _ fun n hn => ?_
    by_cases hk : n ∈ r.2.keys
    · obtain ⟨q, hq⟩ := (Dict.mem_keys_iff _ _).1 hk
      unfold withTable
      rw [hq]
    · rw [withTable_keys hk, withTable_keys hk, bindParams_map, replaceAll_toGf]
      rw [mem_sortedStr, h.symbols hL hd]
      exact ⟨hn, hk⟩
  rw [h1, h.value]
  unfold fdValue
  congr 1
  · unfold protoTerms
    rw [List.map_map, List.map_map]
    congr 1
    apply List.map_congr_left
    intro ct _
    simp only [Function.comp, toGf_tmp]
  · congr 1
    apply List.map_congr_left
    intro n hn
    obtain ⟨c, hc, rfl⟩ := List.mem_map.1 hn
    rw [toGf_inv (hd.dirs c hc)]

theorem args_sub {I : Interp ℝ} {L : Lib} (hL : KLibOk I L) {m : Nat} {gfs d} (hd : Good gfs fiveOps d)
    {r : Expr × Dict Str ℚ} (h : ProtoOk I L m d r) (o : Nat) :
    ∀ n ∈ (sortedStr (FDF.symbols L ⟨o, d.operator, r.2, r.1⟩)).map (replaceAll fdproto d.base),
      (∃ t ∈ protoTerms m d.base d.operator, n = t.2) ∨ n ∈ invs d := by
  intro n hn
  obtain ⟨n', hn', rfl⟩ := List.mem_map.1 hn
  rw [mem_sortedStr, h.symbols hL hd] at hn'
  rw [replaceAll_toGf]
  rcases (h.free n' hn'.1).resolve_left hn'.2 with ⟨t, ht, rfl⟩ | hi
  · obtain ⟨ct, hct, rfl⟩ := List.mem_map.1 ht
    exact .inl ⟨_, List.mem_map.2 ⟨ct, hct, rfl⟩, toGf_tmp _ _⟩
  · refine .inr ?_
    obtain ⟨c, hc, e⟩ := List.mem_map.1 hi
    rw [← e, toGf_inv (hd.dirs c hc)]
    exact List.mem_map.2 ⟨c, hc, rfl⟩

/-! ## Calls -/

theorem calls_spec (I : Interp ℝ) (funs : List FFun) (val : Call → (Str → ℝ) → ℝ) : ∀ (cs : List Call) (σ : Str → ℝ),
    (cs.map Call.lhs).Nodup → (∀ c ∈ cs, ∀ c' ∈ cs, c'.lhs ∉ c.args) →
    (∀ c ∈ cs, ∃ f, funs.find? (fun f => f.name = c.fn) = some f ∧ ∀ τ : Str → ℝ, f.value I (c.args.map τ) = val c τ) →
    (∀ c τ τ', (∀ n ∈ c.args, τ n = τ' n) → val c τ = val c τ') →
    (∀ c ∈ cs, cs.foldl (runCall I funs) σ c.lhs = val c σ) ∧
      ∀ n, n ∉ cs.map Call.lhs → cs.foldl (runCall I funs) σ n = σ n
  | [], σ, _, _, _, _ => by simp
  | c :: cs, σ, hnd, ha, hf, hv => by
    rw [List.map_cons, List.nodup_cons] at hnd
    obtain ⟨f, hf1, hf2⟩ := hf c (by simp)
    have hstep : runCall I funs σ c = Function.update σ c.lhs (val c σ) := by
      unfold runCall
      rw [hf1]
      simp only [hf2]
    obtain ⟨i1, i2⟩ := calls_spec I funs val cs (Function.update σ c.lhs (val c σ)) hnd.2
      (fun c1 h1 c2 h2 => ha c1 (List.mem_cons_of_mem _ h1) c2 (List.mem_cons_of_mem _ h2))
      (fun c1 h1 => hf c1 (List.mem_cons_of_mem _ h1)) hv
    rw [List.foldl_cons, hstep]
    constructor
    · intro c1 h1
      rcases List.mem_cons.1 h1 with rfl | h1
      · rw [i2 _ hnd.1, Function.update_self]
      · rw [i1 c1 h1]
        apply hv
        intro n hn
        rw [Function.update_of_ne]
        rintro rfl
        exact ha c1 (List.mem_cons_of_mem _ h1) c (by simp) hn
    · intro n hn
      rw [List.map_cons, List.mem_cons, not_or] at hn
      rw [i2 n hn.2, Function.update_of_ne hn.1]

theorem withTable_nil (ρ : Str → ℝ) : withTable [] ρ = ρ := rfl

theorem scoped_calls {known : Str → Prop} : ∀ {l : List (Str × List Str)} , (l.map Prod.fst).Nodup →
    (∀ p ∈ l, ∀ n ∈ p.2, known n) → (∀ n ∈ l.map Prod.fst, ¬ known n) → Scoped known l
  | [], _, _, _ => trivial
  | p :: l, hnd, ha, hk => by
    rw [List.map_cons, List.nodup_cons] at hnd
    refine ⟨ha p (by simp), hk p.1 (by simp), scoped_calls hnd.2 (fun q hq n hn => .inl (ha q (by simp [hq]) n hn)) ?_⟩
    rintro n hn (h | h)
    · exact hk n (by simp only [List.map_cons, List.mem_cons]; exact .inr hn) h
    · exact hnd.1 (h ▸ hn)

theorem fdValue_congr (m : Nat) (d : DerivName) {τ τ' : Str → ℝ} (h : ∀ n, (∃ t ∈ protoTerms m d.base d.operator, n = t.2) ∨
    n ∈ invs d → τ n = τ' n) : fdValue m d τ = fdValue m d τ' := by
  unfold fdValue
  congr 2
  · exact List.map_congr_left fun t ht => by rw [h t.2 (.inl ⟨t, ht, rfl⟩)]
  · exact List.map_congr_left fun n hn => h n (.inr hn)

set_option maxHeartbeats 4000000 in
/-- **C80.** With `enable_fd_functions` the kernel and the functions it calls compile, every function is there once, and the
kernel computes the expressions. -/
theorem C80_kernel_partial {I : Interp ℝ} {L : Lib} (hL : KLibOk I L) {gfs cps : List Str} {ext : Env} {inv : Char → ℝ}
    {es : List Expr} {outs : List Str} (H : Setting gfs cps (es.flatMap L.order) ext inv) (hC : Clear gfs cps ext es outs)
    (hproto : ∀ gf ∈ gfs, ¬ (c% "FDPROTO") <:+: gf)
    (m : Nat) (hm : 1 ≤ m) (style : Str) (hs : style = (c% "210") ∨ style = (c% "012")) (type : Str)
    (control : Option (List Str)) (mem : Mem)
    (hcon : ∀ cs, control = some cs → cs.length = 3 ∧
      ∀ s ∈ cs, (∃ x, ext s = some x) ∨ (s ∈ gfs ∧ ∃ e ∈ es, s ∈ e.free))
    (golden : Bool) (hfine : golden = true → ∀ e ∈ es, Fine (po part3) L.isFun e) :
    ∃ K, kernelF L [] gfs cps style (2 * m) type control golden es outs = .ok K ∧
      K.Compiles (fun n => ∃ x, ext n = some x) ∧
      Computes gfs cps ext inv m control mem I es outs (K.run mem I) := by
  classical
  have hfp := hproto
  obtain ⟨ds, rs, D, hex, hg, hr1, hD1, hD3, hD5, hrne, core⟩ := kernel_core hL H hC m hm style hs control mem hcon golden hfine
  -- the prototypes
  have hproto : ∀ op, ∃ r : Expr × Dict Str ℚ, ∀ d ∈ ds, d.operator = op → protoFD L (2 * m) d.operator = .ok r := by
    intro op
    by_cases h : ∃ d ∈ ds, d.operator = op
    · obtain ⟨d, hd, rfl⟩ := h
      obtain ⟨r, hr, -⟩ := proto_spec hL (hg d hd) m hm
      exact ⟨r, fun d' _ h' => by rw [h']; exact hr⟩
    · exact ⟨(.num 0, []), fun d hd h' => absurd ⟨d, hd, h'⟩ h⟩
  choose pr hpr' using hproto
  have hpr : ∀ d ∈ ds, protoFD L (2 * m) d.operator = .ok (pr d.operator) := fun d hd => hpr' _ d hd rfl
  have hps : ∀ d ∈ ds, ProtoOk I L m d (pr d.operator) := by
    intro d hd
    obtain ⟨r, hr, h1, h2, h3, h4⟩ := proto_spec hL (hg d hd) m hm
    rw [hpr d hd] at hr
    rw [Except.ok.inj hr]
    exact ⟨h1, h2, h3, h4⟩
  set ops := sortedStr (superfastUniq (ds.map DerivName.operator)) with hopsdef
  have hops : ∀ op, op ∈ ops ↔ op ∈ ds.map DerivName.operator := by
    intro op
    rw [hopsdef, mem_sortedStr, (C29_superfast_uniq _).mem]
  have hopsnd : ops.Nodup := (Verif.FD.sortedStr_perm _).nodup_iff.2 (C29_superfast_uniq _).nodup
  -- the statements
  let E : DerivName → Expr := fun d => fdExpr (protoTerms m d.base d.operator) (invs d)
  obtain ⟨hn1, hn2, hn3, core⟩ := core [] (Consts.nil _) E
    (fun d _ n hn => .inr ((free_fdExpr _ _ _).1 hn))
    (fun d _ ρ => by rw [withTable_nil]; exact eval_fdExpr I ρ _ _)
  set all := p1List ds E D (control.getD []) with hall'
  let fdef : Str → FDF := fun op => ⟨2 * m, op, (pr op).2, (pr op).1⟩
  let callOf : DerivName → Call := fun d => ⟨fdLhs d, (fdef d.operator).cname,
    (sortedStr ((fdef d.operator).symbols L)).map (replaceAll fdproto d.base)⟩
  let cops : List Repl := D.map fun k => ((c% "UpwindControlVectorU") ++ dec k, .sym ((control.getD []).getD k []))
  have hperm : all.Perm (ds.map (fun d => (fdLhs d, E d)) ++ cops) := sortByName_perm _
  have hnperm : (names all).Perm (ds.map fdLhs ++ names cops) := by
    have := hperm.map Prod.fst
    simpa [names, List.map_append, List.map_map, Function.comp_def] using this
  have hnd := (hnperm.nodup_iff).1 hn1
  obtain ⟨hnd1, hnd2, hdis⟩ := List.nodup_append.1 hnd
  have hmem1 : ∀ d ∈ ds, fdLhs d ∈ names all := fun d hd => hnperm.mem_iff.2 (List.mem_append_left _ (List.mem_map_of_mem hd))
  have hmem2 : ∀ n ∈ names cops, n ∈ names all := fun n hn => hnperm.mem_iff.2 (List.mem_append_right _ hn)
  have hq1 : ∀ d ∈ ds, (fdLhs d, E d) ∈ all := fun d hd => hperm.mem_iff.2 (List.mem_append_left _ (List.mem_map.2 ⟨d, hd, rfl⟩))
  have hq2 : ∀ q ∈ cops, q ∈ all := fun q hq => hperm.mem_iff.2 (List.mem_append_right _ hq)
  have hpure : ∀ q ∈ all, ∀ n ∈ q.2.free, ¬ Part n ∧ Pure n := by
    intro q hq n hn
    rcases hn3 q hq n hn with h | h
    · simp [Dict.keys] at h
    · exact h
  -- the functions
  have hfun : ∀ op, ∃ b : Prog, ∀ d ∈ ds, d.operator = op → cCodegen L (partOpts part1 golden (pr op).2) [(pr op).1] [resultName] = .ok b ∧
      Scoped (· ∈ sortedStr ((fdef op).symbols L)) (b.code.map fun p => (p.1, p.2.free)) ∧
      (c% "FD_result") ∈ b.code.map Prod.fst ∧
      ∀ τ : Str → ℝ, exec I b.code τ (c% "FD_result") = eval I (withTable (pr op).2 τ) (pr op).1 := by
    intro op
    by_cases h : ∃ d ∈ ds, d.operator = op
    · obtain ⟨d, hd, rfl⟩ := h
      obtain ⟨b, hb⟩ := fun_spec hL (hg d hd) (hps d hd) golden (2 * m)
      exact ⟨b, fun _ _ _ => hb⟩
    · exact ⟨⟨[], [], []⟩, fun d hd h' => absurd ⟨d, hd, h'⟩ h⟩
  choose bd hbd using hfun
  let ffun : Str → FFun := fun op => ⟨(fdef op).cname, sortedStr ((fdef op).symbols L), bd op⟩
  have hfop : ∀ op ∈ ops, ∃ d ∈ ds, d.operator = op := fun op hop => List.mem_map.1 ((hops op).1 hop)
  have hfind : ∀ d ∈ ds, (ops.map ffun).find? (fun f => f.name = (fdef d.operator).cname) = some (ffun d.operator) := by
    intro d hd
    have : ∀ l : List Str, d.operator ∈ l → (l.map ffun).find? (fun f => f.name = (fdef d.operator).cname) = some (ffun d.operator) := by
      intro l
      induction l with
      | nil => intro h; simp at h
      | cons a l ih =>
        intro h
        rw [List.map_cons, List.find?_cons]
        by_cases e : (ffun a).name = (fdef d.operator).cname
        · have ea : a = d.operator := cname_inj e
          subst ea
          rw [decide_eq_true e]
        · rw [decide_eq_false e]
          exact ih ((List.mem_cons.1 h).resolve_left fun h' => e (by rw [h']))
    exact this ops ((hops _).2 (List.mem_map_of_mem hd))
  have hregget : ∀ d ∈ ds, Dict.get? (ops.map fun op => (op, fdef op)) d.operator = some (fdef d.operator) := by
    intro d hd
    have : ∀ l : List Str, d.operator ∈ l → Dict.get? (l.map fun op => (op, fdef op)) d.operator = some (fdef d.operator) := by
      intro l
      induction l with
      | nil => intro h; simp at h
      | cons a l ih =>
        intro h
        rw [List.map_cons]
        unfold Dict.get?
        by_cases e : a = d.operator
        · subst e; simp
        · simp only [beq_iff_eq, e, if_false]
          simp [e, ih ((List.mem_cons.1 h).resolve_left fun h' => e h'.symm)]
    exact this ops ((hops _).2 (List.mem_map_of_mem hd))
  -- the control vector
  obtain ⟨cp, c1, c2, c3, c4, c5, c6, c7⟩ := part_spec part_p1 hL.p1 golden [] (Consts.nil part1).wf (by simp [Dict.keys]) (.inl rfl) cops
    hnd2 (fun n hn => (hn2 n (hmem2 n hn)).1)
    (fun n hn q hq hf => (hn2 n (hmem2 n hn)).2 (hpure q (hq2 q hq) n hf).2)
    (fun q hq n hn => .inr (hpure q (hq2 q hq) n hn).1)
    (by
      intro _ _ q hq
      obtain ⟨k, -, rfl⟩ := List.mem_map.1 hq
      exact .sym _)
  -- the calls
  have hargs : ∀ d ∈ ds, ∀ n ∈ (callOf d).args, n ∈ (E d).free := fun d hd n hn =>
    (free_fdExpr _ _ _).2 (args_sub hL (hg d hd) (hps d hd) (2 * m) n hn)
  let calls := sortCalls (ds.map callOf)
  have hcperm : calls.Perm (ds.map callOf) := sortCalls_perm _
  have hcm : ∀ c, c ∈ calls ↔ ∃ d ∈ ds, callOf d = c := fun c => by rw [hcperm.mem_iff, List.mem_map]
  have hlperm : (calls.map Call.lhs).Perm (ds.map fdLhs) := by
    have := hcperm.map Call.lhs
    rwa [List.map_map] at this
  have hrun : ∀ σ : Str → ℝ, (∀ d ∈ ds, calls.foldl (runCall I (ops.map ffun)) σ (fdLhs d) = fdValue m d σ) ∧
      ∀ n, n ∉ ds.map fdLhs → calls.foldl (runCall I (ops.map ffun)) σ n = σ n := by
    intro σ
    have hval : ∀ d ∈ ds, ∀ τ : Str → ℝ, (ffun d.operator).value I ((callOf d).args.map τ) = fdValue m d τ := by
      intro d hd τ
      unfold FFun.value
      rw [(hbd d.operator d hd rfl).2.2.2]
      exact call_value hL (hg d hd) (hps d hd) (2 * m) τ
    obtain ⟨r1, r2⟩ := calls_spec I (ops.map ffun) (fun c τ => match (ops.map ffun).find? (fun f => f.name = c.fn) with
        | some f => f.value I (c.args.map τ)
        | none => 0) calls σ (hlperm.nodup_iff.2 hnd1)
      (by
        intro c hc c' hc' hin
        obtain ⟨d, hd, rfl⟩ := (hcm c).1 hc
        obtain ⟨d', hd', rfl⟩ := (hcm c').1 hc'
        exact (hn2 _ (hmem1 d' hd')).2 (hpure _ (hq1 d hd) _ (hargs d hd _ hin)).2)
      (by
        intro c hc
        obtain ⟨d, hd, rfl⟩ := (hcm c).1 hc
        refine ⟨ffun d.operator, hfind d hd, fun τ => ?_⟩
        have : (ops.map ffun).find? (fun f => f.name = (callOf d).fn) = some (ffun d.operator) := hfind d hd
        rw [this])
      (by
        intro c τ τ' h
        have : c.args.map τ = c.args.map τ' := List.map_congr_left h
        simp only [this])
    refine ⟨fun d hd => ?_, fun n hn => r2 n fun h => hn (hlperm.mem_iff.1 h)⟩
    have h := r1 (callOf d) ((hcm _).2 ⟨d, hd, rfl⟩)
    have h2 : (ops.map ffun).find? (fun f => f.name = (callOf d).fn) = some (ffun d.operator) := hfind d hd
    rw [h2] at h
    rw [← hval d hd σ]
    exact h
  have hfst : (calls.map (fun c => (c.lhs, c.args)) ++ cp.code.map fun p => (p.1, p.2.free)).map Prod.fst =
      calls.map Call.lhs ++ names cp.code := by
    simp [names, List.map_map, Function.comp_def]
  have hP1 : P1Ok I [] all (calls.map (fun c => (c.lhs, c.args)) ++ cp.code.map fun p => (p.1, p.2.free))
      fun σ => exec I cp.code (calls.foldl (runCall I (ops.map ffun)) σ) := {
    scope := by
      intro known hk hn
      rw [hfst] at hn
      have hfst1 : (calls.map fun c => (c.lhs, c.args)).map Prod.fst = calls.map Call.lhs := by
        rw [List.map_map]; rfl
      refine scoped_append (scoped_calls ?_ ?_ ?_) (scoped_code c2 c3 ?_ ?_)
      · rw [hfst1]; exact hlperm.nodup_iff.2 hnd1
      · intro p hp n hin
        obtain ⟨c, hc, rfl⟩ := List.mem_map.1 hp
        obtain ⟨d, hd, rfl⟩ := (hcm c).1 hc
        exact hk n (by simp [Dict.keys]) ⟨_, hq1 d hd, hargs d hd n hin⟩
      · rw [hfst1]
        exact fun n h => hn n (List.mem_append_left _ h)
      · rintro n ⟨-, -, q, hq, hf⟩
        exact .inl (hk n (by simp [Dict.keys]) ⟨q, hq2 q hq, hf⟩)
      · rintro n h (h' | h')
        · exact hn n (List.mem_append_right _ h) h'
        · rw [hfst1] at h'
          have hl := hlperm.mem_iff.1 h'
          obtain ⟨d, hd, rfl⟩ := List.mem_map.1 hl
          rcases c4 _ h with h2 | h2
          · exact hdis _ hl _ h2 rfl
          · exact (hn2 _ (hmem1 d hd)).1 (part_p1.trans h2)
    only := by
      intro n hn
      rw [hfst, List.mem_append] at hn
      rcases hn with h | h
      · exact .inl (hnperm.mem_iff.2 (List.mem_append_left _ (hlperm.mem_iff.1 h)))
      · exact (c4 n h).imp_left (hmem2 n)
    every := by
      intro n hn
      rw [hfst, List.mem_append]
      rcases List.mem_append.1 (hnperm.mem_iff.1 hn) with h | h
      · exact .inl (hlperm.mem_iff.2 h)
      · exact .inr (c5 n h)
    value := by
      intro σ q hq
      obtain ⟨r1, r2⟩ := hrun σ
      rw [withTable_nil]
      rcases List.mem_append.1 (hperm.mem_iff.1 hq) with h | h
      · obtain ⟨d, hd, rfl⟩ := List.mem_map.1 h
        simp only
        rw [c7 _ _ (hn2 _ (hmem1 d hd)).1 (fun h => hdis _ (List.mem_map_of_mem hd) _ h rfl), r1 d hd]
        exact (eval_fdExpr I σ _ _).symm
      · rw [c6 _ q h, withTable_nil]
        refine eval_congr I _ fun n hn => r2 n fun h' => ?_
        obtain ⟨d, hd, rfl⟩ := List.mem_map.1 h'
        exact (hn2 _ (hmem1 d hd)).2 (hpure q hq _ hn).2
    keep := by
      intro σ n hp hn
      rw [c7 _ _ hp (fun h => hn (hmem2 n h)), (hrun σ).2 n fun h => hn (hnperm.mem_iff.2 (List.mem_append_left _ h))] }
  have hreg : register [] (2 * m) (ops.map fun op => (op, pr op)) = .ok (ops.map fun op => (op, fdef op)) :=
    register_nil (2 * m) pr ops hopsnd
  have hzip : (ds.map DerivName.name).zip ((ds.map DerivName.base).zip (ds.map DerivName.operator)) =
      ds.map fun d => (d.name, d.base, d.operator) := by
    rw [zip_map_map, zip_map_map]
  by_cases hr : rs = []
  · obtain ⟨h1, h2⟩ := hrne hr
    have ha : all = [] := by rw [hall', p1List, h1, h2]; rfl
    obtain ⟨p2, p3, p2e, p3e, hsc, hval⟩ := core [] id ⟨fun _ _ _ => trivial, by simp, by rw [ha]; simp [names], by rw [ha]; simp,
      fun _ _ _ _ => rfl⟩
    obtain ⟨hf, hb⟩ := parts_eq H.toReg m hm style control (fun cs h => (hcon cs h).1) golden ds hex hg rs D hr1 hD1 hD3
      hD5 pr hpr p2 p3 p2e p3e
    refine ⟨⟨[], rs, [], ⟨[], [], []⟩, algsOf D, p2, p3⟩, ?_, ⟨hsc, by simp, by simp, by simp, by simp, by simp⟩, hval⟩
    unfold kernelF
    rw [if_neg (by simpa using hC.len)]
    have hk : Dict.keys ([] : Dict Str FDF) = [] := rfl
    rw [hk, hf]
    simp only [bind, Except.bind]
    rw [hreg]
    simp only
    rw [hb, firstPartF, if_pos hr]
  · obtain ⟨p2, p3, p2e, p3e, hsc, hval⟩ := core _ _ hP1
    obtain ⟨hf, hb⟩ := parts_eq H.toReg m hm style control (fun cs h => (hcon cs h).1) golden ds hex hg rs D hr1 hD1 hD3
      hD5 pr hpr p2 p3 p2e p3e
    refine ⟨⟨ops.map ffun, rs, calls, cp, algsOf D, p2, p3⟩, ?_, ⟨hsc, ?_, ?_, ?_, ?_, ?_⟩, hval⟩
    · unfold kernelF
      rw [if_neg (by simpa using hC.len)]
      have hk : Dict.keys ([] : Dict Str FDF) = [] := rfl
      rw [hk, hf]
      simp only [bind, Except.bind]
      rw [hreg]
      simp only
      rw [hb, hzip]
      have hf1 : firstPartF L golden type (ops.map fun op => (op, fdef op)) rs (ds.map fun d => (d.name, d.base, d.operator)) cops =
          .ok (ops.map ffun, calls, cp) := by
        unfold firstPartF
        rw [if_neg hr]
        have e1 : (ds.map fun d => (d.name, d.base, d.operator)).mapM (callEntry L (ops.map fun op => (op, fdef op))) =
            .ok (ds.map callOf) := by
          apply mapM_map_ok
          intro d hd
          unfold callEntry
          simp only [hregget d hd]
          rw [show fdef d.operator = ⟨2 * m, d.operator, (pr d.operator).2, (pr d.operator).1⟩ from rfl,
            call_eq L (hg d hd) H.clean hfp]
        have e2 : List.mapM (funEntry L golden type) (ops.map fun op => (op, fdef op)) = .ok (ops.map ffun) := by
          apply mapM_map_ok
          intro op hop
          obtain ⟨d, hd, rfl⟩ := hfop op hop
          unfold funEntry
          simp only
          rw [show cCodegen L (partOpts part1 golden (fdef d.operator).table) [(fdef d.operator).expr] [resultName] = _ from
            (hbd d.operator d hd rfl).1]
          simp only
          rw [paramNames]
        rw [e1, e2, c1]
        rfl
      rw [show (D.map fun k => ((c% "UpwindControlVectorU") ++ dec k, Expr.sym ((control.getD []).getD k []))) = cops from rfl, hf1]
    · rw [List.map_map]
      exact List.Nodup.map_on (fun a _ b _ h => cname_inj h) hopsnd
    · intro c hc
      obtain ⟨d, hd, rfl⟩ := (hcm c).1 hc
      refine ⟨ffun d.operator, List.mem_map_of_mem ((hops _).2 (List.mem_map_of_mem hd)), rfl, ?_⟩
      simp [ffun, callOf]
    · intro f hf
      obtain ⟨op, hop, rfl⟩ := List.mem_map.1 hf
      refine (Verif.FD.sortedStr_perm _).nodup_iff.2 (List.Nodup.filter _ (List.nodup_dedup _))
    · intro f hf
      obtain ⟨op, hop, rfl⟩ := List.mem_map.1 hf
      obtain ⟨d, hd, e⟩ := hfop op hop
      exact (hbd op d hd e).2.1
    · intro f hf
      obtain ⟨op, hop, rfl⟩ := List.mem_map.1 hf
      obtain ⟨d, hd, e⟩ := hfop op hop
      exact (hbd op d hd e).2.2.1

/-! ## A concrete case -/

/-- At fourth order, upwinded along `vU`, with and without pre-processing. -/
example (I : Interp ℝ) (mem : Mem) (golden : Bool) :=
  C80_kernel_partial (exKLib_ok I) exKSetting exKClear (by decide) 2 (by omega) (c% "210") (.inl rfl) (c% "REAL")
    (some [(c% "vU0"), (c% "vU1"), (c% "vU2")]) mem (by
      intro cs h
      obtain rfl := Option.some.inj h
      exact ⟨rfl, by
        have : ∀ s ∈ [(c% "vU0"), (c% "vU1"), (c% "vU2")], s ∈ exGfs ∧ ∃ e ∈ exKEs, s ∈ e.free := by decide
        exact fun s hs => .inr (this s hs)⟩) golden (fun _ => exKFine)

/-! ## Where it fails -/

/-- If the registry holds operators of an earlier call, the functions of two operators are exchanged: the loop over the registry
takes entry number `i` for prototype number `i` (finite_difference.py:1091-1092). -/
theorem C80_registry_violation (order : Nat) (f : FDF) (a b : Expr × Dict Str ℚ) :
    register [((c% "dDD02"), f)] order [((c% "dDD01"), a), ((c% "dDD02"), b)] =
      .ok [((c% "dDD02"), ⟨order, (c% "dDD02"), b.2, a.1⟩), ((c% "dDD01"), ⟨order, (c% "dDD01"), a.2, b.1⟩)] := rfl

/-- `FDPROTO` is also replaced in the name of the derivative, so the call for a gridfunction with `FDPROTO` in its name declares
another variable than the one that is used. -/
theorem C80_name_violation (L : Lib) (e : Expr) (T : Dict Str ℚ) :
    (FDF.call L ⟨4, (c% "dD0"), T, e⟩ (c% "uFDPROTO") (c% "uFDPROTO_dD0")).lhs = (c% "uuFDPROTO_dD0") := by
  show replaceAll (c% "FDPROTO") (c% "uFDPROTO") (if (containsSub (c% "_dupD") (c% "uFDPROTO_dD0") ||
    containsSub (c% "_ddnD") (c% "uFDPROTO_dD0")) = true then (c% "UpwindAlgInput") ++ (c% "uFDPROTO_dD0") else (c% "uFDPROTO_dD0")) = _
  decide

end Verif.CodeGen
