import Verif.CodeGen.KernelLemmas

/-!
# C79: the kernel that `c_codegen` generates for gridfunctions and their derivatives
-/
namespace Verif.CodeGen
open Verif.Py Verif.Sympy Verif.Sympy.Expr Verif.CSE Verif.Helpers Verif.CFunction
open Verif.FD hiding exec exec_append

/-! ## Specification -/

/-- The reads. -/
def runReads (mem : Mem) (rs : List Read) (σ : Str → ℝ) : Str → ℝ :=
  rs.foldl (fun σ r => Function.update σ r.var (mem r.gf r.pt)) σ

/-- The upwind switches. -/
noncomputable def runAlgs (l : List (Str × Str)) (σ : Str → ℝ) : Str → ℝ :=
  l.foldl (fun σ p => Function.update σ p.1 (upwindAlg (σ p.2))) σ

/-- Running the kernel. -/
noncomputable def Kernel.run (mem : Mem) (I : Interp ℝ) (K : Kernel) (σ : Str → ℝ) : Str → ℝ :=
  exec I K.main.code (exec I K.ups.code (runAlgs K.algs (exec I K.fds.code (runReads mem K.reads σ))))

/-- The statements of the kernel: the name on the left and the names used on the right. -/
def Kernel.decls (K : Kernel) : List (Str × List Str) :=
  K.reads.map (fun r => (r.var, [])) ++ K.fds.code.map (fun p => (p.1, p.2.free)) ++ K.algs.map (fun p => (p.1, [p.2])) ++
    K.ups.code.map (fun p => (p.1, p.2.free)) ++ K.main.code.map (fun p => (p.1, p.2.free))

/-- Nothing is used before it is known, nothing known is declared again. -/
def Scoped (known : Str → Prop) : List (Str × List Str) → Prop
  | [] => True
  | (x, l) :: r => (∀ n ∈ l, known n) ∧ ¬ known x ∧ Scoped (fun n => known n ∨ n = x) r

/-- Names of the user's that do not clash with the generated ones. -/
structure Clear (gfs cps : List Str) (ext : Env) (es : List Expr) (outs : List Str) : Prop where
  gf_part : ∀ gf ∈ gfs, ¬ (c% "FDPart") <+: gf
  ext_part : ∀ n, (c% "FDPart") <+: n → ext n = none
  /-- a symbol of the expressions is in scope, or a gridfunction, or a derivative of one -/
  bound : ∀ e ∈ es, ∀ n ∈ e.free, (∃ x, ext n = some x) ∨ n ∈ gfs ∨ (n ∉ cps ∧ ∃ d, Good gfs userOps d ∧ n = d.name)
  len : outs.length = es.length
  nodup : outs.Nodup
  /-- no output is read -/
  no_alias : ∀ n ∈ outs, ∀ e ∈ es, n ∉ e.free
  outs_ok : ∀ n ∈ outs, ext n = none ∧ ¬ (c% "FDPart") <+: n ∧ ¬ (c% "Upwind") <+: n ∧
    (∀ gf ∈ gfs, ∀ a b c, fdTempName gf a b c ≠ .ok n) ∧ ∀ d, Good gfs fiveOps d → n ≠ d.name

/-! ## Agreement with the environment -/

section
variable {env : Env}

/-- On the names in `S` the valuation has the values of the environment. -/
def Ag (env : Env) (S : Str → Prop) (σ : Str → ℝ) : Prop := ∀ n x, S n → env n = some x → σ n = x

theorem ag_update {S : Str → Prop} {σ : Str → ℝ} (h : Ag env S σ) {y : Str} {v : ℝ} (hv : env y = some v) :
    Ag env (fun n => S n ∨ n = y) (Function.update σ y v) := by
  intro n x hn hx
  by_cases e : n = y
  · subst e
    rw [hv] at hx
    rw [Function.update_self]
    exact Option.some.inj hx
  · rw [Function.update_of_ne e]
    exact h n x (hn.resolve_right e) hx

theorem ag_mono {S S' : Str → Prop} {σ : Str → ℝ} (h : Ag env S σ) (hS : ∀ n x, env n = some x → S' n → S n) : Ag env S' σ :=
  fun n x hn hx => h n x (hS n x hx hn) hx

theorem ag_reads {mem : Mem} : ∀ {rs : List Read} {S : Str → Prop} {σ : Str → ℝ}, Ag env S σ →
    (∀ r ∈ rs, env r.var = some (mem r.gf r.pt)) → Ag env (fun n => S n ∨ ∃ r ∈ rs, n = r.var) (runReads mem rs σ)
  | [], S, σ, h, _ => ag_mono h (by simp)
  | r :: rs, S, σ, h, H => by
    have h1 := ag_update h (H r (by simp))
    have h2 := ag_reads h1 (fun r' hr => H r' (List.mem_cons_of_mem _ hr))
    refine ag_mono h2 fun n x _ hn => ?_
    rcases hn with h | ⟨r', hr', h⟩
    · exact .inl (.inl h)
    · rcases List.mem_cons.1 hr' with rfl | hr'
      · exact .inl (.inr h)
      · exact .inr ⟨r', hr', h⟩

theorem ag_algs : ∀ {l : List (Str × Str)} {S : Str → Prop} {σ : Str → ℝ}, Ag env S σ →
    (∀ p ∈ l, S p.2 ∧ ∃ v, env p.2 = some v ∧ env p.1 = some (upwindAlg v)) →
    Ag env (fun n => S n ∨ ∃ p ∈ l, n = p.1) (runAlgs l σ)
  | [], S, σ, h, _ => ag_mono h (by simp)
  | p :: l, S, σ, h, H => by
    obtain ⟨hs, v, hv1, hv2⟩ := H p (by simp)
    rw [← h p.2 v hs hv1] at hv2
    have h1 := ag_update h hv2
    have h2 := ag_algs h1 (fun q hq => ⟨.inl (H q (List.mem_cons_of_mem _ hq)).1, (H q (List.mem_cons_of_mem _ hq)).2⟩)
    refine ag_mono h2 fun n x _ hn => ?_
    rcases hn with h | ⟨r', hr', h⟩
    · exact .inl (.inl h)
    · rcases List.mem_cons.1 hr' with rfl | hr'
      · exact .inl (.inr h)
      · exact .inr ⟨r', hr', h⟩

theorem ag_code' {I : Interp ℝ} {F : (Str → ℝ) → Str → ℝ} {all : List Repl} {T : Dict Str ℚ} {S : Str → Prop} {σ : Str → ℝ}
    (h : Ag env S σ) (hv : ∀ q ∈ all, F σ q.1 = eval I (withTable T σ) q.2)
    (ho : ∀ n, ¬ Part n → n ∉ names all → F σ n = σ n) (hp : ∀ n x, env n = some x → ¬ Part n)
    (hx : ∀ q ∈ all, env q.1 = some (eval I (withTable T σ) q.2)) :
    Ag env (fun n => S n ∨ n ∈ names all) (F σ) := by
  intro n x hn hx'
  by_cases hm : n ∈ names all
  · obtain ⟨q, hq, rfl⟩ := List.mem_map.1 hm
    rw [hx q hq] at hx'
    rw [hv q hq]
    exact Option.some.inj hx'
  · rw [ho n (hp n x hx') hm]
    exact h n x (hn.resolve_right hm) hx'

theorem ag_code {I : Interp ℝ} {code : List Repl} {all : List Repl} {T : Dict Str ℚ} {S : Str → Prop} {σ : Str → ℝ}
    (h : Ag env S σ) (hv : ∀ q ∈ all, exec I code σ q.1 = eval I (withTable T σ) q.2)
    (ho : ∀ n, ¬ Part n → n ∉ names all → exec I code σ n = σ n) (hp : ∀ n x, env n = some x → ¬ Part n)
    (hx : ∀ q ∈ all, env q.1 = some (eval I (withTable T σ) q.2)) :
    Ag env (fun n => S n ∨ n ∈ names all) (exec I code σ) := ag_code' h hv ho hp hx
end

/-! ## Scopes -/

theorem scoped_congr {k k' : Str → Prop} (h : ∀ n, k n ↔ k' n) : ∀ {l : List (Str × List Str)}, Scoped k l → Scoped k' l
  | [], _ => trivial
  | (x, l) :: r, hs => ⟨fun n hn => (h n).1 (hs.1 n hn), fun hk => hs.2.1 ((h x).2 hk),
      scoped_congr (fun n => or_congr_left (h n)) hs.2.2⟩

theorem scoped_append {k : Str → Prop} : ∀ {A B : List (Str × List Str)}, Scoped k A →
    Scoped (fun n => k n ∨ n ∈ A.map Prod.fst) B → Scoped k (A ++ B)
  | [], B, _, hB => scoped_congr (by simp) hB
  | (x, l) :: A, B, hA, hB => by
    refine ⟨hA.1, hA.2.1, scoped_append hA.2.2 (scoped_congr (fun n => ?_) hB)⟩
    simp only [List.map_cons, List.mem_cons, or_assoc]

theorem scoped_known {k : Str → Prop} : ∀ {l : List (Str × List Str)}, Scoped k l → ∀ n ∈ l.map Prod.fst, ¬ k n
  | [], _, n, hn => by simp at hn
  | (x, l) :: r, hs, n, hn => by
    rcases List.mem_cons.1 hn with rfl | h
    · exact hs.2.1
    · exact fun hk => scoped_known hs.2.2 n h (.inl hk)

theorem scoped_code {code : List Repl} {P : Str → Prop} {known : Str → Prop} (hnd : (names code).Nodup)
    (hu : ∀ A x e B, code = A ++ (x, e) :: B → ∀ n ∈ e.free, n ∈ names A ∨ P n) (hk : ∀ n, P n → known n)
    (hn : ∀ n ∈ names code, ¬ known n) : Scoped known (code.map fun p => (p.1, p.2.free)) := by
  have key : ∀ (B A : List Repl), code = A ++ B →
      Scoped (fun n => known n ∨ n ∈ names A) (B.map fun p => (p.1, p.2.free)) := by
    intro B
    induction B with
    | nil => intro A _; trivial
    | cons p B ih =>
      intro A hA
      obtain ⟨x, e⟩ := p
      refine ⟨fun n hn' => ?_, ?_, ?_⟩
      · exact (hu A x e B hA n hn').symm.imp_left (hk n)
      · rintro (h | h)
        · exact hn x (by rw [hA]; simp [names]) h
        · rw [hA] at hnd
          simp only [names, List.map_append, List.map_cons] at hnd h
          exact (List.nodup_append.1 hnd).2.2 _ h _ (by simp) rfl
      · refine scoped_congr (fun n => ?_) (ih (A ++ [(x, e)]) (by rw [hA]; simp))
        simp [names, or_assoc]
  exact scoped_congr (by simp [names]) (key code [] rfl)

/-! ## The parts -/

theorem reserved_pre {pre n : Str} (h : Reserved pre n) : pre <+: n := by
  obtain ⟨q, -, rfl⟩ := h
  unfold constName ratName negName
  split
  · exact List.prefix_append _ _
  · split
    · simp only [List.append_assoc]; exact List.prefix_append _ _
    · simp only [List.append_assoc]; exact List.prefix_append _ _

/-- One part: the code generated for the pairs `all` of names and expressions. -/
theorem part_spec {I : Interp ℝ} {L : Lib} {pre : Str} (hpre : Part pre) (hL : LibOk I L pre) (golden : Bool) (T : Dict Str ℚ)
    (hT : T.Wf) (hTk : ∀ n ∈ T.keys, Reserved part1 n) (hTp : T = [] ∨ pre = part1) (all : List Repl)
    (hnd : (names all).Nodup) (hp : ∀ n ∈ names all, ¬ Part n)
    (ha : ∀ n ∈ names all, ∀ q ∈ all, n ∉ q.2.free)
    (hr : ∀ q ∈ all, ∀ n ∈ q.2.free, n ∈ T.keys ∨ ¬ Part n)
    (hf : golden = true → T = [] → ∀ q ∈ all, Fine (po pre) L.isFun q.2) :
    ∃ p, cCodegen L (partOpts pre golden T) (all.map (·.2)) (all.map (·.1)) = .ok p ∧ (names p.code).Nodup ∧
      (∀ A x e B, p.code = A ++ (x, e) :: B → ∀ n ∈ e.free, n ∈ names A ∨
        (n ∉ names p.code ∧ n ∉ T.keys ∧ ∃ q ∈ all, n ∈ q.2.free)) ∧
      (∀ n ∈ names p.code, n ∈ names all ∨ pre <+: n) ∧
      (∀ n ∈ names all, n ∈ names p.code) ∧
      (∀ σ : Str → ℝ, ∀ q ∈ all, exec I p.code σ q.1 = eval I (withTable T σ) q.2) ∧
      ∀ (σ : Str → ℝ) n, ¬ Part n → n ∉ names all → exec I p.code σ n = σ n := by
  have htaken' : ∀ n, Taken (partOpts pre golden T) n → pre <+: n := by
    rintro n (h | h | h)
    · obtain ⟨k, rfl⟩ := h
      rw [List.append_assoc]; exact List.prefix_append _ _
    · rcases hTp with h' | rfl
      · have hn' : n ∈ T.keys := h
        rw [h'] at hn'; simp [Dict.keys] at hn'
      · exact reserved_pre (hTk n h)
    · exact reserved_pre h.2
  have htaken : ∀ n, Taken (partOpts pre golden T) n → Part n := fun n h => hpre.trans (htaken' n h)
  have hsc : scalars (partOpts pre golden T) (all.map (·.2)) (all.map (·.1)) = [] := scalars_nil _ _ _ rfl
  have hzip : (all.map (·.1)).zip (all.map (·.2)) = all := by
    rw [zip_map_map]; simp
  have hpl : plain (partOpts pre golden T) (all.map (·.2)) (all.map (·.1)) = all := by
    rw [plain_all _ _ _ rfl, hzip]
  have hC : Clean (partOpts pre golden T) (all.map (·.2)) (all.map (·.1)) := {
    len := by simp
    nodup := hnd
    outs_free := fun n hn => ⟨fun h => hp n hn (htaken n h), by rw [hsc]; simp [names]⟩
    no_alias := by
      intro n hn e he
      obtain ⟨q, hq, rfl⟩ := List.mem_map.1 he
      exact ha n hn q hq
    not_reserved := by
      intro _ h0 e he n hn hres
      obtain ⟨q, hq, rfl⟩ := List.mem_map.1 he
      have h0' : T = [] := h0
      rcases hr q hq n hn with h | h
      · rw [h0'] at h; simp [Dict.keys] at h
      · exact h (reserved_part hpre hres)
    table := hT
    table_temp := by
      intro n hn ht
      have h1 := hTk n hn
      rcases hTp with h | h
      · have hn' : n ∈ T.keys := hn
        rw [h] at hn'; simp [Dict.keys] at hn'
      · subst h
        exact reserved_not_temp h1 ht
    syms := by rintro ⟨n, _, h⟩; simp [partOpts] at h
    scalars_nodup := by rw [hsc]; simp [names]
    scalars_free := by rw [hsc]; simp [names]
    scalars_acyclic := by rw [hsc]; exact ⟨fun _ => 0, by simp [names]⟩ }
  obtain ⟨p, h1, h2, h3, h4, h5⟩ := C78_value_partial I L (partOpts pre golden T) _ _ rfl rfl hL hC (by
    intro g h0 e he
    obtain ⟨q, hq, rfl⟩ := List.mem_map.1 he
    exact hf g h0 q hq)
  rw [hsc, hpl] at h5
  have hn1 : ∀ n ∈ names p.code, n ∈ names all ∨ pre <+: n := by
    intro n hn
    by_contra hcon
    push Not at hcon
    -- the value of an untouched name does not change, that of an assigned name does for some state
    obtain ⟨A, B, hAB, hnB⟩ : ∃ A B, names p.code = A ++ n :: B ∧ n ∉ B := by
      obtain ⟨A, B, hAB⟩ := List.append_of_mem hn
      refine ⟨A, B, hAB, ?_⟩
      rw [hAB] at h2
      exact (List.nodup_cons.1 (List.nodup_append.1 h2).2.1).1
    obtain ⟨i, hi, hin⟩ := List.getElem_of_mem hn
    have hi' : i < p.code.length := by simpa [names] using hi
    have hsplit : p.code = p.code.take i ++ p.code[i] :: p.code.drop (i + 1) := by
      rw [← List.drop_eq_getElem_cons hi', List.take_append_drop]
    have hx : p.code[i].1 = n := by rw [← hin]; simp [names]
    have hnd2 : n ∉ names (p.code.drop (i + 1)) := by
      rw [hsplit] at h2
      simp only [names, List.map_append, List.map_cons] at h2
      have := (List.nodup_cons.1 (List.nodup_append.1 h2).2.1).1
      rw [hx] at this
      exact this
    have hnt : n ∉ names (p.code.take i) := by
      rw [hsplit] at h2
      simp only [names, List.map_append, List.map_cons] at h2
      intro hm
      exact (List.nodup_append.1 h2).2.2 n hm p.code[i].1 (by simp) hx.symm
    have hfree : n ∉ p.code[i].2.free := by
      intro hf'
      rcases h3 (p.code.take i) p.code[i].1 p.code[i].2 (p.code.drop (i + 1)) hsplit n hf' with h | h
      · exact hnt h
      · exact h.1 hn
    have hval : ∀ σ : Str → ℝ, σ n = eval I (exec I (p.code.take i) σ) p.code[i].2 := by
      intro σ
      have hh := h5 σ n (fun h => hcon.2 (htaken' n h)) (by simp [names]) hcon.1
      rw [hsplit, exec_append] at hh
      rw [show p.code[i] = (p.code[i].1, p.code[i].2) from rfl, exec, exec_not_mem _ _ _ hnd2, hx,
        Function.update_self] at hh
      exact hh.symm
    -- two states that differ at `n` only
    have hdep : ∀ (l : List Repl) (σ τ : Str → ℝ), (∀ q ∈ l, n ∉ q.2.free) → (∀ m, m ≠ n → σ m = τ m) →
        ∀ m, m ≠ n → exec I l σ m = exec I l τ m := by
      intro l
      induction l with
      | nil => intro σ τ _ h m hm; exact h m hm
      | cons q l ih =>
        intro σ τ hq h m hm
        obtain ⟨y, e⟩ := q
        rw [exec, exec]
        refine ih _ _ (fun q hq' => hq q (List.mem_cons_of_mem _ hq')) (fun m hm => ?_) m hm
        have : eval I σ e = eval I τ e := eval_congr I e fun k hk => h k (by
          rintro rfl; exact hq (y, e) (by simp) hk)
        rw [this]
        by_cases hmy : m = y
        · subst hmy; rw [Function.update_self, Function.update_self]
        · rw [Function.update_of_ne hmy, Function.update_of_ne hmy, h m hm]
    have htake : ∀ q ∈ p.code.take i, n ∉ q.2.free := by
      intro q hq hnq
      obtain ⟨j, hj, rfl⟩ := List.getElem_of_mem hq
      have hj' : j < p.code.length := by simp at hj; omega
      have hjsplit : p.code = p.code.take j ++ p.code[j] :: p.code.drop (j + 1) := by
        rw [← List.drop_eq_getElem_cons hj', List.take_append_drop]
      have hqe : (p.code.take i)[j] = p.code[j] := by simp
      rw [hqe] at hnq
      rcases h3 (p.code.take j) p.code[j].1 p.code[j].2 (p.code.drop (j + 1)) hjsplit n hnq with h | h
      · apply hnt
        simp only [names, List.map_take] at h ⊢
        exact List.take_subset_take_left _ (by simp at hj; omega) h
      · exact h.1 hn
    have e1 := hval (fun _ => 0)
    have e2 := hval (fun m => if m = n then 1 else 0)
    have : eval I (exec I (p.code.take i) fun _ => 0) p.code[i].2 =
        eval I (exec I (p.code.take i) fun m => if m = n then 1 else 0) p.code[i].2 := by
      refine eval_congr I _ ?_
      intro k hk
      refine hdep _ _ _ htake (fun m hm => by simp [hm]) k ?_
      rintro rfl
      exact hfree hk
    rw [← this, ← e1] at e2
    simp at e2
  have hval : ∀ σ : Str → ℝ, ∀ q ∈ all, exec I p.code σ q.1 = eval I (withTable T σ) q.2 := by
    intro σ q hq
    refine h4 σ (withTable T σ) (fun n _ => rfl) ?_ q (by rw [hpl]; exact hq)
    rw [hsc]; intro s hs; cases hs
  refine ⟨p, h1, h2, ?_, hn1, ?_, hval, ?_⟩
  · intro A x e B hAB n hn
    rcases h3 A x e B hAB n hn with h | ⟨h, h', -, e', he', hn'⟩
    · exact .inl h
    · obtain ⟨q, hq, rfl⟩ := List.mem_map.1 he'
      exact .inr ⟨h, h', q, hq, hn'⟩
  · intro n hn
    by_contra hcon
    obtain ⟨q, hq, rfl⟩ := List.mem_map.1 hn
    have e1 := hval (fun _ => 0) q hq
    have e2 := hval (fun m => if m = q.1 then 1 else 0) q hq
    rw [exec_not_mem _ _ _ hcon] at e1 e2
    have : eval I (withTable T fun _ => 0) q.2 = eval I (withTable T fun m => if m = q.1 then (1 : ℝ) else 0) q.2 := by
      refine eval_congr I _ ?_
      intro k hk
      have : k ≠ q.1 := by rintro rfl; exact ha _ hn q hq hk
      simp only [withTable, if_neg this]
    rw [← this, ← e1] at e2
    simp at e2
  · intro σ n hn hm
    exact h5 σ n (fun h => hn (htaken n h)) (by simp [names]) hm

/-! ## The pieces of the kernel -/

/-- The table of constants. -/
def ktable (pr : Str → Expr × Dict Str ℚ) (ds : List DerivName) : Dict Str ℚ :=
  (sortedStr (superfastUniq (ds.map DerivName.operator))).foldl (fun T op => T.update (pr op).2) []

/-- The second part. -/
def kblends (L : Lib) (ds : List DerivName) (D : List Nat) : List Repl :=
  (ds.filter fun d => d.op = (c% "dupD")).map fun d =>
    (d.name, L.canon (blendExpr (if dirNo d ∈ D then some ((c% "Upwind") ++ dec (dirNo d)) else none)
      ((c% "UpwindAlgInput") ++ d.name) ((c% "UpwindAlgInput") ++ d.ddn.name)))

theorem parts_eq {L : Lib} {gfs cps : List Str} {es : List Expr} {outs : List Str} (H : Reg gfs cps (es.flatMap L.order))
    (m : Nat) (hm : 1 ≤ m) (style : Str) (control : Option (List Str)) (hcon : ∀ cs, control = some cs → cs.length = 3)
    (golden : Bool) (ds : List DerivName)
    (hex : extractDerivs gfs cps (es.flatMap L.order) = .ok (ds.map DerivName.name)) (hg : ∀ d ∈ ds, Good gfs fiveOps d)
    (rs : List Read) (D : List Nat)
    (hrs : readGfs gfs cps style (ds.map fun d => (d.base, (coefOf m d).2)) (es.flatMap L.order) = .ok rs)
    (hD : upwindDirs control (ds.map DerivName.operator) = .ok D) (hD0 : control = none → D = []) (hD3 : ∀ k ∈ D, k < 3)
    (pr : Str → Expr × Dict Str ℚ) (hpr : ∀ d ∈ ds, protoFD L (2 * m) d.operator = .ok (pr d.operator)) (p2 p3 : Prog)
    (h2 : cCodegen L (partOpts part2 golden []) ((kblends L ds D).map (·.2)) ((kblends L ds D).map (·.1)) = .ok p2)
    (h3 : cCodegen L (partOpts part3 golden []) es outs = .ok p3) :
    front L [] gfs cps style (2 * m) control es = .ok ⟨ds.map DerivName.name, ds.map DerivName.base, ds.map DerivName.operator,
      rs, (sortedStr (superfastUniq (ds.map DerivName.operator))).map fun op => (op, pr op), ktable pr ds,
      ds.map fun d => (fdLhs d, instantiate L d.base (pr d.operator).1), D,
      D.map fun k => ((c% "UpwindControlVectorU") ++ dec k, .sym ((control.getD []).getD k []))⟩ ∧
    back L golden (ds.map DerivName.name) (ds.map DerivName.operator) D es outs = .ok (p2, p3) := by
  have hsplit := C22_split_all ds (fun d hd => ⟨(hg d hd).shape, (hg d hd).stemD, (hg d hd).stemU⟩)
  have hst : (ds.map DerivName.operator).mapM (fun op => (do
      let r ← liftFD (fdcoeffs op (2 * m))
      .ok r.2 : Except GenErr (List (List Int)))) = .ok (ds.map fun d => (coefOf m d).2) := by
    apply mapM_map_ok
    intro d hd
    rw [(coefOf_ok (hg d hd) m hm).1]
    rfl
  have hzip : (ds.map DerivName.base).zip (ds.map fun d => (coefOf m d).2) = ds.map fun d => (d.base, (coefOf m d).2) :=
    zip_map_map _ _ _
  have hops : ∀ op, op ∈ sortedStr (superfastUniq (ds.map DerivName.operator)) ↔ op ∈ ds.map DerivName.operator := by
    intro op
    rw [mem_sortedStr, (C29_superfast_uniq _).mem]
  have hprotos : (sortedStr (superfastUniq (ds.map DerivName.operator))).mapM (fun op => (do
      let r ← protoFD L (2 * m) op
      .ok (op, r) : Except KErr (Str × (Expr × Dict Str ℚ)))) =
      .ok ((sortedStr (superfastUniq (ds.map DerivName.operator))).map fun op => (op, pr op)) := by
    apply mapM_ok
    intro op hop
    obtain ⟨d, hd, rfl⟩ := List.mem_map.1 ((hops op).1 hop)
    rw [hpr d hd]
    rfl
  have htab : regTable [] (sortedStr (superfastUniq (ds.map DerivName.operator)))
      (((sortedStr (superfastUniq (ds.map DerivName.operator))).map fun op => (op, pr op)).map fun p => p.2.2) =
      .ok (ktable pr ds) := by
    rw [List.map_map]
    exact regTable_nil _ _
  have hfds : ((ds.map DerivName.name).zip ((ds.map DerivName.base).zip (ds.map DerivName.operator))).mapM
      (fdEntry L ((sortedStr (superfastUniq (ds.map DerivName.operator))).map fun op => (op, pr op))) =
      .ok (ds.map fun d => (fdLhs d, instantiate L d.base (pr d.operator).1)) := by
    rw [zip_map_map, zip_map_map]
    apply mapM_map_ok
    intro d hd
    simp only [fdEntry]
    rw [lookup_map _ _ _ ((hops _).2 (List.mem_map_of_mem hd))]
    have ht := (ops_table d.op d.dirs (good_cases (hg d hd))).2.1
    simp only [fdVar, fdLhs, upw, DerivName.operator]
    simp only [ht]
    rfl
  have hcop : D.mapM (copyEntry (control.getD [])) =
      .ok (D.map fun k => ((c% "UpwindControlVectorU") ++ dec k, .sym ((control.getD []).getD k []))) := by
    apply mapM_ok
    intro k hk
    cases control with
    | none => rw [hD0 rfl] at hk; simp at hk
    | some cs =>
      have hl := hcon cs rfl
      have hk3 := hD3 k hk
      have : k < cs.length := by omega
      simp only [copyEntry, Option.getD_some, List.getElem?_eq_getElem this, List.getD_eq_getElem?_getD]
  have hbl : (((ds.map DerivName.name).zip (ds.map DerivName.operator)).filter fun vo =>
      vo.2.length = 5 ∧ containsSub (c% "dupD") vo.2 = true).mapM (fun vo => (do
      let d ← liftGen (upDir vo.2)
      if 3 ≤ d then .error .indexError
      else .ok (vo.1, L.canon (blendExpr (if d ∈ D then some ((c% "Upwind") ++ dec d) else none)
        ((c% "UpwindAlgInput") ++ vo.1) ((c% "UpwindAlgInput") ++ toDdn vo.1))) : Except KErr Repl)) =
      .ok (kblends L ds D) := by
    have hf : ((ds.map DerivName.name).zip (ds.map DerivName.operator)).filter (fun vo =>
        vo.2.length = 5 ∧ containsSub (c% "dupD") vo.2 = true) =
        (ds.filter fun d => d.op = (c% "dupD")).map fun d => (d.name, d.operator) := by
      rw [zip_map_map, List.filter_map]
      congr 1
      apply List.filter_congr
      intro d hd
      obtain ⟨h1, h2⟩ := is_dup (hg d hd)
      simp only [Function.comp, h1, decide_eq_true_eq]
      by_cases e : d.op = (c% "dupD")
      · simp [h2 e, e]
      · simp [e]
    rw [hf]
    apply mapM_map_ok
    intro d hd
    obtain ⟨h1, h2⟩ := List.mem_filter.mp hd
    have he : d.op = (c% "dupD") := by simpa using h2
    obtain ⟨u1, u2, _⟩ := upDir_eq (hg d h1) he
    simp only [u1, bind, Except.bind, liftGen]
    rw [if_neg (by omega), toDdn_name (hg d h1) H.clean he]
  constructor
  · unfold front
    simp only [bind, Except.bind] at hst hprotos ⊢
    rw [hex]
    simp only [liftName, liftGen]
    rw [hsplit]
    simp only
    rw [hst]
    simp only
    rw [hzip, hrs]
    simp only
    rw [hprotos]
    simp only
    rw [htab]
    simp only
    rw [hfds]
    simp only
    rw [hD]
    simp only
    rw [hcop]
  · unfold back
    simp only [bind, Except.bind] at hbl ⊢
    rw [hbl]
    simp only
    rw [h2]
    simp only [liftCode]
    rw [h3]

/-- A prototype made into the expression for a gridfunction. -/
theorem inst_spec {I : Interp ℝ} {L : Lib} (hL : KLibOk I L) {gfs d} (hd : Good gfs fiveOps d) (hgp : ¬ Part d.base) (m : Nat)
    {r : Expr × Dict Str ℚ} {T : Dict Str ℚ} (hT : Consts part1 T) (hc : Consts part1 r.2) (hk : ∀ n ∈ r.2.keys, n ∈ T.keys)
    (hf : ∀ n ∈ r.1.free, n ∈ r.2.keys ∨ (∃ t ∈ protoTerms m (c% "FDPROTO") d.operator, n = t.2) ∨ n ∈ invs d)
    (hv : ∀ ρ : Str → ℝ, eval I (withTable r.2 ρ) r.1 =
        ((protoTerms m (c% "FDPROTO") d.operator).map fun t => (t.1 : ℝ) * ρ t.2).sum * ((invs d).map ρ).prod) :
    (∀ n ∈ (instantiate L d.base r.1).free, n ∈ T.keys ∨ (∃ t ∈ protoTerms m d.base d.operator, n = t.2) ∨ n ∈ invs d) ∧
    ∀ ρ : Str → ℝ, eval I (withTable T ρ) (instantiate L d.base r.1) =
      ((protoTerms m d.base d.operator).map fun t => (t.1 : ℝ) * ρ t.2).sum * ((invs d).map ρ).prod := by
  have hinv : ∀ n ∈ invs d, toGf d.base n = n ∧ ¬ Part n := by
    intro n hn
    obtain ⟨c, hc, rfl⟩ := List.mem_map.1 hn
    exact ⟨toGf_inv (hd.dirs c hc), inv_part _⟩
  have hnk : ∀ n, ¬ Part n → n ∉ T.keys := fun n hn h => hn (reserved_part part_p1 (hT.keys h))
  constructor
  · intro n hn
    obtain ⟨n', hn', rfl⟩ := free_mapSym _ _ _ (hL.p1.canon.free _ _ hn)
    rcases hf n' hn' with h | ⟨t, ht, rfl⟩ | h
    · left
      rw [toGf_const (hc.keys h)]
      exact hk _ h
    · right; left
      obtain ⟨ct, hct, rfl⟩ := List.mem_map.1 ht
      exact ⟨_, List.mem_map.2 ⟨ct, hct, rfl⟩, toGf_tmp _ _⟩
    · right; right
      rw [(hinv _ h).1]; exact h
  · intro ρ
    unfold instantiate
    rw [hL.p1.canon.value, eval_mapSym]
    have key : eval I (fun n => withTable T ρ (toGf d.base n)) r.1 =
        eval I (withTable r.2 fun n => ρ (toGf d.base n)) r.1 := by
      refine eval_congr I _ fun n hn => ?_
      by_cases hnk' : n ∈ r.2.keys
      · rw [toGf_const (hc.keys hnk')]
        obtain ⟨q, hq⟩ := (Dict.mem_keys_iff _ _).1 hnk'
        unfold withTable
        rw [hq, hT.sub hc hq (hk n hnk')]
      · rw [withTable_keys hnk']
        apply withTable_keys
        apply hnk
        rcases hf n hn with h | ⟨t, ht, rfl⟩ | h
        · exact absurd h hnk'
        · obtain ⟨ct, hct, rfl⟩ := List.mem_map.1 ht
          rw [toGf_tmp]
          exact tmp_part hgp _
        · rw [(hinv _ h).1]; exact (hinv _ h).2
    rw [key, hv]
    congr 1
    · unfold protoTerms
      rw [List.map_map, List.map_map]
      congr 1
      apply List.map_congr_left
      intro ct _
      simp only [Function.comp, toGf_tmp]
    · congr 1
      apply List.map_congr_left
      intro n hn
      rw [(hinv n hn).1]

/-! ## C79 -/

/-- Names that no generated derivative has. -/
def Pure (n : Str) : Prop := ¬ (c% "Upwind") <+: n ∧ ¬ (c% "_d") <:+: n

theorem inv_pure {c : Char} (h : c ∈ ['0', '1', '2']) : Pure ((c% "invdxx") ++ [c]) := by
  simp only [List.mem_cons, List.not_mem_nil, or_false] at h
  rcases h with rfl | rfl | rfl <;> exact ⟨by decide, by decide⟩

theorem fdLhs_not_pure {gfs d} (h : Good gfs fiveOps d) : ¬ Pure (fdLhs d) := by
  unfold fdLhs
  split
  · exact fun hp => hp.1 ⟨(c% "AlgInput") ++ d.name, rfl⟩
  · exact fun hp => hp.2 (name_der h)

theorem ddn_upw {gfs d e} (hd : Good gfs fiveOps d) (hop : d.op = (c% "dupD")) (he : Good gfs fiveOps e)
    (hen : e.name = d.ddn.name) : upw e = true := by
  have g2 := ddn_good hd hop
  have s1 := C22_split e he.shape he.stemD he.stemU
  have s2 := C22_split d.ddn g2.shape g2.stemD g2.stemU
  rw [hen, s2] at s1
  obtain ⟨b1, b2⟩ := Prod.mk.inj (Except.ok.inj s1)
  have b2' : (c% "ddnD") ++ d.dirs = e.op ++ e.dirs := b2
  rcases good_cases he with ⟨c, _, hdc, ho⟩ | ⟨c1, _, c2, _, hdc, ho⟩
  · rcases ho with x | x | x | x
    · rw [x] at b2'; simp at b2'
    · rw [x] at b2'; simp at b2'
    · rw [x] at b2'; simp at b2'
    · simp [upw, x]
  · rw [ho] at b2'; simp at b2'

theorem pre_ne {n : Str} {a b : Char} (ha : ((c% "FDPart") ++ [a]) <+: n) (hb : ((c% "FDPart") ++ [b]) <+: n) : a = b := by
  obtain ⟨s, rfl⟩ := ha
  obtain ⟨t, ht⟩ := hb
  simp only [List.append_assoc] at ht
  have := List.append_cancel_left ht
  simp at this
  exact this.1.symm

theorem nodup_of_perm_names {A B : List Str} (h : A.Perm B) (hB : B.Nodup) : A.Nodup := h.nodup_iff.2 hB

/-- What the rest of the kernel needs of the statements for derivatives: `all` are the names and what they stand for, `T` the
constants in there, `d1` the statements and `F1` running them. -/
structure P1Ok (I : Interp ℝ) (T : Dict Str ℚ) (all : List Repl) (d1 : List (Str × List Str)) (F1 : (Str → ℝ) → Str → ℝ) : Prop where
  scope : ∀ known : Str → Prop, (∀ n, n ∉ T.keys → (∃ q ∈ all, n ∈ q.2.free) → known n) →
    (∀ n ∈ d1.map Prod.fst, ¬ known n) → Scoped known d1
  only : ∀ n ∈ d1.map Prod.fst, n ∈ names all ∨ part1 <+: n
  every : ∀ n ∈ names all, n ∈ d1.map Prod.fst
  value : ∀ σ : Str → ℝ, ∀ q ∈ all, F1 σ q.1 = eval I (withTable T σ) q.2
  keep : ∀ (σ : Str → ℝ) n, ¬ Part n → n ∉ names all → F1 σ n = σ n

/-- The statements for derivatives and the control vector. -/
def p1List (ds : List DerivName) (E : DerivName → Expr) (D : List Nat) (cs : List Str) : List Repl :=
  sortByName (ds.map (fun d => (fdLhs d, E d)) ++ D.map fun k => ((c% "UpwindControlVectorU") ++ dec k, .sym (cs.getD k [])))

/-- The value of a finite difference. -/
noncomputable def fdValue (m : Nat) (d : DerivName) (ρ : Str → ℝ) : ℝ :=
  ((protoTerms m d.base d.operator).map fun t => (t.1 : ℝ) * ρ t.2).sum * ((invs d).map ρ).prod

/-- What a kernel has to compute (see C79). -/
def Computes (gfs cps : List Str) (ext : Env) (inv : Char → ℝ) (m : Nat) (control : Option (List Str)) (mem : Mem) (I : Interp ℝ)
    (es : List Expr) (outs : List Str) (run : (Str → ℝ) → Str → ℝ) : Prop :=
  ∀ σ : Str → ℝ, (∀ n x, ext n = some x → σ n = x) → ∃ ρ : Str → ℝ,
    (∀ (i : ℕ) (n : Str) (e : Expr), outs[i]? = some n → es[i]? = some e → run σ n = eval I ρ e) ∧
    (∀ n x, ext n = some x → ρ n = x ∧ run σ n = x) ∧
    ∀ e ∈ es, ∀ n ∈ e.free, (n ∈ gfs → ρ n = mem n (0, 0, 0)) ∧
      ∀ d, Good gfs userOps d → n = d.name → n ∉ cps →
        (d.op ≠ (c% "dupD") → IsDeriv (2 * m) mem inv d.base d.op d.dirs (ρ n)) ∧
        (d.op = (c% "dupD") → ∃ up dn, IsDeriv (2 * m) mem inv d.base (c% "dupD") d.dirs up ∧
          IsDeriv (2 * m) mem inv d.base (c% "ddnD") d.dirs dn ∧ (control = none → ρ n = dn) ∧
          ∀ cs, control = some cs → ∃ k s, d.dirs = [dig k] ∧ cs[k]? = some s ∧
            (0 < ρ s → ρ n = up) ∧ (ρ s ≤ 0 → ρ n = dn))

set_option maxHeartbeats 4000000 in
/-- All but the statements for derivatives. -/
theorem kernel_core {I : Interp ℝ} {L : Lib} (hL : KLibOk I L) {gfs cps : List Str} {ext : Env} {inv : Char → ℝ}
    {es : List Expr} {outs : List Str} (H : Setting gfs cps (es.flatMap L.order) ext inv) (hC : Clear gfs cps ext es outs)
    (m : Nat) (hm : 1 ≤ m) (style : Str) (hs : style = (c% "210") ∨ style = (c% "012"))
    (control : Option (List Str)) (mem : Mem)
    (hcon : ∀ cs, control = some cs → cs.length = 3 ∧
      ∀ s ∈ cs, (∃ x, ext s = some x) ∨ (s ∈ gfs ∧ ∃ e ∈ es, s ∈ e.free))
    (golden : Bool) (hfine : golden = true → ∀ e ∈ es, Fine (po part3) L.isFun e) :
    ∃ (ds : List DerivName) (rs : List Read) (D : List Nat),
      extractDerivs gfs cps (es.flatMap L.order) = .ok (ds.map DerivName.name) ∧ (∀ d ∈ ds, Good gfs fiveOps d) ∧
      readGfs gfs cps style (ds.map fun d => (d.base, (coefOf m d).2)) (es.flatMap L.order) = .ok rs ∧
      upwindDirs control (ds.map DerivName.operator) = .ok D ∧ (control = none → D = []) ∧ (∀ k ∈ D, k < 3) ∧
      (rs = [] → ds = [] ∧ D = []) ∧
      ∀ (T : Dict Str ℚ), Consts part1 T → ∀ E : DerivName → Expr,
        (∀ d ∈ ds, ∀ n ∈ (E d).free, n ∈ T.keys ∨ (∃ t ∈ protoTerms m d.base d.operator, n = t.2) ∨ n ∈ invs d) →
        (∀ d ∈ ds, ∀ ρ : Str → ℝ, eval I (withTable T ρ) (E d) = fdValue m d ρ) →
        (names (p1List ds E D (control.getD []))).Nodup ∧ (∀ n ∈ names (p1List ds E D (control.getD [])), ¬ Part n ∧ ¬ Pure n) ∧
        (∀ q ∈ p1List ds E D (control.getD []), ∀ n ∈ q.2.free, n ∈ T.keys ∨ (¬ Part n ∧ Pure n)) ∧
        ∀ (d1 : List (Str × List Str)) (F1 : (Str → ℝ) → Str → ℝ), P1Ok I T (p1List ds E D (control.getD [])) d1 F1 →
          ∃ p2 p3, cCodegen L (partOpts part2 golden []) ((kblends L ds D).map (·.2)) ((kblends L ds D).map (·.1)) = .ok p2 ∧
            cCodegen L (partOpts part3 golden []) es outs = .ok p3 ∧
            Scoped (fun n => ∃ x, ext n = some x) (rs.map (fun r => (r.var, [])) ++ d1 ++ (algsOf D).map (fun p => (p.1, [p.2])) ++
              p2.code.map (fun p => (p.1, p.2.free)) ++ p3.code.map (fun p => (p.1, p.2.free))) ∧
            Computes gfs cps ext inv m control mem I es outs fun σ =>
              exec I p3.code (exec I p2.code (runAlgs (algsOf D) (F1 (runReads mem rs σ)))) := by
  classical
  have hfree : ∀ n, n ∈ es.flatMap L.order ↔ ∃ e ∈ es, n ∈ e.free := by
    intro n
    rw [List.mem_flatMap]
    exact exists_congr fun e => and_congr_right fun _ => hL.p1.order e n
  have hcon' : ∀ cs, control = some cs → cs.length = 3 ∧
      ∀ s ∈ cs, (∃ x, ext s = some x) ∨ (s ∈ gfs ∧ s ∈ es.flatMap L.order) := by
    intro cs h
    refine ⟨(hcon cs h).1, fun s hs => ((hcon cs h).2 s hs).imp_right fun h => ⟨h.1, (hfree s).2 h.2⟩⟩
  obtain ⟨ds, hex, hg, hnd, hall, hddn, -⟩ := extract_spec H
  obtain ⟨rs, D, hgen, hr2, hr3, hr4, hD2, hD3, hD4, hD5, hr1, hD1⟩ :=
    genFD_parts H.toReg m hm style hs control (fun cs h => (hcon cs h).1) ds hex hg
  obtain ⟨prog, env, g1, g2, g3, g4, g5, g6⟩ := pipeline H m hm style hs control mem hcon'
  rw [hgen] at g1
  have g1 := (Except.ok.inj g1).symm
  -- without reads there are no derivatives
  have hrne : rs = [] → ds = [] ∧ D = [] := by
    intro hnil
    have h0 : ds = [] := by
      by_contra hne
      obtain ⟨d, ds', rfl⟩ := List.exists_cons_of_ne_nil hne
      obtain ⟨c1, c2, c3, c4⟩ := coefOf_ok (hg d (by simp)) m hm
      obtain ⟨o, os, ho⟩ := List.exists_cons_of_ne_nil c3
      have hl := c4 o (by rw [ho]; simp)
      match o, hl, ho with
      | [a, b, c], _, ho =>
        obtain ⟨r, hr, _⟩ := (hr2 d.base (a, b, c)).mpr ⟨(hg d (by simp)).base, .inl ⟨_, List.mem_map.mpr ⟨d, by simp, rfl⟩, by
          rw [ho]; simp⟩⟩
        rw [hnil] at hr; simp at hr
    refine ⟨h0, ?_⟩
    rw [List.eq_nil_iff_forall_not_mem]
    intro k hk
    obtain ⟨_, d, hd, _⟩ := hD5 k hk
    rw [h0] at hd; simp at hd
  set S : List Stmt := ds.map (fdOf m) ++ D.map (copyOf (control.getD [])) with hS
  have hprog : prog = rs.map readStmt ++ sortStmts S ++ D.map algOf ++ (ds.filter fun d => d.op = (c% "dupD")).map (blendOf D) := by
    rw [g1]
    by_cases hr : rs = []
    · obtain ⟨h1, h2⟩ := hrne hr
      rw [if_pos hr]
      simp [hS, h1, h2, sortStmts]
    · rw [if_neg hr]
  obtain ⟨-, hlnd, hlext, hsol, hdom⟩ := exec_solves g2
  have hmemP : ∀ s, s ∈ prog ↔ (∃ r ∈ rs, s = readStmt r) ∨ (∃ d ∈ ds, s = fdOf m d) ∨
      (∃ k ∈ D, s = copyOf (control.getD []) k) ∨ (∃ k ∈ D, s = algOf k) ∨
      ∃ d ∈ ds, d.op = (c% "dupD") ∧ s = blendOf D d := by
    intro s
    rw [hprog]
    simp only [List.mem_append, List.mem_map, (sortStmts_perm _).mem_iff, hS, List.mem_filter, decide_eq_true_eq]
    constructor
    · rintro (((⟨r, hr, rfl⟩ | ⟨d, hd, rfl⟩ | ⟨k, hk, rfl⟩) | ⟨k, hk, rfl⟩) | ⟨d, hd, rfl⟩)
      · exact .inl ⟨r, hr, rfl⟩
      · exact .inr (.inl ⟨d, hd, rfl⟩)
      · exact .inr (.inr (.inl ⟨k, hk, rfl⟩))
      · exact .inr (.inr (.inr (.inl ⟨k, hk, rfl⟩)))
      · exact .inr (.inr (.inr (.inr ⟨d, hd.1, hd.2, rfl⟩)))
    · rintro (⟨r, hr, rfl⟩ | ⟨d, hd, rfl⟩ | ⟨k, hk, rfl⟩ | ⟨k, hk, rfl⟩ | ⟨d, hd, h, rfl⟩)
      · exact .inl (.inl (.inl ⟨r, hr, rfl⟩))
      · exact .inl (.inl (.inr (.inl ⟨d, hd, rfl⟩)))
      · exact .inl (.inl (.inr (.inr ⟨k, hk, rfl⟩)))
      · exact .inl (.inr ⟨k, hk, rfl⟩)
      · exact .inr ⟨d, ⟨hd, h⟩, rfl⟩
  refine ⟨ds, rs, D, hex, hg, hr1, hD1, hD3, fun k hk => (hD5 k hk).1, hrne, ?_⟩
  intro T hT E hEf hEv
  have hTpart : ∀ n ∈ T.keys, Part n := fun n hn => reserved_part part_p1 (hT.keys hn)
  -- facts about the environment
  have hlhs : ∀ s ∈ prog, ext s.lhs = none := hlext
  have hvar : ∀ r ∈ rs, r.var = r.gf ++ sufStr r.pt ∧ r.gf ∈ gfs := by
    intro r hr
    have hgf := ((hr2 r.gf r.pt).mp ⟨r, hr, rfl, rfl⟩).1
    have := hr4 r hr
    rw [fdTempName_eq r.gf r.pt (H.clean _ hgf).ne] at this
    exact ⟨(Except.ok.inj this).symm, hgf⟩
  have hrpure : ∀ r ∈ rs, Pure r.var := by
    intro r hr
    rw [(hvar r hr).1]
    exact ⟨tmp_up (H.clean _ (hvar r hr).2) _, tmp_der (H.clean _ (hvar r hr).2) _⟩
  have hrpart : ∀ r ∈ rs, ¬ Part r.var := by
    intro r hr
    rw [(hvar r hr).1]
    exact tmp_part (hC.gf_part _ (hvar r hr).2) _
  have hfpart : ∀ d ∈ ds, ¬ Part (fdLhs d) := by
    intro d hd
    unfold fdLhs
    split
    · exact upIn_part _
    · exact name_part (hg d hd) hC.gf_part
  have hpart : ∀ n x, env n = some x → ¬ Part n := by
    intro n x hx hp
    rcases hdom n x hx with h0 | h
    · obtain ⟨s, hs', rfl⟩ := List.mem_map.1 h0
      rcases (hmemP s).1 hs' with ⟨r, hr, rfl⟩ | ⟨d, hd, rfl⟩ | ⟨k, hk, rfl⟩ | ⟨k, hk, rfl⟩ | ⟨d, hd, h, rfl⟩
      · exact hrpart r hr hp
      · exact hfpart d hd hp
      · exact upC_part _ hp
      · exact up_part _ hp
      · exact name_part (hg d hd) hC.gf_part hp
    · rw [hC.ext_part n hp] at h; cases h
  have hknown : ∀ n x, env n = some x → (∃ x, ext n = some x) ∨ (∃ r ∈ rs, n = r.var) ∨ (∃ d ∈ ds, n = fdLhs d) ∨
      (∃ k ∈ D, n = (c% "UpwindControlVectorU") ++ dec k) ∨ (∃ k ∈ D, n = (c% "Upwind") ++ dec k) ∨
      ∃ d ∈ ds, d.op = (c% "dupD") ∧ n = d.name := by
    intro n x hx
    rcases hdom n x hx with h0 | h
    · obtain ⟨s, hs', rfl⟩ := List.mem_map.1 h0
      rcases (hmemP s).1 hs' with ⟨r, hr, rfl⟩ | ⟨d, hd, rfl⟩ | ⟨k, hk, rfl⟩ | ⟨k, hk, rfl⟩ | ⟨d, hd, h, rfl⟩
      · exact .inr (.inl ⟨r, hr, rfl⟩)
      · exact .inr (.inr (.inl ⟨d, hd, rfl⟩))
      · exact .inr (.inr (.inr (.inl ⟨k, hk, rfl⟩)))
      · exact .inr (.inr (.inr (.inr (.inl ⟨k, hk, rfl⟩))))
      · exact .inr (.inr (.inr (.inr (.inr ⟨d, hd, h, rfl⟩))))
    · exact .inl ⟨x, h⟩
  have hpure1 : ∀ n x, Pure n → env n = some x → (∃ x, ext n = some x) ∨ ∃ r ∈ rs, n = r.var := by
    intro n x hp hx
    rcases hknown n x hx with h | h | ⟨d, hd, rfl⟩ | ⟨k, hk, rfl⟩ | ⟨k, hk, rfl⟩ | ⟨d, hd, h, rfl⟩
    · exact .inl h
    · exact .inr h
    · exact absurd hp (fdLhs_not_pure (hg d hd))
    · exact absurd ⟨_, rfl⟩ hp.1
    · exact absurd (up_prefix _) hp.1
    · exact absurd (name_der (hg d hd)) hp.2
  have hF1 : ∀ r ∈ rs, env r.var = some (mem r.gf r.pt) := by
    intro r hr
    obtain ⟨x, h1, h2⟩ := hsol (readStmt r) ((hmemP _).2 (.inl ⟨r, hr, rfl⟩))
    simp only [readStmt, Stmt.eval, Option.some.injEq] at h1
    rw [h1]; exact h2
  have hF2 : ∀ d ∈ ds, ∃ a b, evalSum env (protoTerms m d.base d.operator) = some a ∧ evalProd env (invs d) = some b ∧
      env (fdLhs d) = some (a * b) := by
    intro d hd
    obtain ⟨x, h1, h2⟩ := hsol (fdOf m d) ((hmemP _).2 (.inr (.inl ⟨d, hd, rfl⟩)))
    simp only [fdOf, Stmt.eval, bind, Option.bind] at h1
    cases h3 : evalSum env (protoTerms m d.base d.operator) with
    | none => unfold protoTerms at h3; unfold coefOf at h1; rw [h3] at h1; cases h1
    | some a =>
      cases h4 : evalProd env (invs d) with
      | none => unfold protoTerms at h3; unfold invs at h4; unfold coefOf at h1; rw [h3, h4] at h1; cases h1
      | some b =>
        unfold protoTerms at h3; unfold invs at h4; unfold coefOf at h1
        rw [h3, h4] at h1
        simp only [Option.some.injEq] at h1
        exact ⟨a, b, rfl, rfl, by rw [h1]; exact h2⟩
  have hF3 : ∀ k ∈ D, ∃ v, env ((control.getD []).getD k []) = some v ∧ env ((c% "UpwindControlVectorU") ++ dec k) = some v := by
    intro k hk
    obtain ⟨x, h1, h2⟩ := hsol (copyOf (control.getD []) k) ((hmemP _).2 (.inr (.inr (.inl ⟨k, hk, rfl⟩))))
    exact ⟨x, h1, h2⟩
  have hF4 : ∀ k ∈ D, ∃ v, env ((c% "UpwindControlVectorU") ++ dec k) = some v ∧ env ((c% "Upwind") ++ dec k) = some (upwindAlg v) := by
    intro k hk
    obtain ⟨x, h1, h2⟩ := hsol (algOf k) ((hmemP _).2 (.inr (.inr (.inr (.inl ⟨k, hk, rfl⟩)))))
    obtain ⟨v, hv, -⟩ := (hF3 k hk).imp fun v h => And.intro h.2 h.1
    refine ⟨v, hv, ?_⟩
    simp only [algOf, Stmt.eval] at h1
    rw [hv] at h1
    simp only [Option.map_some, Option.some.injEq] at h1
    rw [h1]; exact h2
  have hctl : ∀ k ∈ D, (control.getD []).getD k [] ∉ T.keys ∧ Pure ((control.getD []).getD k []) := by
    intro k hk
    cases hcc : control with
    | none => rw [hD3 hcc] at hk; simp at hk
    | some cs =>
      have hk3 : k < cs.length := by have := (hcon cs hcc).1; have := (hD5 k hk).1; omega
      have hmem : cs.getD k [] ∈ cs := by
        rw [List.getD_eq_getElem?_getD, List.getElem?_eq_getElem hk3]
        exact List.getElem_mem hk3
      simp only [Option.getD_some]
      rcases (hcon cs hcc).2 _ hmem with ⟨x, hx⟩ | ⟨hgf, -⟩
      · refine ⟨fun h => ?_, fun h => ?_, fun h => ?_⟩
        · rw [hC.ext_part _ (hTpart _ h)] at hx; cases hx
        · rw [H.ext_up _ h] at hx; cases hx
        · rw [H.ext_der _ h] at hx; cases hx
      · exact ⟨fun h => hC.gf_part _ hgf (hTpart _ h), (H.clean _ hgf).up, (H.clean _ hgf).der⟩
  -- the first part
  set all := p1List ds E D (control.getD []) with hall'
  have hmemA : ∀ q, q ∈ all ↔ (∃ d ∈ ds, q = (fdLhs d, E d)) ∨
      ∃ k ∈ D, q = ((c% "UpwindControlVectorU") ++ dec k, .sym ((control.getD []).getD k [])) := by
    intro q
    rw [hall', p1List, (sortByName_perm _).mem_iff, List.mem_append, List.mem_map, List.mem_map]
    simp only [eq_comm]
  have hnamesA : (names all).Perm ((sortStmts S).map Stmt.lhs) := by
    refine ((sortByName_perm _).map Prod.fst).trans (List.Perm.trans ?_ ((sortStmts_perm S).map Stmt.lhs).symm)
    rw [hS, List.map_append, List.map_append, List.map_map, List.map_map, List.map_map, List.map_map]
    exact List.Perm.refl _
  have hN : (rs.map Read.var ++ names all ++ D.map (fun k => (c% "Upwind") ++ dec k) ++ names (kblends L ds D)).Nodup := by
    have e : prog.map Stmt.lhs = rs.map Read.var ++ (sortStmts S).map Stmt.lhs ++ D.map (fun k => (c% "Upwind") ++ dec k) ++
        names (kblends L ds D) := by
      rw [hprog]
      simp only [List.map_append, List.map_map, names, kblends]
      rfl
    rw [e] at hlnd
    refine nodup_of_perm_names ?_ hlnd
    exact ((List.Perm.append_left _ hnamesA).append_right _).append_right _
  have hapure : ∀ n ∈ names all, ¬ Pure n ∧ ¬ Part n ∧ ext n = none := by
    intro n hn
    obtain ⟨q, hq, rfl⟩ := List.mem_map.1 hn
    rcases (hmemA q).1 hq with ⟨d, hd, rfl⟩ | ⟨k, hk, rfl⟩
    · exact ⟨fdLhs_not_pure (hg d hd), hfpart d hd, hlhs _ ((hmemP _).2 (.inr (.inl ⟨d, hd, rfl⟩)))⟩
    · exact ⟨fun h => h.1 ⟨_, rfl⟩, upC_part _, H.ext_up _ ⟨_, rfl⟩⟩
  have hused : ∀ q ∈ all, ∀ n ∈ q.2.free, n ∈ T.keys ∨ (Pure n ∧ ∃ x, env n = some x) := by
    intro q hq n hn
    rcases (hmemA q).1 hq with ⟨d, hd, rfl⟩ | ⟨k, hk, rfl⟩
    · obtain ⟨a, b, h1, h2, -⟩ := hF2 d hd
      rcases hEf d hd n hn with h | ⟨t, ht, rfl⟩ | h
      · exact .inl h
      · refine .inr ⟨?_, evalSum_bound h1 t ht⟩
        obtain ⟨ct, -, rfl⟩ := List.mem_map.1 ht
        exact ⟨tmp_up (H.clean _ (hg d hd).base) _, tmp_der (H.clean _ (hg d hd).base) _⟩
      · refine .inr ⟨?_, evalProd_bound h2 n h⟩
        obtain ⟨c, hc, rfl⟩ := List.mem_map.1 h
        exact inv_pure ((hg d hd).dirs c hc)
    · rw [free_sym, List.mem_singleton] at hn
      subst hn
      obtain ⟨v, hv, -⟩ := hF3 k hk
      exact .inr ⟨(hctl k hk).2, v, hv⟩
  refine ⟨(List.nodup_append.1 (List.nodup_append.1 (List.nodup_append.1 hN).1).1).2.1,
    fun n hn => ⟨(hapure n hn).2.1, (hapure n hn).1⟩, fun q hq n hn => (hused q hq n hn).imp_right fun ⟨hp, x, hx⟩ =>
      ⟨hpart n x hx, hp⟩, ?_⟩
  rintro d1 F1 ⟨p1s, p1m, p1o, p1v, p1k⟩
  -- the second part
  set bl := kblends L ds D with hbl
  have hmemB : ∀ q, q ∈ bl ↔ ∃ d ∈ ds, d.op = (c% "dupD") ∧ q = (d.name, L.canon (blendExpr
      (if dirNo d ∈ D then some ((c% "Upwind") ++ dec (dirNo d)) else none)
      ((c% "UpwindAlgInput") ++ d.name) ((c% "UpwindAlgInput") ++ d.ddn.name))) := by
    intro q
    rw [hbl, kblends, List.mem_map]
    constructor
    · rintro ⟨d, hd, rfl⟩
      rw [List.mem_filter, decide_eq_true_eq] at hd
      exact ⟨d, hd.1, hd.2, rfl⟩
    · rintro ⟨d, hd, hop, rfl⟩
      exact ⟨d, by rw [List.mem_filter, decide_eq_true_eq]; exact ⟨hd, hop⟩, rfl⟩
  have hbfree : ∀ d ∈ ds, d.op = (c% "dupD") → ∀ n, n ∈ (L.canon (blendExpr
      (if dirNo d ∈ D then some ((c% "Upwind") ++ dec (dirNo d)) else none)
      ((c% "UpwindAlgInput") ++ d.name) ((c% "UpwindAlgInput") ++ d.ddn.name))).free →
      (∃ k ∈ D, n = (c% "Upwind") ++ dec k) ∨ n ∈ names all := by
    intro d hd hop n hn
    have hin : ∀ e ∈ ds, upw e = true → (c% "UpwindAlgInput") ++ e.name ∈ names all := by
      intro e he hu
      refine List.mem_map.2 ⟨_, (hmemA _).2 (.inl ⟨e, he, rfl⟩), ?_⟩
      simp only [fdLhs, hu, if_true]
    rcases free_blendExpr _ _ _ _ (hL.p1.canon.free _ _ hn) with h | rfl | rfl
    · split at h
      · rename_i hk
        exact .inl ⟨dirNo d, hk, (Option.some.inj h).symm⟩
      · cases h
    · exact .inr (hin d hd (by simp [upw, hop]))
    · obtain ⟨e, he, hen⟩ := List.mem_map.1 (hddn d hd hop)
      right
      rw [← hen]
      exact hin e he (ddn_upw (hg d hd) hop (hg e he) hen)
  have hbname : ∀ n ∈ names bl, ¬ Part n ∧ ¬ (c% "Upwind") <+: n ∧ ext n = none := by
    intro n hn
    obtain ⟨q, hq, rfl⟩ := List.mem_map.1 hn
    obtain ⟨d, hd, hop, rfl⟩ := (hmemB q).1 hq
    exact ⟨name_part (hg d hd) hC.gf_part, name_up (hg d hd) H.clean, H.ext_der _ (name_der (hg d hd))⟩
  have hdisj := (List.nodup_append.1 hN).2.2
  obtain ⟨p2, p2e, p2n, p2u, p2m, p2o, p2v, p2k⟩ := part_spec part_p2 hL.p2 golden [] Dict.Wf.nil (by simp [Dict.keys]) (.inl rfl) bl
    (List.nodup_append.1 hN).2.1 (fun n hn => (hbname n hn).1)
    (by
      intro n hn q hq hf
      obtain ⟨d, hd, hop, rfl⟩ := (hmemB q).1 hq
      rcases hbfree d hd hop n hf with ⟨k, hk, rfl⟩ | h
      · exact (hbname _ hn).2.1 (up_prefix _)
      · exact hdisj n (List.mem_append_left _ (List.mem_append_right _ h)) n hn rfl)
    (by
      intro q hq n hn
      obtain ⟨d, hd, hop, rfl⟩ := (hmemB q).1 hq
      rcases hbfree d hd hop n hn with ⟨k, hk, rfl⟩ | h
      · exact .inr (up_part _)
      · exact .inr (hapure n h).2.1)
    (by
      intro _ _ q hq
      obtain ⟨d, hd, hop, rfl⟩ := (hmemB q).1 hq
      exact fine_pre (hL.fine _ (fine_blendExpr _ _ _ _ _)))
  -- the user's expressions
  have hbound : ∀ e ∈ es, ∀ n ∈ e.free, ∃ x, env n = some x := by
    intro e he n hn
    have hnf := (hfree n).2 ⟨e, he, hn⟩
    rcases hC.bound e he n hn with ⟨x, hx⟩ | h | ⟨hnc, d, hd, rfl⟩
    · exact ⟨x, g3 n x hx⟩
    · exact ⟨_, g4 n h hnf⟩
    · by_cases hop : d.op = (c% "dupD")
      · obtain ⟨x, _, _, h, _⟩ := g6 d hd hnf hnc hop
        exact ⟨x, h⟩
      · obtain ⟨x, h, _⟩ := g5 d hd hnf hnc hop
        exact ⟨x, h⟩
  have hzip1 : (outs.zip es).map (·.1) = outs := List.map_fst_zip (by rw [hC.len])
  have hzip2 : (outs.zip es).map (·.2) = es := List.map_snd_zip (by rw [hC.len])
  obtain ⟨p3, p3e, p3n, p3u, p3m, p3o, p3v, p3k⟩ := part_spec part_p3 hL.p3 golden [] Dict.Wf.nil (by simp [Dict.keys]) (.inl rfl)
    (outs.zip es) (by rw [names, hzip1]; exact hC.nodup)
    (by rw [names, hzip1]; exact fun n hn => (hC.outs_ok n hn).2.1)
    (by
      rw [names, hzip1]
      intro n hn q hq
      exact hC.no_alias n hn q.2 (List.of_mem_zip hq).2)
    (by
      intro q hq n hn
      obtain ⟨x, hx⟩ := hbound q.2 (List.of_mem_zip hq).2 n hn
      exact .inr (hpart n x hx))
    (fun hgo _ q hq => hfine hgo q.2 (List.of_mem_zip hq).2)
  rw [hzip1, hzip2] at p3e
  have hnz : names (outs.zip es) = outs := hzip1
  rw [hnz] at p3m p3o p3k
  refine ⟨p2, p3, p2e, p3e, ?_, ?_⟩
  · -- scopes
    have hpre1 : ∀ n, part1 <+: n → Part n := fun n h => part_p1.trans h
    have hpre2 : ∀ n, part2 <+: n → Part n := fun n h => part_p2.trans h
    have hpre3 : ∀ n, part3 <+: n → Part n := fun n h => part_p3.trans h
    unfold algsOf
    have hmap : ∀ l : List Repl, (l.map fun p => (p.1, p.2.free)).map Prod.fst = names l := by
      intro l; simp [names]
    have hmapr : (rs.map fun r => (r.var, ([] : List Str))).map Prod.fst = rs.map Read.var := by simp
    have hmapa : ((D.map fun d => ((c% "Upwind") ++ dec d, (c% "UpwindControlVectorU") ++ dec d)).map
        fun p => (p.1, [p.2])).map Prod.fst = D.map fun d => (c% "Upwind") ++ dec d := by simp
    have hvars : ∀ n ∈ rs.map Read.var, Pure n ∧ ¬ Part n ∧ ext n = none := by
      intro n hn
      obtain ⟨r, hr, rfl⟩ := List.mem_map.1 hn
      exact ⟨hrpure r hr, hrpart r hr, hlhs _ ((hmemP _).2 (.inl ⟨r, hr, rfl⟩))⟩
    have hN1 := (List.nodup_append.1 hN).1
    have hN2 := (List.nodup_append.1 hN1).1
    have sreads : Scoped (fun n => ∃ x, ext n = some x) (rs.map fun r => (r.var, ([] : List Str))) := by
      have hh : ∀ (l : List Read) (k : Str → Prop), (l.map Read.var).Nodup → (∀ r ∈ l, ¬ k r.var) →
          Scoped k (l.map fun r => (r.var, ([] : List Str))) := by
        intro l
        induction l with
        | nil => intro k _ _; trivial
        | cons r l ih =>
          intro k hn hk
          rw [List.map_cons, List.nodup_cons] at hn
          refine ⟨by simp, hk r (by simp), ih _ hn.2 ?_⟩
          rintro r' hr' (h | h)
          · exact hk r' (List.mem_cons_of_mem _ hr') h
          · exact hn.1 (by rw [← h]; exact List.mem_map_of_mem hr')
      refine hh rs _ (List.nodup_append.1 hN2).1 ?_
      rintro r hr ⟨x, hx⟩
      rw [(hvars r.var (List.mem_map_of_mem hr)).2.2] at hx; cases hx
    have sfds : Scoped (fun n => (∃ x, ext n = some x) ∨ n ∈ rs.map Read.var) d1 := by
      refine p1s _ ?_ ?_
      · rintro n hnT ⟨q, hq, hf⟩
        obtain ⟨hp, x, hx⟩ := (hused q hq n hf).resolve_left hnT
        rcases hpure1 n x hp hx with h | ⟨r, hr, rfl⟩
        · exact .inl h
        · exact .inr (List.mem_map_of_mem hr)
      · intro n hn hk
        rcases p1m n hn with h | h
        · rcases hk with ⟨x, hx⟩ | hk
          · rw [(hapure n h).2.2] at hx; cases hx
          · exact (hapure n h).1 (hvars n hk).1
        · rcases hk with ⟨x, hx⟩ | hk
          · rw [hC.ext_part n (hpre1 n h)] at hx; cases hx
          · exact (hvars n hk).2.1 (hpre1 n h)
    have salgs : Scoped (fun n => ((∃ x, ext n = some x) ∨ n ∈ rs.map Read.var) ∨ n ∈ d1.map Prod.fst)
        ((D.map fun d => ((c% "Upwind") ++ dec d, (c% "UpwindControlVectorU") ++ dec d)).map fun p => (p.1, [p.2])) := by
      have hh : ∀ (l : List Nat) (k : Str → Prop), (l.map fun d => (c% "Upwind") ++ dec d).Nodup →
          (∀ d ∈ l, ¬ k ((c% "Upwind") ++ dec d)) → (∀ d ∈ l, k ((c% "UpwindControlVectorU") ++ dec d)) →
          Scoped k ((l.map fun d => ((c% "Upwind") ++ dec d, (c% "UpwindControlVectorU") ++ dec d)).map fun p => (p.1, [p.2])) := by
        intro l
        induction l with
        | nil => intro k _ _ _; trivial
        | cons r l ih =>
          intro k hn hk hk'
          rw [List.map_cons, List.nodup_cons] at hn
          refine ⟨by simpa using hk' r (by simp), hk r (by simp), ih _ hn.2 ?_ fun d hd => .inl (hk' d (List.mem_cons_of_mem _ hd))⟩
          rintro r' hr' (h | h)
          · exact hk r' (List.mem_cons_of_mem _ hr') h
          · have h' : (c% "Upwind") ++ dec r' = (c% "Upwind") ++ dec r := h
            exact hn.1 (by rw [← h']; exact List.mem_map_of_mem (f := fun d => (c% "Upwind") ++ dec d) hr')
      refine hh D _ (List.nodup_append.1 hN1).2.1 ?_ ?_
      · rintro k hk ((⟨x, hx⟩ | h) | h)
        · rw [H.ext_up _ (up_prefix _)] at hx; cases hx
        · exact (hvars _ h).1.1 (up_prefix _)
        · rcases p1m _ h with h | h
          · exact (List.nodup_append.1 hN1).2.2 _ (List.mem_append_right _ h) _
              (List.mem_map_of_mem (f := fun d => (c% "Upwind") ++ dec d) hk) rfl
          · exact up_part _ (hpre1 _ h)
      · intro k hk
        exact .inr (p1o _ (List.mem_map.2 ⟨_, (hmemA _).2 (.inr ⟨k, hk, rfl⟩), rfl⟩))
    have sups : Scoped (fun n => (((∃ x, ext n = some x) ∨ n ∈ rs.map Read.var) ∨ n ∈ d1.map Prod.fst) ∨
        n ∈ D.map fun d => (c% "Upwind") ++ dec d) (p2.code.map fun p => (p.1, p.2.free)) := by
      refine scoped_code p2n p2u ?_ ?_
      · rintro n ⟨-, -, q, hq, hf⟩
        obtain ⟨d, hd, hop, rfl⟩ := (hmemB q).1 hq
        rcases hbfree d hd hop n hf with ⟨k, hk, rfl⟩ | h
        · exact .inr (List.mem_map_of_mem (f := fun d => (c% "Upwind") ++ dec d) hk)
        · exact .inl (.inr (p1o n h))
      · intro n hn hk
        rcases p2m n hn with h | h
        · rcases hk with ((⟨x, hx⟩ | hk) | hk) | hk
          · rw [(hbname n h).2.2] at hx; cases hx
          · exact hdisj n (List.mem_append_left _ (List.mem_append_left _ hk)) n h rfl
          · rcases p1m n hk with h' | h'
            · exact hdisj n (List.mem_append_left _ (List.mem_append_right _ h')) n h rfl
            · exact (hbname n h).1 (hpre1 n h')
          · exact hdisj n (List.mem_append_right _ hk) n h rfl
        · rcases hk with ((⟨x, hx⟩ | hk) | hk) | hk
          · rw [hC.ext_part n (hpre2 n h)] at hx; cases hx
          · exact (hvars n hk).2.1 (hpre2 n h)
          · rcases p1m n hk with h' | h'
            · exact (hapure n h').2.1 (hpre2 n h)
            · exact absurd (pre_ne (a := '1') (b := '2') h' h) (by decide)
          · obtain ⟨k, -, rfl⟩ := List.mem_map.1 hk
            exact up_part _ (hpre2 _ h)
    have smain : Scoped (fun n => ((((∃ x, ext n = some x) ∨ n ∈ rs.map Read.var) ∨ n ∈ d1.map Prod.fst) ∨
        n ∈ D.map fun d => (c% "Upwind") ++ dec d) ∨ n ∈ names p2.code) (p3.code.map fun p => (p.1, p.2.free)) := by
      refine scoped_code p3n p3u ?_ ?_
      · rintro n ⟨-, -, q, hq, hf⟩
        obtain ⟨x, hx⟩ := hbound q.2 (List.of_mem_zip hq).2 n hf
        rcases hknown n x hx with h | ⟨r, hr, rfl⟩ | ⟨d, hd, rfl⟩ | ⟨k, hk, rfl⟩ | ⟨k, hk, rfl⟩ | ⟨d, hd, h, rfl⟩
        · exact .inl (.inl (.inl (.inl h)))
        · exact .inl (.inl (.inl (.inr (List.mem_map_of_mem hr))))
        · exact .inl (.inl (.inr (p1o _ (List.mem_map.2 ⟨_, (hmemA _).2 (.inl ⟨d, hd, rfl⟩), rfl⟩))))
        · exact .inl (.inl (.inr (p1o _ (List.mem_map.2 ⟨_, (hmemA _).2 (.inr ⟨k, hk, rfl⟩), rfl⟩))))
        · exact .inl (.inr (List.mem_map_of_mem (f := fun d => (c% "Upwind") ++ dec d) hk))
        · exact .inr (p2o _ (List.mem_map.2 ⟨_, (hmemB _).2 ⟨d, hd, h, rfl⟩, rfl⟩))
      · intro n hn hk
        rcases p3m n hn with h | h
        · obtain ⟨o1, o2, o3, o4, o5⟩ := hC.outs_ok n h
          rcases hk with (((⟨x, hx⟩ | hk) | hk) | hk) | hk
          · rw [o1] at hx; cases hx
          · obtain ⟨r, hr, rfl⟩ := List.mem_map.1 hk
            exact o4 r.gf (hvar r hr).2 _ _ _ (hr4 r hr)
          · rcases p1m n hk with h' | h'
            · obtain ⟨q, hq, rfl⟩ := List.mem_map.1 h'
              rcases (hmemA q).1 hq with ⟨d, hd, rfl⟩ | ⟨k, hk, rfl⟩
              · revert o3 o5
                simp only [fdLhs]
                split
                · exact fun o3 _ => o3 ⟨(c% "AlgInput") ++ d.name, rfl⟩
                · exact fun _ o5 => o5 d (hg d hd) rfl
              · exact o3 ⟨_, rfl⟩
            · exact o2 (hpre1 n h')
          · obtain ⟨k, -, rfl⟩ := List.mem_map.1 hk
            exact o3 (up_prefix _)
          · rcases p2m n hk with h' | h'
            · obtain ⟨q, hq, rfl⟩ := List.mem_map.1 h'
              obtain ⟨d, hd, hop, rfl⟩ := (hmemB q).1 hq
              exact o5 d (hg d hd) rfl
            · exact o2 (hpre2 n h')
        · have hp := hpre3 n h
          rcases hk with (((⟨x, hx⟩ | hk) | hk) | hk) | hk
          · rw [hC.ext_part n hp] at hx; cases hx
          · exact (hvars n hk).2.1 hp
          · rcases p1m n hk with h' | h'
            · exact (hapure n h').2.1 hp
            · exact absurd (pre_ne (a := '1') (b := '3') h' h) (by decide)
          · obtain ⟨k, -, rfl⟩ := List.mem_map.1 hk
            exact up_part _ hp
          · rcases p2m n hk with h' | h'
            · exact (hbname n h').1 hp
            · exact absurd (pre_ne (a := '2') (b := '3') h' h) (by decide)
    have s1 := scoped_append sreads (scoped_congr (fun n => by rw [hmapr]) sfds)
    have s2 := scoped_append s1 (scoped_congr (fun n => by
      rw [List.map_append, hmapr, List.mem_append, or_assoc]) salgs)
    have s3 := scoped_append s2 (scoped_congr (fun n => by
      rw [List.map_append, List.map_append, hmapr, hmapa, List.mem_append, List.mem_append, or_assoc, or_assoc, or_assoc]) sups)
    exact scoped_append s3 (scoped_congr (fun n => by
      rw [List.map_append, List.map_append, List.map_append, hmapr, hmapa, hmap, List.mem_append, List.mem_append,
        List.mem_append, or_assoc, or_assoc, or_assoc, or_assoc, or_assoc]) smain)
  · -- values
    intro σ hσ
    have a0 : Ag env (fun n => ∃ x, ext n = some x) σ := by
      rintro n x ⟨y, hy⟩ hx
      rw [g3 n y hy] at hx
      rw [hσ n y hy]
      exact Option.some.inj hx
    have a1 := ag_reads a0 hF1
    set σ1 := runReads mem rs σ with hσ1
    have hx1 : ∀ q ∈ all, env q.1 = some (eval I (withTable T σ1) q.2) := by
      intro q hq
      rcases (hmemA q).1 hq with ⟨d, hd, rfl⟩ | ⟨k, hk, rfl⟩
      · obtain ⟨a, b, h1, h2, h3⟩ := hF2 d hd
        simp only
        rw [h3, hEv d hd σ1, fdValue]
        rw [sum_of_evalSum h1, prod_of_evalProd h2]
        · intro n hn v hv
          obtain ⟨c, hc, rfl⟩ := List.mem_map.1 hn
          exact a1 _ _ (hpure1 _ v (inv_pure ((hg d hd).dirs c hc)) hv) hv
        · intro t ht v hv
          refine a1 _ _ (hpure1 _ v ?_ hv) hv
          obtain ⟨ct, -, rfl⟩ := List.mem_map.1 ht
          exact ⟨tmp_up (H.clean _ (hg d hd).base) _, tmp_der (H.clean _ (hg d hd).base) _⟩
      · obtain ⟨v, h1, h2⟩ := hF3 k hk
        simp only
        rw [h2, eval_sym, withTable_keys (hctl k hk).1, a1 _ v (hpure1 _ v (hctl k hk).2 h1) h1]
    have a2 := ag_code' a1 (p1v σ1) (p1k σ1) hpart hx1
    set σ2 := F1 σ1 with hσ2
    have a3 := ag_algs (l := D.map fun d => ((c% "Upwind") ++ dec d, (c% "UpwindControlVectorU") ++ dec d)) a2 (by
      intro p hp
      obtain ⟨k, hk, rfl⟩ := List.mem_map.1 hp
      exact ⟨.inr (List.mem_map.2 ⟨_, (hmemA _).2 (.inr ⟨k, hk, rfl⟩), rfl⟩), hF4 k hk⟩)
    set σ3 := runAlgs (D.map fun d => ((c% "Upwind") ++ dec d, (c% "UpwindControlVectorU") ++ dec d)) σ2 with hσ3
    have hx3 : ∀ q ∈ bl, env q.1 = some (eval I (withTable [] σ3) q.2) := by
      intro q hq
      obtain ⟨d, hd, hop, rfl⟩ := (hmemB q).1 hq
      obtain ⟨x, h1, h2⟩ := hsol (blendOf D d) ((hmemP _).2 (.inr (.inr (.inr (.inr ⟨d, hd, hop, rfl⟩)))))
      have h2' : env d.name = some x := h2
      simp only [blendOf, Stmt.eval, bind, Option.bind] at h1
      have hw : ∀ n, withTable ([] : Dict Str ℚ) σ3 n = σ3 n := fun n => rfl
      simp only
      rw [h2', hL.p2.canon.value, eval_blendExpr]
      have hin : ∀ e ∈ ds, upw e = true → (c% "UpwindAlgInput") ++ e.name ∈ names all := by
        intro e he hu
        refine List.mem_map.2 ⟨_, (hmemA _).2 (.inl ⟨e, he, rfl⟩), ?_⟩
        simp only [fdLhs, hu, if_true]
      have hup := hin d hd (by simp [upw, hop])
      have hdn : (c% "UpwindAlgInput") ++ d.ddn.name ∈ names all := by
        obtain ⟨e, he, hen⟩ := List.mem_map.1 (hddn d hd hop)
        rw [← hen]
        exact hin e he (ddn_upw (hg d hd) hop (hg e he) hen)
      cases e1 : env ((c% "UpwindAlgInput") ++ d.name) with
      | none => rw [e1] at h1; cases h1
      | some a =>
        rw [e1] at h1
        cases e2 : env ((c% "UpwindAlgInput") ++ d.ddn.name) with
        | none => rw [e2] at h1; cases h1
        | some b =>
          rw [e2] at h1
          rw [hw, hw, a3 _ a (.inl (.inr hup)) e1, a3 _ b (.inl (.inr hdn)) e2]
          by_cases hk : dirNo d ∈ D
          · rw [if_pos hk] at h1 ⊢
            obtain ⟨v, -, hv⟩ := hF4 _ hk
            simp only at h1 ⊢
            rw [hv] at h1
            simp only at h1
            rw [hw, a3 _ _ (.inr ⟨_, List.mem_map_of_mem hk, rfl⟩) hv]
            exact h1.symm
          · rw [if_neg hk] at h1 ⊢
            exact h1.symm
    have a4 := ag_code a3 (p2v σ3) (p2k σ3) hpart hx3
    set ρ := exec I p2.code σ3 with hρ
    have hρenv : ∀ n x, env n = some x → ρ n = x := by
      intro n x hx
      refine a4 n x ?_ hx
      rcases hknown n x hx with h | ⟨r, hr, rfl⟩ | ⟨d, hd, rfl⟩ | ⟨k, hk, rfl⟩ | ⟨k, hk, rfl⟩ | ⟨d, hd, h, rfl⟩
      · exact .inl (.inl (.inl (.inl h)))
      · exact .inl (.inl (.inl (.inr ⟨r, hr, rfl⟩)))
      · exact .inl (.inl (.inr (List.mem_map.2 ⟨_, (hmemA _).2 (.inl ⟨d, hd, rfl⟩), rfl⟩)))
      · exact .inl (.inl (.inr (List.mem_map.2 ⟨_, (hmemA _).2 (.inr ⟨k, hk, rfl⟩), rfl⟩)))
      · exact .inl (.inr ⟨_, List.mem_map_of_mem hk, rfl⟩)
      · exact .inr (List.mem_map.2 ⟨_, (hmemB _).2 ⟨d, hd, h, rfl⟩, rfl⟩)
    refine ⟨ρ, ?_, ?_, ?_⟩
    · intro i n e hn he
      refine p3v ρ (n, e) ?_
      rw [List.mem_iff_getElem?]
      exact ⟨i, List.getElem?_zip_eq_some.2 ⟨hn, he⟩⟩
    · intro n x hx
      have h1 := hρenv n x (g3 n x hx)
      refine ⟨h1, ?_⟩
      refine (p3k ρ n ?_ ?_).trans h1
      · exact hpart n x (g3 n x hx)
      · intro hn
        rw [(hC.outs_ok n hn).1] at hx; cases hx
    · intro e he n hn
      have hnf := (hfree n).2 ⟨e, he, hn⟩
      refine ⟨fun h => hρenv _ _ (g4 n h hnf), ?_⟩
      rintro d hd rfl hnc
      refine ⟨fun hop => ?_, fun hop => ?_⟩
      · obtain ⟨x, h1, h2⟩ := g5 d hd hnf hnc hop
        rw [hρenv _ _ h1]
        exact h2
      · obtain ⟨x, up, dn, h1, h2, h3, h4, h5⟩ := g6 d hd hnf hnc hop
        rw [hρenv _ _ h1]
        refine ⟨up, dn, h2, h3, h4, fun cs hcs => ?_⟩
        obtain ⟨k, s, v, k1, k2, k3, k4, k5⟩ := h5 cs hcs
        rw [← hρenv _ _ k3] at k4 k5
        exact ⟨k, s, k1, k2, k4, k5⟩

set_option maxHeartbeats 4000000 in
/-- **C79.** The generated kernel compiles and computes the expressions, with every symbol standing for what its name says:
a gridfunction for its value at the point, `gf_dD0` and the like for the finite difference, anything else for the variable in
scope. -/
theorem C79_kernel_partial {I : Interp ℝ} {L : Lib} (hL : KLibOk I L) {gfs cps : List Str} {ext : Env} {inv : Char → ℝ}
    {es : List Expr} {outs : List Str} (H : Setting gfs cps (es.flatMap L.order) ext inv) (hC : Clear gfs cps ext es outs)
    (m : Nat) (hm : 1 ≤ m) (style : Str) (hs : style = (c% "210") ∨ style = (c% "012"))
    (control : Option (List Str)) (mem : Mem)
    (hcon : ∀ cs, control = some cs → cs.length = 3 ∧
      ∀ s ∈ cs, (∃ x, ext s = some x) ∨ (s ∈ gfs ∧ ∃ e ∈ es, s ∈ e.free))
    (golden : Bool) (hfine : golden = true → ∀ e ∈ es, Fine (po part3) L.isFun e) :
    ∃ K, kernel L [] gfs cps style (2 * m) control golden es outs = .ok K ∧
      Scoped (fun n => ∃ x, ext n = some x) K.decls ∧
      Computes gfs cps ext inv m control mem I es outs (K.run mem I) := by
  classical
  obtain ⟨ds, rs, D, hex, hg, hr1, hD1, hD3, hD5, hrne, core⟩ := kernel_core hL H hC m hm style hs control mem hcon golden hfine
  -- the prototypes
  have hproto : ∀ op, ∃ r : Expr × Dict Str ℚ, ∀ d ∈ ds, d.operator = op → protoFD L (2 * m) d.operator = .ok r := by
    intro op
    by_cases h : ∃ d ∈ ds, d.operator = op
    · obtain ⟨d, hd, rfl⟩ := h
      obtain ⟨r, hr, -⟩ := proto_spec hL (hg d hd) m hm
      exact ⟨r, fun d' _ h' => by rw [h']; exact hr⟩
    · exact ⟨(.num 0, []), fun d hd h' => absurd ⟨d, hd, h'⟩ h⟩
  choose pr hpr' using hproto
  have hpr : ∀ d ∈ ds, protoFD L (2 * m) d.operator = .ok (pr d.operator) := fun d hd => hpr' _ d hd rfl
  have hps : ∀ d ∈ ds, Consts part1 (pr d.operator).2 ∧ Fine (po part1) L.isFun (pr d.operator).1 ∧
      (∀ n ∈ (pr d.operator).1.free, n ∈ (pr d.operator).2.keys ∨
        (∃ t ∈ protoTerms m (c% "FDPROTO") d.operator, n = t.2) ∨ n ∈ invs d) ∧
      ∀ ρ : Str → ℝ, eval I (withTable (pr d.operator).2 ρ) (pr d.operator).1 =
        ((protoTerms m (c% "FDPROTO") d.operator).map fun t => (t.1 : ℝ) * ρ t.2).sum * ((invs d).map ρ).prod := by
    intro d hd
    obtain ⟨r, hr, h⟩ := proto_spec hL (hg d hd) m hm
    rw [hpr d hd] at hr
    rw [Except.ok.inj hr]
    exact h
  have hops : ∀ op, op ∈ sortedStr (superfastUniq (ds.map DerivName.operator)) ↔ op ∈ ds.map DerivName.operator := by
    intro op
    rw [mem_sortedStr, (C29_superfast_uniq _).mem]
  set T := ktable pr ds with hTdef
  obtain ⟨hT, hTk⟩ := consts_fold (pre := part1) (fun op => (pr op).2)
    (sortedStr (superfastUniq (ds.map DerivName.operator))) [] (Consts.nil _) (by
      intro op hop
      obtain ⟨d, hd, rfl⟩ := List.mem_map.1 ((hops op).1 hop)
      exact (hps d hd).1)
  have hT : Consts part1 T := hT
  have hinst : ∀ d ∈ ds, _ := fun d hd => inst_spec hL (hg d hd) (hC.gf_part _ (hg d hd).base) m hT (hps d hd).1
    (fun n hn => (hTk n).2 (.inr ⟨d.operator, (hops _).2 (List.mem_map_of_mem hd), hn⟩)) (hps d hd).2.2.1 (hps d hd).2.2.2
  obtain ⟨hn1, hn2, hn3, core⟩ := core T hT (fun d => instantiate L d.base (pr d.operator).1) (fun d hd => (hinst d hd).1)
    (fun d hd => (hinst d hd).2)
  set all := p1List ds (fun d => instantiate L d.base (pr d.operator).1) D (control.getD []) with hall'
  have hmemA : ∀ q, q ∈ all ↔ (∃ d ∈ ds, q = (fdLhs d, instantiate L d.base (pr d.operator).1)) ∨
      ∃ k ∈ D, q = ((c% "UpwindControlVectorU") ++ dec k, .sym ((control.getD []).getD k [])) := by
    intro q
    rw [hall', p1List, (sortByName_perm _).mem_iff, List.mem_append, List.mem_map, List.mem_map]
    simp only [eq_comm]
  have hP1 : ∃ p1, firstPart L golden T rs all = .ok p1 ∧ (names p1.code).Nodup ∧
      (∀ A x e B, p1.code = A ++ (x, e) :: B → ∀ n ∈ e.free, n ∈ names A ∨
        (n ∉ names p1.code ∧ n ∉ T.keys ∧ ∃ q ∈ all, n ∈ q.2.free)) ∧
      (∀ n ∈ names p1.code, n ∈ names all ∨ part1 <+: n) ∧
      (∀ n ∈ names all, n ∈ names p1.code) ∧
      (∀ σ : Str → ℝ, ∀ q ∈ all, exec I p1.code σ q.1 = eval I (withTable T σ) q.2) ∧
      ∀ (σ : Str → ℝ) n, ¬ Part n → n ∉ names all → exec I p1.code σ n = σ n := by
    by_cases hr : rs = []
    · obtain ⟨h1, h2⟩ := hrne hr
      have ha0 : all = [] := by rw [hall', p1List, h1, h2]; rfl
      refine ⟨⟨[], [], []⟩, by rw [firstPart, if_pos hr], ?_⟩
      rw [ha0]
      have hc0 : Prog.code ⟨[], [], []⟩ = [] := rfl
      rw [hc0]
      refine ⟨by simp [names], ?_, by simp [names], by simp [names], by simp, fun σ n _ _ => rfl⟩
      intro A x e B h
      simp at h
    · obtain ⟨p1, h1, h⟩ := part_spec part_p1 hL.p1 golden T hT.wf (fun n hn => hT.keys hn) (.inr rfl) all
        hn1 (fun n hn => (hn2 n hn).1)
        (by
          intro n hn q hq hf
          rcases hn3 q hq n hf with h | h
          · exact (hn2 n hn).1 (reserved_part part_p1 (hT.keys h))
          · exact (hn2 n hn).2 h.2)
        (fun q hq n hn => (hn3 q hq n hn).imp_right And.left)
        (by
          intro _ _ q hq
          rcases (hmemA q).1 hq with ⟨d, hd, rfl⟩ | ⟨k, hk, rfl⟩
          · exact hL.fine _ (fine_mapSym _ (hps d hd).2.1)
          · exact .sym _)
      refine ⟨p1, ?_, h⟩
      rw [firstPart, if_neg hr, h1]
      rfl
  obtain ⟨p1, p1e, p1n, p1u, p1m, p1o, p1v, p1k⟩ := hP1
  obtain ⟨p2, p3, p2e, p3e, hsc, hval⟩ := core (p1.code.map fun p => (p.1, p.2.free)) (exec I p1.code) {
    scope := by
      intro known hk hn
      refine scoped_code p1n p1u ?_ ?_
      · rintro n ⟨-, hnT, hq⟩
        exact hk n hnT hq
      · intro n h
        exact hn n (by simpa [names] using h)
    only := fun n hn => p1m n (by simpa [names] using hn)
    every := fun n hn => by simpa [names] using p1o n hn
    value := p1v
    keep := p1k }
  obtain ⟨hf, hb⟩ := parts_eq H.toReg m hm style control (fun cs h => (hcon cs h).1) golden ds hex hg rs D hr1 hD1 hD3
    hD5 pr hpr p2 p3 p2e p3e
  refine ⟨⟨rs, p1, algsOf D, p2, p3⟩, ?_, hsc, hval⟩
  unfold kernel
  rw [if_neg (by simpa using hC.len), hf]
  simp only [bind, Except.bind]
  have p1e' : firstPart L golden (ktable pr ds) rs (sortByName (ds.map (fun d => (fdLhs d, instantiate L d.base (pr d.operator).1)) ++
    D.map fun k => ((c% "UpwindControlVectorU") ++ dec k, .sym ((control.getD []).getD k [])))) = .ok p1 := p1e
  rw [p1e']
  simp only
  rw [hb]


/-! ## A concrete case -/

/-- A `Lib` that satisfies the assumptions. -/
def exKLib : Lib := ⟨fun _ ins => ([], ins), id, fun _ => [], fun e _ => e, fun _ => true, free, 9⟩

theorem exKLib_ok (I : Interp ℝ) : KLibOk I exKLib := by
  have h : ∀ pre, LibOk I exKLib pre := fun pre => {
    canon := ⟨fun _ _ => rfl, fun _ _ h => h⟩
    collect := ⟨fun _ _ _ => rfl, fun _ _ _ h => h, fun _ _ h => h⟩
    order := fun _ _ => Iff.rfl
    cse := fun ins => cseOk_refl I pre ins }
  exact ⟨h _, h _, h _, fun _ h => h⟩

/-- `eta * hDD_dupD011 + hDD_dDD0102` and `sin(vU0 + vU1*vU2)` -/
def exKEs : List Expr :=
  [.app .add [.app .mul [.sym (c% "eta"), .sym (c% "hDD_dupD011")], .sym (c% "hDD_dDD0102")],
    .app (.fn (c% "sin")) [.app .add [.sym (c% "vU0"), .app .mul [.sym (c% "vU1"), .sym (c% "vU2")]]]]

def exKOuts : List Str := [(c% "a_rhs"), (c% "b_rhs")]

theorem exKSetting : Setting exGfs [(c% "eta")] (exKEs.flatMap exKLib.order) exExt (fun _ => 10) :=
  { exSetting with
    kinds := by decide
    free := fun v hv => exSetting.free v (by revert v; decide) }

theorem exKClear : Clear exGfs [(c% "eta")] exExt exKEs exKOuts where
  gf_part := by decide
  ext_part := by
    intro n hn
    unfold exExt
    rw [if_neg, if_neg]
    · rintro rfl; revert hn; decide
    · rintro (rfl | rfl | rfl) <;> revert hn <;> decide
  bound := by
    have h : ∀ e ∈ exKEs, ∀ n ∈ e.free, n = (c% "eta") ∨ n ∈ exGfs ∨ n = (c% "hDD_dupD011") ∨ n = (c% "hDD_dDD0102") := by decide
    intro e he n hn
    rcases h e he n hn with rfl | h | rfl | rfl
    · exact .inl ⟨2, by simp [exExt]⟩
    · exact .inr (.inl h)
    · exact .inr (.inr ⟨by decide, exSetting.free _ (by decide) (by decide) (by decide) (by decide)⟩)
    · exact .inr (.inr ⟨by decide, exSetting.free _ (by decide) (by decide) (by decide) (by decide)⟩)
  len := rfl
  nodup := by decide
  no_alias := by decide
  outs_ok := by
    intro n hn
    have hh : n.head? = some 'a' ∨ n.head? = some 'b' := by revert n; decide
    have hd : ¬ (c% "_d") <:+: n := by revert n; decide
    refine ⟨?_, by revert n; decide, by revert n; decide, ?_, ?_⟩
    · simp only [exKOuts, List.mem_cons, List.not_mem_nil, or_false] at hn
      rcases hn with rfl | rfl <;> simp [exExt]
    · intro gf hgf a b c h
      have hne : gf ≠ [] := by intro e; rw [e] at hgf; revert hgf; decide
      rw [show fdTempName gf a b c = _ from fdTempName_eq gf (a, b, c) hne] at h
      obtain rfl := Except.ok.inj h
      simp only [exGfs, List.mem_cons, List.not_mem_nil, or_false] at hgf
      rcases hgf with rfl | rfl | rfl | rfl <;> simp at hh
    · rintro d hg rfl
      exact hd (name_der hg)

theorem exKFine : ∀ e ∈ exKEs, Fine (po part3) exKLib.isFun e := by
  intro e he
  simp only [exKEs, List.mem_cons, List.not_mem_nil, or_false] at he
  have hs : ∀ n, Fine (po part3) exKLib.isFun (.sym n) := fun n => .sym n
  rcases he with rfl | rfl
  · refine fine_noFn (by simp) ?_
    simp only [List.mem_cons, List.not_mem_nil, or_false, forall_eq_or_imp, forall_eq]
    refine ⟨fine_noFn (by simp) ?_, hs _⟩
    simp only [List.mem_cons, List.not_mem_nil, or_false, forall_eq_or_imp, forall_eq]
    exact ⟨hs _, hs _⟩
  · refine .app _ _ ⟨by simp, by simp, by simp⟩ ?_
    simp only [List.mem_cons, List.not_mem_nil, or_false, forall_eq]
    refine fine_noFn (by simp) ?_
    simp only [List.mem_cons, List.not_mem_nil, or_false, forall_eq_or_imp, forall_eq]
    refine ⟨hs _, fine_noFn (by simp) ?_⟩
    simp only [List.mem_cons, List.not_mem_nil, or_false, forall_eq_or_imp, forall_eq]
    exact ⟨hs _, hs _⟩

/-- At fourth order, upwinded along `vU`, with and without pre-processing. -/
example (I : Interp ℝ) (mem : Mem) (golden : Bool) :=
  C79_kernel_partial (exKLib_ok I) exKSetting exKClear 2 (by omega) (c% "210") (.inl rfl)
    (some [(c% "vU0"), (c% "vU1"), (c% "vU2")]) mem (by
      intro cs h
      obtain rfl := Option.some.inj h
      exact ⟨rfl, by
        have : ∀ s ∈ [(c% "vU0"), (c% "vU1"), (c% "vU2")], s ∈ exGfs ∧ ∃ e ∈ exKEs, s ∈ e.free := by decide
        exact fun s hs => .inr (this s hs)⟩) golden (fun _ => exKFine)

/-! ## Where it fails -/

theorem regTable_stale (reg ops : List Str) (dicts : List (Dict Str ℚ)) (h : dicts.length < (regKeys reg ops).length) :
    regTable reg ops dicts = .error .indexError := by
  unfold regTable
  have key : ∀ (l : List Str) (k : ℕ) (T : Dict Str ℚ), dicts.length < k + l.length → k ≤ dicts.length →
      (l.zipIdx k).foldlM (fun T p => match dicts[p.2]? with
      | some d => (.ok (T.update d) : Except KErr (Dict Str ℚ))
      | none => .error .indexError) T = .error .indexError := by
    intro l
    induction l with
    | nil => intro k T h1 h2; simp at h1; omega
    | cons a l ih =>
      intro k T h1 h2
      rw [List.zipIdx_cons, List.foldlM_cons]
      by_cases hk : k < dicts.length
      · simp only [List.getElem?_eq_getElem hk, bind, Except.bind]
        exact ih (k + 1) _ (by simp at h1; omega) (by omega)
      · simp only [List.getElem?_eq_none (Nat.le_of_not_lt hk), bind, Except.bind]
  exact key _ 0 [] (by simpa using h) (by omega)

/-- A call that only reads gridfunctions fails after a call that generated finite differences: the registry of the earlier
call is not cleared (c_codegen.py:359-360), and its entries are matched with the prototypes of this call
(finite_difference.py:1091-1093). -/
theorem C79_registry_violation {L : Lib} {gfs cps : List Str} {ext : Env} {inv : Char → ℝ} {es : List Expr} {outs : List Str}
    (H : Setting gfs cps (es.flatMap L.order) ext inv) (hlen : outs.length = es.length)
    (hno : ∀ v ∈ es.flatMap L.order, looksDeriv v = false) (style : Str) (hs : style = (c% "210") ∨ style = (c% "012"))
    (m : Nat) (hm : 1 ≤ m) (golden : Bool) (reg : List Str) (hreg : reg ≠ []) :
    kernel L reg gfs cps style (2 * m) none golden es outs = .error .indexError := by
  obtain ⟨ds, hex, hg, -, -, -, hsrc⟩ := extract_spec H
  have h0 : ds = [] := by
    rw [List.eq_nil_iff_forall_not_mem]
    intro d hd
    obtain ⟨e, he, hf, -⟩ := hsrc d hd
    have := hno _ hf
    rw [name_looks he] at this
    cases this
  subst h0
  obtain ⟨rs, D, -, -, -, -, -, -, -, -, hr1, -⟩ := genFD_parts H.toReg m hm style hs none (by simp) [] hex hg
  have hsplit := C22_split_all [] (by simp)
  have ht : regTable reg [] [] = .error .indexError := by
    apply regTable_stale
    simpa [regKeys] using List.length_pos_iff.2 hreg
  unfold kernel front
  rw [if_neg (by simpa using hlen)]
  simp only [bind, Except.bind]
  rw [hex]
  simp only [liftName, liftGen]
  rw [hsplit]
  simp only [List.map_nil, List.mapM_nil, pure, Except.pure, List.zip_nil_left] at hr1 ⊢
  rw [hr1]
  simp only [superfastUniq, sortedStr, List.mapM_nil, pure, Except.pure, List.map_nil, uniqFrom, List.foldr_nil]
  rw [ht]

/-- The registry after a call with `hDD_dD0`, and an expression without derivatives. -/
example (golden : Bool) : kernel exKLib [(c% "dD0")] exGfs [(c% "eta")] (c% "210") 4 none golden
    [.app .mul [.sym (c% "eta"), .sym (c% "vU0")]] [(c% "a")] = .error .indexError :=
  C79_registry_violation (inv := fun _ => 10) (ext := exExt)
    { exSetting with
      kinds := by decide
      free := fun v hv => exSetting.free v (by revert v; decide) } rfl (by decide) _ (.inl rfl) 2 (by omega) golden _ (by simp)

end Verif.CodeGen