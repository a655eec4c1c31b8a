import Verif.SuperB.Inner
import Verif.SuperB.CharesProps
import Mathlib.Data.List.Basic
import Mathlib.Data.List.Nodup
import Mathlib.Algebra.BigOperators.Group.Finset.Basic
import Mathlib.Algebra.BigOperators.Group.Finset.Piecewise
import Mathlib.Tactic.Ring

/-!
# Lemmas for the inner boundary conditions on a distributed grid (C111)
-/
namespace Verif.SuperB.Inner

section
variable (O : Own)

/-- The inner points of chare `a` whose partner belongs to chare `c`, in order. -/
def sub (a c : ℕ) (pts : List Entry) : List Entry := pts.filter fun e => O.chare e.dst = a ∧ O.chare e.src = c

theorem sub_append (a c : ℕ) (l l' : List Entry) : sub O a c (l ++ l') = sub O a c l ++ sub O a c l' := by
  simp [sub]

theorem mem_sub {a c : ℕ} {pts : List Entry} {e : Entry} : e ∈ sub O a c pts ↔ e ∈ pts ∧ O.chare e.dst = a ∧ O.chare e.src = c := by
  simp [sub]

theorem srcCount_eq (a : ℕ) (pts : List Entry) (c : ℕ) : srcCount O a pts c = if c = a then 0 else (sub O a c pts).length := by
  have key : ∀ (pts : List Entry) (f : ℕ → ℕ),
      pts.foldl (fun a' e => if O.chare e.dst = a then if O.chare e.src = a then a' else bump a' (O.chare e.src) else a') f c =
        f c + if c = a then 0 else (sub O a c pts).length := by
    intro pts
    induction pts with
    | nil => intro f; simp [sub]
    | cons e l ih =>
      intro f
      rw [List.foldl_cons, ih]
      by_cases h1 : O.chare e.dst = a
      · by_cases h2 : O.chare e.src = a
        · by_cases h3 : c = a
          · simp [h1, h2, h3]
          · have : O.chare e.src ≠ c := fun h => h3 (h ▸ h2)
            simp [sub, h1, h2, h3, Ne.symm h3]
        · by_cases h3 : c = a
          · subst h3; simp [h1, h2, bump, Function.update_of_ne (Ne.symm h2)]
          · by_cases h4 : O.chare e.src = c
            · subst h4; simp [h1, h2, bump, sub]; omega
            · simp [h1, h2, h3, h4, bump, sub, Function.update_of_ne (Ne.symm h4)]
      · simp [h1, sub]
  unfold srcCount; simpa using key pts fun _ => 0

theorem dstCount_eq (b : ℕ) (pts : List Entry) (a : ℕ) : dstCount O b pts a = if a = b then 0 else (sub O a b pts).length := by
  have key : ∀ (pts : List Entry) (f : ℕ → ℕ),
      pts.foldl (fun a' e => if O.chare e.dst = b then a' else if O.chare e.src = b then bump a' (O.chare e.dst) else a') f a =
        f a + if a = b then 0 else (sub O a b pts).length := by
    intro pts
    induction pts with
    | nil => intro f; simp [sub]
    | cons e l ih =>
      intro f
      rw [List.foldl_cons, ih]
      by_cases h1 : O.chare e.dst = b
      · by_cases h3 : a = b
        · simp [h1, h3]
        · have : O.chare e.dst ≠ a := fun h => h3 (h ▸ h1)
          simp [sub, h1, h3, Ne.symm h3]
      · by_cases h2 : O.chare e.src = b
        · by_cases h3 : a = b
          · subst h3; simp [h1, h2, bump, Function.update_of_ne (Ne.symm h1)]
          · by_cases h4 : O.chare e.dst = a
            · subst h4; simp [h1, h2, bump, sub]; omega
            · simp [h1, h2, h3, h4, bump, sub, Function.update_of_ne (Ne.symm h4)]
        · simp [h1, h2, sub]
  unfold dstCount; simpa using key pts fun _ => 0

/-- Lists, indices and inverse map of chares fit together. -/
structure TableOk (T : Table) (tot : ℕ) (cnt : ℕ → ℕ) : Prop where
  id : ∀ c s, T.id c = some s ↔ T.idx[s]? = some c
  num : T.num = T.idx.map cnt
  mem : ∀ c, c ∈ T.idx ↔ c < tot ∧ 0 < cnt c

theorem table_ok (tot : ℕ) (cnt : ℕ → ℕ) : TableOk (table tot cnt) tot cnt := by
  induction tot with
  | zero => constructor <;> simp [table]
  | succ n ih =>
    have e : table (n + 1) cnt = if 0 < cnt n then ⟨(table n cnt).idx ++ [n], (table n cnt).num ++ [cnt n],
        Function.update (table n cnt).id n (some (table n cnt).idx.length)⟩ else table n cnt := by
      unfold table; rw [List.range_succ, List.foldl_append]; rfl
    rw [e]
    by_cases h : 0 < cnt n
    · rw [if_pos h]
      have hn : n ∉ (table n cnt).idx := fun hm => by have := ((ih.mem n).1 hm).1; omega
      constructor
      · intro c s
        dsimp only
        by_cases hc : c = n
        · subst hc
          rw [Function.update_self, List.getElem?_append]
          split
          · rename_i hs
            constructor
            · rintro ⟨rfl⟩; omega
            · intro h'; exact absurd (List.mem_of_getElem? h') hn
          · rename_i hs
            constructor
            · rintro ⟨rfl⟩; simp
            · intro h'
              have h3 : s - (table c cnt).idx.length < 1 := by
                by_contra hlt
                rw [List.getElem?_eq_none (by simp only [List.length_cons, List.length_nil]; omega)] at h'
                simp at h'
              have : s = (table c cnt).idx.length := by omega
              rw [this]
        · rw [Function.update_of_ne hc, ih.id, List.getElem?_append]
          split
          · rfl
          · rename_i hs
            rw [List.getElem?_eq_none (by omega)]
            constructor
            · simp
            · intro h'
              have := List.mem_of_getElem? h'
              simp at this
              exact absurd this hc
      · simp [ih.num]
      · intro c
        dsimp only
        rw [List.mem_append, ih.mem, List.mem_singleton]
        constructor
        · rintro (⟨h1, h2⟩ | rfl)
          · exact ⟨by omega, h2⟩
          · exact ⟨by omega, h⟩
        · rintro ⟨h1, h2⟩
          rcases Nat.lt_succ_iff_lt_or_eq.1 h1 with h1 | h1
          · exact .inl ⟨h1, h2⟩
          · exact .inr h1
    · rw [if_neg h]
      refine ⟨ih.id, ih.num, fun c => ?_⟩
      rw [ih.mem]
      constructor
      · rintro ⟨h1, h2⟩; exact ⟨by omega, h2⟩
      · rintro ⟨h1, h2⟩
        refine ⟨?_, h2⟩
        rcases Nat.lt_succ_iff_lt_or_eq.1 h1 with h1 | h1
        · exact h1
        · subst h1; exact absurd h2 h

theorem TableOk.nodup {T : Table} {tot : ℕ} {cnt : ℕ → ℕ} (h : TableOk T tot cnt) : T.idx.Nodup := by
  rw [List.nodup_iff_getElem?_ne_getElem?]
  intro i j hij hj e
  have hi : i < T.idx.length := by omega
  have h1 := (h.id (T.idx[i]) i).2 (List.getElem?_eq_getElem hi)
  have h2 := (h.id (T.idx[i]) j).2 (by rw [← e]; exact List.getElem?_eq_getElem hi)
  rw [h1] at h2
  simp at h2
  omega

theorem TableOk.num_get {T : Table} {tot : ℕ} {cnt : ℕ → ℕ} (h : TableOk T tot cnt) {s c : ℕ} (hs : T.idx[s]? = some c) :
    T.num[s]? = some (cnt c) := by
  rw [h.num, List.getElem?_map, hs]; rfl

theorem linear_get (ns : List ℕ) : ∀ (cur s : ℕ), (linear cur ns)[s]? =
    (ns[s]?).map fun n => (List.range n).map fun k => cur + (ns.take s).sum + k := by
  induction ns with
  | nil => intro cur s; simp [linear]
  | cons n l ih =>
    intro cur s
    cases s with
    | zero => simp [linear]
    | succ s =>
      simp only [linear, List.getElem?_cons_succ, ih, List.take_succ_cons, List.sum_cons]
      congr 1
      funext m
      congr 1
      funext k
      omega

theorem take_sum_le : ∀ (ns : List ℕ) (s s' n : ℕ), s < s' → ns[s]? = some n → (ns.take s).sum + n ≤ (ns.take s').sum
  | [], s, s', n, _, h => by simp at h
  | a :: l, 0, s' + 1, n, _, h => by simp at h; subst h; simp
  | a :: l, s + 1, s' + 1, n, hs, h => by
    have := take_sum_le l s s' n (by omega) (by simpa using h)
    simp only [List.take_succ_cons, List.sum_cons]
    omega

theorem take_sum_total (ns : List ℕ) {s n k : ℕ} (h : ns[s]? = some n) (hk : k < n) : (ns.take s).sum + k < ns.sum := by
  have hs : s < ns.length := by
    by_contra hc
    rw [List.getElem?_eq_none (by omega)] at h
    simp at h
  have := take_sum_le ns s ns.length n hs h
  rw [List.take_length] at this
  omega

theorem off_inj (ns : List ℕ) {s s' n n' k k' : ℕ} (h : ns[s]? = some n) (h' : ns[s']? = some n') (hk : k < n) (hk' : k' < n')
    (e : (ns.take s).sum + k = (ns.take s').sum + k') : s = s' ∧ k = k' := by
  rcases lt_trichotomy s s' with hlt | rfl | hlt
  · have := take_sum_le ns s s' n hlt h; omega
  · exact ⟨rfl, by omega⟩
  · have := take_sum_le ns s' s n' hlt h'; omega

theorem sum_idx {T : Table} {tot : ℕ} {cnt : ℕ → ℕ} (h : TableOk T tot cnt) : T.num.sum = ∑ c ∈ Finset.range tot, cnt c := by
  rw [h.num, ← List.sum_toFinset _ h.nodup]
  apply Finset.sum_subset
  · intro c hc
    rw [List.mem_toFinset, h.mem] at hc
    exact Finset.mem_range.2 hc.1
  · intro c hc hc'
    rw [List.mem_toFinset, h.mem] at hc'
    rw [Finset.mem_range] at hc
    by_contra h0
    exact hc' ⟨hc, Nat.pos_of_ne_zero h0⟩

theorem numNonlocal_eq (a : ℕ) (pts : List Entry) (hlt : ∀ e ∈ pts, O.chare e.src < O.tot) :
    ∑ c ∈ Finset.range O.tot, srcCount O a pts c = numNonlocal O a pts := by
  have key : ∀ (pts : List Entry) (n : ℕ), (∀ e ∈ pts, O.chare e.src < O.tot) →
      pts.foldl (fun n e => if O.chare e.dst = a then if O.chare e.src = a then n else n + 1 else n) n =
        n + ∑ c ∈ Finset.range O.tot, if c = a then 0 else (sub O a c pts).length := by
    intro pts
    induction pts with
    | nil => intro n _; simp [sub]
    | cons e l ih =>
      intro n hl
      rw [List.foldl_cons, ih _ fun e he => hl e (by simp [he])]
      by_cases h1 : O.chare e.dst = a
      · by_cases h2 : O.chare e.src = a
        · rw [if_pos h1, if_pos h2]
          congr 1
          refine Finset.sum_congr rfl fun c _ => ?_
          by_cases h3 : c = a
          · simp [h3]
          · simp [sub, h1, h2, Ne.symm h3]
        · rw [if_pos h1, if_neg h2]
          have : ∑ c ∈ Finset.range O.tot, (if c = a then 0 else (sub O a c (e :: l)).length) =
              ∑ c ∈ Finset.range O.tot, ((if c = a then 0 else (sub O a c l).length) + if O.chare e.src = c then 1 else 0) := by
            refine Finset.sum_congr rfl fun c _ => ?_
            by_cases h3 : c = a
            · subst h3; simp [h2]
            · by_cases h4 : O.chare e.src = c
              · simp [h3, sub, h1, h4]
              · simp [h3, sub, h1, h4]
          rw [this, Finset.sum_add_distrib, Finset.sum_ite_eq, if_pos (Finset.mem_range.2 (hl e (by simp)))]
          omega
      · rw [if_neg h1]
        congr 1
        refine Finset.sum_congr rfl fun c _ => ?_
        simp [sub, h1]
  rw [numNonlocal, key pts 0 hlt, zero_add]
  exact Finset.sum_congr rfl fun c _ => srcCount_eq O a pts c

/-! ### The set-up -/

/-- The arrays of a chare after the set-up. -/
structure BcOk (a : ℕ) (pts : List Entry) (B : Bc) : Prop where
  locals : B.locals = localEntries O a pts
  src : TableOk B.src O.tot (srcCount O a pts)
  dst : TableOk B.dst O.tot (dstCount O a pts)
  lin : B.lin = linear 0 B.src.num
  src_pts : ∀ s c, B.src.idx[s]? = some c → ∀ k, B.pts s k = ((sub O a c pts)[k]?).map (·.src)
  bc : ∀ s c, B.src.idx[s]? = some c → ∀ k, k < (sub O a c pts).length →
    B.bc ((B.src.num.take s).sum + k) = ((sub O a c pts)[k]?).map fun e => (O.loc e.dst, e.parity)

/-- State of the filling loop after the points of `pre`. -/
structure FillOk (a : ℕ) (pts : List Entry) (T : Table) (pre : List Entry) (f : Fill) : Prop where
  cnt : ∀ s c, T.idx[s]? = some c → f.cnt s = (sub O a c pre).length
  fpts : ∀ s c, T.idx[s]? = some c → ∀ k, f.pts s k = ((sub O a c pre)[k]?).map (·.src)
  bc : ∀ s c, T.idx[s]? = some c → ∀ k, k < (sub O a c pts).length →
    f.bc ((T.num.take s).sum + k) = ((sub O a c pre)[k]?).map fun e => (O.loc e.dst, e.parity)

theorem fill_ok {a : ℕ} {pts : List Entry} (hlt : ∀ e ∈ pts, O.chare e.src < O.tot) {T : Table}
    (hT : TableOk T O.tot (srcCount O a pts)) : ∀ (rest pre : List Entry) (f : Fill), pre ++ rest = pts → FillOk O a pts T pre f →
      ∃ f', rest.foldlM (fillStep O a T (linear 0 T.num) (numNonlocal O a pts)) f = some f' ∧ FillOk O a pts T pts f'
  | [], pre, f, e, hf => ⟨f, rfl, by rw [List.append_nil] at e; exact e ▸ hf⟩
  | e :: l, pre, f, he, hf => by
    have he' : (pre ++ [e]) ++ l = pts := by simpa using he
    have hmem : e ∈ pts := by rw [← he]; simp
    have cont : ∀ f1, fillStep O a T (linear 0 T.num) (numNonlocal O a pts) f e = some f1 → FillOk O a pts T (pre ++ [e]) f1 →
        ∃ f', (e :: l).foldlM (fillStep O a T (linear 0 T.num) (numNonlocal O a pts)) f = some f' ∧ FillOk O a pts T pts f' := by
      intro f1 h1 h2
      obtain ⟨f', h3, h4⟩ := fill_ok hlt hT l (pre ++ [e]) f1 he' h2
      exact ⟨f', by rw [List.foldlM_cons, h1]; exact h3, h4⟩
    by_cases h1 : O.chare e.dst = a
    swap
    · refine cont f (by rw [fillStep, if_neg h1]) ?_
      have hs : ∀ c, sub O a c (pre ++ [e]) = sub O a c pre := fun c => by rw [sub_append]; simp [sub, h1]
      exact ⟨fun s c h => by rw [hs]; exact hf.cnt s c h, fun s c h => by rw [hs]; exact hf.fpts s c h,
        fun s c h => by rw [hs]; exact hf.bc s c h⟩
    by_cases h2 : O.chare e.src = a
    · refine cont f (by rw [fillStep, if_pos h1, if_neg (by simpa using h2)]) ?_
      have hs : ∀ s c, T.idx[s]? = some c → sub O a c (pre ++ [e]) = sub O a c pre := fun s c h => by
        have := ((hT.mem c).1 (List.mem_of_getElem? h)).2
        rw [srcCount_eq] at this
        have hc : c ≠ a := fun hc => by simp [hc] at this
        rw [sub_append]
        simp [sub, h1, h2, Ne.symm hc]
      exact ⟨fun s c h => by rw [hs s c h]; exact hf.cnt s c h, fun s c h => by rw [hs s c h]; exact hf.fpts s c h,
        fun s c h => by rw [hs s c h]; exact hf.bc s c h⟩
    · obtain ⟨c, hc⟩ : ∃ c, c = O.chare e.src := ⟨_, rfl⟩
      have hcount : ∀ c', c' ≠ a → srcCount O a pts c' = (sub O a c' pts).length := fun c' h => by rw [srcCount_eq, if_neg h]
      have hca : c ≠ a := by rw [hc]; exact h2
      have hsub : sub O a c pts = sub O a c pre ++ e :: sub O a c l := by
        rw [← he, sub_append]; congr 1; simp [sub, h1, hc]
      have hpos : 0 < srcCount O a pts c := by rw [hcount c hca, hsub]; simp
      have hin : c ∈ T.idx := (hT.mem c).2 ⟨by rw [hc]; exact hlt e hmem, hpos⟩
      obtain ⟨s, hs⟩ := List.mem_iff_getElem?.1 hin
      have hid := (hT.id c s).2 hs
      have hnum := hT.num_get hs
      rw [hcount c hca] at hnum
      have hk : (sub O a c pre).length < (sub O a c pts).length := by rw [hsub]; simp
      have hcnt := hf.cnt s c hs
      have hrow : (linear 0 T.num)[s]? = some ((List.range (sub O a c pts).length).map fun k => (T.num.take s).sum + k) := by
        rw [linear_get, hnum]; simp
      have hl : ((List.range (sub O a c pts).length).map fun k => (T.num.take s).sum + k)[f.cnt s]? =
          some ((T.num.take s).sum + (sub O a c pre).length) := by
        rw [hcnt, List.getElem?_map, List.getElem?_range hk]; rfl
      have hbound : (T.num.take s).sum + (sub O a c pre).length < numNonlocal O a pts := by
        rw [← numNonlocal_eq O a pts hlt, ← sum_idx hT]
        exact take_sum_total _ hnum hk
      refine cont ⟨bump f.cnt s, Function.update f.pts s (Function.update (f.pts s) (f.cnt s) (some e.src)),
          Function.update f.bc ((T.num.take s).sum + (sub O a c pre).length) (some (O.loc e.dst, e.parity))⟩ ?_ ?_
      · rw [fillStep, if_pos h1, if_pos h2, ← hc, hid]
        simp only [Option.bind_eq_bind, Option.bind_some, hrow, hl]
        rw [if_pos hbound]
      · have same : sub O a c (pre ++ [e]) = sub O a c pre ++ [e] := by
          rw [sub_append]; congr 1; simp [sub, h1, hc]
        have other : ∀ c', c' ≠ c → sub O a c' (pre ++ [e]) = sub O a c' pre := fun c' h => by
          rw [sub_append]
          have : O.chare e.src ≠ c' := fun h' => h (by rw [hc]; exact h'.symm)
          simp [sub, this]
        have ne : ∀ s' c', T.idx[s']? = some c' → s' ≠ s → c' ≠ c := fun s' c' h h' e' => by
          subst e'
          have := (hT.id c' s').2 h
          rw [hid] at this
          exact h' (Option.some.inj this).symm
        constructor
        · intro s' c' h'
          dsimp only [bump]
          by_cases hss : s' = s
          · subst hss
            rw [hs] at h'
            cases h'
            rw [Function.update_self, hcnt, same, List.length_append]; rfl
          · rw [Function.update_of_ne hss, other c' (ne s' c' h' hss)]
            exact hf.cnt s' c' h'
        · intro s' c' h' k
          dsimp only
          by_cases hss : s' = s
          · subst hss
            rw [hs] at h'
            cases h'
            rw [Function.update_self, same]
            by_cases hkk : k = f.cnt s'
            · subst hkk
              rw [Function.update_self, hcnt]
              simp
            · rw [Function.update_of_ne hkk, hf.fpts s' c hs, List.getElem?_append]
              split
              · rfl
              · rw [List.getElem?_eq_none (l := [e]) (by simp; omega), List.getElem?_eq_none (by omega)]
          · rw [Function.update_of_ne hss, other c' (ne s' c' h' hss)]
            exact hf.fpts s' c' h' k
        · intro s' c' h' k hk'
          dsimp only
          have hca' : c' ≠ a := fun h => by
            have := ((hT.mem c').1 (List.mem_of_getElem? h')).2
            rw [srcCount_eq] at this
            simp [h] at this
          have hnum' := hT.num_get h'
          rw [hcount c' hca'] at hnum'
          by_cases hss : s' = s
          · subst hss
            rw [hs] at h'
            cases h'
            rw [same]
            by_cases hkk : k = (sub O a c pre).length
            · subst hkk
              rw [Function.update_self]; simp
            · rw [Function.update_of_ne (by omega), hf.bc s' c hs k hk', List.getElem?_append]
              split
              · rfl
              · rw [List.getElem?_eq_none (l := [e]) (by simp; omega), List.getElem?_eq_none (by omega)]
          · rw [Function.update_of_ne, other c' (ne s' c' h' hss)]
            · exact hf.bc s' c' h' k hk'
            · intro heq
              exact hss (off_inj T.num hnum' hnum hk' hk heq).1

theorem setUp_ok (a : ℕ) {pts : List Entry} (hlt : ∀ e ∈ pts, O.chare e.src < O.tot) :
    ∃ B, setUp O pts a = some B ∧ BcOk O a pts B := by
  have hT := table_ok O.tot (srcCount O a pts)
  obtain ⟨f, h1, h2⟩ := fill_ok O hlt hT pts [] ⟨fun _ => 0, fun _ _ => none, fun _ => none⟩ rfl
    ⟨fun s c _ => by simp [sub], fun s c _ k => by simp [sub], fun s c _ k _ => by simp [sub]⟩
  refine ⟨⟨localEntries O a pts, table O.tot (srcCount O a pts), linear 0 (table O.tot (srcCount O a pts)).num, f.pts, f.bc,
    table O.tot (dstCount O a pts)⟩, by rw [setUp]; simp only [h1, Option.bind_eq_bind, Option.bind_some], ?_⟩
  exact ⟨rfl, hT, table_ok _ _, rfl, h2.fpts, h2.bc⟩

end

theorem BcOk.src_mem {O : Own} {a : ℕ} {pts : List Entry} {B : Bc} (h : BcOk O a pts B) (c : ℕ) :
    c ∈ B.src.idx ↔ c < O.tot ∧ c ≠ a ∧ sub O a c pts ≠ [] := by
  rw [h.src.mem, srcCount_eq]
  by_cases hc : c = a
  · simp [hc]
  · simp [hc, List.length_pos_iff]

theorem BcOk.dst_mem {O : Own} {b : ℕ} {pts : List Entry} {B : Bc} (h : BcOk O b pts B) (a : ℕ) :
    a ∈ B.dst.idx ↔ a < O.tot ∧ a ≠ b ∧ sub O a b pts ≠ [] := by
  rw [h.dst.mem, dstCount_eq]
  by_cases hc : a = b
  · simp [hc]
  · simp [hc, List.length_pos_iff]

theorem BcOk.src_num {O : Own} {a : ℕ} {pts : List Entry} {B : Bc} (h : BcOk O a pts B) {s c : ℕ} (hs : B.src.idx[s]? = some c) :
    B.src.num[s]? = some (sub O a c pts).length := by
  rw [h.src.num_get hs, srcCount_eq, if_neg ((h.src_mem c).1 (List.mem_of_getElem? hs)).2.1]

theorem BcOk.dst_num {O : Own} {b : ℕ} {pts : List Entry} {B : Bc} (h : BcOk O b pts B) {s a : ℕ} (hs : B.dst.idx[s]? = some a) :
    B.dst.num[s]? = some (sub O a b pts).length := by
  rw [h.dst.num_get hs, dstCount_eq, if_neg ((h.dst_mem a).1 (List.mem_of_getElem? hs)).2.1]

/-- The row of linear indices of a source, and the entry of each of its points. -/
theorem BcOk.row {O : Own} {a : ℕ} {pts : List Entry} {B : Bc} (h : BcOk O a pts B) {s c : ℕ} (hs : B.src.idx[s]? = some c) :
    ∃ row, B.lin[s]? = some row ∧ row.length = (sub O a c pts).length ∧ ∀ (k : ℕ) (e : Entry), (sub O a c pts)[k]? = some e →
      ∃ lid, row[k]? = some lid ∧ B.bc lid = some (O.loc e.dst, e.parity) := by
  refine ⟨_, by rw [h.lin, linear_get, h.src_num hs]; rfl, by simp, fun k e he => ?_⟩
  have hk : k < (sub O a c pts).length := by
    by_contra hc
    rw [List.getElem?_eq_none (by omega)] at he
    simp at he
  refine ⟨_, by rw [List.getElem?_map, List.getElem?_range hk]; rfl, ?_⟩
  rw [zero_add, h.bc s c hs k hk, he]
  rfl

/-! ### Messages at the start -/

theorem mapM_range {α β : Type} (l : List α) (f : ℕ → Option β) (g : α → β) (h : ∀ s c, l[s]? = some c → f s = some (g c)) :
    (List.range l.length).mapM f = some (l.map g) := by
  induction l generalizing f with
  | nil => rfl
  | cons x l ih =>
    have hm : ∀ (l : List ℕ) (f : ℕ → Option β), (l.map Nat.succ).mapM f = l.mapM fun s => f (s + 1) := by
      intro l f
      induction l with
      | nil => rfl
      | cons a l ih => rw [List.map_cons, List.mapM_cons, List.mapM_cons, ih]
    rw [List.length_cons, List.range_succ_eq_map, List.mapM_cons, h 0 x rfl, hm,
      ih (fun s => f (s + 1)) fun s c hs => h (s + 1) c (by simpa using hs)]
    rfl

theorem requests_eq {O : Own} {a : ℕ} {pts : List Entry} {B : Bc} (h : BcOk O a pts B) :
    requests a B = some (B.src.idx.map fun c => (c, a, (sub O a c pts).map (·.src))) := by
  refine mapM_range _ _ _ fun s c hs => ?_
  have e : (List.range (sub O a c pts).length).mapM (B.pts s) = some ((sub O a c pts).map (·.src)) :=
    mapM_range _ _ _ fun k e he => by rw [h.src_pts s c hs, he]; rfl
  simp only [hs, h.src_num hs, e, Option.bind_eq_bind, Option.bind_some]

/-- The messages for chare `b`. -/
def mail {α : Type} (out : List (ℕ × α)) (b : ℕ) : List α := out.filterMap fun m => if m.1 = b then some m.2 else none

theorem mail_flatMap {α : Type} (tot : ℕ) (out : ℕ → List (ℕ × α)) (T : ℕ → List ℕ) (f : ℕ → ℕ → α) (b : ℕ)
    (h : ∀ a < tot, out a = ((T a).map fun c => (c, f a c)) ∧ (T a).Nodup) :
    mail ((List.range tot).flatMap out) b = ((List.range tot).filter fun a => b ∈ T a).map fun a => f a b := by
  have key : ∀ a (l : List ℕ), l.Nodup → mail (l.map fun c => (c, f a c)) b = if b ∈ l then [f a b] else [] := by
    intro a l hn
    unfold mail
    induction l with
    | nil => simp
    | cons c l ih =>
      rw [List.nodup_cons] at hn
      rw [List.map_cons, List.filterMap_cons, ih hn.2]
      by_cases hc : c = b
      · subst hc
        rw [if_neg hn.1]
        simp
      · simp [hc, Ne.symm hc]
  induction tot with
  | zero => simp [mail]
  | succ n ih =>
    have e := ih fun a ha => h a (by omega)
    rw [List.range_succ, List.flatMap_append, List.filter_append, List.map_append, ← e]
    have : ∀ l l' : List (ℕ × α), mail (l ++ l') b = mail l b ++ mail l' b := fun l l' => by simp [mail]
    rw [this]
    congr 1
    obtain ⟨h1, h2⟩ := h n (by omega)
    rw [List.flatMap_cons, List.flatMap_nil, List.append_nil, h1, key n _ h2]
    by_cases hb : b ∈ T n <;> simp [hb]

theorem processRequests_ok (B : Bc) (hinj : ∀ c c' d, B.dst.id c = some d → B.dst.id c' = some d → c = c') :
    ∀ (ms : List (ℕ × List ℕ)) (a0 : ℕ → ℕ → Option ℕ), (ms.map (·.1)).Nodup →
      (∀ m ∈ ms, ∃ d n, B.dst.id m.1 = some d ∧ B.dst.num[d]? = some n ∧ m.2.length ≤ n) →
      ∃ a, ms.foldlM (processRequest B) a0 = some a ∧ (∀ d, (∀ m ∈ ms, B.dst.id m.1 ≠ some d) → a d = a0 d) ∧
        ∀ m ∈ ms, ∀ d, B.dst.id m.1 = some d → ∀ k, k < m.2.length → a d k = m.2[k]?
  | [], a0, _, _ => ⟨a0, rfl, fun _ _ => rfl, by simp⟩
  | m :: ms, a0, hn, hm => by
    obtain ⟨d, n, h1, h2, h3⟩ := hm m (by simp)
    rw [List.map_cons, List.nodup_cons] at hn
    obtain ⟨a, e1, e2, e3⟩ := processRequests_ok B hinj ms (Function.update a0 d fun k => if k < m.2.length then m.2[k]? else a0 d k)
      hn.2 fun m' h' => hm m' (by simp [h'])
    have hd : ∀ m' ∈ ms, B.dst.id m'.1 ≠ some d := fun m' h' h'' =>
      hn.1 (List.mem_map.2 ⟨m', h', hinj _ _ d h'' h1⟩)
    refine ⟨a, ?_, fun d' h' => ?_, ?_⟩
    · rw [List.foldlM_cons, processRequest]
      simp only [h1, h2, Option.bind_eq_bind, Option.bind_some, if_pos h3]
      exact e1
    · have hne : d' ≠ d := fun h => h' m (by simp) (h ▸ h1)
      rw [e2 d' fun m' hm' => h' m' (by simp [hm']), Function.update_of_ne hne]
    · intro m' hm' d' h' k hk
      rcases List.mem_cons.1 hm' with rfl | hm'
      · rw [h1] at h'
        cases h'
        rw [e2 d hd, Function.update_self, if_pos hk]
      · exact e3 m' hm' d' h' k hk

theorem receive_ok (B : Bc) (hinj : ∀ c c' d, B.src.id c = some d → B.src.id c' = some d → c = c') :
    ∀ (ms : List Msg) (b0 : ℕ → ℕ → ℝ), (ms.map (·.sender)).Nodup → (∀ m ∈ ms, ∃ s, B.src.id m.sender = some s) →
      ∃ b, ms.foldlM (receive B) b0 = some b ∧ (∀ s, (∀ m ∈ ms, B.src.id m.sender ≠ some s) → b s = b0 s) ∧
        ∀ m ∈ ms, ∀ s, B.src.id m.sender = some s → ∀ i, i < m.len → b s i = m.vals i
  | [], b0, _, _ => ⟨b0, rfl, fun _ _ => rfl, by simp⟩
  | m :: ms, b0, hn, hm => by
    obtain ⟨s, h1⟩ := hm m (by simp)
    rw [List.map_cons, List.nodup_cons] at hn
    obtain ⟨b, e1, e2, e3⟩ := receive_ok B hinj ms (Function.update b0 s fun i => if i < m.len then m.vals i else b0 s i)
      hn.2 fun m' h' => hm m' (by simp [h'])
    have hd : ∀ m' ∈ ms, B.src.id m'.sender ≠ some s := fun m' h' h'' =>
      hn.1 (List.mem_map.2 ⟨m', h', hinj _ _ s h'' h1⟩)
    refine ⟨b, ?_, fun s' h' => ?_, ?_⟩
    · rw [List.foldlM_cons, receive]
      simp only [h1, Option.bind_eq_bind, Option.bind_some]
      exact e1
    · have hne : s' ≠ s := fun h => h' m (by simp) (h ▸ h1)
      rw [e2 s' fun m' hm' => h' m' (by simp [hm']), Function.update_of_ne hne]
    · intro m' hm' s' h' k hk
      rcases List.mem_cons.1 hm' with rfl | hm'
      · rw [h1] at h'
        cases h'
        rw [e2 s hd, Function.update_self, if_pos hk]
      · exact e3 m' hm' s' h' k hk

/-! ### Buffers and assignments -/

theorem mem_gfLoop {sync : List ℕ} {n w g k : ℕ} : (w, g, k) ∈ gfLoop sync n ↔ sync[w]? = some g ∧ k < n := by
  unfold gfLoop
  rw [List.mem_flatMap]
  constructor
  · rintro ⟨⟨g', w'⟩, h1, h2⟩
    rw [List.mem_map] at h2
    obtain ⟨k', hk, e⟩ := h2
    simp only [Prod.mk.injEq] at e
    obtain ⟨rfl, rfl, rfl⟩ := e
    rw [List.mk_mem_zipIdx_iff_getElem?] at h1
    exact ⟨h1, List.mem_range.1 hk⟩
  · rintro ⟨h1, h2⟩
    exact ⟨(g, w), List.mk_mem_zipIdx_iff_getElem?.2 h1, List.mem_map.2 ⟨k, List.mem_range.2 h2, rfl⟩⟩

theorem packLoop_ok (O : Own) (a : ℕ → Option ℕ) (n : ℕ) (y : GFs) (W : ℕ → ℝ) : ∀ (l : List (ℕ × ℕ × ℕ)) (buf : ℕ → ℝ),
    (∀ w g k, (w, g, k) ∈ l → ∃ p, a k = some p ∧ y g (O.loc p) = W (k + n * w)) →
    ∃ b, packLoop O a n y buf l = some b ∧ ∀ i, (∃ w g k, (w, g, k) ∈ l ∧ i = k + n * w) → b i = W i
  | [], buf, _ => ⟨buf, rfl, by simp⟩
  | (w, g, k) :: l, buf, h => by
    obtain ⟨p, h1, h2⟩ := h w g k (by simp)
    -- carry the claim for indices already written
    have key : ∀ (l : List (ℕ × ℕ × ℕ)) (buf : ℕ → ℝ),
        (∀ w g k, (w, g, k) ∈ l → ∃ p, a k = some p ∧ y g (O.loc p) = W (k + n * w)) →
        ∃ b, packLoop O a n y buf l = some b ∧ (∀ i, buf i = W i → b i = W i) ∧
          ∀ i, (∃ w g k, (w, g, k) ∈ l ∧ i = k + n * w) → b i = W i := by
      intro l
      induction l with
      | nil => intro buf _; exact ⟨buf, rfl, fun _ h => h, by simp⟩
      | cons t l ih =>
        intro buf h
        obtain ⟨w, g, k⟩ := t
        obtain ⟨p, h1, h2⟩ := h w g k (by simp)
        obtain ⟨b, e1, e2, e3⟩ := ih (Function.update buf (k + n * w) (y g (O.loc p))) fun w g k h' => h w g k (by simp [h'])
        refine ⟨b, ?_, fun i hi => e2 i ?_, ?_⟩
        · rw [packLoop]; simp only [h1, Option.bind_eq_bind, Option.bind_some]; exact e1
        · by_cases hk : i = k + n * w
          · rw [hk, Function.update_self, h2]
          · rw [Function.update_of_ne hk]; exact hi
        · rintro i ⟨w', g', k', hm, rfl⟩
          rcases List.mem_cons.1 hm with e | hm
          · simp only [Prod.mk.injEq] at e
            obtain ⟨rfl, rfl, rfl⟩ := e
            exact e2 _ (by rw [Function.update_self, h2])
          · exact e3 _ ⟨w', g', k', hm, rfl⟩
    obtain ⟨b, e1, -, e3⟩ := key ((w, g, k) :: l) buf h
    exact ⟨b, e1, e3⟩

theorem applyFrom_ok (B : Bc) (types : ℕ → Fin 10) (row : List ℕ) (n : ℕ) (buf : ℕ → ℝ) (W : ℕ → ℕ → ℝ) :
    ∀ (l : List (ℕ × ℕ × ℕ)) (y : GFs),
    (∀ w g k, (w, g, k) ∈ l → ∃ lid p par, row[k]? = some lid ∧ B.bc lid = some (p, par) ∧
      ((par (types g) : ℤ) : ℝ) * buf (k + n * w) = W g p) →
    ∃ y', applyFrom B types row n buf y l = some y' ∧ (∀ g q, y g q = W g q → y' g q = W g q) ∧
      (∀ g q, (∀ w k lid par, (w, g, k) ∈ l → row[k]? = some lid → B.bc lid ≠ some (q, par)) → y' g q = y g q) ∧
      ∀ w g k lid p par, (w, g, k) ∈ l → row[k]? = some lid → B.bc lid = some (p, par) → y' g p = W g p
  | [], y, _ => ⟨y, rfl, fun _ _ h => h, fun _ _ _ => rfl, by simp⟩
  | (w, g, k) :: l, y, h => by
    obtain ⟨lid, p, par, h1, h2, h3⟩ := h w g k (by simp)
    obtain ⟨y', e1, e2, e3, e4⟩ := applyFrom_ok B types row n buf W l
      (Function.update y g (Function.update (y g) p ((par (types g) : ℝ) * buf (k + n * w)))) fun w g k h' => h w g k (by simp [h'])
    refine ⟨y', ?_, fun g' q hq => e2 g' q ?_, fun g' q hq => ?_, ?_⟩
    · rw [applyFrom]
      simp only [h1, h2, Option.bind_eq_bind, Option.bind_some]
      exact e1
    · by_cases hg : g' = g
      · subst hg
        rw [Function.update_self]
        by_cases hp : q = p
        · subst hp; rw [Function.update_self, h3]
        · rw [Function.update_of_ne hp]; exact hq
      · rw [Function.update_of_ne hg]; exact hq
    · rw [e3 g' q fun w' k' lid' par' hm => hq w' k' lid' par' (by simp [hm])]
      by_cases hg : g' = g
      · subst hg
        rw [Function.update_self]
        by_cases hp : q = p
        · subst hp; exact absurd h2 (hq w k lid par (by simp) h1)
        · rw [Function.update_of_ne hp]
      · rw [Function.update_of_ne hg]
    · intro w' g' k' lid' p' par' hm hr hb
      rcases List.mem_cons.1 hm with e | hm
      · simp only [Prod.mk.injEq] at e
        obtain ⟨rfl, rfl, rfl⟩ := e
        rw [h1] at hr
        cases hr
        rw [h2] at hb
        cases hb
        exact e2 _ _ (by rw [Function.update_self, Function.update_self, h3])
      · exact e4 w' g' k' lid' p' par' hm hr hb

/-! ### The steps of a round -/

theorem tosend_ok {O : Own} {b : ℕ} {pts : List Entry} {B : Bc} (h : BcOk O b pts B) {ms : List (ℕ × List ℕ)}
    (hms : ms.Perm (((List.range O.tot).filter fun a => b ≠ a ∧ sub O a b pts ≠ []).map fun a => (a, (sub O a b pts).map (·.src)))) :
    ∃ ts, processRequests B ms = some ts ∧ ∀ d a, B.dst.idx[d]? = some a → ∀ k, k < (sub O a b pts).length →
      ts d k = ((sub O a b pts)[k]?).map (·.src) := by
  have hmem : ∀ m, m ∈ ms ↔ ∃ a, a ∈ B.dst.idx ∧ m = (a, (sub O a b pts).map (·.src)) := by
    intro m
    rw [hms.mem_iff, List.mem_map]
    constructor
    · rintro ⟨a, ha, rfl⟩
      rw [List.mem_filter] at ha
      simp only [decide_eq_true_eq, List.mem_range] at ha
      exact ⟨a, (h.dst_mem a).2 ⟨ha.1, Ne.symm ha.2.1, ha.2.2⟩, rfl⟩
    · rintro ⟨a, ha, rfl⟩
      obtain ⟨h1, h2, h3⟩ := (h.dst_mem a).1 ha
      exact ⟨a, List.mem_filter.2 ⟨List.mem_range.2 h1, by simpa using ⟨Ne.symm h2, h3⟩⟩, rfl⟩
  have hinj : ∀ c c' d, B.dst.id c = some d → B.dst.id c' = some d → c = c' := fun c c' d h1 h2 => by
    rw [h.dst.id] at h1 h2
    rw [h1] at h2
    exact Option.some.inj h2
  obtain ⟨ts, e1, -, e3⟩ := processRequests_ok B hinj ms (fun _ _ => none) (by
      rw [(hms.map _).nodup_iff, List.map_map]
      have : ((fun x : ℕ × List ℕ => x.1) ∘ fun a => (a, (sub O a b pts).map (·.src))) = id := rfl
      rw [this, List.map_id]
      exact List.nodup_range.filter _) (by
      intro m hm
      obtain ⟨a, ha, rfl⟩ := (hmem m).1 hm
      obtain ⟨d, hd⟩ := List.mem_iff_getElem?.1 ha
      exact ⟨d, _, (h.dst.id a d).2 hd, h.dst_num hd, by simp⟩)
  refine ⟨ts, e1, fun d a hd k hk => ?_⟩
  rw [e3 (a, (sub O a b pts).map (·.src)) ((hmem _).2 ⟨a, List.mem_of_getElem? hd, rfl⟩) d ((h.dst.id a d).2 hd) k (by simpa using hk)]
  simp

theorem sendData_ok {O : Own} {b : ℕ} {pts : List Entry} {B : Bc} (h : BcOk O b pts B) {ts : ℕ → ℕ → Option ℕ}
    (hts : ∀ d a, B.dst.idx[d]? = some a → ∀ k, k < (sub O a b pts).length → ts d k = ((sub O a b pts)[k]?).map (·.src))
    (ty : ℕ) (sync : List ℕ) (y : GFs) (buf : ℕ → ℕ → ℝ) :
    ∃ V : ℕ → ℕ → ℝ, sendData O b B ts ty sync y buf =
        some (B.dst.idx.map fun a => (a, ⟨b, ty, sync.length * (sub O a b pts).length, V a⟩)) ∧
      ∀ a ∈ B.dst.idx, ∀ (w g k : ℕ) (e : Entry), sync[w]? = some g → (sub O a b pts)[k]? = some e →
        V a (k + (sub O a b pts).length * w) = y g (O.loc e.src) := by
  have main : ∀ a, ∃ v : ℕ → ℝ, ∀ d : ℕ, B.dst.idx[d]? = some a →
      packLoop O (ts d) (sub O a b pts).length y (buf d) (gfLoop sync (sub O a b pts).length) = some v ∧
      ∀ (w g k : ℕ) (e : Entry), sync[w]? = some g → (sub O a b pts)[k]? = some e →
        v (k + (sub O a b pts).length * w) = y g (O.loc e.src) := by
    intro a
    by_cases ha : ∃ d : ℕ, B.dst.idx[d]? = some a
    · obtain ⟨d, hd⟩ := ha
      have hlen : ∀ k, k < (sub O a b pts).length → 0 < (sub O a b pts).length := fun k hk => by omega
      have hdiv : ∀ w k, k < (sub O a b pts).length → (k + (sub O a b pts).length * w) / (sub O a b pts).length = w ∧
          (k + (sub O a b pts).length * w) % (sub O a b pts).length = k := fun w k hk =>
        ⟨by rw [Nat.add_mul_div_left _ _ (hlen k hk), Nat.div_eq_of_lt hk, zero_add], by rw [Nat.add_mul_mod_self_left, Nat.mod_eq_of_lt hk]⟩
      obtain ⟨v, e1, e2⟩ := packLoop_ok O (ts d) (sub O a b pts).length y
        (fun i => match sync[i / (sub O a b pts).length]?, (sub O a b pts)[i % (sub O a b pts).length]? with
          | some g, some e => y g (O.loc e.src)
          | _, _ => 0) (gfLoop sync (sub O a b pts).length) (buf d) (by
          intro w g k hm
          obtain ⟨h1, h2⟩ := mem_gfLoop.1 hm
          obtain ⟨e3, e4⟩ := hdiv w k h2
          refine ⟨((sub O a b pts)[k]).src, ?_, ?_⟩
          · rw [hts d a hd k h2, List.getElem?_eq_getElem h2]; rfl
          · rw [e3, e4, h1, List.getElem?_eq_getElem h2])
      refine ⟨v, fun d' hd' => ?_⟩
      have : d' = d := by
        have h1 := (h.dst.id a d).2 hd
        rw [(h.dst.id a d').2 hd'] at h1
        exact Option.some.inj h1
      subst this
      refine ⟨e1, fun w g k e hg he => ?_⟩
      have hk : k < (sub O a b pts).length := by
        by_contra hc
        rw [List.getElem?_eq_none (by omega)] at he
        simp at he
      rw [e2 _ ⟨w, g, k, mem_gfLoop.2 ⟨hg, hk⟩, rfl⟩]
      obtain ⟨e3, e4⟩ := hdiv w k hk
      rw [e3, e4, hg, he]
    · exact ⟨fun _ => 0, fun d hd => absurd ⟨d, hd⟩ ha⟩
  choose V hV using main
  refine ⟨V, mapM_range _ _ _ fun d a hd => ?_, fun a ha w g k e hg he => ?_⟩
  · simp only [hd, h.dst_num hd, Option.bind_eq_bind, Option.bind_some, (hV a d hd).1]
  · obtain ⟨d, hd⟩ := List.mem_iff_getElem?.1 ha
    exact (hV a d hd).2 w g k e hg he

theorem recv_ok {O : Own} {a : ℕ} {pts : List Entry} {B : Bc} (h : BcOk O a pts B) (ty : ℕ) (sync : List ℕ) (V : ℕ → ℕ → ℝ)
    {ms : List Msg} (hms : ms.Perm (((List.range O.tot).filter fun b => a ≠ b ∧ sub O a b pts ≠ []).map fun b =>
      (⟨b, ty, sync.length * (sub O a b pts).length, V b⟩ : Msg))) (bufs : ℕ → ℕ → ℝ) :
    ∃ r, ms.foldlM (receive B) bufs = some r ∧ ∀ s c, B.src.idx[s]? = some c → ∀ w k, w < sync.length → k < (sub O a c pts).length →
      r s (k + (sub O a c pts).length * w) = V c (k + (sub O a c pts).length * w) := by
  have hmem : ∀ m, m ∈ ms ↔ ∃ b, b ∈ B.src.idx ∧ m = ⟨b, ty, sync.length * (sub O a b pts).length, V b⟩ := by
    intro m
    rw [hms.mem_iff, List.mem_map]
    constructor
    · rintro ⟨b, hb, rfl⟩
      rw [List.mem_filter] at hb
      simp only [decide_eq_true_eq, List.mem_range] at hb
      exact ⟨b, (h.src_mem b).2 ⟨hb.1, Ne.symm hb.2.1, hb.2.2⟩, rfl⟩
    · rintro ⟨b, hb, rfl⟩
      obtain ⟨h1, h2, h3⟩ := (h.src_mem b).1 hb
      exact ⟨b, List.mem_filter.2 ⟨List.mem_range.2 h1, by simpa using ⟨Ne.symm h2, h3⟩⟩, rfl⟩
  have hinj : ∀ c c' d, B.src.id c = some d → B.src.id c' = some d → c = c' := fun c c' d h1 h2 => by
    rw [h.src.id] at h1 h2
    rw [h1] at h2
    exact Option.some.inj h2
  obtain ⟨r, e1, -, e3⟩ := receive_ok B hinj ms bufs (by
      rw [(hms.map _).nodup_iff, List.map_map]
      have : ((fun x : Msg => x.sender) ∘ fun b => (⟨b, ty, sync.length * (sub O a b pts).length, V b⟩ : Msg)) = id := rfl
      rw [this, List.map_id]
      exact List.nodup_range.filter _) (by
      intro m hm
      obtain ⟨b, hb, rfl⟩ := (hmem m).1 hm
      obtain ⟨d, hd⟩ := List.mem_iff_getElem?.1 hb
      exact ⟨d, (h.src.id b d).2 hd⟩)
  refine ⟨r, e1, fun s c hs w k hw hk => ?_⟩
  refine e3 ⟨c, ty, sync.length * (sub O a c pts).length, V c⟩ ((hmem _).2 ⟨c, List.mem_of_getElem? hs, rfl⟩) s ((h.src.id c s).2 hs) _ ?_
  dsimp only
  calc k + (sub O a c pts).length * w < (sub O a c pts).length + (sub O a c pts).length * w := by omega
    _ = (w + 1) * (sub O a c pts).length := by ring
    _ ≤ _ := Nat.mul_le_mul_right _ hw

theorem applyNonlocal_ok {O : Own} {a : ℕ} {pts : List Entry} {B : Bc} (h : BcOk O a pts B) (types : ℕ → Fin 10) (sync : List ℕ)
    (r : ℕ → ℕ → ℝ) (W : ℕ → ℕ → ℝ)
    (hr : ∀ (s c w g k : ℕ) (e : Entry), B.src.idx[s]? = some c → sync[w]? = some g → (sub O a c pts)[k]? = some e →
      ((e.parity (types g) : ℤ) : ℝ) * r s (k + (sub O a c pts).length * w) = W g (O.loc e.dst)) (y : GFs) :
    ∃ y', applyNonlocal B types sync r y = some y' ∧
      (∀ g q, (g ∉ sync ∨ ∀ e ∈ pts, O.chare e.dst = a → O.chare e.src ≠ a → O.loc e.dst ≠ q) → y' g q = y g q) ∧
      ∀ g ∈ sync, ∀ c ∈ B.src.idx, ∀ e ∈ sub O a c pts, y' g (O.loc e.dst) = W g (O.loc e.dst) := by
  have key : ∀ (l : List ℕ) (y : GFs), (∀ s ∈ l, s < B.src.idx.length) →
      ∃ y', l.foldlM (fun y s => do
          let row ← B.lin[s]?
          let n ← B.src.num[s]?
          applyFrom B types row n (r s) y (gfLoop sync n)) y = some y' ∧ (∀ g q, y g q = W g q → y' g q = W g q) ∧
        (∀ g q, (g ∉ sync ∨ ∀ e ∈ pts, O.chare e.dst = a → O.chare e.src ≠ a → O.loc e.dst ≠ q) → y' g q = y g q) ∧
        ∀ s ∈ l, ∀ c, B.src.idx[s]? = some c → ∀ g ∈ sync, ∀ e ∈ sub O a c pts, y' g (O.loc e.dst) = W g (O.loc e.dst) := by
    intro l
    induction l with
    | nil => intro y _; exact ⟨y, rfl, fun _ _ h => h, fun _ _ _ => rfl, by simp⟩
    | cons s l ih =>
      intro y hl
      have hslt := hl s (by simp)
      have hs : B.src.idx[s]? = some B.src.idx[s] := List.getElem?_eq_getElem hslt
      generalize B.src.idx[s] = c at hs
      have hca : c ≠ a := ((h.src_mem c).1 (List.mem_of_getElem? hs)).2.1
      obtain ⟨row, hrow, hlen, hbc⟩ := h.row hs
      obtain ⟨y1, e1, e2, e3, e4⟩ := applyFrom_ok B types row (sub O a c pts).length (r s) W (gfLoop sync (sub O a c pts).length) y (by
        intro w g k hm
        obtain ⟨h1, h2⟩ := mem_gfLoop.1 hm
        have he := List.getElem?_eq_getElem h2
        obtain ⟨lid, h3, h4⟩ := hbc k _ he
        exact ⟨lid, _, _, h3, h4, hr s c w g k _ hs h1 he⟩)
      obtain ⟨y', f1, f2, f3, f4⟩ := ih y1 fun s' h' => hl s' (by simp [h'])
      refine ⟨y', ?_, fun g q hq => f2 g q (e2 g q hq), fun g q hq => ?_, ?_⟩
      · rw [List.foldlM_cons]
        simp only [hrow, h.src_num hs, Option.bind_eq_bind, Option.bind_some, e1]
        exact f1
      · rw [f3 g q hq]
        apply e3
        intro w k lid par hm hk hb
        obtain ⟨h1, h2⟩ := mem_gfLoop.1 hm
        have he := List.getElem?_eq_getElem h2
        obtain ⟨lid', h3, h4⟩ := hbc k _ he
        rw [hk] at h3
        cases h3
        rw [hb] at h4
        simp only [Option.some.injEq, Prod.mk.injEq] at h4
        have hmem := (mem_sub O).1 (List.getElem_mem h2)
        rcases hq with hq | hq
        · exact hq (List.mem_of_getElem? h1)
        · exact hq _ hmem.1 hmem.2.1 (by rw [hmem.2.2]; exact hca) h4.1.symm
      · intro s' hs' c' hc' g hg e he
        rcases List.mem_cons.1 hs' with rfl | hs'
        · rw [hs] at hc'
          cases hc'
          obtain ⟨w, hw⟩ := List.mem_iff_getElem?.1 hg
          obtain ⟨k, hk⟩ := List.mem_iff_getElem?.1 he
          have hk2 : k < (sub O a c pts).length := by
            by_contra hcn
            rw [List.getElem?_eq_none (by omega)] at hk
            simp at hk
          obtain ⟨lid, h3, h4⟩ := hbc k e hk
          exact f2 _ _ (e4 w g k lid _ _ (mem_gfLoop.2 ⟨hw, hk2⟩) h3 h4)
        · exact f4 s' hs' c' hc' g hg e he
  obtain ⟨y', e1, -, e3, e4⟩ := key (List.range B.src.idx.length) y fun s hs => List.mem_range.1 hs
  refine ⟨y', e1, e3, fun g hg c hc e he => ?_⟩
  obtain ⟨s, hs⟩ := List.mem_iff_getElem?.1 hc
  have hlt : s < B.src.idx.length := by
    by_contra hcn
    rw [List.getElem?_eq_none (by omega)] at hs
    simp at hs
  exact e4 s (List.mem_range.2 hlt) c hs g hg e he

theorem applyLocal_ok (types : ℕ → Fin 10) (l : List Entry) (hnd : (l.map (·.dst)).Nodup) (hs : ∀ e ∈ l, ∀ e' ∈ l, e.src ≠ e'.dst) (y : GFs) :
    ∀ gfs : List ℕ, (∀ g q, (g ∉ gfs ∨ ∀ e ∈ l, e.dst ≠ q) → applyLocal gfs types l y g q = y g q) ∧
      ∀ g ∈ gfs, ∀ e ∈ l, applyLocal gfs types l y g e.dst = ((e.parity (types g) : ℤ) : ℝ) * y g e.src := by
  -- one gridfunction
  have one : ∀ (g : ℕ) (m : List Entry), (m.map (·.dst)).Nodup → (∀ e ∈ m, ∀ e' ∈ m, e.src ≠ e'.dst) → ∀ y : GFs,
      (∀ g' q, (g' ≠ g ∨ ∀ e ∈ m, e.dst ≠ q) → (m.foldl (fun (y : GFs) e =>
        Function.update y g (Function.update (y g) e.dst ((e.parity (types g) : ℝ) * y g e.src))) y) g' q = y g' q) ∧
      ∀ e ∈ m, (m.foldl (fun (y : GFs) e =>
        Function.update y g (Function.update (y g) e.dst ((e.parity (types g) : ℝ) * y g e.src))) y) g e.dst =
          ((e.parity (types g) : ℤ) : ℝ) * y g e.src := by
    intro g m
    induction m with
    | nil => intro _ _ y; exact ⟨fun _ _ _ => rfl, by simp⟩
    | cons e m ih =>
      intro hn hsm y
      rw [List.map_cons, List.nodup_cons] at hn
      obtain ⟨i1, i2⟩ := ih hn.2 (fun e he e' he' => hsm e (by simp [he]) e' (by simp [he']))
        (Function.update y g (Function.update (y g) e.dst ((e.parity (types g) : ℝ) * y g e.src)))
      have hout : ∀ e' ∈ m, e'.dst ≠ e.dst := fun e' he' heq => hn.1 (List.mem_map.2 ⟨e', he', heq⟩)
      refine ⟨fun g' q hq => ?_, fun e' he' => ?_⟩
      · rw [List.foldl_cons, i1 g' q (hq.imp_right fun h e he => h e (by simp [he]))]
        by_cases hg : g' = g
        · subst hg
          rw [Function.update_self, Function.update_of_ne]
          rcases hq with hq | hq
          · exact absurd rfl hq
          · exact Ne.symm (hq e (by simp))
        · rw [Function.update_of_ne hg]
      · rw [List.foldl_cons]
        rcases List.mem_cons.1 he' with rfl | he'
        · rw [i1 g e'.dst (.inr hout), Function.update_self, Function.update_self]
        · rw [i2 e' he', Function.update_self, Function.update_of_ne (hsm e' (by simp [he']) e (by simp))]
  intro gfs
  unfold applyLocal
  induction gfs generalizing y with
  | nil => exact ⟨fun _ _ _ => rfl, by simp⟩
  | cons g gfs ih =>
    obtain ⟨o1, o2⟩ := one g l hnd hs y
    obtain ⟨i1, i2⟩ := ih (l.foldl (fun (y : GFs) e =>
        Function.update y g (Function.update (y g) e.dst ((e.parity (types g) : ℝ) * y g e.src))) y)
    refine ⟨fun g' q hq => ?_, fun g' hg' e he => ?_⟩
    · rw [List.foldl_cons, i1 g' q (hq.imp_left fun h h' => h (by simp [h']))]
      refine o1 g' q (hq.imp_left fun h h' => h (by simp [h']))
    · rw [List.foldl_cons]
      have hsrc : ∀ g', (l.foldl (fun (y : GFs) e =>
        Function.update y g (Function.update (y g) e.dst ((e.parity (types g) : ℝ) * y g e.src))) y) g' e.src = y g' e.src :=
        fun g' => o1 g' e.src (.inr fun e' he' => Ne.symm (hs e he e' he'))
      by_cases hin : g' ∈ gfs
      · rw [i2 g' hin e he, hsrc]
      · rw [i1 g' e.dst (.inl hin)]
        rcases List.mem_cons.1 hg' with rfl | hg'
        · exact o2 e he
        · exact absurd hg' hin

end Verif.SuperB.Inner
