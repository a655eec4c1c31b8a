import Verif.GPU.Reduce
import Mathlib.Algebra.BigOperators.Group.Finset.Basic
import Mathlib.Algebra.BigOperators.Intervals
import Mathlib.Algebra.Order.BigOperators.Group.Finset
import Mathlib.Data.Multiset.Range
import Mathlib.Data.Nat.ModEq
import Mathlib.Tactic.Ring
import Mathlib.Tactic.Linarith

/-!
# Reductions on graphics cards (C113)
-/
namespace Verif.GPU
variable {V : Type*}

/-! ### Specification -/

/-- `r` is obtained from initial values by combining in each number of `m` exactly once, in some order and with some parentheses. -/
inductive Uses (op : V → V → V) (lim : V) : Multiset V → V → Prop
  | start : Uses op lim 0 lim
  | take {m : Multiset V} {a : V} (d : V) : Uses op lim m a → Uses op lim (m + {d}) (op a d)
  | join {m m' : Multiset V} {a b : V} : Uses op lim m a → Uses op lim m' b → Uses op lim (m + m') (op a b)

/-- The numbers of the array. -/
def content (n : ℕ) (data : ℕ → V) : Multiset V := (Multiset.range n).map data

/-! ### Shuffles -/

theorem uses_shuffle (R : Red V) : ∀ (k : ℕ) (_ : k ≤ 5) (v : ℕ → V) (M : ℕ → Multiset V),
    (∀ i < 2 ^ k, Uses R.op R.lim (M i) (v i)) → Uses R.op R.lim (∑ i ∈ Finset.range (2 ^ k), M i) (shuffle R (2 ^ k / 2) v 0)
  | 0, _, v, M, h => by
    unfold shuffle
    simpa using h 0 (by simp)
  | k + 1, hk, v, M, h => by
    have e : 2 ^ (k + 1) / 2 = 2 ^ k := by rw [pow_succ]; omega
    have hp : 0 < 2 ^ k := Nat.two_pow_pos k
    have hle : 2 ^ (k + 1) ≤ 2 ^ 5 := Nat.pow_le_pow_right (by omega) hk
    unfold shuffle
    rw [e, dif_neg (by omega)]
    have h2 : 2 ^ (k + 1) = 2 ^ k + 2 ^ k := by rw [pow_succ]; ring
    have ih := uses_shuffle R k (by omega) (shuffleStep R (2 ^ k) v) (fun i => M i + M (2 ^ k + i)) (by
      intro i hi
      have hw : i + 2 ^ k < warpSize := by unfold warpSize; omega
      unfold shuffleStep
      rw [if_pos hw, Nat.add_comm i]
      exact .join (h i (by omega)) (h _ (by omega)))
    rw [Finset.sum_add_distrib] at ih
    rwa [h2, Finset.sum_range_add]

theorem uses_foldl (R : Red V) (data : ℕ → V) : ∀ (l : List ℕ) (m : Multiset V) (a : V), Uses R.op R.lim m a →
    Uses R.op R.lim (m + ((l : Multiset ℕ).map data)) (l.foldl (fun acc i => R.op acc (data i)) a)
  | [], m, a, h => by simpa using h
  | i :: l, m, a, h => by
    have := uses_foldl R data l _ _ (.take (data i) h)
    rw [List.foldl_cons]
    convert this using 1
    rw [add_assoc, ← Multiset.cons_coe, Multiset.map_cons, Multiset.singleton_add]

theorem uses_thread (R : Red V) (data : ℕ → V) (l : List ℕ) : Uses R.op R.lim ((l : Multiset ℕ).map data) (threadAcc R data l) := by
  have := uses_foldl R data l 0 R.lim .start
  simpa [threadAcc] using this

theorem shared_at (R : Red V) (acc : ℕ → V) : ∀ (order : List ℕ) (start : ℕ → V) (w : ℕ),
    sharedData R acc order start w = if w ∈ order then warpResult R acc w else start w
  | [], start, w => by simp [sharedData]
  | x :: l, start, w => by
    have ih := shared_at R acc l (Function.update start x (warpResult R acc x)) w
    unfold sharedData at ih ⊢
    rw [List.foldl_cons, ih]
    by_cases h1 : w ∈ l
    · simp [h1]
    · by_cases h2 : w = x
      · subst h2; simp
      · simp [h1, h2]

/-- A block combines the numbers of all its threads once. -/
theorem uses_block (R : Red V) (w : ℕ) (hw : w ≤ 32) (acc : ℕ → V) (M : ℕ → Multiset V) (order : List ℕ) (start : ℕ → V)
    (ho : order.Perm (List.range (32 * w / warpSize))) (h : ∀ t < 32 * w, Uses R.op R.lim (M t) (acc t)) :
    Uses R.op R.lim (∑ t ∈ Finset.range (32 * w), M t) (blockResult R (32 * w) acc order start) := by
  have hd : 32 * w / warpSize = w := by unfold warpSize; omega
  rw [hd] at ho
  have key := uses_shuffle R 5 le_rfl (fun lane => if lane < 32 * w / warpSize then sharedData R acc order start lane else R.lim)
    (fun i => if i < w then ∑ j ∈ Finset.range 32, M (i * 32 + j) else 0) (by
      intro i _
      rw [hd]
      by_cases hi : i < w
      · simp only [hi, if_true]
        rw [shared_at, if_pos (ho.mem_iff.2 (List.mem_range.2 hi))]
        have := uses_shuffle R 5 le_rfl (fun lane => acc (i * warpSize + lane)) (fun j => M (i * 32 + j)) (by
          intro j hj
          exact h _ (by omega))
        exact this
      · simp only [hi, if_false]
        exact .start)
  have e : ∑ i ∈ Finset.range (2 ^ 5), (if i < w then ∑ j ∈ Finset.range 32, M (i * 32 + j) else 0) = ∑ t ∈ Finset.range (32 * w), M t := by
    have h1 : (2 : ℕ) ^ 5 = w + (32 - w) := by omega
    rw [h1, Finset.sum_range_add]
    have h2 : ∑ x ∈ Finset.range (32 - w), (if w + x < w then ∑ j ∈ Finset.range 32, M ((w + x) * 32 + j) else 0) = 0 :=
      Finset.sum_eq_zero fun x _ => by simp
    rw [h2, add_zero]
    have h3 : ∀ w : ℕ, ∑ t ∈ Finset.range (32 * w), M t = ∑ i ∈ Finset.range w, ∑ j ∈ Finset.range 32, M (i * 32 + j) := by
      intro w
      induction w with
      | zero => simp
      | succ w ih =>
        rw [Nat.mul_succ, Finset.sum_range_add, ih, Finset.sum_range_succ (n := w)]
        simp only [Nat.mul_comm]
    rw [h3]
    exact Finset.sum_congr rfl fun i hi => by rw [if_pos (Finset.mem_range.1 hi)]
  rw [e] at key
  exact key

/-! ### The launch -/

theorem blockCount_eq {n T : ℕ} (h : n + T ≤ 2 ^ 31 + 1) : blockCount n T = (n + T - 1) / T := by
  unfold blockCount
  rw [Nat.mod_eq_of_lt (by unfold uintSize; omega)]

theorem launch_bounds {n T : ℕ} (hT : 0 < T) (h : n + T ≤ 2 ^ 31 + 1) :
    n ≤ blockCount n T * T ∧ blockCount n T * T ≤ 2 ^ 31 := by
  rw [blockCount_eq h]
  have h1 := Nat.div_add_mod (n + T - 1) T
  have h2 := Nat.mod_lt (n + T - 1) hT
  rw [Nat.mul_comm] at h1
  constructor <;> omega

/-- In arrays that are not too long each thread visits the index that is its number. -/
theorem visits_own {n T : ℕ} (hT : 0 < T) (h : n + T ≤ 2 ^ 31 + 1) {t : ℕ} (ht : t < T * blockCount n T) {l : List ℕ} :
    Visits n (blockCount n T * T % uintSize) t l ↔ l = if t < n then [t] else [] := by
  obtain ⟨h1, h2⟩ := launch_bounds hT h
  rw [Nat.mul_comm] at ht
  have hm : blockCount n T * T % uintSize = blockCount n T * T := Nat.mod_eq_of_lt (by unfold uintSize; omega)
  have hn : (t + blockCount n T * T) % uintSize = t + blockCount n T * T := Nat.mod_eq_of_lt (by unfold uintSize; omega)
  rw [hm]
  constructor
  · intro hv
    cases hv with
    | done hd => rw [if_neg (by omega)]
    | step hs hr =>
      rw [if_pos hs]
      rw [hn] at hr
      cases hr with
      | done _ => rfl
      | step hs' _ => omega
  · rintro rfl
    split
    · rename_i hlt
      refine .step hlt ?_
      rw [hn]
      exact .done (by omega)
    · exact .done (by omega)

/-- The loops of the threads end. -/
theorem runs_exists {n T : ℕ} (hT : 0 < T) (h : n + T ≤ 2 ^ 31 + 1) : ∃ vis, Runs n T vis :=
  ⟨fun t => if t < n then [t] else [], fun _ ht => (visits_own hT h ht).2 rfl⟩

/-- The numbers combined by the blocks are those of the array. -/
theorem blocks_content {n T : ℕ} (hT : 0 < T) (h : n + T ≤ 2 ^ 31 + 1) (data : ℕ → V) {vis : ℕ → List ℕ} (hv : Runs n T vis) :
    ∑ b ∈ Finset.range (blockCount n T), ∑ t ∈ Finset.range T, ((vis (t + T * b) : Multiset ℕ).map data) = content n data := by
  have h3 : ∀ (B : ℕ) (f : ℕ → Multiset V), ∑ b ∈ Finset.range B, ∑ t ∈ Finset.range T, f (t + T * b) = ∑ t ∈ Finset.range (T * B), f t := by
    intro B f
    induction B with
    | zero => simp
    | succ B ih =>
      rw [Nat.mul_succ, Finset.sum_range_add (n := T * B), Finset.sum_range_succ (n := B), ih]
      simp only [Nat.add_comm]
  rw [h3 _ fun t => (vis t : Multiset ℕ).map data]
  have h4 : ∑ t ∈ Finset.range (T * blockCount n T), ((vis t : Multiset ℕ).map data) =
      ∑ t ∈ Finset.range (T * blockCount n T), if t < n then {data t} else 0 :=
    Finset.sum_congr rfl fun t ht => by
      have := (visits_own hT h (Finset.mem_range.1 ht)).1 (hv t (Finset.mem_range.1 ht))
      rw [this]
      split <;> simp
  rw [h4]
  obtain ⟨hb, _⟩ := launch_bounds hT h
  rw [Nat.mul_comm] at hb
  obtain ⟨c, hc⟩ := Nat.exists_eq_add_of_le hb
  rw [hc, Finset.sum_range_add]
  have h5 : ∑ x ∈ Finset.range c, (if n + x < n then ({data (n + x)} : Multiset V) else 0) = 0 := Finset.sum_eq_zero fun x _ => by simp
  rw [h5, add_zero]
  have h6 : ∀ k ≤ n, ∑ x ∈ Finset.range k, (if x < n then ({data x} : Multiset V) else 0) = content k data := by
    intro k hk
    induction k with
    | zero => simp [content]
    | succ k ih =>
      rw [Finset.sum_range_succ, ih (by omega), if_pos (by omega)]
      rw [content, content, Multiset.range_succ, Multiset.map_cons, add_comm, Multiset.singleton_add]
  exact h6 n le_rfl

theorem uses_blocks (R : Red V) (hat : R.atomic = R.op) (val : ℕ → V) (M : ℕ → Multiset V) (hb : ∀ b, Uses R.op R.lim (M b) (val b)) :
    ∀ (l : List ℕ) (m : Multiset V) (a : V), Uses R.op R.lim m a → Uses R.op R.lim (m + (l.map M).sum) (l.foldl (fun d b => R.atomic d (val b)) a)
  | [], m, a, h => by simpa using h
  | b :: l, m, a, h => by
    have := uses_blocks R hat val M hb l _ _ (.join h (hb b))
    rw [List.foldl_cons, hat, List.map_cons, List.sum_cons, ← add_assoc]
    rwa [hat] at this

/-- Blocks of a run: each combines numbers, and the numbers of all blocks are those of the array. -/
theorem run_blocks (R : Red V) {n w : ℕ} (h0 : 0 < w) (hw : w ≤ 32) (h : n + 32 * w ≤ 2 ^ 31 + 1) (data : ℕ → V) {vis : ℕ → List ℕ}
    (hv : Runs n (32 * w) vis) {S : Sched V} (hS : S.Ok n (32 * w)) :
    ∃ M : ℕ → Multiset V, (∀ b, Uses R.op R.lim (M b)
      (blockResult R (32 * w) (fun t => threadAcc R data (vis (t + 32 * w * b))) (S.warps b) (S.shared b))) ∧
      (S.blocks.map M).sum = content n data := by
  refine ⟨fun b => ∑ t ∈ Finset.range (32 * w), ((vis (t + 32 * w * b) : Multiset ℕ).map data), fun b => ?_, ?_⟩
  · exact uses_block R w hw _ _ _ _ (hS.2 b) fun t _ => uses_thread R data _
  · rw [← blocks_content (by omega) h data hv]
    rw [(hS.1.map _).sum_eq]
    generalize blockCount n (32 * w) = B
    induction B with
    | zero => simp
    | succ B ih => rw [List.range_succ, List.map_append, List.sum_append, ih, Finset.sum_range_succ]; simp

/-! ### The sum -/

/-- **C113** (sum): for any addition, in particular that of floating-point numbers, and any blocks of up to 32 warps, the sum
returned is obtained from zeros by adding each number of the array exactly once; no number is missed and none is added twice,
whatever the order of the blocks and warps and the content of the memory. Missing for the full property: arrays of more than
2 ^ 31 numbers, where it is false. -/
theorem C113_once_partial [Add V] [Zero V] {n w : ℕ} (h0 : 0 < w) (hw : w ≤ 32) (h : n + 32 * w ≤ 2 ^ 31 + 1) (data : ℕ → V)
    {vis : ℕ → List ℕ} (hv : Runs n (32 * w) vis) {S : Sched V} (hS : S.Ok n (32 * w)) :
    Uses (· + ·) 0 (content n data) (findGlobal (sumRed V) n (32 * w) data vis S) := by
  obtain ⟨M, hM, hsum⟩ := run_blocks (sumRed V) h0 hw h data hv hS
  have := uses_blocks (sumRed V) rfl _ M hM S.blocks 0 _ .start
  rw [zero_add, hsum] at this
  exact this

theorem uses_sum [AddCommMonoid V] {m : Multiset V} {r : V} (h : Uses (· + ·) 0 m r) : r = m.sum := by
  induction h with
  | start => simp
  | take d _ ih => simp [ih]
  | join _ _ iha ihb => simp [iha, ihb]

/-- **C113** (sum): in exact arithmetic the value returned is the sum of the array. -/
theorem C113_sum_partial [AddCommMonoid V] {n w : ℕ} (h0 : 0 < w) (hw : w ≤ 32) (h : n + 32 * w ≤ 2 ^ 31 + 1) (data : ℕ → V)
    {vis : ℕ → List ℕ} (hv : Runs n (32 * w) vis) {S : Sched V} (hS : S.Ok n (32 * w)) :
    findGlobal (sumRed V) n (32 * w) data vis S = ∑ i ∈ Finset.range n, data i :=
  uses_sum (C113_once_partial h0 hw h data hv hS)

/-- The loops of all threads end, so that runs exist. -/
theorem C113_ends {n w : ℕ} (h0 : 0 < w) (h : n + 32 * w ≤ 2 ^ 31 + 1) : ∃ vis, Runs n (32 * w) vis := runs_exists (by omega) h

/-- A schedule for 40 numbers: two blocks of one warp, the second first. -/
def demoSched : Sched ℕ := ⟨[1, 0], fun _ => [0], fun _ _ => 77⟩

example : (40 : ℕ) + 32 * 1 ≤ 2 ^ 31 + 1 ∧ demoSched.Ok 40 (32 * 1) ∧ threadCount = 32 * 1 := by
  refine ⟨by norm_num, ⟨?_, fun _ => ?_⟩, rfl⟩
  · exact List.Perm.swap 0 1 []
  · exact List.Perm.refl _

/-! ### Minimum and maximum -/

theorem not_nan_big : ¬NaN bigLimit := by decide

theorem uses_min {m : Multiset ℕ} {r : ℕ} (h : Uses minRed.op minRed.lim m r) :
    ¬NaN r ∧ (r = bigLimit ∨ r ∈ m) ∧ key r ≤ key bigLimit ∧ ∀ d ∈ m, ¬NaN d → key r ≤ key d := by
  induction h with
  | start => exact ⟨not_nan_big, .inl rfl, le_rfl, by simp⟩
  | @take m a d _ ih =>
    obtain ⟨h1, h2, h3, h4⟩ := ih
    show ¬NaN (if FLt d a then d else a) ∧ _
    by_cases hl : FLt d a
    · have e : minRed.op a d = d := if_pos hl
      rw [if_pos hl, e]
      refine ⟨hl.1, .inr (by simp), by have := hl.2.2; omega, ?_⟩
      intro d' hd' hn
      rcases Multiset.mem_add.1 hd' with hd' | hd'
      · have := h4 d' hd' hn; have := hl.2.2; omega
      · rw [Multiset.mem_singleton.1 hd']
    · have e : minRed.op a d = a := if_neg hl
      rw [if_neg hl, e]
      refine ⟨h1, h2.imp id fun h => by simp [h], h3, ?_⟩
      intro d' hd' hn
      rcases Multiset.mem_add.1 hd' with hd' | hd'
      · exact h4 d' hd' hn
      · rw [Multiset.mem_singleton.1 hd'] at hn ⊢
        by_contra hc
        exact hl ⟨hn, h1, by omega⟩
  | @join m m' a b _ _ iha ihb =>
    obtain ⟨h1, h2, h3, h4⟩ := iha
    obtain ⟨g1, g2, g3, g4⟩ := ihb
    by_cases hl : FLt b a
    · have e : minRed.op a b = b := if_pos hl
      rw [e]
      refine ⟨g1, g2.imp id fun h => by simp [h], g3, ?_⟩
      intro d' hd' hn
      rcases Multiset.mem_add.1 hd' with hd' | hd'
      · have := h4 d' hd' hn; have := hl.2.2; omega
      · exact g4 d' hd' hn
    · have e : minRed.op a b = a := if_neg hl
      rw [e]
      refine ⟨h1, h2.imp id fun h => by simp [h], h3, ?_⟩
      intro d' hd' hn
      rcases Multiset.mem_add.1 hd' with hd' | hd'
      · exact h4 d' hd' hn
      · have := g4 d' hd' hn
        by_contra hc
        exact hl ⟨g1, h1, by omega⟩

theorem key_pos {b : ℕ} (h : b < signBit) : key b = b := by unfold key; rw [if_pos h]

theorem key_above {a d : ℕ} (h : a < signBit) (hk : key a < key d) : d < signBit := by
  by_contra hc
  rw [key_pos h] at hk
  unfold key at hk
  rw [if_neg hc] at hk
  omega

theorem uses_max {m : Multiset ℕ} {r : ℕ} (h : Uses maxRed.op maxRed.lim m r) :
    ¬NaN r ∧ (r = 0 ∨ r ∈ m) ∧ r < signBit ∧ ∀ d ∈ m, ¬NaN d → key d ≤ key r := by
  induction h with
  | start => exact ⟨by decide, .inl rfl, by decide, by simp⟩
  | @take m a d _ ih =>
    obtain ⟨h1, h2, h3, h4⟩ := ih
    by_cases hl : FLt a d
    · have e : maxRed.op a d = d := if_pos hl
      rw [e]
      refine ⟨hl.2.1, .inr (by simp), key_above h3 hl.2.2, ?_⟩
      intro d' hd' hn
      rcases Multiset.mem_add.1 hd' with hd' | hd'
      · have := h4 d' hd' hn; have := hl.2.2; omega
      · rw [Multiset.mem_singleton.1 hd']
    · have e : maxRed.op a d = a := if_neg hl
      rw [e]
      refine ⟨h1, h2.imp id fun h => by simp [h], h3, ?_⟩
      intro d' hd' hn
      rcases Multiset.mem_add.1 hd' with hd' | hd'
      · exact h4 d' hd' hn
      · rw [Multiset.mem_singleton.1 hd'] at hn ⊢
        by_contra hc
        exact hl ⟨h1, hn, by omega⟩
  | @join m m' a b _ _ iha ihb =>
    obtain ⟨h1, h2, h3, h4⟩ := iha
    obtain ⟨g1, g2, g3, g4⟩ := ihb
    by_cases hl : FLt a b
    · have e : maxRed.op a b = b := if_pos hl
      rw [e]
      refine ⟨g1, g2.imp id fun h => by simp [h], g3, ?_⟩
      intro d' hd' hn
      rcases Multiset.mem_add.1 hd' with hd' | hd'
      · have := h4 d' hd' hn; have := hl.2.2; omega
      · exact g4 d' hd' hn
    · have e : maxRed.op a b = a := if_neg hl
      rw [e]
      refine ⟨h1, h2.imp id fun h => by simp [h], h3, ?_⟩
      intro d' hd' hn
      rcases Multiset.mem_add.1 hd' with hd' | hd'
      · exact h4 d' hd' hn
      · have := g4 d' hd' hn
        by_contra hc
        exact hl ⟨h1, g1, by omega⟩

theorem mem_content {n : ℕ} {data : ℕ → V} {d : V} : d ∈ content n data ↔ ∃ i < n, data i = d := by
  simp [content]

/-- The result of `atomicMin` over all blocks. -/
theorem fold_min (val : ℕ → ℕ) : ∀ (l : List ℕ) (a : ℕ),
    let r := l.foldl (fun d b => minRed.atomic d (val b)) a
    (r = a ∨ ∃ b ∈ l, r = val b) ∧ r ≤ a ∧ ∀ b ∈ l, r ≤ val b
  | [], a => by simp
  | b :: l, a => by
    obtain ⟨h1, h2, h3⟩ := fold_min val l (minRed.atomic a (val b))
    have e : minRed.atomic a (val b) = if val b < a then val b else a := rfl
    simp only [List.foldl_cons]
    refine ⟨?_, ?_, ?_⟩
    · rcases h1 with h1 | ⟨b', hb', h1⟩
      · rw [h1, e]
        split
        · exact .inr ⟨b, by simp, rfl⟩
        · exact .inl rfl
      · exact .inr ⟨b', by simp [hb'], h1⟩
    · refine h2.trans ?_
      rw [e]; split <;> omega
    · intro b' hb'
      rcases List.mem_cons.1 hb' with rfl | hb'
      · refine h2.trans ?_
        rw [e]; split <;> omega
      · exact h3 b' hb'

theorem fold_max (val : ℕ → ℕ) : ∀ (l : List ℕ) (a : ℕ),
    let r := l.foldl (fun d b => maxRed.atomic d (val b)) a
    (r = a ∨ ∃ b ∈ l, r = val b) ∧ a ≤ r ∧ ∀ b ∈ l, val b ≤ r
  | [], a => by simp
  | b :: l, a => by
    obtain ⟨h1, h2, h3⟩ := fold_max val l (maxRed.atomic a (val b))
    have e : maxRed.atomic a (val b) = if a < val b then val b else a := rfl
    simp only [List.foldl_cons]
    refine ⟨?_, ?_, ?_⟩
    · rcases h1 with h1 | ⟨b', hb', h1⟩
      · rw [h1, e]
        split
        · exact .inr ⟨b, by simp, rfl⟩
        · exact .inl rfl
      · exact .inr ⟨b', by simp [hb'], h1⟩
    · refine le_trans ?_ h2
      rw [e]; split <;> omega
    · intro b' hb'
      rcases List.mem_cons.1 hb' with rfl | hb'
      · refine le_trans ?_ h2
        rw [e]; split <;> omega
      · exact h3 b' hb'

theorem mem_sum_map {M : ℕ → Multiset ℕ} {d : ℕ} : ∀ {l : List ℕ}, d ∈ (l.map M).sum ↔ ∃ b ∈ l, d ∈ M b
  | [] => by simp
  | b :: l => by simp [mem_sum_map (l := l)]

/-- **C113** (minimum): if the array has numbers without sign bit only, and one of them is at most 4294967295, the value returned is a number
of the array and no number of the array is less. NaN are passed over. Missing for the full property: negative numbers and arrays
of large numbers, where the claim is false. -/
theorem C113_min_partial {n w : ℕ} (h0 : 0 < w) (hw : w ≤ 32) (h : n + 32 * w ≤ 2 ^ 31 + 1) (data : ℕ → ℕ)
    {vis : ℕ → List ℕ} (hv : Runs n (32 * w) vis) {S : Sched ℕ} (hS : S.Ok n (32 * w))
    (hpos : ∀ i < n, data i < signBit) (hlim : ∃ i < n, ¬NaN (data i) ∧ ¬FLt bigLimit (data i)) :
    (∃ i < n, ¬NaN (data i) ∧ findGlobal minRed n (32 * w) data vis S = data i) ∧
      ∀ i < n, ¬FLt (data i) (findGlobal minRed n (32 * w) data vis S) := by
  obtain ⟨M, hM, hsum⟩ := run_blocks minRed h0 hw h data hv hS
  unfold findGlobal
  obtain ⟨h1, h2, h3⟩ := fold_min (fun b => blockResult minRed (32 * w) (fun t => threadAcc minRed data (vis (t + 32 * w * b))) (S.warps b) (S.shared b))
    S.blocks minRed.lim
  set r := S.blocks.foldl (fun d b => minRed.atomic d (blockResult minRed (32 * w) (fun t => threadAcc minRed data (vis (t + 32 * w * b)))
    (S.warps b) (S.shared b))) minRed.lim with hr
  have hin : ∀ {i : ℕ}, i < n → ∃ b ∈ S.blocks, data i ∈ M b := fun hi => by
    rw [← mem_sum_map, hsum]; exact mem_content.2 ⟨_, hi, rfl⟩
  have hout : ∀ {b d : ℕ}, b ∈ S.blocks → d ∈ M b → ∃ i < n, data i = d := fun hb hd => by
    rw [← mem_content, ← hsum]; exact mem_sum_map.2 ⟨_, hb, hd⟩
  have hbig : bigLimit < signBit := by decide
  have hrs : r < signBit := lt_of_le_of_lt h2 hbig
  -- each block's result has no sign
  have hbs : ∀ b ∈ S.blocks, blockResult minRed (32 * w) (fun t => threadAcc minRed data (vis (t + 32 * w * b))) (S.warps b) (S.shared b) < signBit := by
    intro b hb
    rcases (uses_min (hM b)).2.1 with e | hm
    · rw [e]; exact hbig
    · obtain ⟨i, hi, e⟩ := hout hb hm
      rw [← e]; exact hpos i hi
  have hle : ∀ i < n, ¬NaN (data i) → r ≤ data i := by
    intro i hi hn
    obtain ⟨b, hb, hd⟩ := hin hi
    have hk := (uses_min (hM b)).2.2.2 _ hd hn
    rw [key_pos (hbs b hb), key_pos (hpos i hi)] at hk
    exact (h3 b hb).trans (by exact_mod_cast hk)
  refine ⟨?_, ?_⟩
  · obtain ⟨i, hi, hn, hl⟩ := hlim
    have hile : data i ≤ bigLimit := by
      by_contra hc
      refine hl ⟨not_nan_big, hn, ?_⟩
      rw [key_pos hbig, key_pos (hpos i hi)]
      exact_mod_cast Nat.lt_of_not_le hc
    have hri := hle i hi hn
    rcases h1 with h1 | ⟨b, hb, h1⟩
    · have e : data i = r := by rw [h1] at hri ⊢; exact le_antisymm hile hri
      exact ⟨i, hi, hn, e.symm⟩
    · rcases (uses_min (hM b)).2.1 with e | hm
      · have e' : r = bigLimit := h1.trans e
        exact ⟨i, hi, hn, by omega⟩
      · obtain ⟨j, hj, e⟩ := hout hb hm
        exact ⟨j, hj, by rw [e]; exact (uses_min (hM b)).1, by rw [e, h1]⟩
  · rintro i hi ⟨hn, _, hl⟩
    rw [key_pos (hpos i hi), key_pos hrs] at hl
    have := hle i hi hn
    have : data i < r := by exact_mod_cast hl
    omega

/-- **C113** (minimum, finding): the value returned never has a sign bit: the minimum of an array that holds a negative number is never found. -/
theorem C113_negative_violation {n w : ℕ} (data : ℕ → ℕ) (vis : ℕ → List ℕ) (S : Sched ℕ)
    {i : ℕ} (_hi : i < n) (hneg : key (data i) < 0) (hn : ¬NaN (data i)) : FLt (data i) (findGlobal minRed n (32 * w) data vis S) := by
  obtain ⟨_, h2, _⟩ := fold_min (fun b => blockResult minRed (32 * w) (fun t => threadAcc minRed data (vis (t + 32 * w * b))) (S.warps b) (S.shared b))
    S.blocks minRed.lim
  have hlt : findGlobal minRed n (32 * w) data vis S ≤ bigLimit := h2
  have hs : findGlobal minRed n (32 * w) data vis S < signBit := lt_of_le_of_lt hlt (by decide)
  refine ⟨hn, ?_, ?_⟩
  · unfold NaN mag
    rw [if_pos hs]
    have : bigLimit ≤ infBits := by decide
    omega
  · rw [key_pos hs]
    have := Int.natCast_nonneg (findGlobal minRed n (32 * w) data vis S)
    omega

/-- **C113** (minimum, finding): if all numbers are larger than 4294967295 the value returned is 4294967295. -/
theorem C113_large_violation {n w : ℕ} (h0 : 0 < w) (hw : w ≤ 32) (h : n + 32 * w ≤ 2 ^ 31 + 1) (data : ℕ → ℕ)
    {vis : ℕ → List ℕ} (hv : Runs n (32 * w) vis) {S : Sched ℕ} (hS : S.Ok n (32 * w))
    (hbigd : ∀ i < n, FLt bigLimit (data i)) : findGlobal minRed n (32 * w) data vis S = bigLimit := by
  obtain ⟨M, hM, hsum⟩ := run_blocks minRed h0 hw h data hv hS
  unfold findGlobal
  obtain ⟨h1, h2, h3⟩ := fold_min (fun b => blockResult minRed (32 * w) (fun t => threadAcc minRed data (vis (t + 32 * w * b))) (S.warps b) (S.shared b))
    S.blocks minRed.lim
  rcases h1 with h1 | ⟨b, hb, h1⟩
  · exact h1
  · rw [h1]
    rcases (uses_min (hM b)).2.1 with e | hm
    · exact e
    · have : ∃ i < n, data i = blockResult minRed (32 * w) (fun t => threadAcc minRed data (vis (t + 32 * w * b))) (S.warps b) (S.shared b) := by
        rw [← mem_content, ← hsum]; exact mem_sum_map.2 ⟨b, hb, hm⟩
      obtain ⟨i, hi, e⟩ := this
      have h5 := (uses_min (hM b)).2.2.1
      rw [← e] at h5
      have := (hbigd i hi).2.2
      omega

/-- **C113** (maximum): if one of the numbers is not negative, the value returned is equal to a number of the array and no number of the
array is greater. NaN are passed over. -/
theorem C113_max_partial {n w : ℕ} (h0 : 0 < w) (hw : w ≤ 32) (h : n + 32 * w ≤ 2 ^ 31 + 1) (data : ℕ → ℕ)
    {vis : ℕ → List ℕ} (hv : Runs n (32 * w) vis) {S : Sched ℕ} (hS : S.Ok n (32 * w))
    (hlim : ∃ i < n, ¬NaN (data i) ∧ 0 ≤ key (data i)) :
    (∃ i < n, ¬NaN (data i) ∧ key (findGlobal maxRed n (32 * w) data vis S) = key (data i)) ∧
      ∀ i < n, ¬FLt (findGlobal maxRed n (32 * w) data vis S) (data i) := by
  obtain ⟨M, hM, hsum⟩ := run_blocks maxRed h0 hw h data hv hS
  unfold findGlobal
  obtain ⟨h1, h2, h3⟩ := fold_max (fun b => blockResult maxRed (32 * w) (fun t => threadAcc maxRed data (vis (t + 32 * w * b))) (S.warps b) (S.shared b))
    S.blocks maxRed.lim
  set r := S.blocks.foldl (fun d b => maxRed.atomic d (blockResult maxRed (32 * w) (fun t => threadAcc maxRed data (vis (t + 32 * w * b)))
    (S.warps b) (S.shared b))) maxRed.lim with hr
  have hin : ∀ {i : ℕ}, i < n → ∃ b ∈ S.blocks, data i ∈ M b := fun hi => by
    rw [← mem_sum_map, hsum]; exact mem_content.2 ⟨_, hi, rfl⟩
  have hout : ∀ {b d : ℕ}, b ∈ S.blocks → d ∈ M b → ∃ i < n, data i = d := fun hb hd => by
    rw [← mem_content, ← hsum]; exact mem_sum_map.2 ⟨_, hb, hd⟩
  have hrs : r < signBit := by
    rcases h1 with h1 | ⟨b, _, h1⟩
    · rw [h1]; decide
    · rw [h1]; exact (uses_max (hM b)).2.2.1
  have hle : ∀ i < n, ¬NaN (data i) → key (data i) ≤ key r := by
    intro i hi hn
    obtain ⟨b, hb, hd⟩ := hin hi
    have hk := (uses_max (hM b)).2.2.2 _ hd hn
    rw [key_pos (uses_max (hM b)).2.2.1] at hk
    rw [key_pos hrs]
    exact hk.trans (by exact_mod_cast h3 b hb)
  refine ⟨?_, ?_⟩
  · obtain ⟨i, hi, hn, hl⟩ := hlim
    have hri := hle i hi hn
    have hz : r = 0 → ∃ i < n, ¬NaN (data i) ∧ key r = key (data i) := fun e => by
      refine ⟨i, hi, hn, ?_⟩
      have : key r = 0 := by rw [e]; rfl
      omega
    rcases h1 with h1 | ⟨b, hb, h1⟩
    · exact hz h1
    · rcases (uses_max (hM b)).2.1 with e | hm
      · exact hz (h1.trans e)
      · obtain ⟨j, hj, e⟩ := hout hb hm
        exact ⟨j, hj, by rw [e]; exact (uses_max (hM b)).1, by rw [e, h1]⟩
  · rintro i hi ⟨_, hn, hl⟩
    have := hle i hi hn
    omega

/-- **C113** (maximum, finding): if all numbers are negative the value returned is 0. -/
theorem C113_max_violation {n w : ℕ} (h0 : 0 < w) (hw : w ≤ 32) (h : n + 32 * w ≤ 2 ^ 31 + 1) (data : ℕ → ℕ)
    {vis : ℕ → List ℕ} (hv : Runs n (32 * w) vis) {S : Sched ℕ} (hS : S.Ok n (32 * w))
    (hneg : ∀ i < n, key (data i) < 0) : findGlobal maxRed n (32 * w) data vis S = 0 := by
  obtain ⟨M, hM, hsum⟩ := run_blocks maxRed h0 hw h data hv hS
  unfold findGlobal
  obtain ⟨h1, h2, h3⟩ := fold_max (fun b => blockResult maxRed (32 * w) (fun t => threadAcc maxRed data (vis (t + 32 * w * b))) (S.warps b) (S.shared b))
    S.blocks maxRed.lim
  rcases h1 with h1 | ⟨b, hb, h1⟩
  · exact h1
  · rw [h1]
    rcases (uses_max (hM b)).2.1 with e | hm
    · exact e
    · have : ∃ i < n, data i = blockResult maxRed (32 * w) (fun t => threadAcc maxRed data (vis (t + 32 * w * b))) (S.warps b) (S.shared b) := by
        rw [← mem_content, ← hsum]; exact mem_sum_map.2 ⟨b, hb, hm⟩
      obtain ⟨i, hi, e⟩ := this
      have h5 := (uses_max (hM b)).2.2.1
      rw [← e] at h5
      have h6 := hneg i hi
      rw [key_pos h5] at h6
      omega

/-- -1, 2.5, 3, NaN and 5e9 as bits. -/
def demoBits : List ℕ := [0xBFF0000000000000, 0x4004000000000000, 0x4008000000000000, 0x7FF8000000000000, 0x41F2A05F20000000]

/-- The hypotheses about the numbers are met: minimum of 3, NaN and 2.5; a negative number; a large number; maximum with a negative number. -/
example : (∀ b ∈ demoBits.tail, b < signBit) ∧ (¬NaN 0x4004000000000000 ∧ ¬FLt bigLimit 0x4004000000000000) ∧
    (key 0xBFF0000000000000 < 0 ∧ ¬NaN 0xBFF0000000000000) ∧ FLt bigLimit 0x41F2A05F20000000 ∧ NaN 0x7FF8000000000000 ∧
    0 ≤ key 0x4008000000000000 ∧ FLt 0xBFF0000000000000 0x4004000000000000 := by decide

/-! ### Long arrays -/

/-- **C113** (finding): in an array of 2147483680 numbers the index of a thread passes the end of `uint` and starts again: the thread with number
2147483616 also takes the number at index 0, which thread 0 takes. -/
theorem C113_long_violation {vis : ℕ → List ℕ} (hv : Runs (2 ^ 31 + 32) threadCount vis) :
    vis 0 = [0] ∧ vis (2 ^ 31 - 32) = [2 ^ 31 - 32, 0] := by
  have hb : blockCount (2 ^ 31 + 32) threadCount = 2 ^ 26 + 1 := by decide
  unfold Runs at hv
  rw [hb] at hv
  have hs : (2 ^ 26 + 1) * threadCount % uintSize = 2 ^ 31 + 32 := by decide
  rw [hs] at hv
  have h0 : ∀ {l : List ℕ}, Visits (2 ^ 31 + 32) (2 ^ 31 + 32) 0 l → l = [0] := by
    intro l hl
    cases hl with
    | done h => omega
    | step _ h =>
      have e : (0 + (2 ^ 31 + 32)) % uintSize = 2 ^ 31 + 32 := by decide
      rw [e] at h
      cases h with
      | done _ => rfl
      | step h _ => omega
  refine ⟨h0 (hv 0 (by decide)), ?_⟩
  have h1 := hv (2 ^ 31 - 32) (by decide)
  generalize vis (2 ^ 31 - 32) = l at h1 ⊢
  cases h1 with
  | done h => omega
  | step _ h =>
    have e : (2 ^ 31 - 32 + (2 ^ 31 + 32)) % uintSize = 0 := by decide
    rw [e] at h
    rw [h0 h]

theorem sum_any [AddCommMonoid V] {n w : ℕ} (hw : w ≤ 32) (data : ℕ → V) (vis : ℕ → List ℕ) {S : Sched V} (hS : S.Ok n (32 * w)) :
    findGlobal (sumRed V) n (32 * w) data vis S = ∑ t ∈ Finset.range (32 * w * blockCount n (32 * w)), ((vis t).map data).sum := by
  have hM : ∀ b, Uses (sumRed V).op (sumRed V).lim (∑ t ∈ Finset.range (32 * w), ((vis (t + 32 * w * b) : Multiset ℕ).map data))
      (blockResult (sumRed V) (32 * w) (fun t => threadAcc (sumRed V) data (vis (t + 32 * w * b))) (S.warps b) (S.shared b)) :=
    fun b => uses_block _ w hw _ _ _ _ (hS.2 b) fun t _ => uses_thread _ data _
  have h1 := uses_sum (uses_blocks (sumRed V) rfl _ _ hM S.blocks 0 _ .start)
  rw [zero_add, (hS.1.map _).sum_eq] at h1
  refine h1.trans ?_
  generalize blockCount n (32 * w) = B
  induction B with
  | zero => simp
  | succ B ih =>
    rw [List.range_succ, List.map_append, List.sum_append, Multiset.sum_add, ih, Nat.mul_succ, Finset.sum_range_add (n := 32 * w * B)]
    congr 1
    rw [List.map_singleton, List.sum_singleton, ← Multiset.coe_sumAddMonoidHom, map_sum]
    refine Finset.sum_congr rfl fun t _ => ?_
    rw [Nat.add_comm]
    simp

/-- **C113** (finding): so the sum of an array of 2147483680 numbers is wrong even in exact arithmetic: with 1 at index 0 and 0 elsewhere it is 2 or more. -/
theorem C113_long_sum_violation {vis : ℕ → List ℕ} (hv : Runs (2 ^ 31 + 32) threadCount vis) {S : Sched ℕ} (hS : S.Ok (2 ^ 31 + 32) threadCount) :
    2 ≤ findGlobal (sumRed ℕ) (2 ^ 31 + 32) threadCount (fun i => if i = 0 then 1 else 0) vis S := by
  obtain ⟨h0, h1⟩ := C113_long_violation hv
  have hb : blockCount (2 ^ 31 + 32) (32 * 1) = 2 ^ 26 + 1 := by decide
  have := sum_any (w := 1) (by omega) (fun i => if i = 0 then 1 else 0) vis hS
  refine le_of_le_of_eq ?_ this.symm
  rw [hb]
  have hsub : ({0, 2 ^ 31 - 32} : Finset ℕ) ⊆ Finset.range (32 * 1 * (2 ^ 26 + 1)) := by
    intro x hx
    rcases Finset.mem_insert.1 hx with rfl | hx
    · exact Finset.mem_range.2 (by decide)
    · rw [Finset.mem_singleton.1 hx]; exact Finset.mem_range.2 (by decide)
  refine le_trans ?_ (Finset.sum_le_sum_of_subset hsub)
  rw [Finset.sum_pair (by decide), h0, h1]
  decide

/-- Runs with an array of that length exist. -/
example : ∃ vis, Runs (2 ^ 31 + 32) threadCount vis := by
  refine ⟨fun t => if t < 2 ^ 31 - 32 then [t] else [t, t - (2 ^ 31 - 32)], fun t ht => ?_⟩
  have hb : blockCount (2 ^ 31 + 32) threadCount = 2 ^ 26 + 1 := by decide
  rw [hb] at ht ⊢
  have hs : (2 ^ 26 + 1) * threadCount % uintSize = 2 ^ 31 + 32 := by decide
  have ht' : t < 2 ^ 31 + 32 := lt_of_lt_of_eq ht (by decide)
  rw [hs]
  dsimp only
  split
  · refine .step ht' (.done ?_)
    rw [Nat.mod_eq_of_lt (by unfold uintSize; omega)]; omega
  · refine .step ht' ?_
    have e : (t + (2 ^ 31 + 32)) % uintSize = t - (2 ^ 31 - 32) := by unfold uintSize; omega
    rw [e]
    refine .step (by omega) (.done ?_)
    rw [Nat.mod_eq_of_lt (by unfold uintSize; omega)]; omega

end Verif.GPU
