import Verif.SuperB.Chares
import Mathlib.Data.List.Nodup
import Mathlib.Data.List.Perm.Basic
import Mathlib.Data.List.Perm.Subperm
import Mathlib.Tactic.Ring
import Mathlib.Tactic.Linarith
import Mathlib.Algebra.Field.Rat

/-!
# C44: every point of the distributed grid has exactly one owner
-/
namespace Verif.SuperB

/-! ## Specification -/

/-- The decompositions that the program accepts: at least one chare and one interior point in each direction,
and the checks of the set-up pass. -/
def Params.Ok (P : Params) : Prop := ∀ i, 0 < (P.d i).Nchare ∧ 0 < (P.d i).Nxx ∧ (P.d i).check P.G = true

/-- `ch` is the position of a chare. -/
def Params.IsChare (P : Params) (ch : Fin 3 → Nat) : Prop := ∀ i, ch i < (P.d i).Nchare

/-- `l` is a point of the local grid of a chare. -/
def Params.IsLocal (P : Params) (l : Fin 3 → Nat) : Prop := ∀ i, l i < (P.d i).chTot P.G

/-- `g` is a point of the global grid. -/
def Params.IsGlobal (P : Params) (g : Fin 3 → Nat) : Prop := ∀ i, g i < (P.d i).tot P.G

/-- Index of a global point. -/
def Params.gIdx (P : Params) (g : Fin 3 → Nat) : Nat :=
  idx3 (g 0) (g 1) (g 2) ((P.d 0).tot P.G) ((P.d 1).tot P.G)

/-! ## Index arithmetic -/

theorem add_mul_inj {N a b c d : Nat} (ha : a < N) (hc : c < N) (h : a + N * b = c + N * d) : a = c ∧ b = d := by
  have h1 : (a + N * b) % N = (c + N * d) % N := by rw [h]
  rw [Nat.add_mul_mod_self_left, Nat.add_mul_mod_self_left, Nat.mod_eq_of_lt ha, Nat.mod_eq_of_lt hc] at h1
  subst h1
  exact ⟨rfl, Nat.eq_of_mul_eq_mul_left (Nat.pos_of_ne_zero (by omega)) (Nat.add_left_cancel h)⟩

theorem idx3_inj {i j k i' j' k' Ni Nj : Nat} (hi : i < Ni) (hj : j < Nj) (hi' : i' < Ni) (hj' : j' < Nj)
    (h : idx3 i j k Ni Nj = idx3 i' j' k' Ni Nj) : i = i' ∧ j = j' ∧ k = k' := by
  unfold idx3 at h
  obtain ⟨h1, h2⟩ := add_mul_inj hi hi' h
  obtain ⟨h3, h4⟩ := add_mul_inj hj hj' h2
  exact ⟨h1, h3, h4⟩

theorem idx3_lt {i j k Ni Nj Nk : Nat} (hi : i < Ni) (hj : j < Nj) (hk : k < Nk) :
    idx3 i j k Ni Nj < Ni * Nj * Nk := by
  unfold idx3
  have s2 : j + Nj * k < Nj * Nk := by
    calc j + Nj * k < Nj + Nj * k := by omega
      _ = Nj * (k + 1) := by ring
      _ ≤ Nj * Nk := Nat.mul_le_mul_left _ hk
  calc i + Ni * (j + Nj * k) < Ni + Ni * (j + Nj * k) := by omega
    _ = Ni * (j + Nj * k + 1) := by ring
    _ ≤ Ni * (Nj * Nk) := Nat.mul_le_mul_left _ s2
    _ = Ni * Nj * Nk := by ring

theorem idx3_surj {Ni Nj Nk m : Nat} (hm : m < Ni * Nj * Nk) :
    ∃ i j k, i < Ni ∧ j < Nj ∧ k < Nk ∧ idx3 i j k Ni Nj = m := by
  have p : 0 < Ni ∧ 0 < Nj := by
    refine ⟨?_, ?_⟩ <;> (apply Nat.pos_of_ne_zero; rintro rfl; simp at hm)
  refine ⟨m % Ni, m / Ni % Nj, m / Ni / Nj, Nat.mod_lt _ p.1, Nat.mod_lt _ p.2, ?_, ?_⟩
  · rw [Nat.div_div_eq_div_mul]
    exact Nat.div_lt_of_lt_mul hm
  · unfold idx3
    rw [Nat.mod_add_div, Nat.mod_add_div]

/-- **C44** (chare indices): the index of a chare determines its position, and `REVERSE_IDX3GENERAL` computes
it. -/
theorem C44_reverse (i j k Ni Nj : Nat) (hi : i < Ni) (hj : j < Nj) :
    reverseIdx3 (idx3 i j k Ni Nj) Ni Nj = (i, j, k) := by
  unfold reverseIdx3 idx3
  have e : i + Ni * (j + Nj * k) = (i + Ni * j) + Ni * Nj * k := by ring
  have hlt : i + Ni * j < Ni * Nj := by
    calc i + Ni * j < Ni + Ni * j := by omega
      _ = Ni * (j + 1) := by ring
      _ ≤ Ni * Nj := Nat.mul_le_mul_left _ hj
  simp only [e, Nat.add_mul_mod_self_left, Nat.mod_eq_of_lt hlt, Nat.mod_eq_of_lt hi, Prod.mk.injEq, true_and]
  constructor
  · rw [Nat.add_mul_div_left _ _ (by omega), Nat.div_eq_of_lt hi, Nat.zero_add]
  · rw [Nat.add_mul_div_left _ _ (by omega), Nat.div_eq_of_lt hlt, Nat.zero_add]

/-! ## One direction -/

theorem Dir.split {G : Nat} {d : Dir} (hc : d.check G = true) : d.Nxx = d.Nchare * d.chNxx := by
  unfold Dir.check at hc
  simp only [Bool.and_eq_true, decide_eq_true_eq] at hc
  unfold Dir.chNxx
  rw [Nat.mul_div_cancel' (Nat.dvd_of_mod_eq_zero hc.1)]

theorem Dir.wide {G : Nat} {d : Dir} (hc : d.check G = true) (h1 : 1 < d.Nchare) : G ≤ d.chNxx := by
  unfold Dir.check at hc
  simp only [Bool.and_eq_true, Bool.not_eq_true', Bool.and_eq_false_iff, decide_eq_false_iff_not] at hc
  omega

theorem Dir.mem_locals {G : Nat} {d : Dir} {ch l : Nat} :
    l ∈ d.locals G ch ↔ d.startLocal G ch ≤ l ∧ l < d.endLocal G ch := by
  unfold Dir.locals
  rw [List.mem_range'_1]
  omega

theorem Dir.local_lt {G : Nat} {d : Dir} {ch l : Nat} (h : l ∈ d.locals G ch) : l < d.chTot G := by
  rw [Dir.mem_locals] at h
  unfold Dir.endLocal Dir.chTot at *
  split at h <;> omega

theorem Dir.glob_lt {G : Nat} {d : Dir} (hc : d.check G = true) {ch l : Nat} (hch : ch < d.Nchare)
    (hl : l < d.chTot G) : localToGlobal ch l d.chNxx < d.tot G := by
  unfold localToGlobal Dir.tot
  rw [Dir.split hc]
  unfold Dir.chTot at hl
  have : (ch + 1) * d.chNxx ≤ d.Nchare * d.chNxx := Nat.mul_le_mul_right _ hch
  rw [Nat.succ_mul] at this
  omega

/-- The chare and local index are determined by the global index. -/
theorem Dir.owner_unique {G : Nat} {d : Dir} {ch ch' l l' : Nat} (hch : ch < d.Nchare) (hch' : ch' < d.Nchare)
    (hl : l ∈ d.locals G ch) (hl' : l' ∈ d.locals G ch')
    (h : localToGlobal ch l d.chNxx = localToGlobal ch' l' d.chNxx) : ch = ch' ∧ l = l' := by
  have key : ∀ {ch ch' l l' : Nat}, ch < d.Nchare → ch' < d.Nchare → l ∈ d.locals G ch → l' ∈ d.locals G ch' →
      localToGlobal ch l d.chNxx = localToGlobal ch' l' d.chNxx → ¬ ch < ch' := by
    intro ch ch' l l' hch hch' hl hl' h hlt
    rw [Dir.mem_locals] at hl hl'
    unfold localToGlobal at h
    have h1 : l < d.chNxx + G := by
      have := hl.2
      unfold Dir.endLocal at this
      rw [if_neg (by omega)] at this
      exact this
    have h2 : G ≤ l' := by
      have := hl'.1
      unfold Dir.startLocal at this
      rw [if_neg (by omega)] at this
      exact this
    have : (ch + 1) * d.chNxx ≤ ch' * d.chNxx := Nat.mul_le_mul_right _ hlt
    rw [Nat.succ_mul] at this
    omega
  have e : ch = ch' := by
    have := key hch hch' hl hl' h
    have := key hch' hch hl' hl h.symm
    omega
  subst e
  unfold localToGlobal at h
  exact ⟨rfl, by omega⟩

/-- Every global index has an owner. -/
theorem Dir.owner_exists {G : Nat} {d : Dir} (hc : d.check G = true) (hn : 0 < d.Nchare) (hx : 0 < d.Nxx) {g : Nat}
    (hg : g < d.tot G) : ∃ ch l, ch < d.Nchare ∧ l ∈ d.locals G ch ∧ localToGlobal ch l d.chNxx = g := by
  unfold Dir.tot at hg
  rw [Dir.split hc] at hg hx
  have hpos : 0 < d.chNxx := Nat.pos_of_mul_pos_left hx
  simp only [Dir.mem_locals]
  by_cases h0 : g < G
  · refine ⟨0, g, hn, ⟨by simp [Dir.startLocal], ?_⟩, by simp [localToGlobal]⟩
    unfold Dir.endLocal Dir.chTot
    split <;> omega
  · -- the interior chare, or the last one
    have hdm := Nat.div_add_mod (g - G) d.chNxx
    have hm := Nat.mod_lt (g - G) hpos
    generalize hq : (g - G) / d.chNxx = q at hdm
    generalize (g - G) % d.chNxx = r at hdm hm
    by_cases hlast : q < d.Nchare
    · refine ⟨q, r + G, hlast, ⟨?_, ?_⟩, ?_⟩
      · unfold Dir.startLocal; split <;> omega
      · unfold Dir.endLocal Dir.chTot; split <;> omega
      · unfold localToGlobal; rw [Nat.mul_comm]; omega
    · obtain ⟨c, hcN⟩ : ∃ c, d.Nchare = c + 1 := ⟨d.Nchare - 1, by omega⟩
      have hcl : c * d.chNxx + d.chNxx ≤ d.chNxx * q := by
        calc c * d.chNxx + d.chNxx = d.chNxx * (c + 1) := by ring
          _ ≤ d.chNxx * q := Nat.mul_le_mul_left _ (by omega)
      rw [hcN, Nat.succ_mul] at hg
      refine ⟨c, g - c * d.chNxx, by omega, ⟨?_, ?_⟩, ?_⟩
      · unfold Dir.startLocal; split <;> omega
      · unfold Dir.endLocal Dir.chTot
        rw [if_pos hcN.symm]
        omega
      · unfold localToGlobal; omega

/-! ## The assignments -/

/-- A `flatMap` whose results reveal where they come from has no repetition. -/
theorem nodup_flatMap_tag {α β : Type} {l : List α} {f : α → List β} (tag : β → α) (hl : l.Nodup)
    (hf : ∀ a ∈ l, (f a).Nodup) (ht : ∀ a ∈ l, ∀ b ∈ f a, tag b = a) : (l.flatMap f).Nodup := by
  rw [List.nodup_flatMap]
  refine ⟨hf, ?_⟩
  rw [List.nodup_iff_pairwise_ne] at hl
  refine hl.imp_of_mem fun {a b} ha hb hab x hxa hxb => hab ?_
  rw [← ht a ha x hxa, ← ht b hb x hxb]

theorem mem_writes {P : Params} {w : Write} : w ∈ P.writes ↔ ∃ ch l : Fin 3 → Nat, P.IsChare ch ∧
    (∀ i, l i ∈ (P.d i).locals P.G (ch i)) ∧ w = ⟨P.globIdx ch l, P.chIdx ch, P.locIdx l⟩ := by
  unfold Params.writes
  simp only [List.mem_flatMap, List.mem_map, List.mem_range]
  constructor
  · rintro ⟨ck, hck, cj, hcj, ci, hci, lk, hlk, lj, hlj, li, hli, rfl⟩
    refine ⟨vec ci cj ck, vec li lj lk, ?_, ?_, rfl⟩
    · intro i; match i with
      | 0 => exact hci
      | 1 => exact hcj
      | 2 => exact hck
    · intro i; match i with
      | 0 => exact hli
      | 1 => exact hlj
      | 2 => exact hlk
  · rintro ⟨ch, l, hch, hl, rfl⟩
    exact ⟨ch 2, hch 2, ch 1, hch 1, ch 0, hch 0, l 2, hl 2, l 1, hl 1, l 0, hl 0, rfl⟩

theorem globIdx_inj {P : Params} (hP : P.Ok) {ch ch' l l' : Fin 3 → Nat} (hch : P.IsChare ch)
    (hch' : P.IsChare ch') (hl : ∀ i, l i ∈ (P.d i).locals P.G (ch i))
    (hl' : ∀ i, l' i ∈ (P.d i).locals P.G (ch' i)) (h : P.globIdx ch l = P.globIdx ch' l') :
    ∀ i, ch i = ch' i ∧ l i = l' i := by
  have glt : ∀ {ch l : Fin 3 → Nat}, P.IsChare ch → (∀ i, l i ∈ (P.d i).locals P.G (ch i)) → ∀ i,
      localToGlobal (ch i) (l i) (P.d i).chNxx < (P.d i).tot P.G :=
    fun h1 h2 i => Dir.glob_lt (hP i).2.2 (h1 i) (Dir.local_lt (h2 i))
  unfold Params.globIdx at h
  obtain ⟨h0, h1, h2⟩ := idx3_inj (glt hch hl 0) (glt hch hl 1) (glt hch' hl' 0) (glt hch' hl' 1) h
  intro i
  match i with
  | 0 => exact Dir.owner_unique (hch 0) (hch' 0) (hl 0) (hl' 0) h0
  | 1 => exact Dir.owner_unique (hch 1) (hch' 1) (hl 1) (hl' 1) h1
  | 2 => exact Dir.owner_unique (hch 2) (hch' 2) (hl 2) (hl' 2) h2

theorem writes_nodup {P : Params} (hP : P.Ok) : (P.writes.map Write.glob).Nodup := by
  -- list of the loop variables
  let vars : List ((Nat × Nat × Nat) × Nat × Nat × Nat) :=
    (List.range (P.d 2).Nchare).flatMap fun ck => (List.range (P.d 1).Nchare).flatMap fun cj =>
    (List.range (P.d 0).Nchare).flatMap fun ci => ((P.d 2).locals P.G ck).flatMap fun lk =>
      ((P.d 1).locals P.G cj).flatMap fun lj => ((P.d 0).locals P.G ci).map fun li =>
        ((ci, cj, ck), li, lj, lk)
  have hmem : ∀ v ∈ vars, P.IsChare (vec v.1.1 v.1.2.1 v.1.2.2) ∧
      ∀ i, vec v.2.1 v.2.2.1 v.2.2.2 i ∈ (P.d i).locals P.G (vec v.1.1 v.1.2.1 v.1.2.2 i) := by
    intro v hv
    simp only [vars, List.mem_flatMap, List.mem_map, List.mem_range] at hv
    obtain ⟨ck, hck, cj, hcj, ci, hci, lk, hlk, lj, hlj, li, hli, rfl⟩ := hv
    constructor
    · intro i; match i with
      | 0 => exact hci
      | 1 => exact hcj
      | 2 => exact hck
    · intro i; match i with
      | 0 => exact hli
      | 1 => exact hlj
      | 2 => exact hlk
  have hlocals : ∀ (d : Dir) (c : Nat), (d.locals P.G c).Nodup := fun d c => List.nodup_range'
  have hnd : vars.Nodup := by
    refine nodup_flatMap_tag (fun v => v.1.2.2) List.nodup_range (fun ck _ => ?_) ?_
    · refine nodup_flatMap_tag (fun v => v.1.2.1) List.nodup_range (fun cj _ => ?_) ?_
      · refine nodup_flatMap_tag (fun v => v.1.1) List.nodup_range (fun ci _ => ?_) ?_
        · refine nodup_flatMap_tag (fun v => v.2.2.2) (hlocals _ _) (fun lk _ => ?_) ?_
          · refine nodup_flatMap_tag (fun v => v.2.2.1) (hlocals _ _) (fun lj _ => ?_) ?_
            · refine List.Nodup.map_on ?_ (hlocals _ _)
              intro x _ y _ h
              simpa using h
            · intro a _ b hb
              obtain ⟨_, _, rfl⟩ := List.mem_map.1 hb
              rfl
          · intro a _ b hb
            simp only [List.mem_flatMap, List.mem_map] at hb
            obtain ⟨_, _, _, _, rfl⟩ := hb
            rfl
        · intro a _ b hb
          simp only [List.mem_flatMap, List.mem_map] at hb
          obtain ⟨_, _, _, _, _, _, rfl⟩ := hb
          rfl
      · intro a _ b hb
        simp only [List.mem_flatMap, List.mem_map] at hb
        obtain ⟨_, _, _, _, _, _, _, _, rfl⟩ := hb
        rfl
    · intro a _ b hb
      simp only [List.mem_flatMap, List.mem_map] at hb
      obtain ⟨_, _, _, _, _, _, _, _, _, _, rfl⟩ := hb
      rfl
  have e : P.writes.map Write.glob =
      vars.map fun v => P.globIdx (vec v.1.1 v.1.2.1 v.1.2.2) (vec v.2.1 v.2.2.1 v.2.2.2) := by
    simp only [Params.writes, vars, List.map_flatMap, List.map_map]
    rfl
  rw [e]
  refine List.Nodup.map_on ?_ hnd
  intro v hv v' hv' h
  have := globIdx_inj hP (hmem v hv).1 (hmem v' hv').1 (hmem v hv).2 (hmem v' hv').2 h
  obtain ⟨⟨a, b, c⟩, x, y, z⟩ := v
  obtain ⟨⟨a', b', c'⟩, x', y', z'⟩ := v'
  have h0 := this 0
  have h1 := this 1
  have h2 := this 2
  simp only [vec] at h0 h1 h2
  simp at h0 h1 h2
  simp [h0, h1, h2]

theorem globIdx_lt {P : Params} (hP : P.Ok) {ch l : Fin 3 → Nat} (hch : P.IsChare ch) (hl : P.IsLocal l) :
    P.globIdx ch l < P.ntot :=
  idx3_lt (Dir.glob_lt (hP 0).2.2 (hch 0) (hl 0)) (Dir.glob_lt (hP 1).2.2 (hch 1) (hl 1))
    (Dir.glob_lt (hP 2).2.2 (hch 2) (hl 2))

/-- **C44** (one owner): for every decomposition the program accepts, the loop over chares and over the points
each chare owns reaches every index of the global grid (ghost zones included) exactly once, and no other
index. -/
theorem C44_owner (P : Params) (hP : P.Ok) : (P.writes.map Write.glob).Perm (List.range P.ntot) := by
  refine (List.perm_ext_iff_of_nodup (writes_nodup hP) List.nodup_range).2 fun g => ?_
  rw [List.mem_range, List.mem_map]
  constructor
  · rintro ⟨w, hw, rfl⟩
    obtain ⟨ch, l, hch, hl, rfl⟩ := mem_writes.1 hw
    exact globIdx_lt hP hch fun i => Dir.local_lt (hl i)
  · intro hg
    obtain ⟨i, j, k, hi, hj, hk, rfl⟩ := idx3_surj hg
    obtain ⟨c0, l0, hc0, hl0, rfl⟩ := Dir.owner_exists (hP 0).2.2 (hP 0).1 (hP 0).2.1 hi
    obtain ⟨c1, l1, hc1, hl1, rfl⟩ := Dir.owner_exists (hP 1).2.2 (hP 1).1 (hP 1).2.1 hj
    obtain ⟨c2, l2, hc2, hl2, rfl⟩ := Dir.owner_exists (hP 2).2.2 (hP 2).1 (hP 2).2.1 hk
    refine ⟨⟨_, _, _⟩, mem_writes.2 ⟨vec c0 c1 c2, vec l0 l1 l2, ?_, ?_, rfl⟩, rfl⟩
    · intro i; match i with
      | 0 => exact hc0
      | 1 => exact hc1
      | 2 => exact hc2
    · intro i; match i with
      | 0 => exact hl0
      | 1 => exact hl1
      | 2 => exact hl2

/-! ## The arrays -/

theorem store_eq {α : Type} {n : Nat} {ws : List (Nat × α)} (hnd : (ws.map Prod.fst).Nodup) {g : Nat} {v : α}
    (h : (g, v) ∈ ws) (hg : g < n) : store n ws g = some v := by
  unfold store
  rw [if_pos hg]
  have keep : ∀ (l : List (Nat × α)) (acc : Option α), g ∉ l.map Prod.fst →
      l.foldl (fun acc w => if w.1 = g then some w.2 else acc) acc = acc := by
    intro l
    induction l with
    | nil => intro acc _; rfl
    | cons w l ih =>
      intro acc hn
      rw [List.map_cons, List.mem_cons, not_or] at hn
      rw [List.foldl_cons, if_neg (fun e => hn.1 e.symm)]
      exact ih acc hn.2
  generalize (none : Option α) = acc
  induction ws generalizing acc with
  | nil => cases h
  | cons w l ih =>
    rw [List.map_cons, List.nodup_cons] at hnd
    rw [List.foldl_cons]
    rcases List.mem_cons.1 h with rfl | h
    · rw [if_pos rfl]
      exact keep l _ hnd.1
    · exact ih hnd.2 h _

theorem store_mem {α : Type} {n : Nat} {ws : List (Nat × α)} {g : Nat} {v : α} (h : store n ws g = some v) :
    g < n ∧ (g, v) ∈ ws := by
  unfold store at h
  split at h
  · refine ⟨‹_›, ?_⟩
    have : ∀ (l : List (Nat × α)) (acc : Option α),
        l.foldl (fun acc w => if w.1 = g then some w.2 else acc) acc = some v → acc = some v ∨ (g, v) ∈ l := by
      intro l
      induction l with
      | nil => intro acc h; exact .inl h
      | cons w l ih =>
        intro acc h
        rw [List.foldl_cons] at h
        rcases ih _ h with h | h
        · split at h
          · rename_i hw
            cases h
            exact .inr (by rw [← hw]; simp)
          · exact .inl h
        · exact .inr (by simp [h])
    rcases this ws none h with h | h
    · cases h
    · exact h
  · cases h

theorem mem_localWrites {P : Params} {ch : Fin 3 → Nat} {m g : Nat} : (m, g) ∈ P.localWrites ch ↔
    ∃ l, P.IsLocal l ∧ m = P.locIdx l ∧ g = P.globIdx ch l := by
  unfold Params.localWrites
  simp only [List.mem_flatMap, List.mem_map, List.mem_range, Prod.mk.injEq]
  constructor
  · rintro ⟨lk, hk, lj, hj, li, hi, rfl, rfl⟩
    refine ⟨vec li lj lk, ?_, rfl, rfl⟩
    intro i; match i with
    | 0 => exact hi
    | 1 => exact hj
    | 2 => exact hk
  · rintro ⟨l, hl, rfl, rfl⟩
    exact ⟨l 2, hl 2, l 1, hl 1, l 0, hl 0, rfl, rfl⟩

theorem locIdx_inj {P : Params} {l l' : Fin 3 → Nat} (hl : P.IsLocal l) (hl' : P.IsLocal l')
    (h : P.locIdx l = P.locIdx l') : l = l' := by
  unfold Params.locIdx at h
  obtain ⟨h0, h1, h2⟩ := idx3_inj (hl 0) (hl 1) (hl' 0) (hl' 1) h
  funext i
  match i with
  | 0 => exact h0
  | 1 => exact h1
  | 2 => exact h2

theorem locIdx_lt {P : Params} {l : Fin 3 → Nat} (hl : P.IsLocal l) : P.locIdx l < P.ntotchare :=
  idx3_lt (hl 0) (hl 1) (hl 2)

theorem localWrites_nodup (P : Params) (ch : Fin 3 → Nat) : ((P.localWrites ch).map Prod.fst).Nodup := by
  have e : (P.localWrites ch).map Prod.fst =
      (List.range ((P.d 2).chTot P.G)).flatMap fun lk => (List.range ((P.d 1).chTot P.G)).flatMap fun lj =>
    (List.range ((P.d 0).chTot P.G)).map fun li => P.locIdx (vec li lj lk) := by
    simp only [Params.localWrites, List.map_flatMap, List.map_map]
    rfl
  rw [e]
  have rev : ∀ li lj lk, li < (P.d 0).chTot P.G → lj < (P.d 1).chTot P.G →
      reverseIdx3 (P.locIdx (vec li lj lk)) ((P.d 0).chTot P.G) ((P.d 1).chTot P.G) = (li, lj, lk) :=
    fun li lj lk hi hj => C44_reverse _ _ _ _ _ hi hj
  refine nodup_flatMap_tag (fun m => (reverseIdx3 m ((P.d 0).chTot P.G) ((P.d 1).chTot P.G)).2.2)
    List.nodup_range (fun lk _ => ?_) ?_
  · refine nodup_flatMap_tag (fun m => (reverseIdx3 m ((P.d 0).chTot P.G) ((P.d 1).chTot P.G)).2.1)
      List.nodup_range (fun lj hlj => ?_) ?_
    · refine List.Nodup.map_on ?_ List.nodup_range
      intro x hx y hy h
      have hx' := rev x lj lk (List.mem_range.1 hx) (List.mem_range.1 hlj)
      have hy' := rev y lj lk (List.mem_range.1 hy) (List.mem_range.1 hlj)
      rw [h, hy'] at hx'
      simpa using (Prod.mk.inj hx').1.symm
    · intro a ha b hb
      simp only [List.mem_map, List.mem_range] at ha hb
      obtain ⟨li, hli, rfl⟩ := hb
      rw [rev li a lk hli ha]
  · intro a ha b hb
    simp only [List.mem_flatMap, List.mem_map, List.mem_range] at hb
    obtain ⟨lj, hlj, li, hli, rfl⟩ := hb
    rw [rev li lj a hli hlj]

/-- Value of the local-to-global array. -/
theorem globalOf_eq {P : Params} (ch : Fin 3 → Nat) {l : Fin 3 → Nat} (hl : P.IsLocal l) :
    P.globalOf ch (P.locIdx l) = some (P.globIdx ch l) :=
  store_eq (localWrites_nodup P ch) (mem_localWrites.2 ⟨l, hl, rfl, rfl⟩) (locIdx_lt hl)

theorem arrays_eq {P : Params} (hP : P.Ok) {w : Write} (hw : w ∈ P.writes) :
    P.chareOf w.glob = some w.chare ∧ P.localOf w.glob = some w.loc := by
  have hg : w.glob < P.ntot := by
    have := (C44_owner P hP).subset (List.mem_map.2 ⟨w, hw, rfl⟩)
    exact List.mem_range.1 this
  constructor
  · refine store_eq ?_ (List.mem_map.2 ⟨w, hw, rfl⟩) hg
    have := writes_nodup hP
    rwa [List.map_map]
  · refine store_eq ?_ (List.mem_map.2 ⟨w, hw, rfl⟩) hg
    have := writes_nodup hP
    rwa [List.map_map]

/-- **C44** (global → chare and local → global): for every index `g` of the global grid the arrays name a
chare and a point of its local grid, and that chare's local-to-global array leads back to `g`. -/
theorem C44_global (P : Params) (hP : P.Ok) (g : Nat) (hg : g < P.ntot) :
    ∃ (ch : Fin 3 → Nat) (m : Nat), P.IsChare ch ∧ m < P.ntotchare ∧
      P.chareOf g = some (P.chIdx ch) ∧ P.localOf g = some m ∧ P.globalOf ch m = some g := by
  have := (C44_owner P hP).symm.subset (List.mem_range.2 hg)
  obtain ⟨w, hw, rfl⟩ := List.mem_map.1 this
  obtain ⟨ch, l, hch, hl, rfl⟩ := mem_writes.1 hw
  have hloc : P.IsLocal l := fun i => Dir.local_lt (hl i)
  exact ⟨ch, P.locIdx l, hch, locIdx_lt hloc, (arrays_eq hP hw).1, (arrays_eq hP hw).2, globalOf_eq ch hloc⟩

/-- **C44** (local → global → local): every point `m` of a chare's local grid has a global index inside the
global grid; if the chare owns that point, the global-to-local array leads back to `m`. -/
theorem C44_local (P : Params) (hP : P.Ok) (ch : Fin 3 → Nat) (hch : P.IsChare ch) (m : Nat)
    (hm : m < P.ntotchare) :
    ∃ g, P.globalOf ch m = some g ∧ g < P.ntot ∧
      (P.chareOf g = some (P.chIdx ch) → P.localOf g = some m) := by
  obtain ⟨i, j, k, hi, hj, hk, rfl⟩ := idx3_surj hm
  have hl : P.IsLocal (vec i j k) := by
    intro t; match t with
    | 0 => exact hi
    | 1 => exact hj
    | 2 => exact hk
  have e : idx3 i j k ((P.d 0).chTot P.G) ((P.d 1).chTot P.G) = P.locIdx (vec i j k) := rfl
  rw [e]
  refine ⟨_, globalOf_eq ch hl, globIdx_lt hP hch hl, fun hown => ?_⟩
  have := (C44_owner P hP).symm.subset (List.mem_range.2 (globIdx_lt hP hch hl))
  obtain ⟨w, hw, hwg⟩ := List.mem_map.1 this
  obtain ⟨h1, h2⟩ := arrays_eq hP hw
  rw [hwg] at h1 h2
  rw [h1, Option.some.injEq] at hown
  obtain ⟨ch', l', hch', hl', rfl⟩ := mem_writes.1 hw
  simp only at hown hwg h2
  unfold Params.chIdx at hown
  obtain ⟨c0, c1, c2⟩ := idx3_inj (hch' 0) (hch' 1) (hch 0) (hch 1) hown
  have hloc : P.IsLocal l' := fun i => Dir.local_lt (hl' i)
  unfold Params.globIdx at hwg
  have gl : ∀ {c l : Fin 3 → Nat}, P.IsChare c → P.IsLocal l → ∀ i,
      localToGlobal (c i) (l i) (P.d i).chNxx < (P.d i).tot P.G :=
    fun h1 h2 i => Dir.glob_lt (hP i).2.2 (h1 i) (h2 i)
  obtain ⟨g0, g1, g2⟩ := idx3_inj (gl hch' hloc 0) (gl hch' hloc 1) (gl hch hl 0) (gl hch hl 1) hwg
  rw [c0] at g0
  rw [c1] at g1
  rw [c2] at g2
  unfold localToGlobal at g0 g1 g2
  have : l' = vec i j k := by
    funext t; match t with
    | 0 => omega
    | 1 => omega
    | 2 => omega
  rw [h2, this]

/-- **C44** (inverse index maps): `MAP_GLOBAL_TO_LOCAL` undoes `MAP_LOCAL_TO_GLOBAL` for the same chare. -/
theorem C44_maps (ch l n : Nat) : globalToLocal ch (localToGlobal ch l n) n = l := by
  unfold globalToLocal localToGlobal
  push_cast
  ring

/-- **C44** (neighbours): a point of a chare's local grid that the chare does not own in some direction is owned
by the adjacent chare of that direction — the previous one for a lower ghost zone, the next one for an upper. -/
theorem C44_neighbour (G : Nat) (d : Dir) (hc : d.check G = true) (ch l : Nat) (hch : ch < d.Nchare)
    (hl : l < d.chTot G) (hno : l ∉ d.locals G ch) :
    (l < G ∧ 0 < ch ∧ ∃ l' ∈ d.locals G (ch - 1),
      localToGlobal (ch - 1) l' d.chNxx = localToGlobal ch l d.chNxx) ∨
    (d.chNxx + G ≤ l ∧ ch + 1 < d.Nchare ∧ ∃ l' ∈ d.locals G (ch + 1),
      localToGlobal (ch + 1) l' d.chNxx = localToGlobal ch l d.chNxx) := by
  rw [Dir.mem_locals] at hno
  by_cases hs : d.startLocal G ch ≤ l
  · right
    have he : ¬ l < d.endLocal G ch := fun h => hno ⟨hs, h⟩
    have hne : ch + 1 ≠ d.Nchare := by
      intro h
      unfold Dir.endLocal at he
      rw [if_pos h] at he
      exact he hl
    unfold Dir.endLocal at he
    rw [if_neg hne] at he
    have hw := Dir.wide hc (by omega)
    unfold Dir.chTot at hl
    refine ⟨by omega, by omega, l - d.chNxx, ?_, ?_⟩
    · rw [Dir.mem_locals]
      constructor
      · unfold Dir.startLocal; split <;> omega
      · unfold Dir.endLocal Dir.chTot; split <;> omega
    · unfold localToGlobal
      rw [Nat.succ_mul]
      omega
  · left
    unfold Dir.startLocal at hs
    have h0 : ch ≠ 0 := by rintro rfl; simp at hs
    rw [if_neg h0] at hs
    have hw := Dir.wide hc (by omega)
    obtain ⟨c, rfl⟩ := Nat.exists_eq_succ_of_ne_zero h0
    refine ⟨by omega, by omega, l + d.chNxx, ?_, ?_⟩
    · rw [Dir.mem_locals]
      constructor
      · unfold Dir.startLocal; split <;> omega
      · unfold Dir.endLocal Dir.chTot; split <;> omega
    · unfold localToGlobal
      simp only [Nat.succ_eq_add_one, Nat.add_sub_cancel, Nat.succ_mul]
      omega

/-- **C44** (coordinates): the coordinate a chare assigns to a local point is the one of the point of the
global grid. -/
theorem C44_coord (G : Nat) (xxmin dxx : ℚ) (d : Dir) (ch j : Nat) :
    coordChare G xxmin dxx d ch j = coord G xxmin dxx (localToGlobal ch j d.chNxx) := by
  unfold coordChare coord localToGlobal
  push_cast
  ring

/-! ### A concrete decomposition -/

/-- A grid of 8 × 6 × 2 points on 4 × 2 × 1 chares with two ghost zones. -/
def exP : Params := ⟨fun i => if i = 0 then ⟨8, 4⟩ else if i = 1 then ⟨6, 2⟩ else ⟨2, 1⟩, 2⟩

theorem exP_ok : exP.Ok := by
  intro i
  match i with
  | 0 => decide
  | 1 => decide
  | 2 => decide

example : exP.IsChare (vec 3 1 0) ∧ exP.IsLocal (vec 5 6 5) := by
  constructor <;> intro i <;> match i with
  | 0 => decide
  | 1 => decide
  | 2 => decide

example : 1 ∉ (exP.d 0).locals exP.G 2 ∧ 1 < (exP.d 0).chTot exP.G := by decide

end Verif.SuperB
