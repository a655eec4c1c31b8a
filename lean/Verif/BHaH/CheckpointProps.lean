import Verif.BHaH.Checkpoint
import Mathlib.Tactic.Linarith
import Mathlib.Tactic.FieldSimp
import Mathlib.Tactic.Ring
import Mathlib.Tactic.NormNum
import Mathlib.Data.List.Forall2

/-!
# C43 (checkpoints) and C45 (output test)
-/
namespace Verif.BHaH

/-! ## C45 -/

theorem cround_eq {x : ℝ} {k : ℤ} (h : |(k : ℝ) - x| < 1 / 2) : cround x = k := by
  obtain ⟨h1, h2⟩ := abs_lt.1 h
  unfold cround
  split
  · rw [Int.floor_eq_iff]
    constructor <;> linarith
  · have : ⌊-x + 1 / 2⌋ = -k := by
      rw [Int.floor_eq_iff]
      push_cast
      constructor <;> linarith
    rw [this, neg_neg]

/-- **C45** (meaning of the test): for a step no longer than the period, the test holds exactly when the time is less
than half a step away from a multiple of the period. -/
theorem C45_test {time dt every : ℝ} (h0 : 0 < dt) (h : dt ≤ every) :
    outputTest time dt every ↔ ∃ k : ℤ, |k * every - time| < dt / 2 := by
  unfold outputTest
  constructor
  · intro h
    exact ⟨_, lt_of_lt_of_eq h (by ring)⟩
  · rintro ⟨k, hk⟩
    have hT : 0 < every := by linarith
    have : cround (time / every) = k := by
      apply cround_eq
      have e : (k : ℝ) - time / every = (k * every - time) / every := by field_simp
      rw [e, abs_div, abs_of_pos hT, div_lt_iff₀ hT]
      linarith
    rw [this]
    linarith

/-- **C45** (at most once): two steps that are both written for the same multiple of the period are the same. -/
theorem C45_at_most_once {t0 dt every : ℝ} (h0 : 0 < dt) (k : ℤ) (n m : ℕ)
    (hn : |k * every - (t0 + n * dt)| < dt / 2) (hm : |k * every - (t0 + m * dt)| < dt / 2) : n = m := by
  obtain ⟨a, b⟩ := abs_lt.1 hn
  obtain ⟨c, d⟩ := abs_lt.1 hm
  have h1 : (n : ℝ) * dt < (m + 1) * dt := by linarith
  have h2 : (m : ℝ) * dt < (n + 1) * dt := by linarith
  have h3 : (n : ℝ) < m + 1 := lt_of_mul_lt_mul_right h1 h0.le
  have h4 : (m : ℝ) < n + 1 := lt_of_mul_lt_mul_right h2 h0.le
  have h5 : n < m + 1 := by exact_mod_cast h3
  have h6 : m < n + 1 := by exact_mod_cast h4
  omega

/-- **C45**, times `t0 + n dt` (also after a restart at `t0`): exactly one step is written for each multiple of the
period after `t0`, unless the multiple lies exactly halfway between two steps.  Missing: that case, in which the
claim is false (`C45_missed`); and rounding errors, which the model does not have. -/
theorem C45_once_partial {t0 dt every : ℝ} (h0 : 0 < dt) (h : dt ≤ every) (k : ℤ) (hk : t0 ≤ k * every)
    (notie : ∀ n : ℕ, k * every ≠ t0 + (n + 1 / 2) * dt) :
    ∃! n : ℕ, outputTest (t0 + n * dt) dt every ∧ |k * every - (t0 + n * dt)| < dt / 2 := by
  set x := (k * every - t0) / dt with hx
  have hx0 : 0 ≤ x := div_nonneg (by linarith) h0.le
  have hxe : k * every - t0 = x * dt := by rw [hx]; field_simp
  obtain ⟨n, hn⟩ : ∃ n : ℕ, ⌊x + 1 / 2⌋ = n := by
    refine ⟨⌊x + 1 / 2⌋.toNat, (Int.toNat_of_nonneg ?_).symm⟩
    exact Int.floor_nonneg.2 (by linarith)
  obtain ⟨l, u⟩ := Int.floor_eq_iff.1 hn
  have l' : (n : ℝ) ≤ x + 1 / 2 := by exact_mod_cast l
  have u' : x + 1 / 2 < (n : ℝ) + 1 := by exact_mod_cast u
  have hlt : |k * every - (t0 + n * dt)| < dt / 2 := by
    have e : k * every - (t0 + n * dt) = (x - n) * dt := by
      rw [sub_mul, ← hxe]; ring
    rw [e, abs_lt]
    have hne : x ≠ n - 1 / 2 := by
      intro hxn
      cases n with
      | zero =>
        push_cast at hxn
        linarith
      | succ m =>
        apply notie m
        rw [hxn] at hxe
        push_cast at hxe
        linarith
    have l2 : (n : ℝ) - 1 / 2 < x := lt_of_le_of_ne (by linarith) (Ne.symm hne)
    constructor <;> nlinarith
  refine ⟨n, ⟨(C45_test h0 h).2 ⟨k, hlt⟩, hlt⟩, fun m hm => ?_⟩
  exact C45_at_most_once h0 k m n hm.2 hlt

/-- A period of 5 steps of length 2/5: every multiple is met. -/
example (k : ℤ) (hk : 0 ≤ k) :
    ∃! n : ℕ, outputTest (0 + n * (2 / 5)) (2 / 5) 2 ∧ |k * 2 - ((0 : ℝ) + n * (2 / 5))| < (2 / 5) / 2 := by
  apply C45_once_partial (by norm_num) (by norm_num)
  · have : (0 : ℝ) ≤ k := by exact_mod_cast hk
    linarith
  · intro n h
    have : (10 * k : ℝ) = 2 * n + 1 := by linarith
    have h2 : (10 * k : ℤ) = 2 * n + 1 := by exact_mod_cast this
    omega

/-- Violation: a multiple of the period halfway between two steps is written at neither. -/
theorem C45_missed {t dt every : ℝ} (h0 : 0 < dt) (h : dt ≤ every) (k : ℤ) (hk : k * every = t + dt / 2) :
    ¬ outputTest t dt every ∧ ¬ outputTest (t + dt) dt every := by
  rw [C45_test h0 h, C45_test h0 h]
  have key : ∀ j : ℤ, j * every = k * every ∨ j * every ≤ k * every - every ∨ k * every + every ≤ j * every := by
    intro j
    have hT : 0 ≤ every := by linarith
    rcases lt_trichotomy j k with hjk | hjk | hjk
    · refine .inr (.inl ?_)
      have : (j : ℝ) ≤ k - 1 := by exact_mod_cast (by omega : j ≤ k - 1)
      nlinarith
    · exact .inl (by rw [hjk])
    · refine .inr (.inr ?_)
      have : (k : ℝ) + 1 ≤ j := by exact_mod_cast (by omega : k + 1 ≤ j)
      nlinarith
  constructor
  · rintro ⟨j, hj⟩
    obtain ⟨a, b⟩ := abs_lt.1 hj
    rcases key j with e | e | e <;> linarith
  · rintro ⟨j, hj⟩
    obtain ⟨a, b⟩ := abs_lt.1 hj
    rcases key j with e | e | e <;> linarith

/-- Steps of 2 and a period of 3: nothing is written at times 2 and 4, the steps around 3. -/
example : ¬ outputTest 2 2 3 ∧ ¬ outputTest (2 + 2) 2 3 :=
  C45_missed (by norm_num) (by norm_num) 1 (by norm_num)

/-! ## C43: specification -/

/-- Values of the type are read back as they were written. -/
structure Codec.Ok {β α : Type} (c : Codec β α) (p : α → Prop) : Prop where
  len : ∀ a, (c.enc a).length = c.size
  dec : ∀ a, p a → c.dec (c.enc a) = a

variable {β C H P R : Type}

structure Layout.Ok (L : Layout β C H P R) (intMax : Nat) : Prop where
  common : L.common.Ok fun _ => True
  horizon : L.horizon.Ok fun _ => True
  params : L.params.Ok fun _ => True
  real : L.real.Ok fun _ => True
  int : L.int.Ok fun n => n ≤ intMax

/-- The program's state before the write: as many grids and horizons as `commondata` says, horizons of the right
size, point numbers that fit in an `int`. -/
structure StateOk (L : Layout β C H P R) (intMax : Nat) (c : C) (hs : List (Horizon H R)) (gs : List (GridMem P R)) :
    Prop where
  grids : gs.length = L.numGrids c
  horizons : L.bah = true → hs.length = L.numHorizons c
  pts : ∀ h ∈ hs, h.m1.length = horizonPts ∧ h.m2.length = horizonPts ∧ h.m3.length = horizonPts
  fits : ∀ g ∈ gs, L.ntot g.params ≤ intMax

/-! ## Reading what was written -/

theorem fread_fwrite {α : Type} {c : Codec β α} {p : α → Prop} (hc : c.Ok p) (l : List α) (hl : ∀ a ∈ l, p a)
    (rest : List β) : fread c l.length (fwrite c l ++ rest) = some (l, rest) := by
  induction l with
  | nil => simp [fread, fwrite]
  | cons a l ih =>
    have e : fwrite c (a :: l) ++ rest = c.enc a ++ (fwrite c l ++ rest) := by simp [fwrite]
    rw [e, List.length_cons, fread]
    have h1 : (c.enc a).length = c.size := hc.len a
    rw [if_pos (by rw [List.length_append, h1]; omega)]
    rw [← h1, List.drop_left, List.take_left, ih fun b hb => hl b (List.mem_cons_of_mem _ hb)]
    simp only
    rw [hc.dec a (hl a List.mem_cons_self)]

theorem fread1_enc {α : Type} {c : Codec β α} {p : α → Prop} (hc : c.Ok p) (a : α) (ha : p a)
    (rest : List β) : fread1 c (c.enc a ++ rest) = some (a, rest) := by
  have := fread_fwrite hc [a] (by simpa using ha) rest
  simp only [fwrite, List.flatMap_cons, List.flatMap_nil, List.append_nil, List.length_singleton] at this
  rw [fread1, this]

section
variable {L : Layout β C H P R} {intMax : Nat}

theorem countPts_eq (p : P) : countPts L p = L.ntot p := by
  unfold countPts
  rw [List.filter_eq_self.2 (by intros; decide), List.length_range]

theorem outIndices_eq (p : P) : outIndices L p = List.range (L.ntot p) := by
  unfold outIndices
  rw [List.filter_eq_self.2 (by intros; decide)]

theorem readHorizon_bytes (hL : L.Ok intMax) (h : Horizon H R)
    (hp : h.m1.length = horizonPts ∧ h.m2.length = horizonPts ∧ h.m3.length = horizonPts) (rest : List β) :
    readHorizon L (horizonBytes L h ++ rest) = some (h, rest) := by
  unfold readHorizon horizonBytes
  simp only [List.append_assoc]
  rw [fread1_enc hL.horizon _ trivial]
  simp only [Option.bind_eq_bind, Option.bind_some]
  have f := fun (l : List R) r => fread_fwrite hL.real l (fun _ _ => trivial) r
  rw [← hp.1, f]
  simp only [Option.bind_some]
  rw [hp.1, ← hp.2.1, f]
  simp only [Option.bind_some]
  rw [hp.2.1, ← hp.2.2, f]
  rfl

theorem readMany_bytes {α γ : Type} (f : List β → Option (γ × List β)) (g : α → List β) (Q : α → γ → Prop) (l : List α)
    (h : ∀ a ∈ l, ∀ rest, ∃ b, f (g a ++ rest) = some (b, rest) ∧ Q a b) (rest : List β) :
    ∃ l', readMany f l.length (l.flatMap g ++ rest) = some (l', rest) ∧ List.Forall₂ Q l l' := by
  induction l with
  | nil => exact ⟨[], by simp [readMany], .nil⟩
  | cons a l ih =>
    obtain ⟨l', h1, h2⟩ := ih fun b hb => h b (List.mem_cons_of_mem _ hb)
    obtain ⟨b, hb, hq⟩ := h a List.mem_cons_self (l.flatMap g ++ rest)
    refine ⟨b :: l', ?_, .cons hq h2⟩
    rw [List.length_cons, readMany, List.flatMap_cons, List.append_assoc, hb]
    simp only [h1]

theorem forall₂_eq {α : Type} {l l' : List α} (h : List.Forall₂ (fun a b => b = a) l l') : l' = l := by
  induction h with
  | nil => rfl
  | cons a _ ih => rw [a, ih]

theorem foldl_update_eq {f : Nat → R} : ∀ (l : List (Nat × R)) (y : Nat → R), (∀ a ∈ l, a.2 = f a.1) → ∀ k,
    (k ∈ l.map Prod.fst ∨ y k = f k) → l.foldl (fun y a => Function.update y a.1 a.2) y k = f k := by
  intro l
  induction l with
  | nil => intro y _ k hk; rcases hk with h | h; cases h; exact h
  | cons a l ih =>
    intro y h k hk
    rw [List.foldl_cons]
    apply ih _ fun b hb => h b (List.mem_cons_of_mem _ hb)
    by_cases e : k = a.1
    · right
      rw [e, Function.update_self, h a List.mem_cons_self]
    · rcases hk with hk | hk
      · left
        rw [List.map_cons, List.mem_cons] at hk
        exact hk.resolve_left e
      · right
        rw [Function.update_of_ne e, hk]

theorem assigned (g : GridMem P R) (fresh : Nat → R) (k : Nat) (hk : k < L.ntot g.params * L.numEvol) :
    (assignments L g.params (L.ntot g.params) (List.range (L.ntot g.params))
      (compact L g.params (copyToDiag L g))).foldl (fun y a => Function.update y a.1 a.2) fresh k = g.y k := by
  have hdata : ∀ i gf, i < L.ntot g.params → gf < L.numEvol →
      (compact L g.params (copyToDiag L g))[i * L.numEvol + gf]? = some (g.y (L.ntot g.params * gf + i)) := by
    intro i gf hi hgf
    have hlt : i * L.numEvol + gf < L.ntot g.params * L.numEvol := by
      calc i * L.numEvol + gf < i * L.numEvol + L.numEvol := by omega
        _ = (i + 1) * L.numEvol := by ring
        _ ≤ L.ntot g.params * L.numEvol := Nat.mul_le_mul_right _ hi
    have hlt2 : L.ntot g.params * gf + i < L.ntot g.params * L.numEvol := by
      calc L.ntot g.params * gf + i < L.ntot g.params * gf + L.ntot g.params := by omega
        _ = L.ntot g.params * (gf + 1) := by ring
        _ ≤ L.ntot g.params * L.numEvol := Nat.mul_le_mul_left _ hgf
    unfold compact
    rw [countPts_eq, List.getElem?_map, List.getElem?_range hlt, Option.map_some]
    have h1 : (i * L.numEvol + gf) % L.numEvol = gf := by
      rw [Nat.mul_comm, Nat.mul_add_mod, Nat.mod_eq_of_lt hgf]
    have h2 : (i * L.numEvol + gf) / L.numEvol = i := by
      rw [Nat.mul_comm, Nat.mul_add_div (by omega), Nat.div_eq_of_lt hgf, Nat.add_zero]
    rw [h1, h2, copyToDiag, if_pos hlt2]
  apply foldl_update_eq
  · rintro ⟨j, v⟩ ha
    obtain ⟨i, hi, ha⟩ := List.mem_flatMap.1 ha
    obtain ⟨gf, hgf, ha⟩ := List.mem_filterMap.1 ha
    rw [List.mem_range] at hi hgf
    rw [List.getElem?_range hi, hdata i gf hi hgf] at ha
    simp only [Option.some.injEq, Prod.mk.injEq] at ha
    obtain ⟨rfl, rfl⟩ := ha
    show g.y _ = g.y _
    congr 1
    unfold Layout.ntot
    ring
  · left
    have hn : 0 < L.ntot g.params := Nat.pos_of_ne_zero fun h => by rw [h] at hk; omega
    have hi : k % L.ntot g.params < L.ntot g.params := Nat.mod_lt _ hn
    have hgf : k / L.ntot g.params < L.numEvol := Nat.div_lt_of_lt_mul hk
    rw [List.mem_map]
    refine ⟨(k, g.y (L.ntot g.params * (k / L.ntot g.params) + k % L.ntot g.params)), ?_, rfl⟩
    refine List.mem_flatMap.2 ⟨k % L.ntot g.params, List.mem_range.2 hi,
      List.mem_filterMap.2 ⟨k / L.ntot g.params, List.mem_range.2 hgf, ?_⟩⟩
    rw [List.getElem?_range hi, hdata _ _ hi hgf]
    simp only [Option.some.injEq, Prod.mk.injEq, and_true]
    have := Nat.mod_add_div k (L.ntot g.params)
    exact this

theorem readGrid_bytes (hL : L.Ok intMax) (fresh : Nat → R) (g : GridMem P R) (hf : L.ntot g.params ≤ intMax)
    (rest : List β) :
    ∃ r, readGrid L fresh (gridBytes L g ++ rest) = some (r, rest) ∧ r.1 = g.params ∧
      ∀ k < L.ntot g.params * L.numEvol, r.2 k = g.y k := by
  refine ⟨(g.params, (assignments L g.params (L.ntot g.params) (List.range (L.ntot g.params))
      (compact L g.params (copyToDiag L g))).foldl (fun y a => Function.update y a.1 a.2) fresh), ?_, rfl,
    fun k hk => assigned g fresh k hk⟩
  unfold readGrid gridBytes
  simp only [List.append_assoc, countPts_eq, outIndices_eq]
  rw [fread1_enc hL.params _ trivial]
  simp only [Option.bind_eq_bind, Option.bind_some]
  rw [fread1_enc hL.int _ hf]
  simp only [Option.bind_some]
  have h1 := fread_fwrite hL.int (List.range (L.ntot g.params))
    (fun a ha => by have := List.mem_range.1 ha; omega)
    (fwrite L.real (compact L g.params (copyToDiag L g)) ++ rest)
  rw [List.length_range] at h1
  rw [h1]
  simp only [Option.bind_some]
  have h2 := fread_fwrite hL.real (compact L g.params (copyToDiag L g)) (fun _ _ => trivial) rest
  have hlen : (compact L g.params (copyToDiag L g)).length = L.ntot g.params * L.numEvol := by
    rw [compact, List.length_map, List.length_range, countPts_eq]
  rw [hlen] at h2
  rw [h2]
  rfl

theorem readAll_bytes (hL : L.Ok intMax) (c : C) (hs : List (Horizon H R)) (gs : List (GridMem P R))
    (hok : StateOk L intMax c hs gs) (fresh : Nat → R) :
    ∃ gs', readAll L fresh (writeBytes L c hs gs) = some ((L.restart c, if L.bah then hs else [], gs'), []) ∧
      List.Forall₂ (fun g r => r.1 = g.params ∧ ∀ k < L.ntot g.params * L.numEvol, r.2 k = g.y k) gs gs' := by
  obtain ⟨gs', h1, h2⟩ := readMany_bytes (readGrid L fresh) (gridBytes L)
    (fun g r => r.1 = g.params ∧ ∀ k < L.ntot g.params * L.numEvol, r.2 k = g.y k) gs
    (fun g hg rest => readGrid_bytes hL fresh g (hok.fits g hg) rest) []
  rw [List.append_nil, hok.grids] at h1
  refine ⟨gs', ?_, h2⟩
  unfold readAll writeBytes readHorizons
  simp only [List.append_assoc]
  rw [fread1_enc hL.common _ trivial]
  simp only [Option.bind_eq_bind, Option.bind_some]
  by_cases hb : L.bah = true
  · obtain ⟨hs', h3, h4⟩ := readMany_bytes (readHorizon L) (horizonBytes L) (fun h r => r = h) hs
      (fun h hh rest => ⟨h, readHorizon_bytes hL h (hok.pts h hh) rest, rfl⟩) (gs.flatMap (gridBytes L))
    have : hs' = hs := forall₂_eq h4
    subst this
    rw [hok.horizons hb] at h3
    simp only [hb, if_true, h3, Option.bind_some, h1, pure]
  · rw [if_neg hb, if_neg hb, if_neg hb]
    simp only [List.nil_append, Option.bind_some, h1, pure]

/-- **C43** (round trip): reading a checkpoint that was completely written restores `commondata` (with `t_0` and `nn_0`
set), every horizon, the parameters of every grid and every evolved gridfunction at every point, whatever the newly
allocated memory contained. -/
theorem C43_roundtrip (hL : L.Ok intMax) (c : C) (hs : List (Horizon H R)) (gs : List (GridMem P R))
    (hok : StateOk L intMax c hs gs) (fresh : Nat → R) :
    ∃ gs', readCheckpoint L fresh (some (writeBytes L c hs gs)) =
        .restored (L.restart c) (if L.bah then hs else []) gs' ∧
      List.Forall₂ (fun g g' => g'.1 = g.params ∧
        ∀ gf < L.numEvol, ∀ i < L.n0 g.params * L.n1 g.params * L.n2 g.params,
          g'.2 (i + L.n0 g.params * L.n1 g.params * L.n2 g.params * gf) =
            g.y (i + L.n0 g.params * L.n1 g.params * L.n2 g.params * gf)) gs gs' := by
  obtain ⟨gs', h1, h2⟩ := readAll_bytes hL c hs gs hok fresh
  refine ⟨gs', ?_, h2.imp fun g g' hg => ⟨hg.1, fun gf hgf i hi => hg.2 _ ?_⟩⟩
  · simp only [readCheckpoint, h1]
  · show i + L.ntot g.params * gf < _
    calc i + L.ntot g.params * gf < L.ntot g.params + L.ntot g.params * gf := by
          have : i < L.ntot g.params := hi
          omega
      _ = L.ntot g.params * (gf + 1) := by ring
      _ ≤ L.ntot g.params * L.numEvol := Nat.mul_le_mul_left _ hgf

/-- **C43** (the run goes on): writing a checkpoint leaves the parameters and the evolved gridfunctions as they were;
`diagnostic_output_gfs` is overwritten by the evolved gridfunctions. -/
theorem C43_write_keeps (fresh : Nat → R) (g : GridMem P R) :
    (writeGridMem L fresh g).params = g.params ∧
    ∀ k < L.n0 g.params * L.n1 g.params * L.n2 g.params * L.numEvol,
      (writeGridMem L fresh g).y k = g.y k ∧ (writeGridMem L fresh g).diag k = g.y k := by
  refine ⟨rfl, fun k hk => ?_⟩
  have hk : k < L.ntot g.params * L.numEvol := hk
  constructor <;> simp [writeGridMem, copyToDiag, hk]

/-! ## Crashes -/

/-- A reader that, when it succeeds, also succeeds on a longer file and leaves the additional bytes. -/
def Extends {α : Type} (f : List β → Option (α × List β)) : Prop :=
  ∀ s a r t, f s = some (a, r) → f (s ++ t) = some (a, r ++ t)

theorem fread_extends {α : Type} (c : Codec β α) (n : Nat) : Extends (fread c n) := by
  induction n with
  | zero =>
    intro s a r t h
    simp only [fread, Option.some.injEq, Prod.mk.injEq] at h ⊢
    exact ⟨h.1, by rw [h.2]⟩
  | succ n ih =>
    intro s a r t h
    rw [fread] at h ⊢
    split at h
    · next hs =>
      rw [if_pos (by rw [List.length_append]; omega), List.drop_append_of_le_length hs, List.take_append_of_le_length hs]
      split at h
      · next l r' h' =>
        rw [ih _ _ _ t h']
        simp only [Option.some.injEq, Prod.mk.injEq] at h ⊢
        exact ⟨h.1, by rw [h.2]⟩
      · cases h
    · cases h

theorem fread1_extends {α : Type} (c : Codec β α) : Extends (fread1 c) := by
  intro s a r t h
  unfold fread1 at h ⊢
  split at h
  · next b l r' h' =>
    rw [fread_extends c 1 _ _ _ t h']
    simp only [Option.some.injEq, Prod.mk.injEq] at h ⊢
    exact ⟨h.1, by rw [h.2]⟩
  · cases h

theorem readMany_extends {α : Type} {f : List β → Option (α × List β)} (hf : Extends f) (n : Nat) :
    Extends (readMany f n) := by
  induction n with
  | zero =>
    intro s a r t h
    simp only [readMany, Option.some.injEq, Prod.mk.injEq] at h ⊢
    exact ⟨h.1, by rw [h.2]⟩
  | succ n ih =>
    intro s a r t h
    rw [readMany] at h ⊢
    split at h
    · next b s' h1 =>
      rw [hf _ _ _ t h1]
      simp only
      split at h
      · next l s'' h2 =>
        rw [ih _ _ _ t h2]
        simp only [Option.some.injEq, Prod.mk.injEq] at h ⊢
        exact ⟨h.1, by rw [h.2]⟩
      · cases h
    · cases h

theorem readHorizon_extends : Extends (readHorizon L) := by
  intro s a r t h
  simp only [readHorizon, Option.bind_eq_bind, Option.bind_eq_some_iff] at h
  obtain ⟨⟨x1, s1⟩, h1, ⟨x2, s2⟩, h2, ⟨x3, s3⟩, h3, ⟨x4, s4⟩, h4, h5⟩ := h
  simp only [pure, Option.some.injEq, Prod.mk.injEq] at h5
  simp only [readHorizon, Option.bind_eq_bind, fread1_extends _ _ _ _ t h1, fread_extends _ _ _ _ _ t h2,
    fread_extends _ _ _ _ _ t h3, fread_extends _ _ _ _ _ t h4, Option.bind_some, pure, h5.1, h5.2]

theorem readGrid_extends (fresh : Nat → R) : Extends (readGrid L fresh) := by
  intro s a r t h
  simp only [readGrid, Option.bind_eq_bind, Option.bind_eq_some_iff] at h
  obtain ⟨⟨x1, s1⟩, h1, ⟨x2, s2⟩, h2, ⟨x3, s3⟩, h3, ⟨x4, s4⟩, h4, h5⟩ := h
  simp only [pure, Option.some.injEq, Prod.mk.injEq] at h5
  simp only [readGrid, Option.bind_eq_bind, fread1_extends _ _ _ _ t h1, fread1_extends _ _ _ _ t h2,
    fread_extends _ _ _ _ _ t h3, fread_extends _ _ _ _ _ t h4, Option.bind_some, pure, h5.1, h5.2]

theorem readAll_extends (fresh : Nat → R) : Extends (readAll L fresh) := by
  intro s a r t h
  simp only [readAll, Option.bind_eq_bind, Option.bind_eq_some_iff] at h
  obtain ⟨⟨x1, s1⟩, h1, ⟨x2, s2⟩, h2, ⟨x3, s3⟩, h3, h5⟩ := h
  have h2' : readHorizons L x1 (s1 ++ t) = some (x2, s2 ++ t) := by
    unfold readHorizons at h2 ⊢
    split at h2
    · next hb => rw [if_pos hb]; exact readMany_extends readHorizon_extends _ _ _ _ t h2
    · next hb =>
      rw [if_neg hb]
      simp only [Option.some.injEq, Prod.mk.injEq] at h2 ⊢
      exact ⟨h2.1, by rw [h2.2]⟩
  simp only [pure, Option.some.injEq, Prod.mk.injEq] at h5
  simp only [readAll, Option.bind_eq_bind, fread1_extends _ _ _ _ t h1, h2',
    readMany_extends (readGrid_extends fresh) _ _ _ _ t h3, Option.bind_some, pure, h5.1, h5.2]

theorem fileAfter_succ (c : C) (hs : List (Horizon H R)) (gs : List (GridMem P R)) (k : Nat) (old : Option (List β)) :
    fileAfter (writeSteps L c hs gs) (k + 1) old = some ((writeBytes L c hs gs).take k) := by
  unfold fileAfter writeSteps
  rw [List.take_succ_cons, List.foldl_cons]
  have : ∀ (b acc : List β) (k : Nat), (((b.map fun x => FileStep.append [x]).take k).foldl (fun f s => s.run f) (some acc)) =
      some (acc ++ b.take k) := by
    intro b
    induction b with
    | nil => intro acc k; simp
    | cons x b ih =>
      intro acc k
      cases k with
      | zero => simp
      | succ k =>
        rw [List.map_cons, List.take_succ_cons, List.foldl_cons]
        show List.foldl _ (some (acc ++ [x])) _ = _
        rw [ih]
        simp
  exact this _ [] k

/-- **C43** (crashes), what holds: with the old checkpoint on disk, a crash before the file is opened leaves it, and
once the last byte is written the new one is complete.  Missing: all points in between (`C43_crash`). -/
theorem C43_crash_partial (hL : L.Ok intMax) (c : C) (hs : List (Horizon H R)) (gs : List (GridMem P R))
    (hok : StateOk L intMax c hs gs) (fresh : Nat → R) (old : List β) :
    fileAfter (writeSteps L c hs gs) 0 (some old) = some old ∧
    fileAfter (writeSteps L c hs gs) (writeSteps L c hs gs).length (some old) = some (writeBytes L c hs gs) ∧
    ∃ gs', readCheckpoint L fresh (fileAfter (writeSteps L c hs gs) (writeSteps L c hs gs).length (some old)) =
      .restored (L.restart c) (if L.bah then hs else []) gs' := by
  have h : (writeSteps L c hs gs).length = (writeBytes L c hs gs).length + 1 := by simp [writeSteps]
  have e : fileAfter (writeSteps L c hs gs) (writeSteps L c hs gs).length (some old) = some (writeBytes L c hs gs) := by
    rw [h, fileAfter_succ, List.take_length]
  refine ⟨rfl, e, ?_⟩
  obtain ⟨gs', h1, -⟩ := C43_roundtrip hL c hs gs hok fresh
  exact ⟨gs', by rw [e, h1]⟩

/-- Violation: at every point between opening the file and writing its last byte, a crash leaves a file from which not
everything can be read, and the previous checkpoint is gone; `read_checkpoint` does not notice. -/
theorem C43_crash (hL : L.Ok intMax) (c : C) (hs : List (Horizon H R)) (gs : List (GridMem P R))
    (hok : StateOk L intMax c hs gs) (fresh : Nat → R) (old : Option (List β)) (k : Nat) (h0 : 0 < k)
    (hk : k < (writeSteps L c hs gs).length) :
    readCheckpoint L fresh (fileAfter (writeSteps L c hs gs) k old) = .garbage := by
  obtain ⟨k, rfl⟩ : ∃ j, k = j + 1 := ⟨k - 1, by omega⟩
  have h : (writeSteps L c hs gs).length = (writeBytes L c hs gs).length + 1 := by simp [writeSteps]
  rw [fileAfter_succ]
  unfold readCheckpoint
  split
  · cases ‹_›
  · next s heq =>
    cases heq
    split
    · next r1 r2 r3 rest hr =>
      have h2 := readAll_extends fresh _ _ _ ((writeBytes L c hs gs).drop k) hr
      rw [List.take_append_drop] at h2
      obtain ⟨gs', h3, -⟩ := readAll_bytes hL c hs gs hok fresh
      rw [h3] at h2
      simp only [Option.some.injEq, Prod.mk.injEq] at h2
      have h4 := congrArg List.length h2.2
      rw [List.length_append, List.length_drop, List.length_nil] at h4
      omega
    · rfl

end

/-! ## An instance -/

/-- Every type one word, sizes and the number of grids as in `c = (grids, horizons)`. -/
private def exL : Layout Nat (Nat × Nat) Nat (Nat × Nat × Nat) Nat where
  common := ⟨2, fun c => [c.1, c.2], fun l => (l[0]?.getD 0, l[1]?.getD 0)⟩
  horizon := ⟨1, fun n => [n], fun l => l[0]?.getD 0⟩
  params := ⟨3, fun p => [p.1, p.2.1, p.2.2], fun l => (l[0]?.getD 0, l[1]?.getD 0, l[2]?.getD 0)⟩
  int := ⟨1, fun n => [n], fun l => l[0]?.getD 0⟩
  real := ⟨1, fun n => [n], fun l => l[0]?.getD 0⟩
  bah := true
  numGrids := Prod.fst
  numHorizons := Prod.snd
  restart := id
  n0 := Prod.fst
  n1 := fun p => p.2.1
  n2 := fun p => p.2.2
  numEvol := 2

/-- The hypotheses hold for two grids of different sizes and one horizon. -/
example : exL.Ok 1000 ∧ StateOk exL 1000 (2, 1)
    [⟨7, List.replicate 2048 1, List.replicate 2048 2, List.replicate 2048 3⟩]
    [⟨(2, 3, 4), fun k => k, fun _ => 0⟩, ⟨(1, 2, 2), fun k => k * k, fun _ => 5⟩] := by
  refine ⟨⟨⟨fun _ => rfl, fun _ _ => rfl⟩, ⟨fun _ => rfl, fun _ _ => rfl⟩, ⟨fun _ => rfl, fun _ _ => rfl⟩,
    ⟨fun _ => rfl, fun _ _ => rfl⟩, ⟨fun _ => rfl, fun _ _ => rfl⟩⟩, rfl, fun _ => rfl, ?_, ?_⟩
  · intro h hh
    simp only [List.mem_singleton] at hh
    subst hh
    exact ⟨List.length_replicate, List.length_replicate, List.length_replicate⟩
  · intro g hg
    simp only [List.mem_cons, List.not_mem_nil, or_false] at hg
    rcases hg with rfl | rfl <;> simp [Layout.ntot, exL]

end Verif.BHaH
