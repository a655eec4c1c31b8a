import Verif.MoL.StepProps
import Verif.MoL.ButcherProps

/-!
# C36 for the dictionary, C36 counterexamples, C37 (buffers)
-/

open Finset

namespace Verif.MoL
open Verif.Py

/-! ## The tables of the dictionary are admissible -/

/-- Cells of a table read as real numbers. -/
noncomputable def tblA (t : Table Q21) (i j : Nat) : ℝ :=
  ((t[i]?.bind fun x => x.tail[j]?).map Q21.val).getD 0
noncomputable def tblB (t : Table Q21) (j : Nat) : ℝ := tblA t (t.length - 1) j
noncomputable def tblC (t : Table Q21) (i : Nat) : ℝ :=
  ((t[i]?.bind Row.abscissa?).map Q21.val).getD 0

/-- Shape test: stage row `i` is numeric with `i` coefficients, the last row is `""` with one
weight per stage. -/
def tableShape (t : Table Q21) : Bool :=
  decide (2 ≤ t.length) &&
  (t.zipIdx.all fun p =>
    if p.2 = t.length - 1 then decide (p.1.head = .str "") && p.1.tail.length == t.length - 1
    else p.1.abscissa?.isSome && p.1.tail.length == p.2)

theorem isTable_of_shape (t : Table Q21) (h : tableShape t = true) :
    IsTable (t.mapNum Q21.val) (t.length - 1) (tblA t) (tblB t) (tblC t) := by
  simp only [tableShape, Bool.and_eq_true, decide_eq_true_eq, List.all_eq_true] at h
  obtain ⟨h2, hall⟩ := h
  have hget : ∀ i (hi : i < t.length), t[i]? = some t[i] := fun i hi => List.getElem?_eq_getElem hi
  have hmap : ∀ (i : Nat) (hi : i < t.length) (n : Nat), (t[i]).tail.length = n →
      (t[i]).tail.map Q21.val = (List.range n).map (tblA t i) := by
    intro i hi n hn
    apply List.ext_getElem
    · simp [hn]
    · intro j h1 h2
      simp only [List.length_map] at h1
      simp [tblA, hget i hi, List.getElem?_eq_getElem h1]
  refine ⟨by simp [Table.mapNum]; omega, by omega, fun i hi => ?_, ?_⟩
  · have := hall (t[i], i) (List.mem_zipIdx_iff_getElem?.2 (hget i (by omega)))
    simp only [if_neg (by omega : ¬ i = t.length - 1), Bool.and_eq_true, beq_iff_eq] at this
    obtain ⟨c1, c2⟩ := this
    rw [Table.mapNum, List.getElem?_map, hget i (by omega), Option.map_some, Row.map]
    congr 2
    · cases e : (t[i]).head with
      | str s => simp [Row.abscissa?, e] at c1
      | num c => simp [Head.map, tblC, hget i (by omega), Row.abscissa?, e]
    · exact hmap i (by omega) i c2
  · have := hall (t[t.length - 1], t.length - 1)
      (List.mem_zipIdx_iff_getElem?.2 (hget _ (by omega)))
    simp only [if_true, Bool.and_eq_true, beq_iff_eq, decide_eq_true_eq] at this
    obtain ⟨c1, c2⟩ := this
    rw [Table.mapNum, List.getElem?_map, hget _ (by omega), Option.map_some, Row.map]
    congr 2
    · rw [c1]; rfl
    · exact hmap _ (by omega) _ c2

/-- The cell `t[i][j+1]` is a nonzero rational. -/
def cellNZ (t : Table Q21) (i j : Nat) : Bool :=
  match t[i]?.bind fun x => x.tail[j]? with
  | some x => x.b == 0 && x.a != 0 && x.d != 0
  | none => false

theorem cellNZ_ne (t : Table Q21) (i j : Nat) (h : cellNZ t i j = true) : tblA t i j ≠ 0 := by
  unfold cellNZ at h
  split at h
  · next x hx =>
    simp only [Bool.and_eq_true, beq_iff_eq, bne_iff_ne, ne_eq] at h
    obtain ⟨⟨h1, h2⟩, h3⟩ := h
    rw [tblA, hx]
    simp [Q21.val, h1, h2, h3]
  · cases h

/-- Test for `Admissible`. -/
def admissibleOk (name : Str) (t : Table Q21) : Bool :=
  let s := t.length - 1
  ((List.range s).any fun i => (List.range i).any fun j => decide (j + 1 < i) && cellNZ t i j) ||
  (if nameHasRK3 name then s == 3 && cellNZ t 1 0
   else if name = (c% "Euler") then
     s == 1 && decide ((t[1]?.bind fun x => x.tail[0]?) = some (int 1))
   else decide (2 ≤ s) && cellNZ t s (s - 1) &&
     (List.range s).all fun i => decide (i = 0) || decide (s ≤ i + 1) || cellNZ t (i + 1) i)

theorem admissible_of (name : Str) (t : Table Q21) (h : admissibleOk name t = true) :
    Admissible name (t.length - 1) (tblA t) (tblB t) := by
  intro hdiag
  unfold admissibleOk at h
  simp only [Bool.or_eq_true] at h
  rcases h with h | h
  · exfalso
    simp only [List.any_eq_true, List.mem_range, Bool.and_eq_true, decide_eq_true_eq] at h
    obtain ⟨i, hi, j, _, hj, hn⟩ := h
    exact cellNZ_ne t i j hn (hdiag i hi j hj)
  · by_cases h3 : nameHasRK3 name = true
    · rw [if_pos h3] at h ⊢
      simp only [Bool.and_eq_true, beq_iff_eq] at h
      exact ⟨h.1, cellNZ_ne t 1 0 h.2⟩
    · rw [if_neg h3] at h ⊢
      by_cases hE : name = (c% "Euler")
      · rw [if_pos hE] at h ⊢
        simp only [Bool.and_eq_true, beq_iff_eq, decide_eq_true_eq] at h
        refine ⟨h.1, ?_⟩
        rw [tblB, h.1, tblA, h.2]
        simp [Q21.val, int]
      · rw [if_neg hE] at h ⊢
        simp only [Bool.and_eq_true, decide_eq_true_eq, List.all_eq_true, List.mem_range,
          Bool.or_eq_true] at h
        obtain ⟨⟨h1, h2⟩, h4⟩ := h
        refine ⟨h1, cellNZ_ne t _ _ h2, fun i hi1 hi2 => ?_⟩
        rcases h4 i (by omega) with (h5 | h5) | h5
        · omega
        · omega
        · exact cellNZ_ne t _ _ h5

/-- The adaptive pairs of the dictionary. -/
def adaptiveKeys : List String := ["AHE", "ABS", "ARKF", "ACK", "ADP5", "ADP8"]

/-- **C36 for the dictionary.**  For each of the fifteen non-adaptive methods, the generated time
step performs on every grid exactly one step of the Runge–Kutta method written in the table. -/
theorem C36_dictionary (Pt : Type) : ∀ e ∈ butcherDict, e.1 ∉ adaptiveKeys →
    ∃ prog, stepProgram e.1.toList (e.2.1.mapNum Q21.val) = .ok prog ∧
      ∀ (u : User ℝ Pt) (I : Nat → Pt → Prop) (F : Nat → ℝ → (Pt → ℝ) → (Pt → ℝ)) (n : Nat),
        (∀ g < n, UserOk u g (I g) (F g)) → ∀ (dt : ℝ) (σ : CState ℝ Pt),
        let σ' := stepForward u dt prog n σ
        (∀ g < n, IsRKStep (e.2.1.length - 1) (tblA e.2.1) (tblB e.2.1) (tblC e.2.1) (F g)
          (u.post g) σ.time dt (σ.grids g .yn) (σ'.grids g .yn)) ∧
        σ'.nn = σ.nn + 1 ∧ σ'.time = ((σ.nn : ℝ) + 1) * dt := by
  intro e he hk
  have h : (butcherDict.all fun e => decide (e.1 ∈ adaptiveKeys) ||
      (tableShape e.2.1 && admissibleOk e.1.toList e.2.1)) = true := by decide +kernel
  have := List.all_eq_true.1 h e he
  simp only [Bool.or_eq_true, decide_eq_true_eq, hk, false_or, Bool.and_eq_true] at this
  exact C36_step_is_RK _ _ _ _ _ _ (isTable_of_shape _ this.1) (admissible_of _ _ this.2)

/-- **C36.**  The adaptive pairs are refused with `ValueError`, whatever the table's numbers: a table
whose last row does not start with `""` and for which the buffers can be determined. -/
theorem C36_adaptive_refused {K : Type} [Field K] [DecidableEq K] (name : Str) (t : Table K)
    (x : Row K) (hlast : t.getLast? = some x) (hx : x.head ≠ .str "") (nm : GfNames)
    (hn : gfNames name t = .ok nm) : stepProgram name t = .error .valueError := by
  unfold stepProgram
  rw [hn, hlast]
  simp only [bind, Except.bind, hx, ne_eq, not_false_eq_true, if_true]

/-! ## Tables for which a storage-saving algorithm is wrong -/

/-- Runs a one-point, one-grid step over ℚ with right-hand side `y' = 1` and no boundary
condition. -/
def runUnit (prog : List (Substep ℚ)) (m : Mem ℚ Unit) : ℚ :=
  runOne (⟨fun _ _ _ _ _ => 1, fun _ v => v⟩ : User ℚ Unit) 0 0 1 prog m .yn ()

/-- Memory after `calloc`-like initialisation, except that the running total holds `r`. -/
def mem0 (r : ℚ) : Mem ℚ Unit := fun b _ => if b = .runningTotal then r else 0

/-- The Euler table under another name, and the (consistent) table whose last weight is zero. -/
def oneStage : Table ℚ := [⟨.num 0, []⟩, ⟨.str "", [1]⟩]
def lastZero : Table ℚ := [⟨.num 0, []⟩, ⟨.num 1, [1]⟩, ⟨.str "", [1, 0]⟩]

/-- **C36 fails outside `Admissible`.**  (1) A one-stage diagonal table not named `Euler` adds an
uninitialised buffer: the result depends on its content.  (2) A diagonal table whose last weight is
zero leaves `y_n` unchanged, although the Runge–Kutta step of `y' = 1` adds `dt = 1`. -/
theorem C36_inadmissible :
    (∃ prog, stepProgram (c% "FE") oneStage = .ok prog ∧
      runUnit prog (mem0 0) ≠ runUnit prog (mem0 5)) ∧
    (∃ prog, stepProgram (c% "X") lastZero = .ok prog ∧ runUnit prog (mem0 0) = 0) := by
  refine ⟨⟨_, rfl, ?_⟩, ⟨_, rfl, ?_⟩⟩ <;> decide +kernel

/-! ## C37: buffers -/

/-- Buffers read or written by a time step. -/
def Ex.bufs {K : Type} : Ex K → List Buf
  | .sym b => [b]
  | .dt => []
  | .num _ => []
  | .add x y => x.bufs ++ y.bufs
  | .sub x y => x.bufs ++ y.bufs
  | .mul x y => x.bufs ++ y.bufs
  | .div x y => x.bufs ++ y.bufs

def Substep.bufs {K : Type} (s : Substep K) : List Buf :=
  s.rhsIn :: s.rhsOut :: (s.upd.flatMap fun p => p.1 :: p.2.bufs) ++ s.post

section
variable {K : Type} [Field K] [DecidableEq K]

theorem Except_bind_ok {α β ε : Type} {x : Except ε α} {f : α → Except ε β} {y : β}
    (h : (x >>= f) = .ok y) : ∃ a, x = .ok a ∧ f a = .ok y := by
  cases x with
  | error e => cases h
  | ok a => exact ⟨a, rfl, h⟩

theorem generalRhs_bufs (t : Table K) (s : Nat) (l : List Nat) (acc e : Ex K)
    (h : generalRhs t s l acc = .ok e) :
    ∀ x ∈ e.bufs, x ∈ acc.bufs ∨ ∃ m ∈ l, x = .k m := by
  induction l generalizing acc with
  | nil => cases h; exact fun x hx => .inl hx
  | cons m l ih =>
    obtain ⟨a, -, h⟩ := Except_bind_ok h
    intro x hx
    rcases ih _ h x hx with hx | ⟨m', hm', rfl⟩
    · revert hx
      split
      · split <;>
        · intro hx
          simp only [Ex.bufs, List.mem_append, List.mem_singleton, List.not_mem_nil, or_false,
            false_or] at hx
          rcases hx with hx | rfl
          · exact .inl hx
          · exact .inr ⟨m, by simp, rfl⟩
      · exact fun hx => .inl hx
    · exact .inr ⟨m', by simp [hm'], rfl⟩

theorem generalStep_bufs (t : Table K) (n s : Nat) (st : Substep K) (hs : s < n)
    (h : generalStep t n s = .ok st) :
    ∀ x ∈ st.bufs, x = .yn ∨ x = .nextY ∨ ∃ m < n, x = .k m := by
  obtain ⟨e, he, h⟩ := Except_bind_ok h
  obtain ⟨c, -, h⟩ := Except_bind_ok h
  cases h
  have hr := generalRhs_bufs t s _ _ _ he
  intro x hx
  simp only [Substep.bufs, List.flatMap_cons, List.flatMap_nil, List.append_nil, List.mem_cons,
    List.mem_append, List.cons_append, List.mem_singleton, List.not_mem_nil, or_false] at hx
  have hif : ∀ p : Prop, [Decidable p] → ∀ y : Buf, y = (if p then Buf.yn else .nextY) →
      y = .yn ∨ y = .nextY ∨ ∃ m < n, y = .k m := by
    intro p _ y hy
    split at hy
    · exact .inl hy
    · exact .inr (.inl hy)
  rcases hx with hx | hx | hx | hx | hx
  · exact hif _ x hx
  · exact .inr (.inr ⟨s, hs, hx⟩)
  · exact hif _ x hx
  · rcases hr x hx with hx | ⟨m, hm, rfl⟩
    · simp only [Ex.bufs, List.mem_singleton] at hx; exact .inl hx
    · exact .inr (.inr ⟨m, by have := List.mem_range.1 hm; omega, rfl⟩)
  · exact hif _ x hx

theorem diagStep_bufs (t : Table K) (n s : Nat) (st : Substep K)
    (h : diagStep t n s = .ok st) :
    ∀ x ∈ st.bufs, x ∈ [Buf.yn, .runningTotal, .kOdd, .kEven] := by
  obtain ⟨b, -, h⟩ := Except_bind_ok h
  split at h
  · obtain ⟨a, -, h⟩ := Except_bind_ok h
    obtain ⟨c, -, h⟩ := Except_bind_ok h
    split at h
    · cases h
      intro x hx
      next h0 => simp [Substep.bufs, Ex.bufs, h0] at hx ⊢; tauto
    · cases h
      next h0 =>
      rcases Nat.mod_two_eq_zero_or_one s with hm | hm <;> intro x hx <;>
      · simp only [Substep.bufs, h0, hm, if_true, if_false, one_ne_zero, List.mem_cons,
          List.mem_append, List.mem_flatMap] at hx
        simp only [List.mem_cons, List.not_mem_nil, or_false]
        rcases hx with (hx | hx | ⟨p, hp, hx⟩) | hx
        · tauto
        · tauto
        · rcases hp with hp | hp <;>
          · split at hp
            · simp only [List.mem_singleton] at hp
              subst hp
              revert hx
              dsimp only
              split <;> simp [Ex.bufs] <;> tauto
            · cases hp
        · simp at hx; tauto
  · obtain ⟨c, -, h⟩ := Except_bind_ok h
    cases h
    by_cases h0 : s = 0
    · intro x hx
      simp only [Substep.bufs, h0, if_true, List.mem_cons, List.mem_append, List.mem_flatMap] at hx
      simp only [List.mem_cons, List.not_mem_nil, or_false]
      rcases hx with (hx | hx | ⟨p, hp, hx⟩) | hx
      · tauto
      · tauto
      · split at hp
        · simp only [List.mem_singleton] at hp
          subst hp
          revert hx
          dsimp only
          split <;> simp [Ex.bufs] <;> tauto
        · cases hp
      · simp at hx; tauto
    · rcases Nat.mod_two_eq_zero_or_one s with hm | hm <;> intro x hx <;>
      · simp only [Substep.bufs, h0, hm, if_true, if_false, one_ne_zero, List.mem_cons,
          List.mem_append, List.mem_flatMap] at hx
        simp only [List.mem_cons, List.not_mem_nil, or_false]
        rcases hx with (hx | hx | ⟨p, hp, hx⟩) | hx
        · tauto
        · tauto
        · split at hp
          · simp only [List.mem_singleton] at hp
            subst hp
            revert hx
            dsimp only
            split <;> simp [Ex.bufs] <;> tauto
          · cases hp
        · simp at hx; tauto

theorem mapM_mem {α β : Type} (f : α → Except Err β) (l : List α) (r : List β)
    (h : l.mapM f = .ok r) : ∀ y ∈ r, ∃ x ∈ l, f x = .ok y := by
  induction l generalizing r with
  | nil => cases h; simp
  | cons a l ih =>
    rw [List.mapM_cons] at h
    obtain ⟨b, hb, h⟩ := Except_bind_ok h
    obtain ⟨bs, hbs, h⟩ := Except_bind_ok h
    cases h
    intro y hy
    rcases List.mem_cons.1 hy with rfl | hy
    · exact ⟨a, by simp, hb⟩
    · obtain ⟨x, hx, hxy⟩ := ih bs hbs y hy
      exact ⟨x, by simp [hx], hxy⟩

/-- The C names of buffers are pairwise different. -/
theorem Buf.name_inj : Function.Injective Buf.name := by
  have key : ∀ (i : Nat) (ch : Char), ch.isDigit = false → ch ∉ (c% "k_gfs") →
      ch ∈ (Buf.k i).name → False := by
    intro i ch h1 h2 h3
    simp only [Buf.name, List.mem_append] at h3
    rcases h3 with (h3 | h3) | h3
    · exact h2 (by simp at h3 ⊢; tauto)
    · have := isDigit_of_mem_dec h3; rw [h1] at this; cases this
    · exact h2 (by simp at h3 ⊢; tauto)
  intro a b h
  cases a <;> cases b <;> first
    | rfl
    | (exfalso; revert h; decide)
    | skip
  case k.k i j =>
    simp only [Buf.name, List.append_assoc, List.cons_append, List.nil_append] at h
    have : dec (i + 1) ++ (c% "_gfs") = dec (j + 1) ++ (c% "_gfs") := by
      simpa using h
    have := dec_inj (List.append_cancel_right this)
    congr 1; omega
  all_goals exfalso
  case yn.k i => exact key i 'y' rfl (by decide) (h ▸ by decide)
  case runningTotal.k i => exact key i 'y' rfl (by decide) (h ▸ by decide)
  case kOdd.k i => exact key i 'o' rfl (by decide) (h ▸ by decide)
  case kEven.k i => exact key i 'e' rfl (by decide) (h ▸ by decide)
  case k1OrRunning.k i => exact key i 'o' rfl (by decide) (h ▸ by decide)
  case k2OrY.k i => exact key i 'o' rfl (by decide) (h ▸ by decide)
  case nextY.k i => exact key i 'n' rfl (by decide) (h ▸ by decide)
  case auxevol.k i => exact key i 'a' rfl (by decide) (h ▸ by decide)
  case k.yn i => exact key i 'y' rfl (by decide) (h ▸ by decide)
  case k.runningTotal i => exact key i 'y' rfl (by decide) (h ▸ by decide)
  case k.kOdd i => exact key i 'o' rfl (by decide) (h ▸ by decide)
  case k.kEven i => exact key i 'e' rfl (by decide) (h ▸ by decide)
  case k.k1OrRunning i => exact key i 'o' rfl (by decide) (h ▸ by decide)
  case k.k2OrY i => exact key i 'o' rfl (by decide) (h ▸ by decide)
  case k.nextY i => exact key i 'n' rfl (by decide) (h ▸ by decide)
  case k.auxevol i => exact key i 'a' rfl (by decide) (h ▸ by decide)

end

/-! ### The heap -/

/-- Blocks that `malloc`/`free` act on: all but the guarded one when there are no AUXEVOL
gridfunctions. -/
def kept (numAux : Nat) (l : List Buf) : List Buf :=
  l.filter fun b => !(decide (b = .auxevol) && numAux == 0)

theorem runMalloc_ok (na : Nat) (l : List Buf) (h : Heap) (hl : l.Nodup) (hd : l.Disjoint h) :
    runMalloc na (guarded l) h = some ((kept na l).reverse ++ h) := by
  induction l generalizing h with
  | nil => rfl
  | cons b l ih =>
    obtain ⟨hb, hl⟩ := List.nodup_cons.1 hl
    have hbh : b ∉ h := fun hh => hd (by simp) hh
    have hdl : l.Disjoint h := fun x hx => hd (by simp [hx])
    simp only [runMalloc, guarded, List.map_cons, List.foldlM_cons] at ih ⊢
    by_cases hg : (decide (b = .auxevol) && na == 0) = true
    · simp only [hg, if_true]
      rw [show kept na (b :: l) = kept na l by
        simp only [kept, List.filter_cons, hg, Bool.not_true]; rfl]
      exact ih h hl hdl
    · simp only [hg, hbh, if_false]
      rw [show kept na (b :: l) = b :: kept na l by simp only [kept, List.filter_cons]; simp [hg]]
      have := ih (b :: h) hl (by
        intro x hx hx'
        rcases List.mem_cons.1 hx' with rfl | hx'
        · exact hb hx
        · exact hdl hx hx')
      simpa using this

theorem runFree_ok (na : Nat) (l : List Buf) (h : Heap) (hl : l.Nodup) (hh : h.Nodup)
    (hs : ∀ x ∈ kept na l, x ∈ h) :
    runFree na (guarded l) h = some (h.filter fun x => !decide (x ∈ kept na l)) := by
  induction l generalizing h with
  | nil => simp [runFree, guarded, kept]
  | cons b l ih =>
    obtain ⟨hb, hl⟩ := List.nodup_cons.1 hl
    simp only [runFree, guarded, List.map_cons, List.foldlM_cons] at ih ⊢
    by_cases hg : (decide (b = .auxevol) && na == 0) = true
    · simp only [hg, if_true]
      have hk : kept na (b :: l) = kept na l := by
        simp only [kept, List.filter_cons, hg, Bool.not_true]; rfl
      rw [hk] at hs ⊢
      exact ih h hl hh hs
    · have hk : kept na (b :: l) = b :: kept na l := by
        simp only [kept, List.filter_cons]; simp [hg]
      rw [hk] at hs ⊢
      simp only [hg, hs b (by simp), if_true, if_false]
      have hbk : b ∉ kept na l := fun hx => hb (List.mem_of_mem_filter hx)
      have := ih (h.erase b) hl (hh.erase b) (fun x hx => by
        rw [hh.mem_erase_iff]
        exact ⟨fun e => hbk (e ▸ hx), hs x (by simp [hx])⟩)
      refine Eq.trans this ?_
      rw [hh.erase_eq_filter, List.filter_filter]
      congr 1
      apply List.filter_congr
      intro x _
      by_cases e : x = b <;> simp [e]

theorem kept_append (na : Nat) (l l' : List Buf) : kept na (l ++ l') = kept na l ++ kept na l' := by
  simp [kept]

/-! ### C37 -/

section
variable {K : Type} [Field K] [DecidableEq K]

/-- The three shapes of the buffer list. -/
theorem gfNames_cases (name : Str) (t : Table K) (nm : GfNames) (h : gfNames name t = .ok nm) :
    ∃ d, isDiagonal t = .ok d ∧
      ((d = true ∧ nameHasRK3 name = true ∧
          nm = ⟨[.k1OrRunning, .k2OrY, .auxevol], .k1OrRunning, some .k2OrY⟩) ∨
       (d = false ∧ nm = ⟨.nextY :: (List.range (t.length - 1)).map Buf.k ++ [.auxevol], .k 0,
          if Buf.k 1 ∈ Buf.nextY :: (List.range (t.length - 1)).map Buf.k then some (.k 1)
          else none⟩) ∨
       (d = true ∧ nameHasRK3 name = false ∧ name ≠ (c% "Euler") ∧
          nm = ⟨[.runningTotal, .kOdd, .kEven, .auxevol], .runningTotal, some .kOdd⟩) ∨
       (d = true ∧ nameHasRK3 name = false ∧ name = (c% "Euler") ∧
          nm = ⟨[.runningTotal, .auxevol], .runningTotal, some .kOdd⟩)) := by
  obtain ⟨d, hd, h⟩ := Except_bind_ok h
  refine ⟨d, hd, ?_⟩
  cases d
  · cases h
    exact .inr (.inl ⟨rfl, rfl⟩)
  · by_cases h3 : nameHasRK3 name = true
    · rw [if_pos (by simp [h3])] at h
      cases h
      exact .inl ⟨rfl, h3, rfl⟩
    · rw [if_neg (by simp [h3]), if_neg (by simp)] at h
      have h3' : nameHasRK3 name = false := by simpa using h3
      by_cases hE : name = (c% "Euler")
      · simp only [hE, ne_eq, not_true_eq_false, if_false] at h
        cases h
        exact .inr (.inr (.inr ⟨rfl, h3', hE, rfl⟩))
      · simp only [hE, ne_eq, not_false_eq_true, if_true] at h
        cases h
        exact .inr (.inr (.inl ⟨rfl, h3', hE, rfl⟩))

/-- **C37.**  For every table and every method name for which the generator succeeds:
* the fields `y_n_gfs` and the other buffers have pairwise different C names;
* every buffer that any substep of the generated time step reads, writes or passes to the user's
  code is one of the allocated ones, and is not the one whose allocation is conditional;
* `auxevol_gfs`, which the user's right-hand side may use, is among the allocated ones;
* `MoL_malloc_y_n_gfs` and `MoL_malloc_non_y_n_gfs`, in either order, allocate each of them exactly
  once, and `MoL_free_memory_*`, in either order, frees each of them exactly once and leaves nothing
  allocated – for every value of `NUM_AUXEVOL_GFS`. -/
theorem C37_buffers (name : Str) (t : Table K) (nm : GfNames) (prog : List (Substep K))
    (hn : gfNames name t = .ok nm) (hp : stepProgram name t = .ok prog) :
    ((Buf.yn :: nm.nonYn).map Buf.name).Nodup ∧
    (∀ st ∈ prog, ∀ b ∈ st.bufs, b ∈ Buf.yn :: nm.nonYn ∧ b ≠ .auxevol) ∧
    Buf.auxevol ∈ nm.nonYn ∧
    (∀ (na : Nat) (m1 m2 f1 f2 : List Buf), [m1, m2].Perm [[Buf.yn], nm.nonYn] →
      [f1, f2].Perm [[Buf.yn], nm.nonYn] →
      ∃ h, (runMalloc na (guarded m1) []).bind (runMalloc na (guarded m2)) = some h ∧
        (∀ b, b ∈ h ↔ b ∈ Buf.yn :: nm.nonYn ∧ (b = .auxevol → na ≠ 0)) ∧
        (runFree na (guarded f1) h).bind (runFree na (guarded f2)) = some []) := by
  have hnd : (Buf.yn :: nm.nonYn).Nodup := by
    obtain ⟨d, -, h⟩ := gfNames_cases name t nm hn
    rcases h with ⟨-, -, rfl⟩ | ⟨-, rfl⟩ | ⟨-, -, -, rfl⟩ | ⟨-, -, -, rfl⟩
    · decide
    · have : ((List.range (t.length - 1)).map Buf.k).Nodup :=
        List.nodup_range.map (fun a b h => by cases h; rfl)
      simp only [List.cons_append, List.nodup_cons, List.mem_cons, List.mem_append, List.mem_map,
        reduceCtorEq, List.not_mem_nil, and_false, exists_false, or_false, not_false_eq_true,
        true_and, List.nodup_append, this, List.nodup_nil, ne_eq]
      rintro a ⟨m, -, rfl⟩ b rfl
      exact Buf.noConfusion
    · decide
    · decide
  refine ⟨hnd.map Buf.name_inj, ?_, ?_, ?_⟩
  · obtain ⟨d, hd, h⟩ := gfNames_cases name t nm hn
    unfold stepProgram at hp
    rw [hn] at hp
    simp only [bind, Except.bind] at hp
    split at hp
    · cases hp
    · split at hp
      · cases hp
      · rw [hd] at hp
        simp only at hp
        rcases h with ⟨rfl, h3, rfl⟩ | ⟨rfl, rfl⟩ | ⟨rfl, h3, hE, rfl⟩ | ⟨rfl, h3, hE, rfl⟩
        · rw [if_pos (by simp [h3])] at hp
          unfold rk3Diag at hp
          repeat (obtain ⟨_, -, hp⟩ := Except_bind_ok hp)
          cases hp
          intro st hst b hb
          simp only [List.mem_cons, List.not_mem_nil, or_false] at hst
          rcases hst with rfl | rfl | rfl <;>
          · simp [Substep.bufs, Ex.bufs] at hb
            have : b = .yn ∨ b = .k1OrRunning ∨ b = .k2OrY := by tauto
            rcases this with rfl | rfl | rfl <;> simp
        · simp only [Bool.false_and, Bool.false_eq_true, if_false, Bool.not_false, if_true] at hp
          intro st hst b hb
          obtain ⟨s, hs, hst⟩ := mapM_mem _ _ _ hp st hst
          rcases generalStep_bufs t _ s st (List.mem_range.1 hs) hst b hb with
            rfl | rfl | ⟨m, hm, rfl⟩
          · simp
          · simp
          · simp [hm]
        · rw [if_neg (by simp [h3]), if_neg (by simp), if_neg hE] at hp
          intro st hst b hb
          obtain ⟨s, hs, hst⟩ := mapM_mem _ _ _ hp st hst
          have := diagStep_bufs t _ s st hst b hb
          simp only [List.mem_cons, List.not_mem_nil, or_false] at this ⊢
          rcases this with rfl | rfl | rfl | rfl <;> simp
        · rw [if_neg (by simp [h3]), if_neg (by simp), if_pos hE] at hp
          obtain ⟨e, he, hp⟩ := Except_bind_ok (x := eulerStep t)
            (f := fun e => (.ok [e] : Except Err (List (Substep K)))) hp
          cases hp
          obtain ⟨c, -, he⟩ := Except_bind_ok he
          cases he
          intro st hst b hb
          simp only [List.mem_singleton] at hst
          subst hst
          simp [Substep.bufs, Ex.bufs] at hb
          rcases hb with rfl | rfl | rfl | rfl | rfl | rfl <;> simp
  · obtain ⟨d, -, h⟩ := gfNames_cases name t nm hn
    rcases h with ⟨-, -, rfl⟩ | ⟨-, rfl⟩ | ⟨-, -, -, rfl⟩ | ⟨-, -, -, rfl⟩ <;> simp
  · intro na m1 m2 f1 f2 hm hf
    have hperm : ∀ l1 l2 : List Buf, [l1, l2].Perm [[Buf.yn], nm.nonYn] →
        (l1 ++ l2).Perm (Buf.yn :: nm.nonYn) := by
      intro l1 l2 h
      have := h.flatten
      simpa using this
    have hm' := hperm _ _ hm
    have hf' := hperm _ _ hf
    have nd1 := hm'.nodup_iff.2 hnd
    have nd2 := hf'.nodup_iff.2 hnd
    rw [List.nodup_append'] at nd1 nd2
    have hmem : ∀ l b, b ∈ kept na l ↔ b ∈ l ∧ (b = .auxevol → na ≠ 0) := by
      intro l b
      simp only [kept, List.mem_filter, Bool.not_eq_true', Bool.and_eq_false_imp, decide_eq_true_eq,
        beq_eq_false_iff_ne]
    have hh : ∀ b, b ∈ (kept na m2).reverse ++ ((kept na m1).reverse ++ []) ↔
        b ∈ Buf.yn :: nm.nonYn ∧ (b = .auxevol → na ≠ 0) := by
      intro b
      rw [← hm'.mem_iff]
      simp only [List.append_nil, List.mem_append, List.mem_reverse, hmem]
      tauto
    have hnd3 : ((kept na m2).reverse ++ ((kept na m1).reverse ++ [])).Nodup := by
      rw [List.append_nil, ← List.reverse_append, List.nodup_reverse, ← kept_append]
      exact (hm'.nodup_iff.2 hnd).filter _
    refine ⟨_, by
      rw [runMalloc_ok na m1 [] nd1.1 (by simp), Option.bind_some, runMalloc_ok na m2 _ nd1.2.1]
      intro x hx hx'
      simp only [List.append_nil, List.mem_reverse, hmem] at hx'
      exact nd1.2.2 hx'.1 hx, hh, ?_⟩
    rw [runFree_ok na f1 _ nd2.1 hnd3 (fun x hx => by
      rw [hh, ← hf'.mem_iff]
      have := (hmem _ _).1 hx
      exact ⟨by simp [this.1], this.2⟩), Option.bind_some,
      runFree_ok na f2 _ nd2.2.1 (hnd3.filter _) (fun x hx => by
        have := (hmem _ _).1 hx
        rw [List.mem_filter, hh, ← hf'.mem_iff]
        refine ⟨⟨by simp [this.1], this.2⟩, ?_⟩
        simp only [Bool.not_eq_true', decide_eq_false_iff_not, hmem]
        exact fun hx => nd2.2.2 hx.1 this.1)]
    congr 1
    rw [List.filter_filter, List.filter_eq_nil_iff]
    intro x hx
    rw [hh, ← hf'.mem_iff, List.mem_append] at hx
    simp only [Bool.and_eq_true, Bool.not_eq_true', decide_eq_false_iff_not, hmem]
    tauto

/-- **C37, diagnostics pointers.**  `diagnostic_output_gfs` always points to an allocated buffer
when the table has a stage row; so does `diagnostic_output_gfs2`, provided the table is not a
diagonal one used under the name `Euler`. -/
theorem C37_diagnostics_partial (name : Str) (t : Table K) (nm : GfNames)
    (hn : gfNames name t = .ok nm) (ht : 2 ≤ t.length) :
    nm.diag1 ∈ nm.nonYn ∧ nm.diag1 ≠ .auxevol ∧
    (3 ≤ t.length → ¬ (isDiagonal t = .ok true ∧ name = (c% "Euler") ) →
      ∃ b ∈ nm.nonYn, nm.diag2 = some b ∧ b ≠ .auxevol) := by
  obtain ⟨d, hd, h⟩ := gfNames_cases name t nm hn
  rcases h with ⟨rfl, h3, rfl⟩ | ⟨rfl, rfl⟩ | ⟨rfl, h3, hE, rfl⟩ | ⟨rfl, h3, hE, rfl⟩
  · simp
  · have hk : ∀ m < t.length - 1, Buf.k m ∈ Buf.nextY :: (List.range (t.length - 1)).map Buf.k := by
      intro m hm; simp [hm]
    refine ⟨by simp; omega, Buf.noConfusion, fun h3 _ => ⟨.k 1, by simp; omega, ?_, Buf.noConfusion⟩⟩
    simp only [if_pos (hk 1 (by omega))]
  · simp
  · simp [hd, hE]

end

/-- **C37 is violated by the forward Euler method.**  `MoL_malloc_non_y_n_gfs` sets
`diagnostic_output_gfs2` to `k_odd_gfs`, which is neither allocated nor a member of the structure. -/
theorem C37_euler_diagnostic : ∃ nm, gfNames (c% "Euler") oneStage = .ok nm ∧
    nm.diag2 = some .kOdd ∧ Buf.kOdd ∉ Buf.yn :: nm.nonYn :=
  ⟨_, rfl, rfl, by decide⟩

/-- The hypotheses of `C37_buffers` are met, e.g. by a two-stage method. -/
example : ∃ nm prog, gfNames (c% "RK2 Heun") ([⟨.num 0, []⟩, ⟨.num 1, [1]⟩,
    ⟨.str "", [1/2, 1/2]⟩] : Table ℚ) = .ok nm ∧
    stepProgram (c% "RK2 Heun") ([⟨.num 0, []⟩, ⟨.num 1, [1]⟩,
    ⟨.str "", [1/2, 1/2]⟩] : Table ℚ) = .ok prog ∧ prog.length = 2 :=
  ⟨_, _, rfl, rfl, rfl⟩

end Verif.MoL
