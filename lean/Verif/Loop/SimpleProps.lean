import Verif.Loop.Simple
import Verif.Loop.Props
import Mathlib.Tactic.IntervalCases
import Mathlib.Data.Fin.VecNotation

/-!
# C56: grid loops visit every grid point exactly once
-/
namespace Verif.Loop
open Verif.Py

/-! ## Specification -/

/-- `lo, lo+1, ..., lo+n-1`. -/
def axis (lo : Int) (n : Nat) : List Int := (List.range n).map fun k : Nat => lo + (k : Int)

/-- The points `(i2, i1, i0)` of a box, `i0` fastest. -/
def box (l2 : Int) (n2 : Nat) (l1 : Int) (n1 : Nat) (l0 : Int) (n0 : Nat) : List (Int × Int × Int) :=
  (axis l2 n2).flatMap fun i2 => (axis l1 n1).flatMap fun i1 => (axis l0 n0).map fun i0 => (i2, i1, i0)

/-- A grid: interior sizes, number of ghost zones. -/
structure Sizes where
  n0 : Nat
  n1 : Nat
  n2 : Nat
  G : Nat

/-- The loop regions. -/
inductive Region
  | all
  | interior
  | plusOne

def Region.name : Region → Str
  | .all => (c% "all points")
  | .interior => (c% "interior")
  | .plusOne => (c% "interior plus one upper")

/-- First index of the region, in every direction. -/
def Region.lo (S : Sizes) : Region → Int
  | .all => 0
  | .interior => S.G
  | .plusOne => S.G

/-- Number of points of the region in a direction with `n` interior points. -/
def Region.size (S : Sizes) (n : Nat) : Region → Nat
  | .all => n + 2 * S.G
  | .interior => n
  | .plusOne => n + 1

/-- Meaning of the C expressions in the loop bounds. -/
structure GridSem (ev : Eval) (S : Sizes) (w : Nat) : Prop where
  zero : ∀ τ, ev (c% "0") τ = 0
  one : ∀ τ, ev (c% "1") τ = 1
  width : ∀ τ, ev (c% "simd_width") τ = w
  all2 : ∀ τ, ev (c% "Nxx_plus_2NGHOSTS2") τ = S.n2 + 2 * S.G
  all1 : ∀ τ, ev (c% "Nxx_plus_2NGHOSTS1") τ = S.n1 + 2 * S.G
  all0 : ∀ τ, ev (c% "Nxx_plus_2NGHOSTS0") τ = S.n0 + 2 * S.G
  ng : ∀ τ, ev (c% "NGHOSTS") τ = S.G
  int2 : ∀ τ, ev (c% "NGHOSTS+Nxx2") τ = S.G + S.n2
  int1 : ∀ τ, ev (c% "NGHOSTS+Nxx1") τ = S.G + S.n1
  int0 : ∀ τ, ev (c% "NGHOSTS+Nxx0") τ = S.G + S.n0
  plus2 : ∀ τ, ev (c% "NGHOSTS+Nxx2+1") τ = S.G + S.n2 + 1
  plus1 : ∀ τ, ev (c% "NGHOSTS+Nxx1+1") τ = S.G + S.n1 + 1
  plus0 : ∀ τ, ev (c% "NGHOSTS+Nxx0+1") τ = S.G + S.n0 + 1

/-- The points handled by one execution of the body that works on `w` consecutive values of `i0`. -/
def lanes (w : Nat) (τ : Env) : List (Int × Int × Int) :=
  (axis (τ (c% "i0")) w).map fun i0 => (τ (c% "i2"), τ (c% "i1"), i0)

/-- `n` rounded up to a multiple of `w`. -/
def roundUp (n w : Nat) : Nat := (n + (w - 1)) / w * w

/-- The text of a nest of loops around a body. -/
def nestText (fs : List For) (body : Str) : Str :=
  (fs.map header).flatten ++ bodyText body ++ (fs.map footer).reverse.flatten

/-- The combinations of options that are accepted. -/
def SimpleArgs.Accepted (a : SimpleArgs) : Prop :=
  ¬ (a.readXxs = true ∧ a.simd = true) ∧ ¬ (a.readXxs = true ∧ a.rfmp.isSome = true)

/-! ## Ranges -/

theorem rng_axis : ∀ (n : Nat) (x : Int), rng x (x + n) 1 = axis x n
  | 0, x => by rw [rng_stop (by omega)]; rfl
  | n + 1, x => by
    rw [rng_step (by omega) (by omega)]
    have := rng_axis n (x + 1)
    rw [show x + ((n + 1 : Nat) : Int) = x + 1 + n by omega, this]
    unfold axis
    rw [List.range_succ_eq_map, List.map_cons, List.map_map]
    congr 1
    · simp
    · apply List.map_congr_left
      intro k _
      simp only [Function.comp_apply, Nat.succ_eq_add_one, Int.natCast_add]
      omega

theorem mem_axis {x y : Int} {n : Nat} : y ∈ axis x n ↔ x ≤ y ∧ y < x + n := by
  rw [← rng_axis, mem_rng (by omega)]
  simp

theorem axis_sorted (x : Int) (n : Nat) : (axis x n).Pairwise (· < ·) := by
  rw [← rng_axis]
  exact rng_sorted (by omega) _

theorem axis_append (x : Int) (m n : Nat) : axis x (m + n) = axis x m ++ axis (x + m) n := by
  unfold axis
  rw [List.range_add, List.map_append, List.map_map]
  congr 1
  apply List.map_congr_left
  intro k _
  simp only [Function.comp_apply, Int.natCast_add]
  omega

/-- A strided range with `w` lanes per step covers the range rounded up to a multiple of `w`. -/
theorem rng_lanes (w : Nat) (hw : 0 < w) : ∀ (q n : Nat), (n + (w - 1)) / w = q → ∀ x : Int,
    (rng x (x + n) w).flatMap (fun t => axis t w) = axis x (q * w)
  | 0, n, h, x => by
    have hn : n = 0 := by
      rcases Nat.div_eq_zero_iff.1 h with h | h <;> omega
    subst hn
    rw [rng_stop (by omega)]
    simp [axis]
  | q + 1, n, h, x => by
    have h1 : (q + 1) * w ≤ n + (w - 1) := (Nat.le_div_iff_mul_le hw).1 h.ge
    have hn : 0 < n := by
      rcases Nat.eq_zero_or_pos n with rfl | h'
      · exfalso
        have : 1 * w ≤ (q + 1) * w := Nat.mul_le_mul_right _ (by omega)
        omega
      · exact h'
    rw [rng_step (by omega) (by omega), List.flatMap_cons]
    rcases Nat.lt_or_ge n w with hlt | hge
    · have hq : q = 0 := by
        rcases Nat.eq_zero_or_pos q with h' | h'
        · exact h'
        · exfalso
          have : 2 * w ≤ (q + 1) * w := Nat.mul_le_mul_right _ (by omega)
          omega
      subst hq
      rw [rng_stop (by omega)]
      simp
    · obtain ⟨m, rfl⟩ := Nat.exists_eq_add_of_le' hge
      have hq : (m + (w - 1)) / w = q := by
        rw [show m + w + (w - 1) = m + (w - 1) + w by omega, Nat.add_div_right _ hw] at h
        omega
      have := rng_lanes w hw q m hq (x + w)
      rw [show x + ((m + w : Nat) : Int) = x + w + m by omega, this,
        show (q + 1) * w = w + q * w by rw [Nat.succ_mul]; omega, axis_append]

/-- Offsets of a box that fills the array are all the offsets, in order. -/
theorem axis_pairs (a b : Nat) :
    ((axis 0 a).flatMap fun i => (axis 0 b).map fun j => j + (b : Int) * i) = axis 0 (a * b) := by
  induction a with
  | zero => simp [axis]
  | succ a ih =>
    rw [axis_append, List.flatMap_append, ih, Nat.succ_mul, axis_append]
    congr 1
    unfold axis
    simp only [List.range_one, List.map_cons, List.map_nil, List.flatMap_cons, List.flatMap_nil,
      List.append_nil, List.map_map]
    apply List.map_congr_left
    intro k _
    simp only [Function.comp_apply, Int.natCast_mul]
    push_cast
    ring

theorem box_offsets (n0 n1 n2 : Nat) :
    (box 0 n2 0 n1 0 n0).map (fun p => idx3 n0 n1 p.2.2 p.2.1 p.1) = axis 0 (n2 * n1 * n0) := by
  rw [← axis_pairs (n2 * n1) n0, ← axis_pairs n2 n1]
  unfold box idx3
  simp only [List.map_flatMap, List.map_map, List.flatMap_assoc, List.flatMap_map]
  rfl

/-! ## Nests of three loops -/

/-- The nest over `i2`, `i1`, `i0`: texts of bounds, increments and prefixes, and values. -/
def dims3 (lo hi inc pre : Fin 3 → Str) (L : Fin 3 → Int) (n : Fin 3 → Nat) (W : Nat) : List Dim :=
  [⟨(c% "i2"), lo 0, hi 0, inc 0, pre 0, [], L 0, L 0 + n 0, 1, 0⟩,
   ⟨(c% "i1"), lo 1, hi 1, inc 1, pre 1, [], L 1, L 1 + n 1, 1, 0⟩,
   ⟨(c% "i0"), lo 2, hi 2, inc 2, pre 2, [], L 2, L 2 + n 2, W, 0⟩]

def list3 (f : Fin 3 → Str) : List Str := [f 0, f 1, f 2]

theorem list3_of (x y z : Str) : [x, y, z] = list3 ![x, y, z] := rfl

theorem loop3 {lo hi inc pre : Fin 3 → Str} {L : Fin 3 → Int} {n : Fin 3 → Nat} {W : Nat} {body : Str}
    {ev : Eval} {σ : Env} (hW : 0 < W) (hlo : ∀ k τ, ev (lo k) τ = L k) (hhi : ∀ k τ, ev (hi k) τ = L k + n k)
    (hi2 : ∀ τ, ev (inc 0) τ = 1) (hi1 : ∀ τ, ev (inc 1) τ = 1) (hi0 : ∀ τ, ev (inc 2) τ = W) :
    ∃ (fs : List For) (tr : List Env),
      fs = (dims3 lo hi inc pre L n W).map mkPlain ∧
      loopText [(c% "i2"), (c% "i1"), (c% "i0")] (list3 lo) (list3 hi) (list3 inc) (list3 pre) [] body =
        .ok (nestText fs body) ∧
      Run ev fs none σ tr ∧ (∀ tr', Run ev fs none σ tr' → tr' = tr) ∧
      tr.flatMap (lanes W) = box (L 0) (n 0) (L 1) (n 1) (L 2) (roundUp (n 2) W) := by
  obtain ⟨hok, hgrid⟩ := untiled_grid ev σ (dims3 lo hi inc pre L n W)
    (by simp only [dims3, List.map_cons, List.map_nil]; decide) (by
      intro d hd
      simp only [dims3, List.mem_cons, List.not_mem_nil, or_false] at hd
      rcases hd with rfl | rfl | rfl
      · exact ⟨fun τ _ => hlo 0 τ, fun τ _ => hhi 0 τ, fun τ _ => hi2 τ, Int.one_pos⟩
      · exact ⟨fun τ _ => hlo 1 τ, fun τ _ => hhi 1 τ, fun τ _ => hi1 τ, Int.one_pos⟩
      · exact ⟨fun τ _ => hlo 2 τ, fun τ _ => hhi 2 τ, fun τ _ => hi0 τ, Int.natCast_pos.2 hW⟩)
  have ht := loopText_plain (dims3 lo hi inc pre L n W) body
  refine ⟨_, _, rfl, ?_, (run_iff _ _ hok _).2 rfl, fun tr' h => (run_iff _ _ hok _).1 h, ?_⟩
  · simp only [dims3, List.map_cons, List.map_nil, list3] at ht ⊢
    rw [ht]
    simp [nestText, mkPlain]
  generalize trace ev _ σ = tr at hgrid
  -- lanes of a point
  let ptl : List Int → List (Int × Int × Int) := fun p =>
    (axis (p.getD 2 0) W).map fun i0 => (p.getD 0 0, p.getD 1 0, i0)
  have e1 : tr.flatMap (lanes W) = (tr.map (point (dims3 lo hi inc pre L n W))).flatMap ptl := by
    rw [List.flatMap_map]
    rfl
  rw [e1, hgrid]
  simp only [dims3, List.map_cons, List.map_nil, grid, List.flatMap_assoc, List.flatMap_map,
    rng_axis, List.map_flatMap, List.map_map, box, ptl]
  simp only [List.flatMap_cons, List.flatMap_nil, List.append_nil, List.getD_cons_zero,
    List.getD_cons_succ]
  congr 1
  funext i2
  congr 1
  funext i1
  rw [← List.map_flatMap, rng_lanes W hW _ _ rfl]
  rfl

/-! ## The nest of `simple_loop` -/

theorem reads_ok {a : SimpleArgs} (h : a.Accepted) : ∃ r, reads a = .ok r := by
  unfold reads
  obtain ⟨h1, h2⟩ := h
  rcases hx : a.readXxs with _ | _ <;> rcases hr : a.rfmp with _ | s
  · exact ⟨_, rfl⟩
  · exact ⟨_, rfl⟩
  · rcases hs : a.simd with _ | _
    · exact ⟨_, rfl⟩
    · exact absurd ⟨hx, hs⟩ h1
  · exact absurd ⟨hx, by simp [hr]⟩ h2

theorem increments3 (simd : Bool) :
    increments simd = list3 ![(c% "1"), (c% "1"), if simd then (c% "simd_width") else (c% "1")] := by
  cases simd <;> rfl

theorem placeReads3 (pragma : Str) (r : Str × Str × Str) (c : Int) :
    ∃ f, (placeReads pragma r c).1 = list3 f := by
  unfold placeReads
  split
  · exact ⟨![_, _, _], rfl⟩
  · split <;> exact ⟨![_, _, _], rfl⟩

/-- Interior size of a direction (in the order of the nest). -/
def Sizes.n (S : Sizes) : Fin 3 → Nat := ![S.n2, S.n1, S.n0]

theorem bounds3 {ev : Eval} {S : Sizes} {w : Nat} (hs : GridSem ev S w) (R : Region) :
    ∃ lo hi : Fin 3 → Str, bounds R.name = .ok (list3 lo, list3 hi) ∧
      (∀ k τ, ev (lo k) τ = R.lo S) ∧ ∀ k τ, ev (hi k) τ = R.lo S + R.size S (S.n k) := by
  cases R
  · refine ⟨![_, _, _], ![_, _, _], rfl, ?_, ?_⟩ <;>
      simp [Fin.forall_fin_succ, hs.zero, hs.all0, hs.all1, hs.all2, Region.lo, Region.size, Sizes.n]
  · refine ⟨![_, _, _], ![_, _, _], rfl, ?_, ?_⟩ <;>
      simp [Fin.forall_fin_succ, hs.ng, hs.int0, hs.int1, hs.int2, Region.lo, Region.size, Sizes.n]
  · refine ⟨![_, _, _], ![_, _, _], rfl, ?_, ?_⟩ <;>
      simp [Fin.forall_fin_succ, hs.ng, hs.plus0, hs.plus1, hs.plus2, Region.lo, Region.size, Sizes.n,
        add_assoc]

/-- Points per execution of the body. -/
def SimpleArgs.width (a : SimpleArgs) (w : Nat) : Nat := if a.simd then w else 1

theorem inc_width {ev : Eval} {S : Sizes} {w : Nat} (hs : GridSem ev S w) (a : SimpleArgs) (τ : Env) :
    ev (if a.simd then (c% "simd_width") else (c% "1")) τ = a.width w := by
  unfold SimpleArgs.width
  cases a.simd
  · exact hs.one τ
  · exact hs.width τ

theorem width_pos {a : SimpleArgs} {w : Nat} (hw : 0 < w) : 0 < a.width w := by
  unfold SimpleArgs.width
  split <;> omega

theorem region_ne (R : Region) : R.name ≠ [] := by cases R <;> simp [Region.name]

/-- **C56** (points): for every region and every accepted combination of options, `simple_loop` returns a
nest of loops around the body; it has exactly one execution, and the points handled by the executions of the
body are those of the region, in row-major order, each once.  With SIMD (`w` points per execution) the number
of points per row is rounded up to a multiple of the width. -/
theorem C56_points (ev : Eval) (S : Sizes) (w : Nat) (hs : GridSem ev S w) (hw : 0 < w) (σ : Env)
    (R : Region) (a : SimpleArgs) (hR : a.region = R.name) (ha : a.Accepted) :
    ∃ (fs : List For) (pre : Str) (tr : List Env),
      simpleLoop a = .ok (nestText fs (pre ++ a.body)) ∧
      Run ev fs none σ tr ∧ (∀ tr', Run ev fs none σ tr' → tr' = tr) ∧
      tr.flatMap (lanes (a.width w)) =
        box (R.lo S) (R.size S S.n2) (R.lo S) (R.size S S.n1)
          (R.lo S) (roundUp (R.size S S.n0) (a.width w)) := by
  obtain ⟨r, hr⟩ := reads_ok ha
  obtain ⟨lo, hi, hb, hlo, hhi⟩ := bounds3 hs R
  obtain ⟨pre, hp⟩ := placeReads3 (pragmaOf a.openMP a.customPragma a.collapse) r a.collapse
  obtain ⟨fs, tr, -, h1, h2, h3, h4⟩ := loop3 (lo := lo) (hi := hi) (pre := pre) (ev := ev) (σ := σ)
    (inc := ![(c% "1"), (c% "1"), if a.simd then (c% "simd_width") else (c% "1")])
    (body := (placeReads (pragmaOf a.openMP a.customPragma a.collapse) r a.collapse).2 ++ a.body)
    (L := fun _ => R.lo S) (n := fun k => R.size S (S.n k)) (width_pos (a := a) hw)
    hlo hhi hs.one hs.one (inc_width hs a)
  refine ⟨fs, (placeReads (pragmaOf a.openMP a.customPragma a.collapse) r a.collapse).2, tr, ?_, h2, h3, h4⟩
  rw [← h1]
  unfold simpleLoop
  rw [hR, hb, hr]
  simp only [region_ne, if_false, bind, Except.bind, pure, Except.pure, hp, increments3]

/-! ## Placement of reads and pragmas -/

/-- The text between the opening of loop `k` (0 = outermost) and the user's body. -/
def insideLoop (fs : List For) (pre : Str) (k : Nat) : Str := ((fs.drop (k + 1)).map header).flatten ++ pre

/-- **C56** (scope): the three loops run over `i2`, `i1`, `i0`; the text that reads the coordinate (or the
precomputed reference metric) of a direction stands inside the loop over that direction's index and before
the body; and no statement separates loops that OpenMP is told to collapse. -/
theorem C56_scope (a : SimpleArgs) (R : Region) (hR : a.region = R.name) (r : Str × Str × Str)
    (hr : reads a = .ok r) :
    ∃ (fs : List For) (pre : Str), simpleLoop a = .ok (nestText fs (pre ++ a.body)) ∧
      fs.map For.var = [(c% "i2"), (c% "i1"), (c% "i0")] ∧
      r.2.2 <:+: insideLoop fs pre 0 ∧ r.2.1 <:+: insideLoop fs pre 1 ∧ r.1 <:+: insideLoop fs pre 2 ∧
      (fs.head?.map For.pragma = some (pragmaOf a.openMP a.customPragma a.collapse)) ∧
      (a.collapse ≤ 3 → ∀ k : Nat, 1 ≤ k → (k : Int) < a.collapse → fs[k]?.map For.pragma = some []) := by
  obtain ⟨lo, hi, hb⟩ : ∃ lo hi : Fin 3 → Str, bounds R.name = .ok (list3 lo, list3 hi) := by
    cases R <;> exact ⟨![_, _, _], ![_, _, _], rfl⟩
  have main : ∀ (pr : Fin 3 → Str) (pre : Str),
      placeReads (pragmaOf a.openMP a.customPragma a.collapse) r a.collapse = (list3 pr, pre) →
      simpleLoop a = .ok (nestText ((dims3 lo hi
        ![(c% "1"), (c% "1"), if a.simd then (c% "simd_width") else (c% "1")] pr
        (fun _ => 0) (fun _ => 0) 0).map mkPlain) (pre ++ a.body)) := by
    intro pr pre hp
    unfold simpleLoop
    rw [hR, hb, hr]
    simp only [region_ne, if_false, bind, Except.bind, pure, Except.pure, hp, increments3]
    have ht := loopText_plain (dims3 lo hi ![(c% "1"), (c% "1"), if a.simd then (c% "simd_width") else (c% "1")] pr
        (fun _ => 0) (fun _ => 0) 0) (pre ++ a.body)
    simp only [dims3, List.map_cons, List.map_nil, list3] at ht ⊢
    rw [ht]
    simp [nestText, mkPlain]
  have hinf : ∀ (x : For) (pg : Str), pg <:+: header ⟨x.var, x.lo, x.hi, x.inc, pg⟩ := by
    intro x pg
    unfold header
    simp only
    split
    · exact ⟨[], (c% "\n") ++ (forLine ⟨x.var, x.lo, x.hi, x.inc, pg⟩ ++ (c% " {\n")), by
        simp only [List.nil_append, List.append_assoc]⟩
    · have : pg = [] := by simpa using ‹¬ pg ≠ []›
      rw [this]
      exact List.nil_infix
  have hmk : ∀ d : Dim, d.pragma <:+: header (mkPlain d) := fun d => hinf (mkPlain d) d.pragma
  by_cases h2 : a.collapse = 2
  · refine ⟨_, _, main ![pragmaOf a.openMP a.customPragma a.collapse, [], r.2.2 ++ r.2.1] r.1
      (by simp [placeReads, h2, list3]), rfl, ?_, ?_, ?_, rfl, ?_⟩
    · simp only [insideLoop, dims3, List.map_cons, List.map_nil, List.drop_succ_cons, List.drop_zero,
        List.flatten_cons, List.flatten_nil, List.append_nil]
      refine List.IsInfix.trans ?_ (List.prefix_append _ _).isInfix
      refine List.IsInfix.trans ?_ (List.suffix_append _ _).isInfix
      exact (List.prefix_append r.2.2 r.2.1).isInfix.trans (hmk ⟨_, _, _, _, r.2.2 ++ r.2.1, _, _, _, _, _⟩)
    · simp only [insideLoop, dims3, List.map_cons, List.map_nil, List.drop_succ_cons, List.drop_zero,
        List.flatten_cons, List.flatten_nil, List.append_nil]
      refine List.IsInfix.trans ?_ (List.prefix_append _ _).isInfix
      exact (List.suffix_append r.2.2 r.2.1).isInfix.trans (hmk ⟨_, _, _, _, r.2.2 ++ r.2.1, _, _, _, _, _⟩)
    · simp [insideLoop, dims3]
    · intro _ k hk1 hk2
      have : k = 1 := by omega
      subst this
      rfl
  · by_cases h3 : a.collapse = 3
    · refine ⟨_, _, main ![pragmaOf a.openMP a.customPragma a.collapse, [], []] (r.2.2 ++ r.2.1 ++ r.1)
        (by simp [placeReads, h3, list3]), rfl, ?_, ?_, ?_, rfl, ?_⟩
      · refine List.IsInfix.trans ?_ (List.suffix_append _ _).isInfix
        rw [List.append_assoc]
        exact (List.prefix_append _ _).isInfix
      · refine List.IsInfix.trans ?_ (List.suffix_append _ _).isInfix
        exact ⟨r.2.2, r.1, rfl⟩
      · refine List.IsInfix.trans ?_ (List.suffix_append _ _).isInfix
        exact (List.suffix_append _ _).isInfix
      · intro _ k hk1 hk2
        have : k = 1 ∨ k = 2 := by omega
        rcases this with rfl | rfl <;> rfl
    · refine ⟨_, _, main ![pragmaOf a.openMP a.customPragma a.collapse, r.2.2, r.2.1] r.1
        (by simp [placeReads, h2, h3, list3]), rfl, ?_, ?_, ?_, rfl, ?_⟩
      · simp only [insideLoop, dims3, List.map_cons, List.map_nil, List.drop_succ_cons, List.drop_zero,
          List.flatten_cons, List.flatten_nil, List.append_nil]
        refine List.IsInfix.trans ?_ (List.prefix_append _ _).isInfix
        refine List.IsInfix.trans ?_ (List.prefix_append _ _).isInfix
        exact hmk ⟨_, _, _, _, r.2.2, _, _, _, _, _⟩
      · simp only [insideLoop, dims3, List.map_cons, List.map_nil, List.drop_succ_cons, List.drop_zero,
          List.flatten_cons, List.flatten_nil, List.append_nil]
        refine List.IsInfix.trans ?_ (List.prefix_append _ _).isInfix
        exact hmk ⟨_, _, _, _, r.2.1, _, _, _, _, _⟩
      · simp [insideLoop, dims3]
      · intro _ k hk1 hk2
        omega

/-- What the three reads are when coordinates are requested: `xx[k]` is read at the index of direction `k`. -/
theorem C56_reads (a : SimpleArgs) (hx : a.readXxs = true) (hs : a.simd = false) (hp : a.rfmp = none) :
    reads a = .ok ((c% "MAYBE_UNUSED const REAL xx0 = xx[0][i0];"), (c% "MAYBE_UNUSED const REAL xx1 = xx[1][i1];"),
      (c% "MAYBE_UNUSED const REAL xx2 = xx[2][i2];")) := by
  unfold reads
  rw [hx, hs, hp]
  rfl

/-- **C56** (errors): `simple_loop` succeeds exactly on the empty region, or a known region with an accepted
combination of options; every failure is a ValueError. -/
theorem C56_errors (a : SimpleArgs) :
    ((∃ t, simpleLoop a = .ok t) ↔ a.region = [] ∨ (∃ R : Region, a.region = R.name) ∧ a.Accepted) ∧
    ∀ e, simpleLoop a = .error e → e = .valueError := by
  by_cases h0 : a.region = []
  · have : simpleLoop a = .ok a.body := by unfold simpleLoop; rw [if_pos h0]; rfl
    exact ⟨⟨fun _ => .inl h0, fun _ => ⟨_, this⟩⟩, fun e he => by rw [this] at he; cases he⟩
  by_cases hR : ∃ R : Region, a.region = R.name
  · obtain ⟨R, hR⟩ := hR
    by_cases ha : a.Accepted
    · obtain ⟨r, hr⟩ := reads_ok ha
      obtain ⟨fs, pre, h, -⟩ := C56_scope a R hR r hr
      exact ⟨⟨fun _ => .inr ⟨⟨R, hR⟩, ha⟩, fun _ => ⟨_, h⟩⟩, fun e he => by rw [h] at he; cases he⟩
    · have hr : reads a = .error .valueError := by
        unfold SimpleArgs.Accepted at ha
        unfold reads
        rcases hx : a.readXxs with _ | _
        · simp [hx] at ha
        · rcases hs : a.simd with _ | _
          · rcases hp : a.rfmp with _ | s
            · simp [hx, hs, hp] at ha
            · rfl
          · rfl
      have : simpleLoop a = .error .valueError := by
        obtain ⟨mm, hb⟩ : ∃ mm, bounds R.name = .ok mm := by cases R <;> exact ⟨_, rfl⟩
        unfold simpleLoop
        rw [hR, hb, hr]
        simp only [region_ne, if_false, bind, Except.bind, pure, Except.pure]
      refine ⟨⟨fun ⟨t, ht⟩ => (by rw [this] at ht; cases ht), fun h => ?_⟩, fun e he => by
        rw [this] at he; cases he; rfl⟩
      rcases h with h | ⟨-, h⟩
      · exact absurd h h0
      · exact absurd h ha
  · have hb : bounds a.region = .error .valueError := by
      have h1 : ¬ a.region = (c% "all points") := fun h => hR ⟨.all, h⟩
      have h2 : ¬ a.region = (c% "interior") := fun h => hR ⟨.interior, h⟩
      have h3 : ¬ a.region = (c% "interior plus one upper") := fun h => hR ⟨.plusOne, h⟩
      unfold bounds
      rw [if_neg h1, if_neg h2, if_neg h3]
    have : simpleLoop a = .error .valueError := by
      unfold simpleLoop
      rw [hb]
      simp only [h0, if_false, bind, Except.bind, pure, Except.pure]
    refine ⟨⟨fun ⟨t, ht⟩ => (by rw [this] at ht; cases ht), fun h => ?_⟩, fun e he => by
      rw [this] at he; cases he; rfl⟩
    rcases h with h | ⟨h, -⟩
    · exact absurd h h0
    · exact absurd h hR

/-! ## Without SIMD -/

theorem roundUp_one (n : Nat) : roundUp n 1 = n := by simp [roundUp]

theorem le_roundUp {n w : Nat} (hw : 0 < w) : n ≤ roundUp n w := by
  have := Nat.div_add_mod (n + (w - 1)) w
  have := Nat.mod_lt (n + (w - 1)) hw
  unfold roundUp
  rw [Nat.mul_comm]
  omega

theorem roundUp_lt {n w : Nat} (hw : 0 < w) : roundUp n w < n + w := by
  have := Nat.div_mul_le_self (n + (w - 1)) w
  unfold roundUp
  omega

theorem roundUp_eq_iff {n w : Nat} (hw : 0 < w) : roundUp n w = n ↔ w ∣ n := by
  constructor
  · intro h
    rw [← h]
    exact ⟨_, Nat.mul_comm _ _⟩
  · rintro ⟨q, rfl⟩
    unfold roundUp
    rw [Nat.mul_comm w q, Nat.mul_comm q w, Nat.mul_add_div hw, Nat.div_eq_of_lt (by omega), Nat.add_zero,
      Nat.mul_comm]

theorem mem_box {l2 l1 l0 : Int} {n2 n1 n0 : Nat} {p : Int × Int × Int} :
    p ∈ box l2 n2 l1 n1 l0 n0 ↔
      (l2 ≤ p.1 ∧ p.1 < l2 + n2) ∧ (l1 ≤ p.2.1 ∧ p.2.1 < l1 + n1) ∧ l0 ≤ p.2.2 ∧ p.2.2 < l0 + n0 := by
  obtain ⟨i2, i1, i0⟩ := p
  simp only [box, List.mem_flatMap, List.mem_map, mem_axis, Prod.mk.injEq]
  constructor
  · rintro ⟨_, h2, _, h1, _, h0, rfl, rfl, rfl⟩
    exact ⟨h2, h1, h0⟩
  · rintro ⟨h2, h1, h0⟩
    exact ⟨_, h2, _, h1, _, h0, rfl, rfl, rfl⟩

/-- Order of the loop. -/
def RowMajor (p q : Int × Int × Int) : Prop :=
  p.1 < q.1 ∨ p.1 = q.1 ∧ (p.2.1 < q.2.1 ∨ p.2.1 = q.2.1 ∧ p.2.2 < q.2.2)

theorem box_sorted (l2 l1 l0 : Int) (n2 n1 n0 : Nat) : (box l2 n2 l1 n1 l0 n0).Pairwise RowMajor := by
  unfold box
  rw [List.pairwise_flatMap]
  constructor
  · intro i2 _
    rw [List.pairwise_flatMap]
    constructor
    · intro i1 _
      rw [List.pairwise_map]
      exact (axis_sorted _ _).imp fun h => Or.inr ⟨rfl, Or.inr ⟨rfl, h⟩⟩
    · refine (axis_sorted _ _).imp fun {a b} h => ?_
      intro x hx y hy
      obtain ⟨_, _, rfl⟩ := List.mem_map.1 hx
      obtain ⟨_, _, rfl⟩ := List.mem_map.1 hy
      exact Or.inr ⟨rfl, Or.inl h⟩
  · refine (axis_sorted _ _).imp fun {a b} h => ?_
    intro x hx y hy
    obtain ⟨_, _, hx⟩ := List.mem_flatMap.1 hx
    obtain ⟨_, _, rfl⟩ := List.mem_map.1 hx
    obtain ⟨_, _, hy⟩ := List.mem_flatMap.1 hy
    obtain ⟨_, _, rfl⟩ := List.mem_map.1 hy
    exact Or.inl h

/-- Total numbers of points, with ghost zones. -/
def Sizes.N0 (S : Sizes) : Nat := S.n0 + 2 * S.G
def Sizes.N1 (S : Sizes) : Nat := S.n1 + 2 * S.G
def Sizes.N2 (S : Sizes) : Nat := S.n2 + 2 * S.G

/-- **C56** (memory): a loop over "all points" accesses, through `IDX3`, the offsets
`0, 1, ..., N0 N1 N2 - 1` in this order. -/
theorem C56_offsets (ev : Eval) (S : Sizes) (w : Nat) (hs : GridSem ev S w) (hw : 0 < w) (σ : Env)
    (a : SimpleArgs) (hR : a.region = (c% "all points")) (ha : a.Accepted) (hsimd : a.simd = false) :
    ∃ (fs : List For) (pre : Str) (tr : List Env),
      simpleLoop a = .ok (nestText fs (pre ++ a.body)) ∧
      Run ev fs none σ tr ∧
      tr.map (fun τ => idx3 S.N0 S.N1 (τ (c% "i0")) (τ (c% "i1")) (τ (c% "i2"))) =
        (List.range (S.N2 * S.N1 * S.N0)).map fun k : Nat => (k : Int) := by
  obtain ⟨fs, pre, tr, h1, h2, -, h4⟩ := C56_points ev S w hs hw σ .all a hR ha
  refine ⟨fs, pre, tr, h1, h2, ?_⟩
  have hw1 : a.width w = 1 := by simp [SimpleArgs.width, hsimd]
  rw [hw1, roundUp_one] at h4
  have := box_offsets S.N0 S.N1 S.N2
  simp only [Region.lo, Region.size] at h4
  rw [show box 0 S.N2 0 S.N1 0 S.N0 = tr.flatMap (lanes 1) from h4.symm] at this
  rw [List.map_flatMap] at this
  have e : (List.flatMap (fun τ => List.map (fun p : Int × Int × Int => idx3 S.N0 S.N1 p.2.2 p.2.1 p.1)
      (lanes 1 τ)) tr) = tr.map (fun τ => idx3 S.N0 S.N1 (τ (c% "i0")) (τ (c% "i1")) (τ (c% "i2"))) := by
    rw [List.map_eq_flatMap]
    congr 1
    funext τ
    simp [lanes, axis]
  rw [← e, this]
  simp [axis]

/-- **C56** (interior): without SIMD the loop over a region handles exactly the points of the region. -/
theorem C56_region (ev : Eval) (S : Sizes) (w : Nat) (hs : GridSem ev S w) (hw : 0 < w) (σ : Env)
    (R : Region) (a : SimpleArgs) (hR : a.region = R.name) (ha : a.Accepted) (hsimd : a.simd = false) :
    ∃ (fs : List For) (pre : Str) (tr : List Env),
      simpleLoop a = .ok (nestText fs (pre ++ a.body)) ∧ Run ev fs none σ tr ∧
      (tr.map fun τ => (τ (c% "i2"), τ (c% "i1"), τ (c% "i0"))).Pairwise RowMajor ∧
      ∀ i2 i1 i0 : Int, (i2, i1, i0) ∈ tr.map (fun τ => (τ (c% "i2"), τ (c% "i1"), τ (c% "i0"))) ↔
        (R.lo S ≤ i2 ∧ i2 < R.lo S + R.size S S.n2) ∧ (R.lo S ≤ i1 ∧ i1 < R.lo S + R.size S S.n1) ∧
        R.lo S ≤ i0 ∧ i0 < R.lo S + R.size S S.n0 := by
  obtain ⟨fs, pre, tr, h1, h2, -, h4⟩ := C56_points ev S w hs hw σ R a hR ha
  have hw1 : a.width w = 1 := by simp [SimpleArgs.width, hsimd]
  rw [hw1, roundUp_one] at h4
  have e : tr.flatMap (lanes 1) = tr.map (fun τ => (τ (c% "i2"), τ (c% "i1"), τ (c% "i0"))) := by
    rw [List.map_eq_flatMap]
    congr 1
    funext τ
    simp [lanes, axis]
  rw [e] at h4
  refine ⟨fs, pre, tr, h1, h2, ?_, ?_⟩
  · rw [h4]; exact box_sorted ..
  · intro i2 i1 i0
    rw [h4, mem_box]

/-! ## With SIMD -/

/-- **C56** (SIMD, exactness): the points handled by the SIMD loop are those of the scalar loop exactly when
the vector width divides the number of points of a row. -/
theorem C56_simd_exact (ev : Eval) (S : Sizes) (w : Nat) (hs : GridSem ev S w) (hw : 0 < w) (σ : Env)
    (R : Region) (a : SimpleArgs) (hR : a.region = R.name) (ha : a.Accepted) (hsimd : a.simd = true)
    (h2 : 0 < R.size S S.n2) (h1 : 0 < R.size S S.n1) :
    ∃ (fs : List For) (pre : Str) (tr : List Env),
      simpleLoop a = .ok (nestText fs (pre ++ a.body)) ∧ Run ev fs none σ tr ∧
      ((∀ i2 i1 i0 : Int, (i2, i1, i0) ∈ tr.flatMap (lanes w) ↔
        (R.lo S ≤ i2 ∧ i2 < R.lo S + R.size S S.n2) ∧ (R.lo S ≤ i1 ∧ i1 < R.lo S + R.size S S.n1) ∧
        R.lo S ≤ i0 ∧ i0 < R.lo S + R.size S S.n0) ↔ w ∣ R.size S S.n0) := by
  obtain ⟨fs, pre, tr, e1, e2, -, e4⟩ := C56_points ev S w hs hw σ R a hR ha
  have hw1 : a.width w = w := by simp [SimpleArgs.width, hsimd]
  rw [hw1] at e4
  refine ⟨fs, pre, tr, e1, e2, ?_⟩
  rw [e4, ← roundUp_eq_iff hw]
  constructor
  · intro h
    have hle := le_roundUp (n := R.size S S.n0) hw
    by_contra hne
    have := (h (R.lo S) (R.lo S) (R.lo S + R.size S S.n0)).1 (mem_box.2 (by simp only; omega))
    omega
  · intro h i2 i1 i0
    rw [h, mem_box]

/-- **C56** (SIMD, results): for every vector width the value that the SIMD loop leaves at a point of the
interior is the one computed for that point: whatever the spill-over of other rows writes to its address is
written earlier. -/
theorem C56_simd_final (ev : Eval) (S : Sizes) (w : Nat) (hs : GridSem ev S w) (hw : 0 < w) (σ : Env)
    (a : SimpleArgs) (hR : a.region = (c% "interior")) (ha : a.Accepted) (hsimd : a.simd = true)
    {i2 i1 i0 : Int} (h2 : S.G ≤ i2 ∧ i2 < S.G + S.n2) (h1 : S.G ≤ i1 ∧ i1 < S.G + S.n1)
    (h0 : S.G ≤ i0 ∧ i0 < S.G + S.n0) :
    ∃ (fs : List For) (pre : Str) (tr : List Env),
      simpleLoop a = .ok (nestText fs (pre ++ a.body)) ∧ Run ev fs none σ tr ∧
      ∃ before after, tr.flatMap (lanes w) = before ++ (i2, i1, i0) :: after ∧
        ∀ q ∈ after, idx3 S.N0 S.N1 q.2.2 q.2.1 q.1 ≠ idx3 S.N0 S.N1 i0 i1 i2 := by
  obtain ⟨fs, pre, tr, e1, e2, -, e4⟩ := C56_points ev S w hs hw σ .interior a hR ha
  have hw1 : a.width w = w := by simp [SimpleArgs.width, hsimd]
  rw [hw1] at e4
  simp only [Region.lo, Region.size] at e4
  have hle := le_roundUp (n := S.n0) hw
  have hmem : (i2, i1, i0) ∈ tr.flatMap (lanes w) := by
    rw [e4, mem_box]; simp only; omega
  obtain ⟨b, c, hbc⟩ := List.append_of_mem hmem
  refine ⟨fs, pre, tr, e1, e2, b, c, hbc, ?_⟩
  rintro ⟨q2, q1, q0⟩ hq heq
  have hsort := box_sorted (S.G : Int) S.G S.G S.n2 S.n1 (roundUp S.n0 w)
  rw [← e4, hbc] at hsort
  have hlt : RowMajor (i2, i1, i0) (q2, q1, q0) :=
    (List.pairwise_cons.1 (List.pairwise_append.1 hsort).2.1).1 _ hq
  have hqm : (q2, q1, q0) ∈ tr.flatMap (lanes w) := by rw [hbc]; simp [hq]
  rw [e4, mem_box] at hqm
  simp only at hqm
  simp only [idx3, RowMajor] at heq hlt
  unfold Sizes.N0 Sizes.N1 at heq
  push_cast at heq
  generalize hA : ((S.n0 : Int) + 2 * S.G) = A at heq
  generalize hB : ((S.n1 : Int) + 2 * S.G) = B at heq
  have hA0 : 0 ≤ A := by omega
  rcases hlt with hlt | ⟨rfl, hlt | ⟨rfl, hlt⟩⟩
  · have hrow : i1 + B * i2 + 1 ≤ q1 + B * q2 := by nlinarith
    nlinarith
  · nlinarith
  · omega

/-- **C56** (SIMD, memory): with at least one ghost zone and one point in each direction, and vectors of at
most eight numbers, the addresses touched by the SIMD loop stay inside the array. -/
theorem C56_simd_memory_partial (ev : Eval) (S : Sizes) (w : Nat) (hs : GridSem ev S w) (hw : 0 < w) (hw8 : w ≤ 8)
    (hG : 1 ≤ S.G) (hn : 1 ≤ S.n0 ∧ 1 ≤ S.n1 ∧ 1 ≤ S.n2) (σ : Env)
    (a : SimpleArgs) (hR : a.region = (c% "interior")) (ha : a.Accepted) (hsimd : a.simd = true) :
    ∃ (fs : List For) (pre : Str) (tr : List Env),
      simpleLoop a = .ok (nestText fs (pre ++ a.body)) ∧ Run ev fs none σ tr ∧
      ∀ q ∈ tr.flatMap (lanes w), 0 ≤ idx3 S.N0 S.N1 q.2.2 q.2.1 q.1 ∧
        idx3 S.N0 S.N1 q.2.2 q.2.1 q.1 < S.N0 * S.N1 * S.N2 := by
  obtain ⟨fs, pre, tr, e1, e2, -, e4⟩ := C56_points ev S w hs hw σ .interior a hR ha
  have hw1 : a.width w = w := by simp [SimpleArgs.width, hsimd]
  rw [hw1] at e4
  simp only [Region.lo, Region.size] at e4
  refine ⟨fs, pre, tr, e1, e2, ?_⟩
  rintro ⟨q2, q1, q0⟩ hq
  rw [e4, mem_box] at hq
  simp only at hq
  have hlt := roundUp_lt (n := S.n0) hw
  simp only [idx3]
  unfold Sizes.N0 Sizes.N1 Sizes.N2
  push_cast
  generalize hA : ((S.n0 : Int) + 2 * S.G) = A
  generalize hB : ((S.n1 : Int) + 2 * S.G) = B
  generalize hC : ((S.n2 : Int) + 2 * S.G) = C
  have hrow : 0 ≤ q1 + B * q2 ∧ q1 + B * q2 ≤ B * C - 1 - B - 1 := by
    constructor
    · have : 0 ≤ B * q2 := mul_nonneg (by omega) (by omega)
      omega
    · have : B * q2 ≤ B * (C - 2) := mul_le_mul_of_nonneg_left (by omega) (by omega)
      have : q1 ≤ B - 2 := by omega
      nlinarith
  constructor
  · have : 0 ≤ A * (q1 + B * q2) := mul_nonneg (by omega) hrow.1
    omega
  · have h3 : A * (q1 + B * q2) ≤ A * (B * C - 1 - B - 1) := mul_le_mul_of_nonneg_left hrow.2 (by omega)
    have : 3 ≤ A := by omega
    have : 3 ≤ B := by omega
    nlinarith

/-! ### What fails when the width does not divide the row -/

/-- Meaning of the bounds for given sizes. -/
def exSem (S : Sizes) (w : Nat) : Eval := fun s τ =>
  if s = (c% "0") then 0 else if s = (c% "1") then 1 else if s = (c% "simd_width") then w
  else if s = (c% "Nxx_plus_2NGHOSTS2") then S.n2 + 2 * S.G
  else if s = (c% "Nxx_plus_2NGHOSTS1") then S.n1 + 2 * S.G
  else if s = (c% "Nxx_plus_2NGHOSTS0") then S.n0 + 2 * S.G
  else if s = (c% "NGHOSTS") then S.G
  else if s = (c% "NGHOSTS+Nxx2") then S.G + S.n2
  else if s = (c% "NGHOSTS+Nxx1") then S.G + S.n1
  else if s = (c% "NGHOSTS+Nxx0") then S.G + S.n0
  else if s = (c% "NGHOSTS+Nxx2+1") then S.G + S.n2 + 1
  else if s = (c% "NGHOSTS+Nxx1+1") then S.G + S.n1 + 1
  else if s = (c% "NGHOSTS+Nxx0+1") then S.G + S.n0 + 1 else τ s

/-- The hypothesis on the meaning of bounds can be met for all sizes. -/
theorem exSem_ok (S : Sizes) (w : Nat) : GridSem (exSem S w) S w := by
  constructor <;> intro τ <;> simp [exSem]

/-- A SIMD loop over the interior. -/
def exArgs : SimpleArgs := ⟨(c% "BODY;"), true, (c% "interior"), false, none, true, [], 1⟩

example : exArgs.Accepted ∧ exArgs.region = Region.interior.name := by
  refine ⟨⟨?_, ?_⟩, rfl⟩ <;> simp [exArgs]

/-- **C56** is violated by SIMD loops whose width does not divide the number of interior points: with 9
points per row, two ghost zones and vectors of eight numbers the loop also handles index 17 of rows that have
only the indices 0..12, so that one-dimensional arrays such as the precomputed reference metric are read out
of bounds, and it writes to ghost zones and to addresses of the next row. -/
theorem C56_simd_spill : ∃ (S : Sizes) (fs : List For) (pre : Str) (tr : List Env),
    S.n0 = 9 ∧ S.G = 2 ∧ simpleLoop exArgs = .ok (nestText fs (pre ++ exArgs.body)) ∧
    Run (exSem S 8) fs none (fun _ => 0) tr ∧
    ∃ q ∈ tr.flatMap (lanes 8), (S.N0 : Int) ≤ q.2.2 ∧
      ∃ j0 j1 j2 : Int, 0 ≤ j0 ∧ j0 < S.N0 ∧ 0 ≤ j1 ∧ j1 < S.N1 ∧ (j2, j1, j0) ≠ q ∧
        idx3 S.N0 S.N1 q.2.2 q.2.1 q.1 = idx3 S.N0 S.N1 j0 j1 j2 := by
  obtain ⟨fs, pre, tr, h1, h2, -, h4⟩ := C56_points (exSem ⟨9, 1, 1, 2⟩ 8) ⟨9, 1, 1, 2⟩ 8 (exSem_ok _ _)
    (by omega) (fun _ => 0) .interior exArgs rfl (by refine ⟨?_, ?_⟩ <;> simp [exArgs])
  refine ⟨⟨9, 1, 1, 2⟩, fs, pre, tr, rfl, rfl, h1, h2, (2, 2, 17), ?_, by decide, 4, 3, 2, by decide⟩
  have : exArgs.width 8 = 8 := rfl
  rw [this] at h4
  rw [h4, mem_box]
  decide

/-! ## The index macros -/

/-- **C56** (storage of several grid functions): `IDX4` of grid function `g` is `IDX4pt` of `g` at `IDX3`, and
the offsets of `M` grid functions are the numbers `0, ..., M N0 N1 N2 - 1`, each the offset of exactly one
grid function and point. -/
theorem C56_idx4 (N0 N1 N2 M : Nat) :
    (∀ g i j k : Int, idx4 N0 N1 N2 g i j k = idx4pt N0 N1 N2 g (idx3 N0 N1 i j k)) ∧
    (∀ g i j k : Nat, g < M → i < N0 → j < N1 → k < N2 →
      0 ≤ idx4 N0 N1 N2 g i j k ∧ idx4 N0 N1 N2 g i j k < M * (N0 * N1 * N2)) ∧
    (∀ g i j k g' i' j' k' : Nat, i < N0 → j < N1 → k < N2 → i' < N0 → j' < N1 → k' < N2 →
      idx4 N0 N1 N2 g i j k = idx4 N0 N1 N2 g' i' j' k' → g = g' ∧ i = i' ∧ j = j' ∧ k = k') ∧
    ∀ m : Nat, m < M * (N0 * N1 * N2) → ∃ g i j k : Nat, g < M ∧ i < N0 ∧ j < N1 ∧ k < N2 ∧
      idx4 N0 N1 N2 g i j k = m := by
  have inj : ∀ (N a b c d : Nat), a < N → c < N → a + N * b = c + N * d → a = c ∧ b = d := by
    intro N a b c d ha hc h
    have h1 : (a + N * b) % N = (c + N * d) % N := by rw [h]
    rw [Nat.add_mul_mod_self_left, Nat.add_mul_mod_self_left, Nat.mod_eq_of_lt ha, Nat.mod_eq_of_lt hc] at h1
    subst h1
    exact ⟨rfl, Nat.eq_of_mul_eq_mul_left (Nat.pos_of_ne_zero (by omega)) (Nat.add_left_cancel h)⟩
  refine ⟨?_, ?_, ?_, ?_⟩
  · intro g i j k
    unfold idx4 idx4pt idx3
    ring
  · intro g i j k hg hi hj hk
    have e : idx4 N0 N1 N2 g i j k = ((i + N0 * (j + N1 * (k + N2 * g)) : Nat) : Int) := by
      simp [idx4]
    rw [e]
    refine ⟨Int.natCast_nonneg _, ?_⟩
    have s1 : k + N2 * g < N2 * M := by
      calc k + N2 * g < N2 + N2 * g := by omega
        _ = N2 * (g + 1) := by ring
        _ ≤ N2 * M := Nat.mul_le_mul_left _ hg
    have s2 : j + N1 * (k + N2 * g) < N1 * (N2 * M) := by
      calc j + N1 * (k + N2 * g) < N1 + N1 * (k + N2 * g) := by omega
        _ = N1 * (k + N2 * g + 1) := by ring
        _ ≤ N1 * (N2 * M) := Nat.mul_le_mul_left _ s1
    have s3 : i + N0 * (j + N1 * (k + N2 * g)) < N0 * (N1 * (N2 * M)) := by
      calc i + N0 * (j + N1 * (k + N2 * g)) < N0 + N0 * (j + N1 * (k + N2 * g)) := by omega
        _ = N0 * (j + N1 * (k + N2 * g) + 1) := by ring
        _ ≤ N0 * (N1 * (N2 * M)) := Nat.mul_le_mul_left _ s2
    have e3 : (M : Int) * (N0 * N1 * N2) = ((N0 * (N1 * (N2 * M)) : Nat) : Int) := by push_cast; ring
    rw [e3]
    exact_mod_cast s3
  · intro g i j k g' i' j' k' hi hj hk hi' hj' hk' h
    have h' : i + N0 * (j + N1 * (k + N2 * g)) = i' + N0 * (j' + N1 * (k' + N2 * g')) := by
      unfold idx4 at h; exact_mod_cast h
    obtain ⟨e1, h1⟩ := inj _ _ _ _ _ hi hi' h'
    obtain ⟨e2, h2⟩ := inj _ _ _ _ _ hj hj' h1
    obtain ⟨e3, e4⟩ := inj _ _ _ _ _ hk hk' h2
    exact ⟨e4, e1, e2, e3⟩
  · intro m hm
    have p : 0 < N0 ∧ 0 < N1 ∧ 0 < N2 := by
      refine ⟨?_, ?_, ?_⟩ <;> (apply Nat.pos_of_ne_zero; rintro rfl; simp at hm)
    refine ⟨m / N0 / N1 / N2, m % N0, m / N0 % N1, m / N0 / N1 % N2, ?_, Nat.mod_lt _ p.1, Nat.mod_lt _ p.2.1,
      Nat.mod_lt _ p.2.2, ?_⟩
    · rw [Nat.div_div_eq_div_mul, Nat.div_div_eq_div_mul]
      exact Nat.div_lt_of_lt_mul (by rw [Nat.mul_comm _ M, ← Nat.mul_assoc N0]; exact hm)
    · have e : ((m % N0 + N0 * (m / N0 % N1 + N1 * (m / N0 / N1 % N2 + N2 * (m / N0 / N1 / N2))) : Nat) : Int) = m := by
        rw [Nat.mod_add_div, Nat.mod_add_div, Nat.mod_add_div]
      rw [← e]
      unfold idx4
      push_cast
      ring

/-! ## The Einstein-Toolkit loop -/

/-- Meaning of the bounds: local sizes and ghost zones of each direction. -/
structure CactusSem (ev : Eval) (lsh gz : Fin 3 → Int) (w : Nat) : Prop where
  zero : ∀ τ, ev (c% "0") τ = 0
  one : ∀ τ, ev (c% "1") τ = 1
  width : ∀ τ, ev (c% "simd_width") τ = w
  lsh0 : ∀ τ, ev (c% "cctk_lsh[0]") τ = lsh 0
  lsh1 : ∀ τ, ev (c% "cctk_lsh[1]") τ = lsh 1
  lsh2 : ∀ τ, ev (c% "cctk_lsh[2]") τ = lsh 2
  gz0 : ∀ τ, ev (c% "cctk_nghostzones[0]") τ = gz 0
  gz1 : ∀ τ, ev (c% "cctk_nghostzones[1]") τ = gz 1
  gz2 : ∀ τ, ev (c% "cctk_nghostzones[2]") τ = gz 2
  in0 : ∀ τ, ev (c% "cctk_lsh[0]-cctk_nghostzones[0]") τ = lsh 0 - gz 0
  in1 : ∀ τ, ev (c% "cctk_lsh[1]-cctk_nghostzones[1]") τ = lsh 1 - gz 1
  in2 : ∀ τ, ev (c% "cctk_lsh[2]-cctk_nghostzones[2]") τ = lsh 2 - gz 2

/-- **C56** (ETLegacy): for "all points" and "interior" the loop of the Einstein-Toolkit back end handles the
points of the region in row-major order, each once; rows are rounded up to a multiple of the vector width. -/
theorem C56_ET (ev : Eval) (lsh gz : Fin 3 → Int) (w : Nat) (hs : CactusSem ev lsh gz w) (hw : 0 < w)
    (hsize : ∀ k, 0 ≤ gz k ∧ 2 * gz k ≤ lsh k) (σ : Env) (interior : Bool) (a : SimpleArgs)
    (hR : a.region = if interior then (c% "interior") else (c% "all points")) :
    let lo : Fin 3 → Int := fun k => if interior then gz k else 0
    let n : Fin 3 → Nat := fun k => (if interior then lsh k - 2 * gz k else lsh k).toNat
    ∃ (fs : List For) (tr : List Env),
      simpleLoopET a = .ok (nestText fs a.body) ∧
      Run ev fs none σ tr ∧ (∀ tr', Run ev fs none σ tr' → tr' = tr) ∧
      tr.flatMap (lanes (a.width w)) = box (lo 2) (n 2) (lo 1) (n 1) (lo 0) (roundUp (n 0) (a.width w)) := by
  intro lo n
  have hinc : ∀ τ, ev (if a.simd then (c% "simd_width") else (c% "1")) τ = a.width w := by
    intro τ
    unfold SimpleArgs.width
    cases a.simd
    · exact hs.one τ
    · exact hs.width τ
  obtain ⟨los, his, hb, hlo, hhi⟩ : ∃ los his : Fin 3 → Str,
      boundsET a.region = .ok (list3 los, list3 his) ∧
      (∀ k τ, ev (los k) τ = ![lo 2, lo 1, lo 0] k) ∧
      ∀ k τ, ev (his k) τ = ![lo 2, lo 1, lo 0] k + (![n 2, n 1, n 0] k : Nat) := by
    have h0 := hsize 0
    have h1 := hsize 1
    have h2 := hsize 2
    cases interior
    · refine ⟨![(c% "0"), (c% "0"), (c% "0")], ![(c% "cctk_lsh[2]"), (c% "cctk_lsh[1]"), (c% "cctk_lsh[0]")],
        by rw [hR]; rfl, ?_, ?_⟩ <;>
        simp [Fin.forall_fin_succ, hs.zero, hs.lsh0, hs.lsh1, hs.lsh2, lo, n] <;> omega
    · refine ⟨![(c% "cctk_nghostzones[2]"), (c% "cctk_nghostzones[1]"), (c% "cctk_nghostzones[0]")],
        ![(c% "cctk_lsh[2]-cctk_nghostzones[2]"), (c% "cctk_lsh[1]-cctk_nghostzones[1]"),
        (c% "cctk_lsh[0]-cctk_nghostzones[0]")], by rw [hR]; rfl, ?_, ?_⟩ <;>
        simp [Fin.forall_fin_succ, hs.gz0, hs.gz1, hs.gz2, hs.in0, hs.in1, hs.in2, lo, n] <;> omega
  obtain ⟨fs, tr, -, h1, h2, h3, h4⟩ := loop3 (lo := los) (hi := his) (ev := ev) (σ := σ)
    (pre := ![pragmaOf a.openMP a.customPragma a.collapse, [], []])
    (inc := ![(c% "1"), (c% "1"), if a.simd then (c% "simd_width") else (c% "1")])
    (body := a.body)
    (L := ![lo 2, lo 1, lo 0]) (n := ![n 2, n 1, n 0]) (width_pos (a := a) hw)
    hlo hhi hs.one hs.one hinc
  refine ⟨fs, tr, ?_, h2, h3, h4⟩
  rw [← h1]
  unfold simpleLoopET
  rw [hb]
  simp only [bind, Except.bind, pure, Except.pure, increments3]
  rfl

example : ∃ ev, CactusSem ev (fun _ => 10) (fun _ => 3) 4 :=
  ⟨fun s _ => if s = (c% "0") then 0 else if s = (c% "1") then 1 else if s = (c% "simd_width") then 4
    else if (c% "cctk_nghostzones").isPrefixOf s then 3
    else if s.length = 11 then 10 else 7, by constructor <;> intro τ <;> simp⟩

end Verif.Loop
