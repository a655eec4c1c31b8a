import Verif.Loop.Model
import Mathlib.Data.List.Nodup
import Mathlib.Data.List.Perm.Basic
import Mathlib.Data.Multiset.Bind
import Mathlib.Tactic.Linarith
import Mathlib.Tactic.Ring

/-!
# C31: generated loop nests visit every point exactly once
-/
namespace Verif.Loop
open Verif.Py

/-! ## Specification -/

/-- What one dimension of the nest is asked for: the strings passed to `loop` and the numbers they stand
for. -/
structure Dim where
  var : Str
  lo : Str
  hi : Str
  inc : Str
  pragma : Str
  tile : Str
  L : Int
  H : Int
  I : Int
  T : Int

/-- The string `s` has the value `c` as long as only variables of `W` have changed from `σ`. -/
def Fixed (ev : Eval) (σ : Env) (W : List Str) (s : Str) (c : Int) : Prop :=
  ∀ τ : Env, (∀ y, y ∉ W → τ y = σ y) → ev s τ = c

/-- The points a nest is meant to visit: in each dimension `L, L+I, L+2I, ... < H`. -/
def Wanted (ds : List Dim) (p : List Int) : Prop :=
  List.Forall₂ (fun d x => d.L ≤ x ∧ x < d.H ∧ d.I ∣ x - d.L) ds p

/-- The block variable of a tiled dimension. -/
abbrev Dim.block (d : Dim) : Str := d.var ++ (c% "B")

/-- The values of the index variables. -/
def point (ds : List Dim) (τ : Env) : List Int := ds.map fun d => τ d.var

/-! ## Ranges -/

def rngN : Nat → Int → Int → Int → List Int
  | 0, _, _, _ => []
  | n + 1, x, H, I => if x < H then x :: rngN n (x + I) H I else []

/-- The values of the variable of `for (x = lo; x < hi; x += inc)`. -/
def rng (x H I : Int) : List Int := rngN (H - x).toNat x H I

theorem rngN_enough {H I : Int} (hI : 0 < I) : ∀ (n m : Nat) (x : Int), (H - x).toNat ≤ n →
    (H - x).toNat ≤ m → rngN n x H I = rngN m x H I
  | 0, 0, _, _, _ => rfl
  | 0, m + 1, x, h, _ => by
    have : ¬ x < H := by omega
    simp [rngN, this]
  | n + 1, 0, x, _, h => by
    have : ¬ x < H := by omega
    simp [rngN, this]
  | n + 1, m + 1, x, h1, h2 => by
    simp only [rngN]
    split
    · rw [rngN_enough hI n m (x + I) (by omega) (by omega)]
    · rfl

theorem rng_step {x H I : Int} (hI : 0 < I) (h : x < H) : rng x H I = x :: rng (x + I) H I := by
  unfold rng
  obtain ⟨n, hn⟩ : ∃ n, (H - x).toNat = n + 1 := ⟨(H - x).toNat - 1, by omega⟩
  rw [hn, rngN, if_pos h, rngN_enough hI n (H - (x + I)).toNat (x + I) (by omega) (by omega)]

theorem rng_stop {x H I : Int} (h : ¬ x < H) : rng x H I = [] := by
  unfold rng
  rw [show (H - x).toNat = 0 by omega, rngN]

theorem rng_induct {H I : Int} (hI : 0 < I) {P : Int → Prop} (h0 : ∀ x, ¬ x < H → P x)
    (h1 : ∀ x, x < H → P (x + I) → P x) (x : Int) : P x := by
  have : ∀ n x, (H - x).toNat ≤ n → P x := by
    intro n
    induction n with
    | zero => intro x h; exact h0 x (by omega)
    | succ n ih =>
      intro x h
      by_cases hx : x < H
      · exact h1 x hx (ih _ (by omega))
      · exact h0 x hx
  exact this _ x le_rfl

theorem mem_rng {H I : Int} (hI : 0 < I) (x y : Int) : y ∈ rng x H I ↔ x ≤ y ∧ y < H ∧ I ∣ y - x := by
  induction x using rng_induct (H := H) hI with
  | h0 x hx => rw [rng_stop hx]; simp; omega
  | h1 x hx ih =>
    rw [rng_step hI hx, List.mem_cons, ih]
    constructor
    · rintro (rfl | ⟨h1, h2, h3⟩)
      · exact ⟨le_rfl, hx, by simp⟩
      · refine ⟨by omega, h2, ?_⟩
        have := Int.dvd_add h3 (dvd_refl I)
        rwa [show y - (x + I) + I = y - x by ring] at this
    · rintro ⟨h1, h2, h3⟩
      by_cases hy : y = x
      · exact .inl hy
      · right
        obtain ⟨k, hk⟩ := h3
        have hk1 : 1 ≤ k := by
          by_contra hc
          have : I * k ≤ 0 := mul_nonpos_of_nonneg_of_nonpos hI.le (by omega)
          omega
        refine ⟨by nlinarith, h2, ⟨k - 1, by rw [mul_sub, ← hk]; ring⟩⟩

theorem rng_sorted {H I : Int} (hI : 0 < I) (x : Int) : (rng x H I).Pairwise (· < ·) := by
  induction x using rng_induct (H := H) hI with
  | h0 x hx => rw [rng_stop hx]; exact .nil
  | h1 x hx ih =>
    rw [rng_step hI hx]
    refine List.pairwise_cons.2 ⟨fun y hy => ?_, ih⟩
    have := (mem_rng hI _ _).1 hy
    omega

/-- The tiles of a range. -/
theorem rng_tiles {H I T : Int} (hI : 0 < I) (hT : 0 < T) (hd : I ∣ T) (x : Int) :
    (rng x H T).flatMap (fun t => rng t (min H (t + T)) I) = rng x H I := by
  induction x using rng_induct (H := H) hT with
  | h0 x hx => rw [rng_stop hx, rng_stop hx]; rfl
  | h1 x hx ih =>
    rw [rng_step hT hx, List.flatMap_cons, ih]
    -- the first tile and the rest
    obtain ⟨k, rfl⟩ := hd
    have hk : 0 < k := by
      by_contra hc
      have : I * k ≤ 0 := mul_nonpos_of_nonneg_of_nonpos hI.le (by omega)
      omega
    obtain ⟨n, rfl⟩ : ∃ n : Nat, k = n := ⟨k.toNat, by omega⟩
    clear ih hx hk hT
    induction n generalizing x with
    | zero =>
      rw [rng_stop (x := x) (by simp)]
      simp
    | succ n ih =>
      by_cases hx : x < H
      · have hpos : 0 < I * ((n + 1 : Nat) : Int) := by positivity
        rw [rng_step hI (show x < min H (x + I * ((n + 1 : Nat) : Int)) by omega), rng_step hI hx, List.cons_append]
        have e : x + I * ((n + 1 : Nat) : Int) = (x + I) + I * (n : Int) := by push_cast; ring
        rw [e, ih (x + I)]
      · have hpos : 0 ≤ I * ((n + 1 : Nat) : Int) := by positivity
        rw [rng_stop (show ¬ x < min H (x + I * ((n + 1 : Nat) : Int)) by omega), rng_stop hx, rng_stop (by omega)]
        rfl

/-! ## Grids -/

def grid : List (List Int) → List (List Int)
  | [] => [[]]
  | r :: rs => r.flatMap fun x => (grid rs).map (x :: ·)

theorem mem_grid : ∀ (rs : List (List Int)) (p : List Int),
    p ∈ grid rs ↔ List.Forall₂ (fun r x => x ∈ r) rs p
  | [], p => by simp [grid]
  | r :: rs, p => by
    simp only [grid, List.mem_flatMap, List.mem_map, mem_grid rs]
    constructor
    · rintro ⟨x, hx, q, hq, rfl⟩; exact .cons hx hq
    · intro h
      cases h with
      | cons hx hq => exact ⟨_, hx, _, hq, rfl⟩

theorem grid_sorted : ∀ (rs : List (List Int)), (∀ r ∈ rs, r.Pairwise (· < ·)) →
    (grid rs).Pairwise (List.Lex (· < ·))
  | [], _ => by simp [grid]
  | r :: rs, h => by
    have ih := grid_sorted rs fun q hq => h q (by simp [hq])
    rw [grid, List.pairwise_flatMap]
    constructor
    · intro x _
      rw [List.pairwise_map]
      exact ih.imp fun h => .cons h
    · refine (h r (by simp)).imp fun {x y} hxy a ha b hb => ?_
      simp only [List.mem_map] at ha hb
      obtain ⟨p, -, rfl⟩ := ha
      obtain ⟨q, -, rfl⟩ := hb
      exact .rel hxy

theorem flatMap_swap {α β γ : Type} (l : List α) (m : List β) (f : α → β → List γ) :
    (l.flatMap fun a => m.flatMap fun b => f a b).Perm (m.flatMap fun b => l.flatMap fun a => f a b) := by
  rw [← Multiset.coe_eq_coe]
  have := Multiset.bind_bind (↑l : Multiset α) (↑m : Multiset β) (f := fun a b => (↑(f a b) : Multiset γ))
  simpa only [Multiset.coe_bind] using this

/-- Tiling in every dimension visits the same points, each as often. -/
theorem grid_tiles {α : Type} (T : α → List Int) (R : α → List Int) (f : α → Int → List Int) :
    ∀ ds : List α, (∀ d ∈ ds, (T d).flatMap (f d) = R d) →
    ((grid (ds.map T)).flatMap fun t => grid (List.zipWith f ds t)).Perm (grid (ds.map R))
  | [], _ => by simp [grid]
  | d :: ds, h => by
    have ih := grid_tiles T R f ds fun e he => h e (by simp [he])
    simp only [List.map_cons, grid, List.flatMap_assoc, List.flatMap_map, List.zipWith_cons_cons]
    rw [← h d (by simp), List.flatMap_assoc]
    refine List.Perm.flatMap_left _ fun t _ => ?_
    refine (flatMap_swap _ _ _).trans (List.Perm.flatMap_left _ fun x _ => ?_)
    rw [← List.map_flatMap]
    exact ih.map _

/-! ## Traces -/

def trace (ev : Eval) : List For → Env → List Env
  | [], σ => [σ]
  | f :: fs, σ => (rng (ev f.lo σ) (ev f.hi σ) (ev f.inc σ)).flatMap fun x => trace ev fs (upd σ f.var x)

/-- Positive increments; bounds and increments do not depend on the loop's own variable. -/
def OkNest (ev : Eval) : List For → Env → Prop
  | [], _ => True
  | f :: fs, σ => 0 < ev f.inc σ ∧ ∀ x, ev f.hi (upd σ f.var x) = ev f.hi σ ∧
      ev f.inc (upd σ f.var x) = ev f.inc σ ∧ OkNest ev fs (upd σ f.var x)

theorem run_iff {ev : Eval} : ∀ (fs : List For) (σ : Env), OkNest ev fs σ → ∀ tr,
    Run ev fs none σ tr ↔ tr = trace ev fs σ
  | [], σ, _, tr => by
    constructor
    · intro h; cases h; rfl
    · rintro rfl; exact .body σ
  | f :: fs, σ, ⟨hpos, hok⟩, tr => by
    have key : ∀ x tr, Run ev (f :: fs) (some x) σ tr ↔
        tr = (rng x (ev f.hi σ) (ev f.inc σ)).flatMap fun y => trace ev fs (upd σ f.var y) := by
      intro x
      induction x using rng_induct (H := ev f.hi σ) hpos with
      | h0 x hx =>
        intro tr
        rw [rng_stop hx]
        constructor
        · intro h
          cases h with
          | stop _ => rfl
          | turn h _ _ => rw [(hok x).1] at h; exact absurd h hx
        · rintro rfl; exact .stop (by rw [(hok x).1]; exact hx)
      | h1 x hx ih =>
        intro tr
        rw [rng_step hpos hx, List.flatMap_cons]
        constructor
        · intro h
          cases h with
          | stop h => rw [(hok x).1] at h; exact absurd hx h
          | turn h h1 h2 =>
            rw [(hok x).2.1] at h2
            rw [(run_iff fs _ (hok x).2.2 _).1 h1, (ih _).1 h2]
        · rintro rfl
          refine .turn (by rw [(hok x).1]; exact hx) ((run_iff fs _ (hok x).2.2 _).2 rfl) ?_
          rw [(hok x).2.1]
          exact (ih _).2 rfl
    constructor
    · intro h
      cases h with
      | start h => exact (key _ _).1 h
    · intro h; exact .start ((key _ _).2 h)

theorem trace_frame {ev : Eval} : ∀ (fs : List For) (σ τ : Env), τ ∈ trace ev fs σ → ∀ y,
    y ∉ fs.map For.var → τ y = σ y
  | [], σ, τ, h, y, _ => by simp only [trace, List.mem_singleton] at h; rw [h]
  | f :: fs, σ, τ, h, y, hy => by
    simp only [trace, List.mem_flatMap] at h
    obtain ⟨x, -, h⟩ := h
    simp only [List.map_cons, List.mem_cons, not_or] at hy
    rw [trace_frame fs _ τ h y hy.2, upd, if_neg hy.1]

theorem trace_append {ev : Eval} : ∀ (fs gs : List For) (σ : Env),
    trace ev (fs ++ gs) σ = (trace ev fs σ).flatMap (trace ev gs)
  | [], gs, σ => by simp [trace]
  | f :: fs, gs, σ => by
    simp only [List.cons_append, trace, List.flatMap_assoc, trace_append fs gs]

/-- Values of bounds and increment of a loop. -/
structure Vals where
  L : Int
  H : Int
  I : Int

/-- A nest whose bounds do not depend on its own variables. -/
theorem trace_grid {ev : Eval} {σ₀ : Env} {W : List Str} (v : For → Vals) : ∀ (fs : List For) (σ : Env),
    (∀ y, y ∉ W → σ y = σ₀ y) → (∀ f ∈ fs, f.var ∈ W) → (fs.map For.var).Nodup →
    (∀ f ∈ fs, Fixed ev σ₀ W f.lo (v f).L ∧ Fixed ev σ₀ W f.hi (v f).H ∧ Fixed ev σ₀ W f.inc (v f).I ∧
      0 < (v f).I) →
    OkNest ev fs σ ∧ (trace ev fs σ).map (fun τ => fs.map fun f => τ f.var) =
      grid (fs.map fun f => rng (v f).L (v f).H (v f).I)
  | [], σ, _, _, _, _ => ⟨trivial, rfl⟩
  | f :: fs, σ, hσ, hW, hn, hv => by
    obtain ⟨h1, h2, h3, h4⟩ := hv f (by simp)
    rw [List.map_cons, List.nodup_cons] at hn
    have hu : ∀ x, ∀ y, y ∉ W → upd σ f.var x y = σ₀ y := by
      intro x y hy
      have : y ≠ f.var := fun h => hy (h ▸ hW f (by simp))
      rw [upd, if_neg this, hσ y hy]
    have ih := fun x => trace_grid v fs (upd σ f.var x) (hu x) (fun g hg => hW g (by simp [hg])) hn.2
      (fun g hg => hv g (by simp [hg]))
    refine ⟨⟨by rw [h3 σ hσ]; exact h4, fun x => ⟨by rw [h2 _ (hu x), h2 σ hσ], by rw [h3 _ (hu x), h3 σ hσ],
      (ih x).1⟩⟩, ?_⟩
    simp only [trace, List.map_cons, grid, h1 σ hσ, h2 σ hσ, h3 σ hσ, List.map_flatMap]
    congr 1
    funext x
    rw [← (ih x).2, List.map_map]
    apply List.map_congr_left
    intro τ hτ
    have : τ f.var = x := by rw [trace_frame fs _ τ hτ _ hn.1, upd, if_pos rfl]
    simp [this]

/-! ## The nest that `loop` builds -/

def mkPlain (d : Dim) : For := ⟨d.var, d.lo, d.hi, d.inc, d.pragma⟩
def mkExt (d : Dim) : For := ⟨d.block, d.lo, d.hi, d.tile, []⟩
def minText (d : Dim) : Str := (c% "MIN(") ++ d.hi ++ (c% ", ") ++ d.var ++ (c% "B + ") ++ d.tile ++ (c% ")")
def mkInner (d : Dim) : For := ⟨d.var, d.block, minText d, d.inc, d.pragma⟩

theorem item_map {α : Type} (f : Dim → α) (ds1 : List Dim) (d : Dim) (ds2 : List Dim) :
    item ((ds1 ++ d :: ds2).map f) ds1.length = .ok (f d) := by
  unfold item
  simp

theorem nest_plain (ds : List Dim) :
    nest (ds.map Dim.var) (ds.map Dim.lo) (ds.map Dim.hi) (ds.map Dim.inc) (ds.map Dim.pragma) [] =
      .ok (ds.map mkPlain) := by
  unfold nest
  simp only [List.length_map, ne_eq, not_true_eq_false, or_self, if_false]
  have : ∀ (ds2 ds1 : List Dim), ds1 ++ ds2 = ds →
      turns (ds.map Dim.lo) (ds.map Dim.hi) (ds.map Dim.inc) (ds.map Dim.pragma) [] (ds2.map Dim.var)
        ds1.length (ds1.map mkPlain) = .ok (ds.map mkPlain) := by
    intro ds2
    induction ds2 with
    | nil => intro ds1 h; rw [← h, List.append_nil]; rfl
    | cons d ds2 ih =>
      intro ds1 h
      have := ih (ds1 ++ [d]) (by rw [← h]; simp)
      rw [List.map_cons, turns, turn]
      subst h
      simp only [item_map, bind, Except.bind, pure, Except.pure, ne_eq, not_true_eq_false, if_false]
      rw [List.length_append, List.length_singleton, List.map_append (f := mkPlain)] at this
      exact this
  exact this ds [] rfl

theorem insertIdx_append {α : Type} (l m : List α) (x : α) :
    (l ++ m).insertIdx l.length x = l ++ x :: m := by
  induction l with
  | nil => cases m <;> rfl
  | cons a l ih => simpa using ih

theorem nest_tiled (ds : List Dim) (h0 : ds ≠ []) :
    nest (ds.map Dim.var) (ds.map Dim.lo) (ds.map Dim.hi) (ds.map Dim.inc) (ds.map Dim.pragma)
      (ds.map Dim.tile) = .ok (ds.map mkExt ++ ds.map mkInner) := by
  unfold nest
  simp only [List.length_map, ne_eq, not_true_eq_false, or_self, if_false]
  have hne : ds.map Dim.tile ≠ [] := by simpa using h0
  have : ∀ (ds2 ds1 : List Dim), ds1 ++ ds2 = ds →
      turns (ds.map Dim.lo) (ds.map Dim.hi) (ds.map Dim.inc) (ds.map Dim.pragma) (ds.map Dim.tile)
        (ds2.map Dim.var) ds1.length (ds1.map mkExt ++ ds1.map mkInner) =
          .ok (ds.map mkExt ++ ds.map mkInner) := by
    intro ds2
    induction ds2 with
    | nil => intro ds1 h; rw [← h, List.append_nil]; rfl
    | cons d ds2 ih =>
      intro ds1 h
      have := ih (ds1 ++ [d]) (by rw [← h]; simp)
      rw [List.map_cons, turns, turn]
      subst h
      rw [if_pos hne]
      simp only [item_map, bind, Except.bind, pure, Except.pure]
      have e := insertIdx_append (ds1.map mkExt) (ds1.map mkInner) (mkExt d)
      rw [List.length_map] at e
      rw [List.length_append, List.length_singleton, List.map_append (f := mkExt),
        List.map_append (f := mkInner), List.map_singleton, List.map_singleton] at this
      rw [← this]
      congr 1
      show (ds1.map mkExt ++ ds1.map mkInner).insertIdx ds1.length (mkExt d) ++ [mkInner d] = _
      rw [e]
      simp
  exact this ds [] rfl

/-! ## C31 -/

theorem wanted_iff {ds : List Dim} (hI : ∀ d ∈ ds, 0 < d.I) (p : List Int) :
    p ∈ grid (ds.map fun d => rng d.L d.H d.I) ↔ Wanted ds p := by
  rw [mem_grid, List.forall₂_map_left_iff, Wanted]
  constructor
  · intro h
    induction h with
    | nil => exact .nil
    | @cons d x ds p hd h ih =>
      exact .cons ((mem_rng (hI d (by simp)) _ _).1 hd) (ih fun e he => hI e (by simp [he]))
  · intro h
    induction h with
    | nil => exact .nil
    | @cons d x ds p hd h ih =>
      exact .cons ((mem_rng (hI d (by simp)) _ _).2 hd) (ih fun e he => hI e (by simp [he]))

/-- The execution of the nest, as a list of points. -/
theorem untiled_grid (ev : Eval) (σ : Env) (ds : List Dim) (hn : (ds.map Dim.var).Nodup)
    (hf : ∀ d ∈ ds, Fixed ev σ (ds.map Dim.var) d.lo d.L ∧ Fixed ev σ (ds.map Dim.var) d.hi d.H ∧
      Fixed ev σ (ds.map Dim.var) d.inc d.I ∧ 0 < d.I) :
    OkNest ev (ds.map mkPlain) σ ∧
    (trace ev (ds.map mkPlain) σ).map (point ds) = grid (ds.map fun d => rng d.L d.H d.I) := by
  have hvar : (ds.map mkPlain).map For.var = ds.map Dim.var := by rw [List.map_map]; rfl
  -- numbers of a loop, looked up by its variable
  have hv : ∃ v : For → Vals, ∀ d ∈ ds, v (mkPlain d) = ⟨d.L, d.H, d.I⟩ := by
    classical
    refine ⟨fun f => match ds.find? (fun d => d.var = f.var) with
      | some d => ⟨d.L, d.H, d.I⟩
      | none => ⟨0, 0, 0⟩, ?_⟩
    intro d hd
    have : ds.find? (fun e => e.var = (mkPlain d).var) = some d := by
      clear hf hvar
      induction ds with
      | nil => cases hd
      | cons e ds ih =>
        rw [List.map_cons, List.nodup_cons] at hn
        rcases List.mem_cons.1 hd with rfl | hd
        · simp [mkPlain]
        · have hne : ¬ e.var = d.var := fun h => hn.1 (h ▸ List.mem_map.2 ⟨d, hd, rfl⟩)
          rw [List.find?_cons_of_neg (by simp [mkPlain, hne])]
          exact ih hn.2 hd
    simp only [this]
  obtain ⟨v, hv⟩ := hv
  obtain ⟨hok, hgrid⟩ := trace_grid (ev := ev) (σ₀ := σ) (W := ds.map Dim.var) v (ds.map mkPlain) σ
    (fun _ _ => rfl) (by
      intro f hf
      obtain ⟨d, hd, rfl⟩ := List.mem_map.1 hf
      exact List.mem_map.2 ⟨d, hd, rfl⟩) (by rw [hvar]; exact hn) (by
      intro f hf'
      obtain ⟨d, hd, rfl⟩ := List.mem_map.1 hf'
      rw [hv d hd]
      exact hf d hd)
  refine ⟨hok, ?_⟩
  have e1 : (fun τ : Env => (ds.map mkPlain).map fun f => τ f.var) = point ds := by
    funext τ; rw [List.map_map]; rfl
  have e2 : (ds.map mkPlain).map (fun f => rng (v f).L (v f).H (v f).I) =
      ds.map fun d => rng d.L d.H d.I := by
    rw [List.map_map]
    apply List.map_congr_left
    intro d hd
    simp [hv d hd]
  rw [← e1, hgrid, e2]

/-- **C31** (without tiling): the nest that `loop` builds for bounds and positive increments that do not
depend on the loop variables ends, has only one execution, and the points it visits are exactly the wanted
ones, in row-major (lexicographic) order, each once; other variables keep their values. -/
theorem C31_untiled (ev : Eval) (σ : Env) (ds : List Dim) (hn : (ds.map Dim.var).Nodup)
    (hf : ∀ d ∈ ds, Fixed ev σ (ds.map Dim.var) d.lo d.L ∧ Fixed ev σ (ds.map Dim.var) d.hi d.H ∧
      Fixed ev σ (ds.map Dim.var) d.inc d.I ∧ 0 < d.I) :
    ∃ (fs : List For) (tr : List Env),
      nest (ds.map Dim.var) (ds.map Dim.lo) (ds.map Dim.hi) (ds.map Dim.inc) (ds.map Dim.pragma) [] = .ok fs ∧
      Run ev fs none σ tr ∧ (∀ tr', Run ev fs none σ tr' → tr' = tr) ∧
      (tr.map (point ds)).Pairwise (List.Lex (· < ·)) ∧
      (∀ p, p ∈ tr.map (point ds) ↔ Wanted ds p) ∧
      ∀ τ ∈ tr, ∀ y, y ∉ ds.map Dim.var → τ y = σ y := by
  have hvar : (ds.map mkPlain).map For.var = ds.map Dim.var := by rw [List.map_map]; rfl
  obtain ⟨hok, hpt⟩ := untiled_grid ev σ ds hn hf
  refine ⟨_, trace ev (ds.map mkPlain) σ, nest_plain ds, (run_iff _ _ hok _).2 rfl,
    fun tr' h => (run_iff _ _ hok _).1 h, ?_, ?_, ?_⟩
  · rw [hpt]
    apply grid_sorted
    intro r hr
    obtain ⟨d, hd, rfl⟩ := List.mem_map.1 hr
    exact rng_sorted (hf d hd).2.2.2 _
  · intro p
    rw [hpt, wanted_iff (fun d hd => (hf d hd).2.2.2)]
  · intro τ hτ y hy
    exact trace_frame _ _ _ hτ y (by rw [hvar]; exact hy)

/-- C expressions that the tiled nest contains: block variables are variables, and `MIN(hi, varB + tile)` is
the smaller of the two. -/
structure TileSem (ev : Eval) (ds : List Dim) : Prop where
  block : ∀ d ∈ ds, ∀ τ : Env, ev d.block τ = τ d.block
  min : ∀ d ∈ ds, ∀ τ : Env,
    ev ((c% "MIN(") ++ d.hi ++ (c% ", ") ++ d.var ++ (c% "B + ") ++ d.tile ++ (c% ")")) τ =
      min (ev d.hi τ) (τ d.block + ev d.tile τ)

theorem exists_lookup {β : Type} [Inhabited β] (ds : List Dim) (hn : (ds.map Dim.var).Nodup) (mk : Dim → For)
    (hmk : ∀ d ∈ ds, ∀ e ∈ ds, (mk d).var = (mk e).var → d.var = e.var) (g : Dim → β) :
    ∃ v : For → β, ∀ d ∈ ds, v (mk d) = g d := by
  classical
  refine ⟨fun f => match ds.find? (fun d => (mk d).var = f.var) with
    | some d => g d
    | none => default, ?_⟩
  intro d hd
  have : ds.find? (fun e => (mk e).var = (mk d).var) = some d := by
    induction ds with
    | nil => cases hd
    | cons e ds ih =>
      rw [List.map_cons, List.nodup_cons] at hn
      by_cases hed : (mk e).var = (mk d).var
      · rw [List.find?_cons_of_pos (by simp [hed])]
        rcases List.mem_cons.1 hd with rfl | hd'
        · rfl
        · have := hmk e (by simp) d hd hed
          exact absurd (List.mem_map.2 ⟨d, hd', this.symm⟩) hn.1
      · rw [List.find?_cons_of_neg (by simp [hed])]
        rcases List.mem_cons.1 hd with rfl | hd'
        · exact absurd rfl hed
        · exact ih hn.2 (fun a ha b hb => hmk a (by simp [ha]) b (by simp [hb])) hd'
  simp only [this]

instance : Inhabited Vals := ⟨⟨0, 0, 0⟩⟩

/-- **C31** (with tiling, partial): if in each dimension the increment divides the tile size, the tiled nest
ends, has only one execution, and visits exactly the wanted points, each once.  Missing: increments that do
not divide the tile size, for which the claim is false (`C31_tiled_increment`). -/
theorem C31_tiled_partial (ev : Eval) (σ : Env) (ds : List Dim) (h0 : ds ≠ [])
    (hn : (ds.map Dim.var ++ ds.map Dim.block).Nodup) (hsem : TileSem ev ds)
    (hf : ∀ d ∈ ds, Fixed ev σ (ds.map Dim.var ++ ds.map Dim.block) d.lo d.L ∧
      Fixed ev σ (ds.map Dim.var ++ ds.map Dim.block) d.hi d.H ∧
      Fixed ev σ (ds.map Dim.var ++ ds.map Dim.block) d.inc d.I ∧
      Fixed ev σ (ds.map Dim.var ++ ds.map Dim.block) d.tile d.T ∧ 0 < d.I ∧ 0 < d.T ∧ d.I ∣ d.T) :
    ∃ (fs : List For) (tr : List Env),
      nest (ds.map Dim.var) (ds.map Dim.lo) (ds.map Dim.hi) (ds.map Dim.inc) (ds.map Dim.pragma)
        (ds.map Dim.tile) = .ok fs ∧
      Run ev fs none σ tr ∧ (∀ tr', Run ev fs none σ tr' → tr' = tr) ∧
      (tr.map (point ds)).Nodup ∧ (∀ p, p ∈ tr.map (point ds) ↔ Wanted ds p) := by
  obtain ⟨hn1, hn2, hdisj⟩ := List.nodup_append'.1 hn
  have hWext : ∀ τ : Env, (∀ y, y ∉ ds.map Dim.block → τ y = σ y) →
      ∀ y, y ∉ ds.map Dim.var ++ ds.map Dim.block → τ y = σ y := fun τ h y hy =>
    h y fun hc => hy (List.mem_append_right _ hc)
  obtain ⟨vE, hvE⟩ := exists_lookup ds hn1 mkExt (fun d _ e _ h => by
    simpa [mkExt] using h) (fun d => (⟨d.L, d.H, d.T⟩ : Vals))
  have hvarE : (ds.map mkExt).map For.var = ds.map Dim.block := by rw [List.map_map]; rfl
  have hvarI : (ds.map mkInner).map For.var = ds.map Dim.var := by rw [List.map_map]; rfl
  obtain ⟨hokE, hgridE⟩ := trace_grid (ev := ev) (σ₀ := σ) (W := ds.map Dim.block) vE (ds.map mkExt) σ
    (fun _ _ => rfl) (by
      intro f hf
      obtain ⟨d, hd, rfl⟩ := List.mem_map.1 hf
      exact List.mem_map.2 ⟨d, hd, rfl⟩) (by rw [hvarE]; exact hn2) (by
      intro f hf'
      obtain ⟨d, hd, rfl⟩ := List.mem_map.1 hf'
      rw [hvE d hd]
      obtain ⟨h1, h2, h3, h4, h5, h6, h7⟩ := hf d hd
      exact ⟨fun τ h => h1 τ (hWext τ h), fun τ h => h2 τ (hWext τ h), fun τ h => h4 τ (hWext τ h), h6⟩)
  -- the inner loops, for given block variables
  have inner : ∀ τ : Env, (∀ y, y ∉ ds.map Dim.block → τ y = σ y) →
      OkNest ev (ds.map mkInner) τ ∧ (trace ev (ds.map mkInner) τ).map (point ds) =
        grid (ds.map fun d => rng (τ d.block) (min d.H (τ d.block + d.T)) d.I) := by
    intro τ hτ
    obtain ⟨vI, hvI⟩ := exists_lookup ds hn1 mkInner (fun d _ e _ h => h)
      (fun d => (⟨τ d.block, min d.H (τ d.block + d.T), d.I⟩ : Vals))
    have hW : ∀ υ : Env, (∀ y, y ∉ ds.map Dim.var → υ y = τ y) →
        ∀ y, y ∉ ds.map Dim.var ++ ds.map Dim.block → υ y = σ y := by
      intro υ h y hy
      rw [h y fun hc => hy (List.mem_append_left _ hc), hτ y fun hc => hy (List.mem_append_right _ hc)]
    have hb : ∀ υ : Env, (∀ y, y ∉ ds.map Dim.var → υ y = τ y) → ∀ d ∈ ds, υ d.block = τ d.block :=
      fun υ h d hd => h _ fun hc => hdisj hc (List.mem_map.2 ⟨d, hd, rfl⟩)
    obtain ⟨hok, hgrid⟩ := trace_grid (ev := ev) (σ₀ := τ) (W := ds.map Dim.var) vI (ds.map mkInner) τ
      (fun _ _ => rfl) (by
        intro f hf
        obtain ⟨d, hd, rfl⟩ := List.mem_map.1 hf
        exact List.mem_map.2 ⟨d, hd, rfl⟩) (by rw [hvarI]; exact hn1) (by
        intro f hf'
        obtain ⟨d, hd, rfl⟩ := List.mem_map.1 hf'
        rw [hvI d hd]
        obtain ⟨h1, h2, h3, h4, h5, h6, h7⟩ := hf d hd
        refine ⟨fun υ h => ?_, fun υ h => ?_, fun υ h => h3 υ (hW υ h), h5⟩
        · show ev d.block υ = _
          rw [hsem.block d hd, hb υ h d hd]
        · show ev (minText d) υ = _
          rw [minText, hsem.min d hd, h2 υ (hW υ h), h4 υ (hW υ h), hb υ h d hd])
    refine ⟨hok, ?_⟩
    have e1 : (fun υ : Env => (ds.map mkInner).map fun f => υ f.var) = point ds := by
      funext υ; rw [List.map_map]; rfl
    rw [← e1, hgrid, List.map_map]
    congr 1
    apply List.map_congr_left
    intro d hd
    simp [hvI d hd]
  -- all loops
  have hokall : OkNest ev (ds.map mkExt ++ ds.map mkInner) σ := by
    have : ∀ (es : List For) (τ : Env), (∀ f ∈ es, f.var ∈ ds.map Dim.block) →
        (∀ y, y ∉ ds.map Dim.block → τ y = σ y) → OkNest ev es τ → OkNest ev (es ++ ds.map mkInner) τ := by
      intro es
      induction es with
      | nil => intro τ _ hτ _; exact (inner τ hτ).1
      | cons f es ih =>
        intro τ hes hτ hok
        refine ⟨hok.1, fun x => ⟨(hok.2 x).1, (hok.2 x).2.1, ih _ (fun g hg => hes g (by simp [hg])) ?_
          (hok.2 x).2.2⟩⟩
        intro y hy
        have : y ≠ f.var := fun h => hy (h ▸ hes f (by simp))
        rw [upd, if_neg this, hτ y hy]
    refine this _ σ ?_ (fun _ _ => rfl) hokE
    intro f hf
    obtain ⟨d, hd, rfl⟩ := List.mem_map.1 hf
    exact List.mem_map.2 ⟨d, hd, rfl⟩
  have hperm : ((trace ev (ds.map mkExt ++ ds.map mkInner) σ).map (point ds)).Perm
      (grid (ds.map fun d => rng d.L d.H d.I)) := by
    have e1 : (trace ev (ds.map mkExt) σ).map (fun τ => ds.map fun d => τ d.block) =
        grid (ds.map fun d => rng d.L d.H d.T) := by
      have a1 : (fun τ : Env => (ds.map mkExt).map fun f => τ f.var) = fun τ => ds.map fun d => τ d.block := by
        funext τ; rw [List.map_map]; rfl
      have a2 : (ds.map mkExt).map (fun f => rng (vE f).L (vE f).H (vE f).I) =
          ds.map fun d => rng d.L d.H d.T := by
        rw [List.map_map]
        apply List.map_congr_left
        intro d hd
        simp [hvE d hd]
      rw [← a1, hgridE, a2]
    rw [trace_append, List.map_flatMap]
    have e2 : (trace ev (ds.map mkExt) σ).flatMap (fun τ => (trace ev (ds.map mkInner) τ).map (point ds)) =
        (trace ev (ds.map mkExt) σ).flatMap (fun τ =>
          grid (List.zipWith (fun (d : Dim) t => rng t (min d.H (t + d.T)) d.I) ds
            (ds.map fun d => τ d.block))) := by
      apply List.flatMap_congr
      intro τ hτ
      rw [(inner τ fun y hy => trace_frame _ _ _ hτ y (by rw [hvarE]; exact hy)).2]
      congr 1
      rw [List.zipWith_map_right, List.zipWith_self]
    rw [e2, ← List.flatMap_map (f := fun τ : Env => ds.map fun d => τ d.block)
      (g := fun t => grid (List.zipWith (fun (d : Dim) t => rng t (min d.H (t + d.T)) d.I) ds t)), e1]
    exact grid_tiles _ _ _ ds fun d hd => rng_tiles (hf d hd).2.2.2.2.1 (hf d hd).2.2.2.2.2.1
      (hf d hd).2.2.2.2.2.2 _
  have hI : ∀ d ∈ ds, 0 < d.I := fun d hd => (hf d hd).2.2.2.2.1
  refine ⟨_, trace ev (ds.map mkExt ++ ds.map mkInner) σ, nest_tiled ds h0, (run_iff _ _ hokall _).2 rfl,
    fun tr' h => (run_iff _ _ hokall _).1 h, ?_, ?_⟩
  · rw [hperm.nodup_iff]
    refine (grid_sorted _ ?_).imp fun {a b} hab => ?_
    · intro r hr
      obtain ⟨d, hd, rfl⟩ := List.mem_map.1 hr
      exact rng_sorted (hI d hd) _
    · rintro rfl
      exact absurd hab (List.lex_irrefl (fun a => lt_irrefl a) a)
  · intro p
    rw [hperm.mem_iff, wanted_iff hI]

theorem loopText_plain (ds : List Dim) (body : Str) :
    loopText (ds.map Dim.var) (ds.map Dim.lo) (ds.map Dim.hi) (ds.map Dim.inc) (ds.map Dim.pragma) [] body =
      .ok ((ds.map fun d => header ⟨d.var, d.lo, d.hi, d.inc, d.pragma⟩).flatten ++ bodyText body ++
        (ds.reverse.map fun d => footer ⟨d.var, d.lo, d.hi, d.inc, d.pragma⟩).flatten) := by
  unfold loopText
  rw [nest_plain]
  simp only [bind, Except.bind, pure, Except.pure, List.map_map, List.map_reverse]
  rfl

/-- C text that consists of nested `for` loops with the given parameters around a body: each loop is an optional
pragma line, a header `for (int v = lo; v < hi; step) {` whose step is `v++` for increment 1 or `v += inc`, the
inner text, and a closing brace followed by a comment that ends with the line. -/
inductive CNest (body : Str) : List For → Str → Prop
  | body : CNest body [] body
  | loop (v lo hi inc pragma step comment inner : Str) (fs : List For) :
      (step = v ++ (c% "++") ∧ inc = (c% "1")) ∨ step = v ++ (c% " += ") ++ inc →
      '\n' ∉ comment → CNest body fs inner →
      CNest body (⟨v, lo, hi, inc, pragma⟩ :: fs)
        ((if pragma = [] then [] else pragma ++ (c% "\n")) ++
          (c% "for (int ") ++ v ++ (c% " = ") ++ lo ++ (c% "; ") ++ v ++ (c% " < ") ++ hi ++ (c% "; ") ++ step ++
          (c% ") {\n") ++ inner ++ (c% "} // ") ++ comment ++ (c% "\n"))

theorem cnest_text (b : Str) (fs : List For)
    (h : ∀ f ∈ fs, '\n' ∉ f.var ∧ '\n' ∉ f.lo ∧ '\n' ∉ f.hi ∧ '\n' ∉ f.inc) :
    CNest b fs ((fs.map header).flatten ++ b ++ (fs.map footer).reverse.flatten) := by
  induction fs with
  | nil => simpa using CNest.body
  | cons f fs ih =>
    obtain ⟨v, lo, hi, inc, pragma⟩ := f
    obtain ⟨h1, h2, h3, h4⟩ := h _ List.mem_cons_self
    have ih := ih fun f hf => h f (List.mem_cons_of_mem _ hf)
    have hc : '\n' ∉ (c% "END LOOP: ") ++ forLine ⟨v, lo, hi, inc, pragma⟩ := by
      unfold forLine
      by_cases hi1 : inc ≠ (c% "1")
      · rw [if_pos hi1]
        simp only [List.mem_append, not_or]
        refine ⟨by decide, ⟨⟨⟨⟨⟨⟨⟨⟨⟨⟨by decide, h1⟩, by decide⟩, h2⟩, by decide⟩, h1⟩, by decide⟩, h3⟩, by decide⟩, h1⟩,
          by decide, h4⟩, by decide⟩
      · rw [if_neg hi1]
        simp only [List.mem_append, not_or]
        refine ⟨by decide, ⟨⟨⟨⟨⟨⟨⟨⟨⟨⟨by decide, h1⟩, by decide⟩, h2⟩, by decide⟩, h1⟩, by decide⟩, h3⟩, by decide⟩, h1⟩,
          by decide⟩, by decide⟩
    have key := CNest.loop (body := b) v lo hi inc pragma
      (v ++ if inc ≠ (c% "1") then (c% " += ") ++ inc else (c% "++")) _ _ fs (by
        by_cases hi1 : inc ≠ (c% "1")
        · rw [if_pos hi1]
          exact .inr (by simp)
        · rw [if_neg hi1]
          exact .inl ⟨rfl, not_not.1 hi1⟩) hc ih
    convert key using 1
    simp only [List.map_cons, List.flatten_cons, List.reverse_cons, List.flatten_append, List.flatten_nil,
      List.append_nil, header, footer]
    generalize hX : (List.map header fs).flatten ++ b ++ (List.map footer fs).reverse.flatten = X
    have e : ∀ A B : Str, A ++ (List.map header fs).flatten ++ b ++ ((List.map footer fs).reverse.flatten ++ B) =
        A ++ X ++ B := by
      intro A B
      rw [← hX]
      simp only [List.append_assoc]
    rw [e]
    unfold forLine
    by_cases hp : pragma = []
    · simp [hp]
    · simp [hp]

/-- **C31** (text): whenever the arguments are accepted and contain no newline, the text of `loop` is the C nest with
the loops `nest` computes, around the body; tiled or not. -/
theorem C31_text (var lo hi inc pragma tile : List Str) (body : Str) (fs : List For)
    (hok : nest var lo hi inc pragma tile = .ok fs)
    (h : ∀ f ∈ fs, '\n' ∉ f.var ∧ '\n' ∉ f.lo ∧ '\n' ∉ f.hi ∧ '\n' ∉ f.inc) :
    ∃ t, loopText var lo hi inc pragma tile body = .ok t ∧
      CNest (if body = [] then [] else body ++ (c% "\n")) fs t := by
  refine ⟨_, ?_, cnest_text _ fs h⟩
  unfold loopText
  rw [hok]
  rfl

/-- A tiled nest of two loops to which `C31_text` applies. -/
example : ∃ fs, nest [(c% "i"), (c% "j")] [(c% "0"), (c% "0")] [(c% "N"), (c% "M")] [(c% "1"), (c% "2")]
    [(c% "#pragma omp parallel for"), []] [(c% "16"), (c% "8")] = .ok fs ∧ fs.length = 4 ∧
    ∀ f ∈ fs, '\n' ∉ f.var ∧ '\n' ∉ f.lo ∧ '\n' ∉ f.hi ∧ '\n' ∉ f.inc := by
  refine ⟨_, rfl, rfl, ?_⟩
  decide

/-- **C31** (errors): lists of different lengths are rejected, and so is a list of tile sizes that is too
short. -/
theorem C31_lengths (var lo hi inc pragma tile : List Str)
    (h : lo.length ≠ var.length ∨ hi.length ≠ var.length ∨ inc.length ≠ var.length ∨
      pragma.length ≠ var.length) : nest var lo hi inc pragma tile = .error .valueError := by
  unfold nest
  rw [if_pos h]

/-! ### A concrete case -/

/-- Meaning of the expressions in the example. -/
def exEv (tile : Int) : Eval := fun s τ =>
  if s = (c% "0") then 0 else if s = (c% "6") then 6 else if s = (c% "2") then 2
  else if s = (c% "T") then tile
  else if s = (c% "MIN(6, iB + T)") then min 6 (τ (c% "iB") + tile) else τ s

/-- `for (i = 0; i < 6; i += 2)` with tile size `T`. -/
def exDim (tile : Int) : Dim := ⟨(c% "i"), (c% "0"), (c% "6"), (c% "2"), [], (c% "T"), 0, 6, 2, tile⟩

example : ([exDim 4].map Dim.var ++ [exDim 4].map Dim.block).Nodup ∧ TileSem (exEv 4) [exDim 4] ∧
    ∀ d ∈ [exDim 4], Fixed (exEv 4) (fun _ => 0) ([exDim 4].map Dim.var ++ [exDim 4].map Dim.block) d.lo d.L ∧
      Fixed (exEv 4) (fun _ => 0) ([exDim 4].map Dim.var ++ [exDim 4].map Dim.block) d.hi d.H ∧
      Fixed (exEv 4) (fun _ => 0) ([exDim 4].map Dim.var ++ [exDim 4].map Dim.block) d.inc d.I ∧
      Fixed (exEv 4) (fun _ => 0) ([exDim 4].map Dim.var ++ [exDim 4].map Dim.block) d.tile d.T ∧
      0 < d.I ∧ 0 < d.T ∧ d.I ∣ d.T := by
  refine ⟨by decide, ⟨?_, ?_⟩, ?_⟩
  · intro d hd τ
    simp only [List.mem_singleton] at hd
    subst hd
    simp [exEv, exDim, Dim.block]
  · intro d hd τ
    simp only [List.mem_singleton] at hd
    subst hd
    simp [exEv, exDim, Dim.block]
  · intro d hd
    simp only [List.mem_singleton] at hd
    subst hd
    refine ⟨fun τ _ => ?_, fun τ _ => ?_, fun τ _ => ?_, fun τ _ => ?_, ?_, ?_, ?_⟩ <;> simp [exEv, exDim]

/-- **C31 is violated** if the increment does not divide the tile size: asked for 0, 2, 4, the nest with
increment 2 and tile size 3 visits 0, 2, 3, 5. -/
theorem C31_tiled_increment : ∃ (fs : List For) (tr : List Env),
    nest [(c% "i")] [(c% "0")] [(c% "6")] [(c% "2")] [[]] [(c% "T")] = .ok fs ∧
    TileSem (exEv 3) [exDim 3] ∧ Run (exEv 3) fs none (fun _ => 0) tr ∧
    tr.map (point [exDim 3]) = [[0], [2], [3], [5]] ∧
    Wanted [exDim 3] [4] ∧ ¬ Wanted [exDim 3] [3] := by
  refine ⟨_, trace (exEv 3) ([exDim 3].map mkExt ++ [exDim 3].map mkInner) fun _ => 0, nest_tiled [exDim 3] (by simp),
    ⟨?_, ?_⟩, (run_iff _ _ ?_ _).2 rfl, by decide +kernel, ?_, ?_⟩
  · intro d hd τ
    simp only [List.mem_singleton] at hd
    subst hd
    simp [exEv, exDim, Dim.block]
  · intro d hd τ
    simp only [List.mem_singleton] at hd
    subst hd
    simp [exEv, exDim, Dim.block]
  · refine ⟨by simp [mkExt, exDim, exEv], fun x => ⟨?_, ?_, ?_, fun y => ⟨?_, ?_, trivial⟩⟩⟩ <;>
      simp [mkExt, exDim, exEv, mkInner, upd, minText]
  · exact .cons ⟨by decide, by decide, by decide⟩ .nil
  · intro h
    cases h with
    | cons h _ => exact absurd h.2.2 (by decide)

end Verif.Loop
