import Verif.CurviBC.EigenClaims

/-!
# C67: partners of ghost points; C68: parities

For every coordinate system a name can stand for, with its eigencoordinate system.
-/
namespace Verif.CurviBC
open Verif.Py Verif.RefMetric Real

section
variable {P : CoordParams} (hP : ValidParams P) {name : Str} {c : Coords} (h : choose P name = .sys c) {e : Str} {eig : Coords}
  (he : eigenName name = some e) (hE : choose P e = .sys eig) {eps : ℝ} (hε : 0 < eps) {G : Grid} (hG : GoodGrid name c G)
include hP h he hE hε hG

/-! ### C67 -/

/-- Every grid point has a partner, which is the same point of space and is in the interior or on the outer boundary; a
point of the interior is its own partner. -/
theorem C67_partner {p : Idx} (hp : G.Has p) : ∃ q, partner eps G c eig p = some q ∧
    c.toCart (xxAt G c q) = c.toCart (xxAt G c p) ∧ G.Has q ∧ (G.Ghost q → Outer G (mapsOf eps G c eig) q) ∧
    (¬ G.Ghost p → q = p) := by
  obtain ⟨fold, sg, F⟩ := folds_of hP h he hE hε hG
  refine ⟨fold p, F.partner p hp, F.same p hp, F.has hp, fun hg => ⟨hg, (F.settled hp).2 hg⟩, fun hg => ?_⟩
  refine F.id p hp fun d => ?_
  unfold Grid.Ghost at hg
  push Not at hg
  have := hg hp d
  have := F.lo_mem d
  have := F.hi_mem d
  constructor <;> omega

/-- The outer boundary points are the ghost points at ends of directions where the grid ends in space: `outerEnds` lists
these for each system. -/
theorem C67_outer {p : Idx} (hg : G.Ghost p) : Outer G (mapsOf eps G c eig) p ↔
    ∀ d, (p d < G.g → (outerEnds name d).1 = true) ∧ (G.n d - G.g ≤ p d → (outerEnds name d).2 = true) := by
  obtain ⟨fold, sg, F⟩ := folds_of hP h he hE hε hG
  unfold Outer
  rw [and_iff_right hg]
  have ob := F.ownBox (K := 1) (by norm_num) fun d => by have := hG.size d; omega
  rw [ob.own p hg]
  refine forall_congr' fun d => ?_
  have hd := hg.1 d
  have hs := hG.size d
  unfold ownLo ownHi
  cases (outerEnds name d).1 <;> cases (outerEnds name d).2 <;> simp <;> omega

/-- The set-up of the boundary conditions succeeds, and the theorems of C65 and C66 apply. -/
theorem C67_set_up : (∃ bc, setUp G (mapsOf eps G c eig) = some bc) ∧ PartnersSettled G (mapsOf eps G c eig) ∧
    ((∀ d, 3 ≤ G.n d - 2 * G.g) → OwnBox G (mapsOf eps G c eig) 3 (ownLo name G) (ownHi name G)) := by
  obtain ⟨fold, sg, F⟩ := folds_of hP h he hE hε hG
  exact ⟨F.setUp hε.le fun d => by have := hG.size d; omega, F.partnersSettled,
    fun h3 => F.ownBox (by norm_num) fun d => by have := h3 d; omega⟩

/-- With at least three interior points in each direction: after `bcstruct_set_up` and
`apply_bcs_outerextrap_and_inner` all ghost points are determined by the interior, whatever the ghost zones held before
and whatever the order inside of the parallel loops, and the interior is unchanged. -/
theorem C67_all_filled (h3 : ∀ d, 3 ≤ G.n d - 2 * G.g) : ∃ bc, setUp G (mapsOf eps G c eig) = some bc ∧
    ∀ (nGfs : ℕ) (types : ℕ → Fin 10) (gf : ℕ), gf < nGfs → ∃ val : (Idx → ℝ) → Idx → ℝ, ∀ s s' : Mem,
      Runs (extrapLoops G bc nGfs types) s s' → (∀ p, G.Has p → ¬ G.Ghost p → gfAt G s' gf p = gfAt G s gf p) ∧
      ∀ f : Idx → ℝ, (∀ p, G.Has p → ¬ G.Ghost p → gfAt G s gf p = f p) → ∀ p, G.Has p → gfAt G s' gf p = val f p := by
  obtain ⟨⟨bc, hbc⟩, hm, ho⟩ := C67_set_up hP h he hE hε hG
  have ob := ho h3
  refine ⟨bc, hbc, fun nGfs types gf hgf => ?_⟩
  classical
  refine ⟨fun f p => if hx : ∃ v, ∃ s s' : Mem, Runs (extrapLoops G bc nGfs types) s s' ∧
    (∀ p, G.Has p → ¬ G.Ghost p → gfAt G s gf p = f p) ∧ gfAt G s' gf p = v then hx.choose else 0,
    fun s s' hr => ⟨fun p hp hg => (C65_result ob hm hbc hr).1 p hp gf (.inl hg), fun f hf p hp => ?_⟩⟩
  have hx : ∃ v, ∃ s s' : Mem, Runs (extrapLoops G bc nGfs types) s s' ∧
      (∀ p, G.Has p → ¬ G.Ghost p → gfAt G s gf p = f p) ∧ gfAt G s' gf p = v := ⟨_, s, s', hr, hf, rfl⟩
  simp only []
  rw [dif_pos hx]
  obtain ⟨s₂, s₂', hr₂, hf₂, hv⟩ := hx.choose_spec
  rw [← hv]
  exact C65_determined ob hm hbc hr hr₂ hgf (fun p hp hg => by rw [hf p hp hg, hf₂ p hp hg]) p hp

/-! ### C68 -/

omit hP h he hE hε hG in
/-- A component, in the orthonormal basis of the coordinate system, of a field on space given by its Cartesian components:
a scalar, component `i` of a vector, or component `i j` of a tensor. -/
inductive Comp
  | scalar (f : Vec → ℝ)
  | vector (V : Vec → Vec) (i : Fin 3)
  | tensor (T : Vec → Fin 3 → Vec) (i j : Fin 3)

omit hP h he hE hε hG in
/-- The indices at the end of the name of the gridfunction. -/
def Comp.indices : Comp → List ℕ
  | .scalar _ => []
  | .vector _ i => [i]
  | .tensor _ i j => [i, j]

omit hP h he hE hε hG in
/-- The value of the component at the point with coordinates `x`. -/
noncomputable def Comp.value (c : Coords) (x : Vec) : Comp → ℝ
  | .scalar f => f (c.toCart x)
  | .vector V i => ∑ a, V (c.toCart x) a * c.unit x i a
  | .tensor T i j => ∑ a, ∑ b, T (c.toCart x) a b * c.unit x i a * c.unit x j b

omit hP h he hE hε hG in
theorem Folds.value {eps : ℝ} (he : 0 ≤ eps) {G : Grid} {orig eig : Coords} {fold : Idx → Idx} {sg : Idx → Fin 3 → ℝ}
    {lo hi : Idx} (F : Folds eps G orig eig fold sg lo hi) {p : Idx} (hp : G.Has p) {g : Verif.Grid.GF} {base : Str}
    (C : Comp) (hg : Verif.Grid.IsComponent g base C.indices) (hd : g.dimension = 3) {t : Fin 10}
    (ht : Verif.Grid.parityOf g = .ok (t : ℕ)) {par : Fin 10 → ℤ} (hpar : CurviBC.parity eps G orig p (fold p) = some par) :
    C.value orig (xxAt G orig p) = par t * C.value orig (xxAt G orig (fold p)) := by
  obtain ⟨par', h1, -, h2⟩ := F.parity he hp
  rw [h1] at hpar
  cases hpar
  have hr : g.rank ≤ 2 := by rw [hg.rank]; cases C <;> simp [Comp.indices]
  obtain ⟨q, hq, hv⟩ := Verif.Grid.C09_parity_partial (K := ℝ) g base C.indices hg hr (.inl hd)
  rw [ht] at hq
  cases hq
  have hp' : ((par t : ℤ) : ℝ) = (C.indices.map (Verif.Grid.indexSign g.dimension (numSign (sg p)))).prod := by
    rw [h2 t, List.getD_eq_getElem?_getD, hv]; rfl
  have sq : ∀ k, sg p k * sg p k = 1 := fun k => by rcases F.signs p k with e | e <;> rw [e] <;> norm_num
  have ns : ∀ k : Fin 3, numSign (sg p) k = sg p k := fun k => by simp [numSign]
  rw [hp', hd]
  cases C with
  | scalar f => simp [Comp.value, Comp.indices, F.same p hp]
  | vector V i =>
    simp only [Comp.value, Comp.indices, F.same p hp, F.units p hp, Verif.Grid.indexSign, List.map_cons, List.map_nil,
      List.prod_cons, List.prod_nil, ns, mul_one, Finset.mul_sum]
    simp only [show (3 : ℕ) ≠ 4 from by norm_num, if_false, ns]
    refine Finset.sum_congr rfl fun a _ => ?_
    linear_combination (-(V (orig.toCart (xxAt G orig p)) a * orig.unit (xxAt G orig p) i a)) * sq i
  | tensor T i j =>
    simp only [Comp.value, Comp.indices, F.same p hp, F.units p hp, Verif.Grid.indexSign, List.map_cons, List.map_nil,
      List.prod_cons, List.prod_nil, mul_one, Finset.mul_sum]
    simp only [show (3 : ℕ) ≠ 4 from by norm_num, if_false, ns]
    refine Finset.sum_congr rfl fun a _ => Finset.sum_congr rfl fun b _ => ?_
    have si := sq i
    have sj := sq j
    linear_combination (-(T (orig.toCart (xxAt G orig p)) a b * orig.unit (xxAt G orig p) i a * orig.unit (xxAt G orig p) j b)) *
      (sg p i * sg p i * sj + si)

/-- The parities of every pair of partners are found and are plus or minus one. -/
theorem C68_signs {p q : Idx} (hp : G.Has p) (hq : partner eps G c eig p = some q) :
    ∃ par, parity eps G c p q = some par ∧ ∀ k, par k = 1 ∨ par k = -1 := by
  obtain ⟨fold, sg, F⟩ := folds_of hP h he hE hε hG
  rw [F.partner p hp] at hq
  cases hq
  obtain ⟨par, h1, h2, -⟩ := F.parity hε.le hp
  exact ⟨par, h1, h2⟩

/-- The value of a component at a point is its value at the partner times the parity of the type that `set_parity_types`
gives the gridfunction. -/
theorem C68_component {p q : Idx} (hp : G.Has p) (hq : partner eps G c eig p = some q) {par : Fin 10 → ℤ}
    (hpar : parity eps G c p q = some par) {g : Verif.Grid.GF} {base : Str} (C : Comp)
    (hg : Verif.Grid.IsComponent g base C.indices) (hd : g.dimension = 3) {t : Fin 10}
    (ht : Verif.Grid.parityOf g = .ok (t : ℕ)) :
    C.value c (xxAt G c p) = par t * C.value c (xxAt G c q) := by
  obtain ⟨fold, sg, F⟩ := folds_of hP h he hE hε hG
  rw [F.partner p hp] at hq
  cases hq
  exact F.value hε.le hp C hg hd ht hpar

/-- If a gridfunction has, in the interior and at the outer points, the values of a component of a field, then after
`apply_bcs_inner_only` it has them at all grid points. -/
theorem C68_field {bc : BcStruct} (hbc : setUp G (mapsOf eps G c eig) = some bc) {nGfs : ℕ} {types : ℕ → Fin 10} {s s' : Mem}
    (hr : RunsLoop (innerAsgs G bc nGfs types) s s') {gf : ℕ} (hgf : gf < nGfs) {g : Verif.Grid.GF} {base : Str} (C : Comp)
    (hg : Verif.Grid.IsComponent g base C.indices) (hd : g.dimension = 3)
    (ht : Verif.Grid.parityOf g = .ok (types gf : ℕ))
    (hs : ∀ q, G.Has q → (G.Ghost q → Outer G (mapsOf eps G c eig) q) → gfAt G s gf q = C.value c (xxAt G c q)) :
    ∀ p, G.Has p → gfAt G s' gf p = C.value c (xxAt G c p) := by
  obtain ⟨-, hm, -⟩ := C67_set_up hP h he hE hε hG
  obtain ⟨r1, r2, -⟩ := C66_inner hm hbc hr
  intro p hp
  obtain ⟨q, hq, -, hqG, hqo, -⟩ := C67_partner hP h he hE hε hG hp
  by_cases ho : G.Ghost p → Outer G (mapsOf eps G c eig) p
  · rw [← hs p hp ho]
    refine r2 p ?_ hp gf
    by_cases hgp : G.Ghost p
    · exact .inr (ho hgp)
    · exact .inl hgp
  · push Not at ho
    have hne : q ≠ p := by
      rintro rfl
      exact ho.2 ⟨ho.1, hq⟩
    obtain ⟨par, hpar, -⟩ := C68_signs hP h he hE hε hG hp hq
    rw [(r1 p q par ho.1 hq hne hpar gf hgf).1, hs q hqG hqo]
    exact (C68_component hP h he hE hε hG hp hq hpar C hg hd ht).symm

end

/-- Rounding does not change the partner's index: a coordinate less than half a cell from a grid point gives the index of
that point. -/
theorem C67_rounding {G : Grid} {c : Coords} {d : Fin 3} (hn : 2 * (G.g : ℤ) < G.n d) (hr : c.xxmin d < c.xxmax d) {j : ℤ}
    (hj : 0 ≤ j) {y : ℝ} (hy : |y - xx G c d j| < dxx G c d / 2) : inbounds G c d y = j :=
  inbounds_near (dxx_pos hn hr) hj hy

/-! ### The hypotheses can be met -/

/-- A grid of 4×4×4 interior points with two ghost zones. -/
def demoGrid : Grid := ⟨![8, 8, 8], 2⟩

theorem demo_good : GoodGrid (c% "Spherical") (spherical demo.rmax) demoGrid := by
  refine ⟨fun d => ?_, fun d => ?_, fun d _ => ?_, fun h => ?_, fun h => ?_⟩
  · fin_cases d <;> simp [demoGrid]
  · have := pi_pos
    fin_cases d <;> simp [spherical, sphericalLike, demo] <;> linarith
  · fin_cases d <;> simp [demoGrid]
  · rcases h with h | h <;> exact absurd h (by decide)
  · exact absurd h (by decide)

/-- The first ghost point beyond the origin: its partner is across. -/
example : partner (1 / 10 ^ 8) demoGrid (spherical demo.rmax) (spherical demo.rmax) ![1, 2, 2] = some ![2, 5, 4] := by
  have hG := demo_good
  have F := Folds_sph (eps := 1 / 10 ^ 8) (by positivity) (f0 := true) (f1 := true)
    (sphGrid_of hG (by decide) rfl rfl (fun _ => rfl) (fun _ => ⟨rfl, rfl⟩) (fun h => absurd h (by decide)))
    (r := fun t => t) (fun t => rfl) (spherical demo.rmax).ofCart demo.rmax
  refine (F.partner ![1, 2, 2] (by intro d; fin_cases d <;> simp [demoGrid])).trans ?_
  decide

example : ∃ bc, setUp demoGrid (mapsOf (1 / 10 ^ 8) demoGrid (spherical demo.rmax) (spherical demo.rmax)) = some bc :=
  (C67_set_up demo_valid (choose_spherical demo) (by decide) (choose_spherical demo) (by positivity) demo_good).1

end Verif.CurviBC
