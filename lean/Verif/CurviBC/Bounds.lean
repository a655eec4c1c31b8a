import Verif.CurviBC.RadiationClaims

/-!
# Memory accesses of the boundary conditions

For C65, C66, C67 and C69: all addresses are inside of the array of gridfunctions, and what goes wrong on grids that are
too small.
-/
namespace Verif.CurviBC
open Verif.RefMetric

/-- The array holds gridfunctions `0` to `nGfs - 1`. -/
def InArray (G : Grid) (nGfs : ℕ) (a : ℤ) : Prop := 0 ≤ a ∧ a < G.n 0 * G.n 1 * G.n 2 * nGfs

theorem inArray {G : Grid} {nGfs gf : ℕ} (hgf : gf < nGfs) {p : Idx} (hp : G.Has p) : InArray G nGfs (G.pt gf (G.at p)) := by
  unfold InArray
  rw [Grid.pt_at]
  obtain ⟨a0, b0⟩ := hp 0
  obtain ⟨a1, b1⟩ := hp 1
  obtain ⟨a2, b2⟩ := hp 2
  have n0 : 0 < G.n 0 := by omega
  have n1 : 0 < G.n 1 := by omega
  have n2 : 0 < G.n 2 := by omega
  have hg : (gf : ℤ) + 1 ≤ nGfs := by exact_mod_cast hgf
  have h2 : p 2 + G.n 2 * gf + 1 ≤ G.n 2 * nGfs := by nlinarith
  have h1 : p 1 + G.n 1 * (p 2 + G.n 2 * gf) + 1 ≤ G.n 1 * (G.n 2 * nGfs) := by nlinarith
  have h0 : p 0 + G.n 0 * (p 1 + G.n 1 * (p 2 + G.n 2 * gf)) + 1 ≤ G.n 0 * (G.n 1 * (G.n 2 * nGfs)) := by nlinarith
  refine ⟨by positivity, ?_⟩
  have : G.n 0 * G.n 1 * G.n 2 * nGfs = G.n 0 * (G.n 1 * (G.n 2 * nGfs)) := by ring
  omega

theorem inner_bounds {G : Grid} {m : Maps} (hm : PartnersSettled G m) {bc : BcStruct} (h : setUp G m = some bc) {nGfs : ℕ}
    {types : ℕ → Fin 10} {x : Asg} (hx : x ∈ innerAsgs G bc nGfs types) {a : ℤ} (ha : a ∈ x.dst :: x.reads) :
    InArray G nGfs a := by
  obtain ⟨e, he, gf, hgf, rfl⟩ := (mem_innerAsgs h).1 hx
  obtain ⟨p, q, par, hg, hq, -, -, rfl⟩ := (C64_inner h e).1 he
  simp only [List.mem_cons, List.not_mem_nil, or_false] at ha
  rcases ha with rfl | rfl
  · exact inArray hgf hg.1
  · exact inArray hgf (hm p q hg hq).1

theorem face_bounds {G : Grid} {m : Maps} {K : ℤ} {lo hi : Idx} (ob : OwnBox G m K lo hi) {bc : BcStruct}
    (h : setUp G m = some bc) {nGfs : ℕ} {ks : List ℤ} (hks : ∀ k ∈ ks, 1 ≤ k ∧ k ≤ K)
    {val : ℕ → OuterPt → List ℝ → ℝ} {gz : ℕ} (hz : gz < G.g) {d : Fin 3} {x : Asg}
    (hx : x ∈ faceAsgs G bc nGfs ks val gz d) {a : ℤ} (ha : a ∈ x.dst :: x.reads) : InArray G nGfs a := by
  obtain ⟨b, hb, gf, hgf, rfl⟩ := (mem_faceAsgs h).1 hx
  obtain ⟨u, hu, ho, hf⟩ := outer_face h hz hb
  simp only [List.mem_cons, List.mem_map] at ha
  rcases ha with rfl | ⟨k, hk, rfl⟩
  · exact inArray hgf (ghost_of_face ob.nonneg hz hu).1
  · exact inArray hgf (step_filled ob hz hu ho hf (hks k hk).1 (hks k hk).2).2.1

/-- **C66**: `apply_bcs_inner_only` reads and writes only inside of the array. -/
theorem C66_bounds {G : Grid} {m : Maps} (hm : PartnersSettled G m) {bc : BcStruct} (h : setUp G m = some bc) (nGfs : ℕ)
    (types : ℕ → Fin 10) : ∀ x ∈ innerAsgs G bc nGfs types, ∀ a ∈ x.dst :: x.reads, InArray G nGfs a :=
  fun _ hx _ ha => inner_bounds hm h hx ha

/-- **C65**: `apply_bcs_outerextrap_and_inner` reads and writes only inside of the array. -/
theorem C65_bounds {G : Grid} {m : Maps} {lo hi : Idx} (ob : OwnBox G m 3 lo hi) (hm : PartnersSettled G m) {bc : BcStruct}
    (h : setUp G m = some bc) (nGfs : ℕ) (types : ℕ → Fin 10) :
    ∀ l ∈ extrapLoops G bc nGfs types, ∀ x ∈ l, ∀ a ∈ x.dst :: x.reads, InArray G nGfs a := by
  intro l hl x hx a ha
  rw [extrapLoops_eq, List.mem_append, List.mem_singleton, List.mem_flatMap] at hl
  rcases hl with ⟨gz, hz, hl⟩ | rfl
  · obtain ⟨d, -, rfl⟩ := List.mem_map.1 hl
    exact face_bounds ob h (by decide) (List.mem_range.1 hz) hx ha
  · exact inner_bounds hm h hx ha

/-- **C69**: `apply_bcs_outerradiation_and_inner` reads and writes right-hand sides only inside of the array. -/
theorem C69_bounds {G : Grid} {m : Maps} {lo hi : Idx} (ob : OwnBox G m 1 lo hi) (hm : PartnersSettled G m) {bc : BcStruct}
    (h : setUp G m = some bc) (nGfs : ℕ) (types : ℕ → Fin 10) (rhs : ℕ → OuterPt → ℝ → ℝ) :
    ∀ l ∈ radiationLoops G bc nGfs types rhs, ∀ x ∈ l, ∀ a ∈ x.dst :: x.reads, InArray G nGfs a := by
  intro l hl x hx a ha
  rw [radiationLoops_eq, List.mem_append, List.mem_singleton, List.mem_flatMap] at hl
  rcases hl with ⟨gz, hz, hl⟩ | rfl
  · obtain ⟨d, -, rfl⟩ := List.mem_map.1 hl
    exact face_bounds ob h (by decide) (List.mem_range.1 hz) hx ha
  · exact inner_bounds hm h hx ha

/-- **C67**, for every grid and every pair of systems: a partner that is accepted is a grid point, and the same point of
space up to the tolerance. -/
theorem C67_checked {eps : ℝ} {G : Grid} {orig eig : Coords} {p q : Idx} (h : partner eps G orig eig p = some q) :
    G.Has q ∧ ∀ i, |orig.toCart (xxAt G orig p) i - orig.toCart (xxAt G orig q) i| ≤
      eps * (√(∑ j, orig.toCart (xxAt G orig p) j ^ 2) + 1 / 10 ^ 15) := by
  unfold partner at h
  obtain ⟨f, -, h⟩ := Option.bind_eq_some_iff.1 h
  simp only at h
  split at h
  · next hq =>
    split at h
    · cases h
    · next hm =>
      cases h
      refine ⟨hq, ?_⟩
      unfold mismatch at hm
      simp only [not_or, not_lt, gt_iff_lt] at hm
      rw [Fin.sum_univ_three]
      simp only [pow_two]
      intro i
      fin_cases i
      · exact hm.1
      · exact hm.2.1
      · exact hm.2.2
  · cases h

/-! ### Small grids -/

/-- Every point its own partner, as for Cartesian coordinates. -/
def allOuter : Maps := ⟨fun p => some p, fun _ _ => none⟩

/-- Two interior points in each direction and one ghost zone. -/
def smallGrid : Grid := ⟨![4, 4, 4], 1⟩

/-- Violation of **C65** without three interior points (which the code does not ask for): the set-up succeeds, but the
extrapolation at one face reads a point which the same parallel loop sets at the opposite face. -/
theorem C65_small_violation (types : ℕ → Fin 10) : ∃ bc, setUp smallGrid allOuter = some bc ∧
    ∃ l ∈ extrapLoops smallGrid bc 1 types, ¬ RaceFree l := by
  obtain ⟨bc, h⟩ := C64_succeeds (G := smallGrid) (fun d => by fin_cases d <;> simp [smallGrid]) (m := allOuter)
    fun p _ => ⟨p, rfl, fun h => absurd rfl h⟩
  refine ⟨bc, h, extrapAsgs smallGrid bc 1 0 0, ?_, fun hr => ?_⟩
  · unfold extrapLoops
    simp [smallGrid]
  · rw [extrapAsgs_eq] at hr
    have f1 := face_outer h (gz := 0) (d := 0) (u := false) (p := ![0, 1, 1]) (by simp [smallGrid])
      ⟨by simp [smallGrid], fun e he => absurd he (by simp), fun e he => by fin_cases e <;> simp_all [smallGrid]⟩ rfl
    have f2 := face_outer h (gz := 0) (d := 0) (u := true) (p := ![3, 1, 1]) (by simp [smallGrid])
      ⟨by simp [smallGrid], fun e he => absurd he (by simp), fun e he => by fin_cases e <;> simp_all [smallGrid]⟩ rfl
    refine hr.2 _ ((mem_faceAsgs h).2 ⟨_, f2, 0, by norm_num, rfl⟩) _ ((mem_faceAsgs h).2 ⟨_, f1, 0, by norm_num, rfl⟩) ?_
    simp only [List.map_cons, List.map_nil, List.mem_cons]
    right; right; left
    congr 1

end Verif.CurviBC
