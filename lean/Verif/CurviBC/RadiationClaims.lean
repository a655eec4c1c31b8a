import Verif.CurviBC.RadiationProps
import Verif.CurviBC.PartnerClaims
import Mathlib.Analysis.Calculus.Deriv.Polynomial

/-!
# C69: radiation boundary conditions

The right-hand sides at the outer boundary satisfy an advection equation with the radial derivative of the gridfunction.
-/
namespace Verif.CurviBC
open Verif.Py Verif.RefMetric Verif.FD Verif.IndexedExp Polynomial

/-- The advection equation with its correction: `∂_t f = -c (∂_r f + (f - f_∞) / r) + k / r³`. -/
def Advection (speed fInf k r f dr dt : ℝ) : Prop := dt = -speed * (dr + (f - fInf) / r) + k / r ^ 3

/-- The value computed is the one for which the equation holds with the same `k` at the boundary point and at the next
point. -/
theorem C69_advection {speed fInf r rInt dr drInt f fInt dtInt : ℝ} (hr : rInt ≠ 0) (dt : ℝ) :
    (∃ k, Advection speed fInf k rInt fInt drInt dtInt ∧ Advection speed fInf k r f dr dt) ↔
      dt = radiation speed fInf r rInt dr drInt f fInt dtInt := by
  unfold Advection radiation
  constructor
  · rintro ⟨k, h1, h2⟩
    rw [h2, h1]
    simp only [div_eq_mul_inv]
    field_simp
    ring
  · intro h
    refine ⟨rInt * rInt * rInt * (dtInt - -speed * (drInt + (fInt - fInf) / rInt)), ?_, ?_⟩
    · field_simp
      ring
    · rw [h]
      simp only [div_eq_mul_inv]
      ring

/-- A spherical outgoing wave `f_∞ + u(r - ct) / r` passes through the boundary: its time derivative is reproduced
exactly. -/
theorem C69_outgoing_wave {speed fInf : ℝ} {u u' : ℝ → ℝ} (hu : ∀ y, HasDerivAt u (u' y) y) (t : ℝ) {r rInt : ℝ}
    (hr : r ≠ 0) (hi : rInt ≠ 0) :
    HasDerivAt (fun t => fInf + u (r - speed * t) / r)
      (radiation speed fInf r rInt (deriv (fun r => fInf + u (r - speed * t) / r) r)
        (deriv (fun r => fInf + u (r - speed * t) / r) rInt) (fInf + u (r - speed * t) / r)
        (fInf + u (rInt - speed * t) / rInt) (deriv (fun t => fInf + u (rInt - speed * t) / rInt) t)) t := by
  have dT : ∀ r, HasDerivAt (fun t => fInf + u (r - speed * t) / r) (-speed * u' (r - speed * t) / r) t := by
    intro r
    have h1 : HasDerivAt (fun t => r - speed * t) (-speed) t := by
      simpa using ((hasDerivAt_id t).const_mul speed).const_sub r
    have := (((hu (r - speed * t)).comp t h1).div_const r).const_add fInf
    refine this.congr_deriv ?_
    ring
  have dR : ∀ r, r ≠ 0 → HasDerivAt (fun r => fInf + u (r - speed * t) / r)
      (u' (r - speed * t) / r - u (r - speed * t) / r ^ 2) r := by
    intro r hr
    have h1 : HasDerivAt (fun r => r - speed * t) 1 r := (hasDerivAt_id r).sub_const _
    have := ((((hu (r - speed * t)).comp r h1)).div (hasDerivAt_id r) hr).const_add fInf
    refine this.congr_deriv ?_
    simp only [Function.comp_apply, id]
    field_simp
  refine (dT r).congr_deriv ?_
  rw [← C69_advection hi]
  refine ⟨0, ?_, ?_⟩
  · unfold Advection
    rw [(dT rInt).deriv, (dR rInt hi).deriv]
    field_simp
    ring
  · unfold Advection
    rw [(dR r hr).deriv]
    field_simp
    ring

/-! ### The radial derivative -/

/-- The vector `∂x^i/∂r` is the coordinate vector of `r`: along it, `r` has derivative one and both angles zero. -/
theorem C69_radial_direction (c : Coords) (x : Vec)
    (h : (Matrix.of fun i j => pd j (fun y => c.sph y i) x).det ≠ 0) (k : Fin 3) :
    ∑ i, jacRfmSph c x i 0 * pd i (fun y => c.sph y k) x = if k = 0 then 1 else 0 := by
  have hd : genInv3Det (fun i j => pd j (fun y => c.sph y i) x) ≠ 0 := by
    intro h0
    refine h ?_
    rw [← h0, Matrix.det_fin_three]
    simp only [genInv3Det, Matrix.of_apply]
    ring
  unfold jacRfmSph
  generalize hA : (fun i j => pd j (fun y => c.sph y i) x) = A at *
  have e : ∀ i, pd i (fun y => c.sph y k) x = A k i := fun i => by rw [← hA]
  simp only [e]
  rw [Fin.sum_univ_three]
  fin_cases k <;> simp [genInv3Num] <;> field_simp <;> simp only [genInv3Det] <;> ring

/-- So for a function of the radius the sum that `compute_partial_r_f` forms is its derivative. -/
theorem C69_function_of_radius (c : Coords) (x : Vec)
    (h : (Matrix.of fun i j => pd j (fun y => c.sph y i) x).det ≠ 0)
    (hs : ∀ i, DifferentiableAt ℝ (fun t => c.sph (Function.update x i t) 0) (x i)) {F : ℝ → ℝ} {F' : ℝ}
    (hF : HasDerivAt F F' (c.sph x 0)) : ∑ i, jacRfmSph c x i 0 * pd i (fun y => F (c.sph y 0)) x = F' := by
  have e : ∀ i, pd i (fun y => F (c.sph y 0)) x = F' * pd i (fun y => c.sph y 0) x := by
    intro i
    have h2 : HasDerivAt F F' (c.sph (Function.update x i (x i)) 0) := by rwa [Function.update_eq_self]
    exact (h2.comp (x i) (hs i).hasDerivAt).deriv
  have := C69_radial_direction c x h 0
  rw [if_pos rfl] at this
  calc _ = F' * ∑ i, jacRfmSph c x i 0 * pd i (fun y => c.sph y 0) x := by
        rw [Finset.mul_sum]
        refine Finset.sum_congr rfl fun i _ => ?_
        rw [e]; ring
    _ = F' := by rw [this, mul_one]

theorem offset_facts {r : ℕ} (hr : 0 < r) {g n dest face : ℤ} (h1 : 2 * (r : ℤ) + 1 ≤ n) (h2 : g + r + 2 ≤ n)
    (h0 : 0 ≤ dest) (hn : dest < n) (hf : face = 0 ∨ (face = 1 ∧ dest ≤ g) ∨ (face = -1 ∧ n - g - 1 ≤ dest)) :
    |offsetOf r n dest face| ≤ r ∧ ∀ k, offsetOf r n dest face - r ≤ k → k ≤ offsetOf r n dest face + r →
      0 ≤ dest + k ∧ dest + k < n := by
  rw [abs_le]
  unfold offsetOf
  split_ifs with c1 c2
  · exact ⟨⟨by omega, by omega⟩, fun k _ _ => ⟨by omega, by omega⟩⟩
  · exact ⟨⟨by omega, by omega⟩, fun k _ _ => ⟨by omega, by omega⟩⟩
  · rcases hf with hf | hf | hf
    · exact ⟨⟨by omega, by omega⟩, fun k _ _ => ⟨by omega, by omega⟩⟩
    · exact ⟨⟨by omega, by omega⟩, fun k _ _ => ⟨by omega, by omega⟩⟩
    · exact ⟨⟨by omega, by omega⟩, fun k _ _ => ⟨by omega, by omega⟩⟩

theorem has_along {G : Grid} {p : Idx} {d : Fin 3} {k : ℤ} (hp : G.Has p) (hk : 0 ≤ p d + k ∧ p d + k < G.n d) :
    G.Has (along p d k) := by
  intro e
  unfold along
  by_cases h : e = d
  · subst h; rw [Function.update_self]; exact hk
  · rw [Function.update_of_ne h]; exact hp e

section
variable {G : Grid} {m : Maps} {lo hi : Idx} (ob : OwnBox G m 1 lo hi) {bc : BcStruct} (h : setUp G m = some bc) {r : ℕ}
  (hr : 0 < r) (hsz : ∀ d, 2 * (r : ℤ) + 1 ≤ G.n d ∧ G.g + r + 2 ≤ G.n d) {gz : ℕ} (hz : gz < G.g) {d : Fin 3} {b : OuterPt}
  (hb : b ∈ bc.outer gz d) {dest : Idx} (hd : dest = b.i ∨ dest = b.step 1)
include ob h hr hsz hz hb hd

theorem radiation_points : G.Has dest ∧ ∀ e, |offsetOf r (G.n e) (dest e) (b.face e)| ≤ r ∧ ∀ k,
    offsetOf r (G.n e) (dest e) (b.face e) - r ≤ k → k ≤ offsetOf r (G.n e) (dest e) (b.face e) + r →
      0 ≤ dest e + k ∧ dest e + k < G.n e := by
  obtain ⟨u, hu, ho, hf⟩ := outer_face h hz hb
  have hp := (ghost_of_face ob.nonneg hz hu).1
  obtain ⟨-, hset⟩ := step_filled ob hz hu ho hf (k := 1) le_rfl le_rfl
  have hdest : G.Has dest := by
    rcases hd with rfl | rfl
    · exact hp
    · exact hset.1
  refine ⟨hdest, fun e => offset_facts hr (g := G.g) (hsz e).1 (hsz e).2 (hdest e).1 (hdest e).2 ?_⟩
  rw [hf, facex_eq]
  by_cases c : e = d
  · subst c
    have h1 := hu.1
    have he : dest e = b.i e ∨ dest e = b.i e + if u then -1 else 1 := by
      rcases hd with rfl | rfl
      · exact .inl rfl
      · right
        rw [step_eq hf, if_pos rfl]
        cases u <;> simp
        ring
    have := hsz e
    cases u <;> simp at h1 he ⊢ <;> omega
  · simp [c]

/-- The finite differences stay inside of the grid and have a case in the generated `switch`.  Missing: odd orders, and grids
with fewer than `order / 2 + 2 - NGHOSTS` interior points, for which it is false (below). -/
theorem C69_stencil_partial (e : Fin 3) : offsetOf (2 * r / 2) (G.n e) (dest e) (b.face e) ∈ caseOffsets (2 * r) ∧
    ∀ t ∈ caseTerms (2 * r) (offsetOf (2 * r / 2) (G.n e) (dest e) (b.face e)), G.Has (along dest e t.1) := by
  obtain ⟨hdest, key⟩ := radiation_points ob h hr hsz hz hb hd
  obtain ⟨h1, h2⟩ := key e
  have e2 : 2 * r / 2 = r := by omega
  rw [e2]
  refine ⟨mem_caseOffsets.2 (by rw [e2]; exact h1), fun t ht => has_along hdest ?_⟩
  have := caseTerms_range ht
  rw [e2] at this
  exact h2 _ (by omega) (by push_cast at this; omega)

/-- The radial derivative of `compute_partial_r_f` is exact for fields that are polynomials of degree up to the order
along each coordinate line.  Missing: odd orders, for which it is false (below). -/
theorem C69_exact_partial (nan : ℝ) {c : Coords} (hx : ∀ i, dxx G c i ≠ 0) {zero : Fin 3 → Bool}
    (hzero : ∀ i, zero i = true → ∀ x, jacRfmSph c x i 0 = 0) {gfs : Mem} {gf : ℕ} {f : Vec → ℝ}
    (hf : ∀ p, G.Has p → gfAt G gfs gf p = f (xxAt G c p))
    (hP : ∀ i, ∃ P : ℝ[X], P.natDegree ≤ 2 * r ∧ ∀ t, f (Function.update (xxAt G c dest) i t) = P.eval t) :
    partialR nan (2 * r) G c zero gfs gf dest b.face = ∑ i, jacRfmSph c (xxAt G c dest) i 0 * pd i f (xxAt G c dest) := by
  obtain ⟨hdest, key⟩ := radiation_points ob h hr hsz hz hb hd
  have e2 : 2 * r / 2 = r := by omega
  have one : ∀ i, jacRfmSph c (xxAt G c dest) i 0 * (if zero i = true then 0 else
      fd1 nan (2 * r) (1 / dxx G c i) (fun q => gfs (G.pt gf (G.at q))) dest i
        (offsetOf (2 * r / 2) (G.n i) (dest i) (b.face i))) =
      jacRfmSph c (xxAt G c dest) i 0 * pd i f (xxAt G c dest) := by
    intro i
    by_cases hz : zero i = true
    · rw [hzero i hz]; simp
    · rw [if_neg hz]
      congr 1
      obtain ⟨P, hdeg, hP⟩ := hP i
      obtain ⟨h1, h2⟩ := key i
      rw [e2, fd1_exact nan hr h1 (hx i) _ _ _ P hdeg (xxAt G c dest i)]
      · unfold pd
        simp only [hP]
        rw [Polynomial.deriv]
      · intro k hk1 hk2
        have := hf _ (has_along hdest (h2 k hk1 hk2))
        unfold gfAt at this
        rw [this, xxAt_along, hP]
  unfold partialR
  rw [Fin.sum_univ_three, ← one 0, ← one 1, ← one 2]

end

/-! ### The whole function -/

theorem radiationLoops_eq (G : Grid) (bc : BcStruct) (nGfs : ℕ) (types : ℕ → Fin 10) (rhs : ℕ → OuterPt → ℝ → ℝ) :
    radiationLoops G bc nGfs types rhs =
    ((List.range G.g).flatMap fun gz => [0, 1, 2].map fun d =>
      faceAsgs G bc nGfs [1] (fun gf b v => rhs gf b (v.headD 0)) gz d) ++ [innerAsgs G bc nGfs types] := by
  unfold radiationLoops
  simp only [radiationAsgs_eq]

section
variable {G : Grid} {m : Maps} {lo hi : Idx} (ob : OwnBox G m 1 lo hi) (hm : PartnersSettled G m) {bc : BcStruct}
  (h : setUp G m = some bc) {nGfs : ℕ} {types : ℕ → Fin 10} (nan : ℝ) (order : ℕ) (c : Coords) (zero : Fin 3 → Bool)
  (gfs : Mem) (speed fInf : ℕ → ℝ)
include ob hm h

/-- After `apply_bcs_outerradiation_and_inner`, in any order inside of the parallel loops: the interior and all other
gridfunctions keep their values; at each outer point the advection equation holds, with the same correction as at the next
point in a direction back towards the interior; each inner point has the value of its partner times its parity. -/
theorem C69_result {s s' : Mem}
    (hrun : Runs (radiationLoops G bc nGfs types (radiationBcs nan order G c zero gfs speed fInf)) s s') :
    (∀ p, G.Has p → ∀ gf, ¬ G.Ghost p ∨ nGfs ≤ gf → gfAt G s' gf p = gfAt G s gf p) ∧
    (∀ p, Outer G m p → ∃ d σ, (σ = 1 ∧ p d < G.g ∨ σ = -1 ∧ G.n d - G.g ≤ p d) ∧ Settled G m (shift p d σ) ∧
      (c.sph (xxAt G c (shift p d σ)) 0 ≠ 0 → ∀ gf < nGfs, ∃ k, ∀ q ∈ [p, shift p d σ],
        Advection (speed gf) (fInf gf) k (c.sph (xxAt G c q) 0) (gfAt G gfs gf q)
          (partialR nan order G c zero gfs gf q fun e => if e = d then σ else 0) (gfAt G s' gf q))) ∧
    ∀ p q par, G.Ghost p → m.partner p = some q → q ≠ p → m.parity p q = some par → ∀ gf < nGfs,
      gfAt G s' gf p = par (types gf) * gfAt G s' gf q := by
  rw [radiationLoops_eq] at hrun
  obtain ⟨t, hr1, hr2⟩ := runs_append hrun
  obtain ⟨i1, i2⟩ := inner_result hm h (runs_single hr2)
  have hks : ∀ k ∈ [(1 : ℤ)], 1 ≤ k ∧ k ≤ 1 := by decide
  obtain ⟨o1, o2⟩ := faces_result ob h hks hr1
  refine ⟨fun p hp gf hc => ?_, fun p hp => ?_, fun p q par hg hq hne hpar gf hgf => ?_⟩
  · unfold gfAt
    rw [i2 p gf hp, o2 p gf hp]
    · rcases hc with hc | hc
      · exact .inr (.inl hc)
      · exact .inl hc
    · rcases hc with hc | hc
      · exact .inr ⟨hp, fun hg => absurd hg hc⟩
      · exact .inl hc
  · obtain ⟨gz, hz, d, u, hf, ho⟩ := face_own hp
    have hb := face_outer h hz hf ho
    set b : OuterPt := ⟨p, facex ((d : ℕ) * 2 + if u then 1 else 0)⟩ with hbdef
    have hst : b.step 1 = shift p d (if u then -1 else 1) := by
      funext e
      rw [step_eq (d := d) (u := u) rfl]
      unfold shift
      by_cases c : e = d
      · subst c
        rw [if_pos rfl, Function.update_self]
        cases u <;> simp [hbdef]
        ring
      · rw [if_neg c, Function.update_of_ne c]
    have hset : Settled G m (shift p d (if u then -1 else 1)) := by
      rw [← hst]
      exact (step_filled ob hz hf ho rfl le_rfl le_rfl).2
    have hface : b.face = fun e => if e = d then if u then -1 else 1 else 0 := by
      funext e
      exact facex_eq d u e
    refine ⟨d, if u then -1 else 1, ?_, hset, fun hrad gf hgf => ?_⟩
    · have := hf.1
      have := ob.nonneg d
      cases u <;> simp at * <;> omega
    · have e := o1 gz hz d b hb gf hgf
      simp only [List.map_cons, List.map_nil, hst, List.headD_cons] at e
      have keep : ∀ q, Settled G m q → gfAt G s' gf q = t (G.pt gf (G.at q)) := fun q hq => i2 q gf hq.1 (.inr hq)
      unfold radiationBcs at e
      simp only [hst, hface] at e
      obtain ⟨k, k1, k2⟩ := (C69_advection hrad _).2 e
      refine ⟨k, fun q hq => ?_⟩
      simp only [List.mem_cons, List.not_mem_nil, or_false] at hq
      rcases hq with rfl | rfl
      · rw [keep q ⟨hp.1.1, fun _ => ho⟩]
        exact k2
      · rw [keep _ hset]
        exact k1
  · have hs := hm p q hg hq
    show s' (G.pt gf (G.at p)) = _
    rw [i1 p q par hg hq hne hpar gf hgf]
    congr 1
    exact (i2 q gf hs.1 (.inr hs)).symm

/-- No two iterations of a parallel loop touch the same right-hand side, if one of them writes it. -/
theorem C69_no_races : ∀ l ∈ radiationLoops G bc nGfs types (radiationBcs nan order G c zero gfs speed fInf),
    RaceFree l := by
  intro l hl
  rw [radiationLoops_eq, List.mem_append, List.mem_singleton, List.mem_flatMap] at hl
  rcases hl with ⟨gz, hz, hl⟩ | rfl
  · obtain ⟨d, -, rfl⟩ := List.mem_map.1 hl
    exact raceFree_faceAsgs ob h nGfs (by decide) _ (List.mem_range.1 hz) d
  · exact raceFree_inner hm h nGfs types

/-- The right-hand sides at all ghost points are determined by those in the interior and by the gridfunctions, whatever
the ghost zones held before and whatever the order inside of the parallel loops. -/
theorem C69_determined {s₁ s₁' s₂ s₂' : Mem}
    (hr₁ : Runs (radiationLoops G bc nGfs types (radiationBcs nan order G c zero gfs speed fInf)) s₁ s₁')
    (hr₂ : Runs (radiationLoops G bc nGfs types (radiationBcs nan order G c zero gfs speed fInf)) s₂ s₂') {gf : ℕ}
    (hgf : gf < nGfs) (hs : ∀ p, G.Has p → ¬ G.Ghost p → gfAt G s₁ gf p = gfAt G s₂ gf p) :
    ∀ p, G.Has p → gfAt G s₁' gf p = gfAt G s₂' gf p := by
  rw [radiationLoops_eq] at hr₁ hr₂
  exact faces_determined ob hm h (by decide) hr₁ hr₂ hgf hs

end

/-- The hypotheses hold for every coordinate system. -/
theorem C69_systems {P : CoordParams} (hP : ValidParams P) {name : Str} {c : Coords} (h : choose P name = .sys c) {e : Str}
    {eig : Coords} (he : eigenName name = some e) (hE : choose P e = .sys eig) {eps : ℝ} (hε : 0 < eps) {G : Grid}
    (hG : GoodGrid name c G) : ∃ bc, setUp G (mapsOf eps G c eig) = some bc ∧ PartnersSettled G (mapsOf eps G c eig) ∧
      OwnBox G (mapsOf eps G c eig) 1 (ownLo name G) (ownHi name G) ∧ ∀ i, dxx G c i ≠ 0 := by
  obtain ⟨⟨bc, hbc⟩, hm, -⟩ := C67_set_up hP h he hE hε hG
  obtain ⟨fold, sg, F⟩ := folds_of hP h he hE hε hG
  exact ⟨bc, hbc, hm, F.ownBox (by norm_num) fun d => by have := hG.size d; omega,
    fun i => (dxx_pos (hG.size i) (hG.range i)).ne'⟩

/-- A grid with fourth-order radiation boundary conditions, and a boundary point of it. -/
example : ∃ bc, setUp demoGrid (mapsOf (1 / 10 ^ 8) demoGrid (spherical demo.rmax) (spherical demo.rmax)) = some bc ∧
    (∀ d, 2 * ((2 : ℕ) : ℤ) + 1 ≤ demoGrid.n d ∧ (demoGrid.g : ℤ) + (2 : ℕ) + 2 ≤ demoGrid.n d) ∧
    ∃ b ∈ bc.outer 0 0, b.i = ![6, 2, 2] := by
  obtain ⟨bc, h, hm, ob, -⟩ := C69_systems demo_valid (name := (c% "Spherical")) rfl rfl rfl
    (eps := 1 / 10 ^ 8) (by positivity) demo_good
  refine ⟨bc, h, fun d => by fin_cases d <;> simp [demoGrid], _, face_outer h (gz := 0) (by simp [demoGrid]) (u := true)
    (p := ![6, 2, 2]) ?_ ?_, rfl⟩
  · refine ⟨by simp [demoGrid], fun e he => absurd he (by simp), fun e he => ?_⟩
    fin_cases e <;> simp_all [demoGrid]
  · refine (ob.own _ ⟨fun d => by fin_cases d <;> simp [demoGrid], fun hin => ?_⟩).2 fun d => ?_
    · have := (hin 0).2
      simp [demoGrid] at this
    · fin_cases d <;> decide

/-- In a spherical system only the first direction enters. -/
example (rr : ℝ) (x : Vec) : jacRfmSph (spherical rr) x 0 0 = 1 ∧ jacRfmSph (spherical rr) x 1 0 = 0 ∧
    jacRfmSph (spherical rr) x 2 0 = 0 := by
  have e : (fun i j => pd j (fun y => (spherical rr).sph y i) x) = fun i j => if i = j then (1 : ℝ) else 0 := by
    funext i j
    unfold pd
    fin_cases i <;> fin_cases j <;> simp [spherical, sphericalLike, Function.update]
  unfold jacRfmSph
  rw [e]
  simp [genInv3Num, genInv3Det]

/-! ### What is missing -/

/-- Violation: with one interior point in a direction, the second-order stencil at the first interior point is shifted away
from the face beyond the last grid point. -/
theorem C69_narrow_violation : ∃ t ∈ caseTerms 2 (offsetOf (2 / 2) 3 1 1), ¬ (1 + t.1 < 3) := by
  have key : minv 3 1 2 1 ≠ 0 := by
    have := minv_unique 3 1 1 ![-3 / 2, 2, -1 / 2] (by
      intro k
      rw [Fin.sum_univ_three]
      simp only [Matrix.cons_val]
      fin_cases k <;> norm_num [node]) 2
    rw [← this]
    simp only [Matrix.cons_val]
    norm_num
  refine ⟨(2, minv 3 1 2 1), ?_, by norm_num⟩
  have ho : offsetOf (2 / 2) 3 1 1 = 1 := by decide
  rw [ho]
  unfold caseTerms
  refine List.mem_filter.2 ⟨?_, by simpa using key⟩
  unfold arbCoeffs
  exact List.mem_map.2 ⟨2, by simp, by simp⟩

/-- Violation: for order three, the derivative of `x²` at zero comes out as the grid spacing, since the coefficients are for
the point half-way to the next. -/
theorem C69_odd_violation (nan h : ℝ) (hh : h ≠ 0) (p : Idx) (d : Fin 3) (f : Idx → ℝ)
    (hf : ∀ k : ℤ, f (along p d k) = (k * h) ^ 2) : fd1 nan 3 (1 / h) f p d 0 = h := by
  have hv : ∀ j : Fin 4, (![1 / 24, -9 / 8, 9 / 8, -1 / 24] : Fin 4 → ℚ) j = minv 4 0 j 1 := by
    refine minv_unique 4 0 1 _ ?_
    intro k
    rw [Fin.sum_univ_four]
    simp only [Matrix.cons_val]
    fin_cases k <;> norm_num [node]
  have hl : arbCoeffs 3 0 = [(-1, 1 / 24), (0, -9 / 8), (1, 9 / 8), (2, -1 / 24)] := by
    have h0 := hv 0
    have h1 := hv 1
    have h2 := hv 2
    have h3 := hv 3
    simp at h0 h1 h2 h3
    unfold arbCoeffs
    simp [List.range_succ]
    refine ⟨h0.symm.trans ?_, h1.symm.trans ?_, h2.symm.trans ?_, h3.symm.trans ?_⟩ <;> norm_num
  unfold fd1
  rw [if_pos (mem_caseOffsets.2 (by simp))]
  unfold caseTerms
  rw [sum_filter_ne_zero (fun k => f (along p d k)), hl]
  simp only [List.map_cons, List.map_nil, List.sum_cons, List.sum_nil, hf]
  push_cast
  field_simp
  ring

end Verif.CurviBC
