import Verif.CurviBC.FoldTP
import Verif.CurviBC.Claims
import Verif.Grid.IndexProps

/-!
# C67: partners of ghost points; C68: parities

For every coordinate system a name can stand for, and its eigencoordinate system.
-/
namespace Verif.CurviBC
open Verif.Py Verif.RefMetric Real

/-! ### From the partner map to the boundary-condition structure -/

theorem Folds.has {eps : ℝ} {G : Grid} {orig eig : Coords} {fold : Idx → Idx} {sg : Idx → Fin 3 → ℝ} {lo hi : Idx}
    (F : Folds eps G orig eig fold sg lo hi) {p : Idx} (hp : G.Has p) : G.Has (fold p) := fun d =>
  ⟨(F.lo_mem d).1.trans (F.box p hp d).1, (F.box p hp d).2.trans_le (F.hi_mem d).2⟩

theorem Folds.settled {eps : ℝ} {G : Grid} {orig eig : Coords} {fold : Idx → Idx} {sg : Idx → Fin 3 → ℝ} {lo hi : Idx}
    (F : Folds eps G orig eig fold sg lo hi) {p : Idx} (hp : G.Has p) : Settled G (mapsOf eps G orig eig) (fold p) := by
  refine ⟨F.has hp, fun _ => ?_⟩
  show CurviBC.partner eps G orig eig (fold p) = _
  rw [F.partner _ (F.has hp), F.id _ (F.has hp) (F.box p hp)]

theorem Folds.partnersSettled {eps : ℝ} {G : Grid} {orig eig : Coords} {fold : Idx → Idx} {sg : Idx → Fin 3 → ℝ} {lo hi : Idx}
    (F : Folds eps G orig eig fold sg lo hi) : PartnersSettled G (mapsOf eps G orig eig) := by
  intro p q hg hq
  have e : CurviBC.partner eps G orig eig p = some q := hq
  rw [F.partner p hg.1] at e
  cases e
  exact F.settled hg.1

theorem Folds.ownBox {eps : ℝ} {G : Grid} {orig eig : Coords} {fold : Idx → Idx} {sg : Idx → Fin 3 → ℝ} {lo hi : Idx}
    (F : Folds eps G orig eig fold sg lo hi) {K : ℤ} (hK : 0 ≤ K) (hn : ∀ d, 2 * (G.g : ℤ) + K ≤ G.n d) :
    OwnBox G (mapsOf eps G orig eig) K lo hi := by
  refine ⟨fun p hg => ?_, fun d => (F.lo_mem d).2, fun d => (F.hi_mem d).1, fun d _ => hn d, fun d => ?_⟩
  · show CurviBC.partner eps G orig eig p = some p ↔ _
    rw [F.partner p hg.1]
    constructor
    · intro e
      have := F.box p hg.1
      rwa [Option.some.inj e] at this
    · intro e
      rw [F.id p hg.1 e]
  · have := hn d; omega

/-- The signs, as a function of a number. -/
def numSign (s : Fin 3 → ℝ) (k : ℕ) : ℝ := if h : k < 3 then s ⟨k, h⟩ else 0

theorem parityArray_mem {e : ℕ → ℝ} (he : ∀ i < 3, e i = 1 ∨ e i = -1) : ∀ v ∈ Verif.Grid.parityArray e, v = 1 ∨ v = -1 := by
  have mul : ∀ i < 3, ∀ j < 3, e i * e j = 1 ∨ e i * e j = -1 := by
    intro i hi j hj
    rcases he i hi with h | h <;> rcases he j hj with h' | h' <;> rw [h, h'] <;> norm_num
  intro v hv
  simp only [Verif.Grid.parityArray, List.mem_append, List.mem_cons, List.mem_flatMap, List.mem_map, List.mem_range,
    List.not_mem_nil, or_false] at hv
  rcases hv with (h | h | h | h) | ⟨i, hi, j, hj, h⟩
  · exact .inl h
  · rw [h]; exact he 0 (by norm_num)
  · rw [h]; exact he 1 (by norm_num)
  · rw [h]; exact he 2 (by norm_num)
  · rw [← h]; exact mul i hi (i + j) (by omega)

theorem Folds.dot {eps : ℝ} {G : Grid} {orig eig : Coords} {fold : Idx → Idx} {sg : Idx → Fin 3 → ℝ} {lo hi : Idx}
    (F : Folds eps G orig eig fold sg lo hi) {p : Idx} (hp : G.Has p) :
    CurviBC.dot orig (xxAt G orig p) (xxAt G orig (fold p)) = numSign (sg p) := by
  funext k
  unfold CurviBC.dot numSign
  split
  · next h =>
    simp only [F.units p hp]
    have := F.norm p hp ⟨k, h⟩
    rw [Fin.sum_univ_three] at this ⊢
    linear_combination sg p ⟨k, h⟩ * this
  · rfl

theorem Folds.parity {eps : ℝ} (he : 0 ≤ eps) {G : Grid} {orig eig : Coords} {fold : Idx → Idx} {sg : Idx → Fin 3 → ℝ}
    {lo hi : Idx} (F : Folds eps G orig eig fold sg lo hi) {p : Idx} (hp : G.Has p) :
    ∃ par, CurviBC.parity eps G orig p (fold p) = some par ∧
      (∀ k, par k = 1 ∨ par k = -1) ∧
      ∀ k : Fin 10, ((par k : ℤ) : ℝ) = (Verif.Grid.parityArray (numSign (sg p))).getD k 0 := by
  have hm : ∀ v ∈ Verif.Grid.parityArray (numSign (sg p)), v = 1 ∨ v = -1 := by
    refine parityArray_mem fun i hi => ?_
    unfold numSign
    rw [dif_pos hi]
    exact F.signs p _
  have hlen : (Verif.Grid.parityArray (numSign (sg p))).length = 10 := by simp [Verif.Grid.parityArray, List.range_succ]
  unfold CurviBC.parity
  simp only []
  rw [F.dot hp, if_neg]
  · refine ⟨_, rfl, fun k => ?_, fun k => ?_⟩
    · split <;> simp
    · have hk : (k : ℕ) < (Verif.Grid.parityArray (numSign (sg p))).length := by rw [hlen]; exact k.isLt
      have := hm _ (List.getElem_mem hk)
      rw [List.getD_eq_getElem?_getD, List.getElem?_eq_getElem hk, Option.getD_some]
      rcases this with e | e <;> rw [e] <;> norm_num
  · rintro ⟨v, hv, h⟩
    rcases hm v hv with rfl | rfl <;> norm_num at h <;> rcases h with h | h <;> linarith

theorem Folds.setUp {eps : ℝ} (he : 0 ≤ eps) {G : Grid} {orig eig : Coords} {fold : Idx → Idx} {sg : Idx → Fin 3 → ℝ}
    {lo hi : Idx} (F : Folds eps G orig eig fold sg lo hi) (hn : ∀ d, 2 * (G.g : ℤ) ≤ G.n d) :
    ∃ bc, CurviBC.setUp G (mapsOf eps G orig eig) = some bc :=
  C64_succeeds hn fun p hg => ⟨fold p, F.partner p hg.1, fun _ => by
    obtain ⟨par, h, -⟩ := F.parity he hg.1
    exact ⟨par, h⟩⟩

/-! ### All systems -/

/-- The direction in which the coordinate is an azimuth. -/
def IsAzimuth (name : Str) (d : Fin 3) : Prop :=
  ((eigenName name = some (c% "Spherical") ∨ eigenName name = some (c% "SymTP")) ∧ d = 2) ∨
    (eigenName name = some (c% "Cylindrical") ∧ d = 1)

/-- A grid on which the boundary conditions are defined: at least one interior point in each direction, increasing
coordinate ranges, and an even number of azimuths; if there is a hole around the origin, all ghost points are outside of
the origin; if there is a hole around the axis, all ghost points are away from the axis. -/
structure GoodGrid (name : Str) (c : Coords) (G : Grid) : Prop where
  size : ∀ d, 2 * (G.g : ℤ) < G.n d
  range : ∀ d, c.xxmin d < c.xxmax d
  even : ∀ d, IsAzimuth name d → (G.n d - 2 * G.g) % 2 = 0
  hole : name = (c% "HoleySinhSpherical") ∨ name = (c% "RingHoleySinhSpherical") → ((G.g : ℝ) - 1 / 2) * dxx G c 0 < c.xxmin 0
  ring : name = (c% "RingHoleySinhSpherical") → 2 * (G.g : ℤ) ≤ G.n 1 - 2 * G.g

/-- The outer boundary: directions, and ends of each, at which the grid ends in space. -/
def outerEnds (name : Str) (d : Fin 3) : Bool × Bool :=
  if eigenName name = some (c% "Spherical") then
    if d = 0 then (decide (name = (c% "HoleySinhSpherical") ∨ name = (c% "RingHoleySinhSpherical")), true)
    else if d = 1 then (decide (name = (c% "RingHoleySinhSpherical")), decide (name = (c% "RingHoleySinhSpherical")))
    else (false, false)
  else if eigenName name = some (c% "SymTP") then
    if d = 0 then (false, true) else (false, false)
  else if eigenName name = some (c% "Cylindrical") then
    if d = 0 then (false, true) else if d = 1 then (false, false) else (true, true)
  else (true, true)

/-- The box of interior and outer points. -/
def ownLo (name : Str) (G : Grid) (d : Fin 3) : ℤ := if (outerEnds name d).1 then 0 else G.g
@[inherit_doc ownLo]
def ownHi (name : Str) (G : Grid) (d : Fin 3) : ℤ := if (outerEnds name d).2 then G.n d else G.n d - G.g

theorem sinhv1_odd (ampl w t : ℝ) : sinhv1 (-t) ampl w = -sinhv1 t ampl w := by
  rw [sinhv1_eq, sinhv1_eq, neg_div, sinh_neg]; ring

theorem sinhv2_odd {n : ℕ} (hn : n % 2 = 0) (ampl w slope t : ℝ) : sinhv2 n (-t) ampl w slope = -sinhv2 n t ampl w slope := by
  unfold sinhv2
  rw [(Nat.even_iff.2 hn).neg_pow, neg_neg]
  ring

theorem powerN_even {name : Str} {n : ℕ} (h : powerN name = some n) : n % 2 = 0 := by
  unfold powerN at h
  split at h
  · split at h
    · next hh => cases h; exact hh.2.2.2
    · cases h
  · cases h

theorem eigen_cases {P : CoordParams} {name : Str} {c : Coords} (h : choose P name = .sys c) :
    (eigenName name = some (c% "Cartesian") ∧ cartesianChoice P name = .sys c) ∨
    (eigenName name = some (c% "Spherical") ∧ sphericalChoice P name = .sys c) ∨
    (eigenName name = some (c% "Cartesian") ∧ wedgeChoice P name = .sys c) ∨
    (eigenName name = some (c% "SymTP") ∧ symTPChoice P name = .sys c) ∨
    (eigenName name = some (c% "Cylindrical") ∧ cylindricalChoice P name = .sys c) := by
  unfold choose at h
  unfold eigenName
  split_ifs at h ⊢
  · exact .inl ⟨rfl, h⟩
  · exact .inr (.inl ⟨rfl, h⟩)
  · exact .inr (.inr (.inl ⟨rfl, h⟩))
  · exact .inr (.inr (.inr (.inl ⟨rfl, h⟩)))
  · exact .inr (.inr (.inr (.inr ⟨rfl, h⟩)))

theorem choose_cartesian (P : CoordParams) : choose P (c% "Cartesian") = .sys (cartesian P.lo P.hi) := by
  unfold choose cartesianChoice
  rw [if_pos (by decide), if_pos rfl]
theorem choose_spherical (P : CoordParams) : choose P (c% "Spherical") = .sys (spherical P.rmax) := by
  unfold choose sphericalChoice
  rw [if_neg (by decide), if_pos (by decide), if_pos rfl]
theorem choose_symTP (P : CoordParams) : choose P (c% "SymTP") = .sys (symTP P.amax P.b) := by
  unfold choose symTPChoice
  rw [if_neg (by decide), if_neg (by decide), if_neg (by decide), if_pos (by decide), if_pos rfl]
theorem choose_cylindrical (P : CoordParams) : choose P (c% "Cylindrical") = .sys (cylindrical P.rhomax P.zmin P.zmax) := by
  unfold choose cylindricalChoice
  rw [if_neg (by decide), if_neg (by decide), if_neg (by decide), if_neg (by decide), if_pos (by decide), if_pos rfl]

/-- The two systems with holes. -/
def isHoley (name : Str) : Bool := decide (name = (c% "HoleySinhSpherical") ∨ name = (c% "RingHoleySinhSpherical"))
@[inherit_doc isHoley]
def isRing (name : Str) : Bool := decide (name = (c% "RingHoleySinhSpherical"))

theorem own_sph {name : Str} (he : eigenName name = some (c% "Spherical")) (G : Grid) :
    ownLo name G = sphLo (!isHoley name) (!isRing name) G ∧ ownHi name G = sphHi (!isRing name) G := by
  have e1 : (c% "Spherical") ≠ (c% "SymTP") := by decide
  constructor <;> funext d <;> fin_cases d <;>
    simp [ownLo, ownHi, outerEnds, sphLo, sphHi, he, isHoley, isRing] <;> split_ifs <;> simp_all

theorem own_tp {name : Str} (he : eigenName name = some (c% "SymTP")) (G : Grid) :
    ownLo name G = sphLo true true G ∧ ownHi name G = sphHi true G := by
  constructor <;> funext d <;> fin_cases d <;> simp [ownLo, ownHi, outerEnds, sphLo, sphHi, he]

theorem own_cyl {name : Str} (he : eigenName name = some (c% "Cylindrical")) (G : Grid) :
    ownLo name G = cylLo G ∧ ownHi name G = cylHi G := by
  constructor <;> funext d <;> fin_cases d <;> simp [ownLo, ownHi, outerEnds, cylLo, cylHi, he]

theorem own_cart {name : Str} (he : eigenName name = some (c% "Cartesian")) (G : Grid) :
    ownLo name G = ![0, 0, 0] ∧ ownHi name G = G.n := by
  constructor <;> funext d <;> fin_cases d <;> simp [ownLo, ownHi, outerEnds, he]

theorem sphGrid_of {name : Str} {c : Coords} {G : Grid} (hG : GoodGrid name c G) (he : eigenName name = some (c% "Spherical"))
    (h2 : c.xxmin 2 = -π) (h2' : c.xxmax 2 = π) (h0 : isHoley name = false → c.xxmin 0 = 0)
    (h1 : isRing name = false → c.xxmin 1 = 0 ∧ c.xxmax 1 = π)
    (h1' : isRing name = true → c.xxmin 1 = 1 / 4 * π ∧ c.xxmax 1 = 3 / 4 * π) :
    SphGrid (!isHoley name) (!isRing name) G c.xxmin c.xxmax := by
  refine ⟨hG.size, hG.even 2 (.inl ⟨.inl he, rfl⟩), hG.range 0, h2, h2', fun h => ?_, fun h => ?_, fun h => ?_, fun h => ?_⟩
  · have hh : isHoley name = false := by simpa using h
    refine ⟨h0 hh, ?_⟩
    simp only [isHoley, decide_eq_false_iff_not, not_or] at hh
    simp [isRing, hh.2]
  · refine hG.hole ?_
    have hh : isHoley name = true := by simpa using h
    exact of_decide_eq_true hh
  · exact h1 (by simpa using h)
  · have hr : isRing name = true := by simpa using h
    obtain ⟨a, b⟩ := h1' hr
    have k := hG.ring (by simpa [isRing] using hr)
    have hπ := pi_pos
    have k' : (2 * G.g : ℝ) ≤ ((G.n 1 - 2 * G.g : ℤ) : ℝ) := by exact_mod_cast k
    have hN : (0 : ℝ) < ((G.n 1 - 2 * G.g : ℤ) : ℝ) := by
      have := hG.size 1
      exact_mod_cast (by omega)
    have key : ((G.g : ℝ) - 1 / 2) * ((c.xxmax 1 - c.xxmin 1) / ((G.n 1 - 2 * G.g : ℤ) : ℝ)) < 1 / 4 * π := by
      rw [a, b, mul_div_assoc', div_lt_iff₀ hN]
      nlinarith
    refine ⟨hG.range 1, ?_, ?_⟩
    · rw [a] at key ⊢; exact key
    · rw [b] at key ⊢; linarith

/-- The partner map, for every name. -/
theorem folds_of {P : CoordParams} (hP : ValidParams P) {name : Str} {c : Coords} (h : choose P name = .sys c) {e : Str}
    {eig : Coords} (he : eigenName name = some e) (hE : choose P e = .sys eig) {eps : ℝ} (hε : 0 < eps) {G : Grid}
    (hG : GoodGrid name c G) : ∃ fold sg, Folds eps G c eig fold sg (ownLo name G) (ownHi name G) := by
  have hA := hP.ampl
  have hw := hP.w
  have unit1 : ∀ (ci : Coords), (∀ x, IsBasis ci x) → ∀ x k, ∑ i, ci.unit x k i * ci.unit x k i = 1 := fun ci hb x k => by
    have := (hb x).orthonormal k k
    rwa [if_pos rfl] at this
  rcases eigen_cases h with ⟨k, hc⟩ | ⟨k, hc⟩ | ⟨k, hc⟩ | ⟨k, hc⟩ | ⟨k, hc⟩ <;> rw [k] at he <;> cases he
  · rw [choose_cartesian] at hE; cases hE
    rw [(own_cart k G).1, (own_cart k G).2]
    refine ⟨_, _, Folds_cart hε hG.size hG.range (unit1 c ?_) _ _⟩
    unfold cartesianChoice at hc
    split_ifs at hc <;> cases hc
    · exact basis_cartesian _ _
    · exact basis_sinhCartesian _ _
  · rw [choose_spherical] at hE; cases hE
    rw [(own_sph k G).1, (own_sph k G).2]
    unfold sphericalChoice at hc
    split_ifs at hc with a1 a2 a3 a4 a5 a6
    · cases hc
      have n1 : isHoley name = false := by rw [a1]; decide
      have n2 : isRing name = false := by rw [a1]; decide
      exact ⟨_, _, Folds_sph (r := fun t => t) hε (sphGrid_of hG k rfl rfl (fun _ => rfl) (fun _ => ⟨rfl, rfl⟩)
        (fun t => by simp [n2] at t)) (fun t => rfl) _ _⟩
    · cases hc
      have n1 : isHoley name = true := by rw [a4]; decide
      have n2 : isRing name = false := by rw [a4]; decide
      exact ⟨_, _, Folds_sph hε (sphGrid_of hG k rfl rfl (fun t => by simp [n1] at t) (fun _ => ⟨rfl, rfl⟩)
        (fun t => by simp [n2] at t)) (sinhv1_odd _ _) _ _⟩
    · cases hc
      have n1 : isHoley name = true := by rw [a5]; decide
      have n2 : isRing name = true := by rw [a5]; decide
      exact ⟨_, _, Folds_sph hε (sphGrid_of hG k rfl rfl (fun t => by simp [n1] at t) (fun t => by simp [n2] at t)
        (fun _ => ⟨rfl, rfl⟩)) (sinhv1_odd _ _) _ _⟩
    · cases hc
      have n1 : isHoley name = false := by
        simp only [isHoley, decide_eq_false_iff_not]
        rintro (e | e) <;> rw [e] at a3 <;> exact a3 (by decide)
      have n2 : isRing name = false := by
        simp only [isRing, decide_eq_false_iff_not]
        rintro e; rw [e] at a3; exact a3 (by decide)
      exact ⟨_, _, Folds_sph hε (sphGrid_of hG k rfl rfl (fun _ => rfl) (fun _ => ⟨rfl, rfl⟩) (fun t => by simp [n2] at t))
        (sinhv1_odd _ _) _ _⟩
    · split at hc
      · next n hn =>
        cases hc
        have n1 : isHoley name = false := by
          simp only [isHoley, decide_eq_false_iff_not]
          rintro (e | e) <;> rw [e] at a2 <;> exact a2 (by decide)
        have n2 : isRing name = false := by
          simp only [isRing, decide_eq_false_iff_not]
          rintro e; rw [e] at a2; exact a2 (by decide)
        exact ⟨_, _, Folds_sph hε (sphGrid_of hG k rfl rfl (fun _ => rfl) (fun _ => ⟨rfl, rfl⟩) (fun t => by simp [n2] at t))
          (sinhv2_odd (powerN_even hn) _ _ _) _ _⟩
      · cases hc
  · rw [choose_cartesian] at hE; cases hE
    rw [(own_cart k G).1, (own_cart k G).2]
    refine ⟨_, _, Folds_cart hε hG.size hG.range (unit1 c ?_) _ _⟩
    unfold wedgeChoice at hc
    split_ifs at hc <;> cases hc
    · exact basis_upperWedge _ _ _
    · exact basis_lowerWedge _ _ _
  · rw [choose_symTP] at hE; cases hE
    rw [(own_tp k G).1, (own_tp k G).2]
    unfold symTPChoice at hc
    have ev := hG.even 2 (.inl ⟨.inr k, rfl⟩)
    split_ifs at hc <;> cases hc
    · exact ⟨_, _, Folds_tp (aa := fun t => t) hε ⟨hG.size, ev, hG.range 0, rfl, rfl⟩ (fun t => rfl) (fun t h => h) differentiable_id hP.b _⟩
    · exact ⟨_, _, Folds_tp hε ⟨hG.size, ev, hG.range 0, rfl, rfl⟩ (sinhv1_odd _ _) (fun t h => sinhv1_pos hP.amax hP.waa h)
        (differentiable_sinhv1 _ _) hP.b _⟩
  · rw [choose_cylindrical] at hE; cases hE
    rw [(own_cyl k G).1, (own_cyl k G).2]
    unfold cylindricalChoice at hc
    have ev := hG.even 1 (.inr ⟨k, rfl⟩)
    split_ifs at hc
    · cases hc
      exact ⟨_, _, Folds_cyl (rho := fun t => t) hε ⟨hG.size, ev, rfl, rfl, hG.range 0, rfl, hG.range 2⟩ (fun t => rfl) _ _ _ _ _⟩
    · cases hc
      exact ⟨_, _, Folds_cyl hε ⟨hG.size, ev, rfl, rfl, hG.range 0, rfl, hG.range 2⟩ (sinhv1_odd _ _) _ _ _ _ _⟩
    · split at hc
      · next n hn =>
        cases hc
        exact ⟨_, _, Folds_cyl hε ⟨hG.size, ev, rfl, rfl, hG.range 0, rfl, hG.range 2⟩ (sinhv2_odd (powerN_even hn) _ _ _) _ _ _ _ _⟩
      · cases hc

end Verif.CurviBC
