import Verif.CurviBC.Fold

/-! # The partner map of prolate spheroidal, cylindrical and Cartesian systems: lemmas -/
namespace Verif.CurviBC
open Verif.Py Verif.RefMetric Real

/-! ### Prolate spheroidal -/

/-- Signs that relate two sets of prolate spheroidal coordinates of a point. -/
structure TPSigns (x y : Vec) (s t : Bool) : Prop where
  a : y 0 = sgn s * x 0
  sin1 : sin (y 1) = sgn t * sin (x 1)
  cos1 : cos (y 1) = cos (x 1)
  sin2 : sin (y 2) = sgn s * sgn t * sin (x 2)
  cos2 : cos (y 2) = sgn s * sgn t * cos (x 2)

theorem TPSigns.toCart {x y : Vec} {s t : Bool} (h : TPSigns x y s t) {aa : ℝ → ℝ} (hr : ∀ t, aa (-t) = -aa t)
    (b : ℝ) (hi : Vec) : (symTPLike aa b hi).toCart y = (symTPLike aa b hi).toCart x := by
  have e := odd_sgn hr s (x 0)
  have hs := sgn_sq s
  have ht := sgn_sq t
  have q : (sgn s * aa (x 0)) ^ 2 = aa (x 0) ^ 2 := by linear_combination aa (x 0) ^ 2 * hs
  refine vec3_ext ?_ ?_ ?_ <;> simp [symTPLike, h.a, h.sin1, h.cos1, h.sin2, h.cos2, e, q]
  · linear_combination (aa (x 0) * sin (x 1) * cos (x 2)) * (sgn t * sgn t) * hs + (aa (x 0) * sin (x 1) * cos (x 2)) * ht
  · linear_combination (aa (x 0) * sin (x 1) * sin (x 2)) * (sgn t * sgn t) * hs + (aa (x 0) * sin (x 1) * sin (x 2)) * ht

theorem TPSigns.unit {x y : Vec} {s t : Bool} (h : TPSigns x y s t) {aa : ℝ → ℝ} (hr : ∀ t, aa (-t) = -aa t)
    (b : ℝ) (hi : Vec) (k i : Fin 3) : (symTPLike aa b hi).unit y k i =
      (![sgn s, sgn t, sgn s * sgn t] : Vec) k * (symTPLike aa b hi).unit x k i := by
  have e := odd_sgn hr s (x 0)
  have hs := sgn_sq s
  have ht := sgn_sq t
  have q : (sgn s * aa (x 0)) ^ 2 = aa (x 0) ^ 2 := by linear_combination aa (x 0) ^ 2 * hs
  have q' : (b * (sgn t * sin (x 1))) ^ 2 = (b * sin (x 1)) ^ 2 := by linear_combination (b * sin (x 1)) ^ 2 * ht
  fin_cases k <;> fin_cases i <;> simp only [symTPLike, h.a, h.sin1, h.cos1, h.sin2, h.cos2, e, q, q'] <;>
    generalize √(aa (x 0) ^ 2 + (b * sin (x 1)) ^ 2) = v1 <;> generalize √(aa (x 0) ^ 2 + b ^ 2) = v2 <;> simp
  · linear_combination (sgn s * sin (x 1) * cos (x 2) * v2 / v1) * ht
  · linear_combination (sgn s * sin (x 1) * sin (x 2) * v2 / v1) * ht
  · ring
  · linear_combination (sgn t * aa (x 0) * cos (x 1) * cos (x 2) / v1) * hs
  · linear_combination (sgn t * aa (x 0) * cos (x 1) * sin (x 2) / v1) * hs
  · ring

/-- The partner map of the prolate spheroidal systems and the two signs. -/
def tpFold (G : Grid) (p : Idx) : Idx × Bool × Bool :=
  let s := decide (p 0 < G.g)
  let f := foldPolar (G.n 1 - 2 * G.g) (p 1 - G.g)
  (![foldRadius G.g (p 0), f.1 + G.g, foldAzimuth (G.n 2 - 2 * G.g) (p 2 - G.g) s f.2 + G.g], s, f.2)

/-- What the prolate spheroidal systems need of a grid. -/
structure TPGrid (G : Grid) (hi : Vec) : Prop where
  size : ∀ d, 2 * (G.g : ℤ) < G.n d
  even : (G.n 2 - 2 * G.g) % 2 = 0
  pos : 0 < hi 0
  hi1 : hi 1 = π
  hi2 : hi 2 = π

theorem tp_dxx {G : Grid} {hi : Vec} (hG : TPGrid G hi) (aa : ℝ → ℝ) (b : ℝ) : ∀ d, 0 < dxx G (symTPLike aa b hi) d := by
  have hπ := pi_pos
  intro d
  refine dxx_pos (hG.size d) ?_
  fin_cases d
  · exact hG.pos
  · show 0 < hi 1
    rw [hG.hi1]; exact hπ
  · show -π < hi 2
    rw [hG.hi2]; linarith

theorem tp_signs {G : Grid} {hi : Vec} (hG : TPGrid G hi) (aa : ℝ → ℝ) (b : ℝ) (p : Idx) :
    TPSigns (xxAt G (symTPLike aa b hi) p) (xxAt G (symTPLike aa b hi) (tpFold G p).1) (tpFold G p).2.1 (tpFold G p).2.2 := by
  have N1 : 0 < G.n 1 - 2 * (G.g : ℤ) := by have := hG.size 1; omega
  have N2 : 0 < G.n 2 - 2 * (G.g : ℤ) := by have := hG.size 2; omega
  have az := foldAzimuth_trig N2 hG.even (p 2 - G.g) (tpFold G p).2.1 (tpFold G p).2.2
  have e2 : ∀ j, xx G (symTPLike aa b hi) 2 j = azimuth (G.n 2 - 2 * G.g) (j - G.g) := xx_azimuth rfl hG.hi2
  have e1 : ∀ j, xx G (symTPLike aa b hi) 1 j = polar (G.n 1 - 2 * G.g) (j - G.g) := xx_polar rfl hG.hi1
  have q2 : (tpFold G p).1 2 = foldAzimuth (G.n 2 - 2 * G.g) (p 2 - G.g) (tpFold G p).2.1 (tpFold G p).2.2 + G.g := rfl
  have q1 : (tpFold G p).1 1 = (foldPolar (G.n 1 - 2 * G.g) (p 1 - G.g)).1 + G.g := rfl
  have k := foldPolar_trig N1 (p 1 - G.g)
  refine ⟨xx_foldRadius (c := symTPLike aa b hi) rfl (p 0), ?_, ?_, ?_, ?_⟩
  · show sin (xx _ _ 1 _) = _ * sin (xx _ _ 1 _)
    rw [e1, e1, q1, add_sub_cancel_right, k.1]; rfl
  · show cos (xx _ _ 1 _) = cos (xx _ _ 1 _)
    rw [e1, e1, q1, add_sub_cancel_right, k.2]
  · show sin (xx _ _ 2 _) = _ * sin (xx _ _ 2 _)
    rw [e2, e2, q2, add_sub_cancel_right, az.1]
  · show cos (xx _ _ 2 _) = _ * cos (xx _ _ 2 _)
    rw [e2, e2, q2, add_sub_cancel_right, az.2]

theorem foldRadius_mem {n i : ℤ} {g : ℕ} (hn : 2 * (g : ℤ) < n) (h : 0 ≤ i ∧ i < n) :
    (g : ℤ) ≤ foldRadius g i ∧ foldRadius g i < n := by
  unfold foldRadius; split <;> omega

theorem foldRadius_id {i : ℤ} {g : ℕ} (h : (g : ℤ) ≤ i) : foldRadius g i = i := by
  unfold foldRadius; rw [if_neg (by omega)]

theorem tp_box {G : Grid} {hi : Vec} (hG : TPGrid G hi) {p : Idx} (hp : G.Has p) (d : Fin 3) :
    sphLo true true G d ≤ (tpFold G p).1 d ∧ (tpFold G p).1 d < sphHi true G d := by
  have N1 : 0 < G.n 1 - 2 * (G.g : ℤ) := by have := hG.size 1; omega
  have N2 : 0 < G.n 2 - 2 * (G.g : ℤ) := by have := hG.size 2; omega
  fin_cases d
  · exact foldRadius_mem (hG.size 0) (hp 0)
  · have k := foldPolar_mem N1 (p 1 - G.g)
    simp only [sphLo, sphHi, tpFold, if_true, Fin.mk_one, Matrix.cons_val_one, Matrix.cons_val_zero]
    omega
  · have k := foldAzimuth_mem N2 (p 2 - G.g) (tpFold G p).2.1 (tpFold G p).2.2
    show (G.g : ℤ) ≤ foldAzimuth _ _ (tpFold G p).2.1 (tpFold G p).2.2 + G.g ∧
      foldAzimuth _ _ (tpFold G p).2.1 (tpFold G p).2.2 + G.g < G.n 2 - G.g
    omega

theorem tp_id {G : Grid} {p : Idx} (hp : ∀ d, sphLo true true G d ≤ p d ∧ p d < sphHi true G d) : (tpFold G p).1 = p := by
  have h0 := hp 0
  have h1 := hp 1
  have h2 := hp 2
  simp [sphLo, sphHi] at h0 h1 h2
  have f : foldPolar (G.n 1 - 2 * G.g) (p 1 - G.g) = (p 1 - G.g, false) := foldPolar_id (by omega) (by omega)
  have s : decide (p 0 < G.g) = false := by simp; omega
  simp only [tpFold, s, f]
  refine idx_ext (foldRadius_id h0.1) (by simp) ?_
  simp [foldAzimuth_id (show 0 ≤ p 2 - (G.g : ℤ) by omega) (show p 2 - (G.g : ℤ) < G.n 2 - 2 * G.g by omega)]

theorem xx_ne_zero {G : Grid} {c : Coords} {d : Fin 3} (h0 : c.xxmin d = 0) (hdx : 0 < dxx G c d) (j : ℤ) :
    xx G c d j ≠ 0 := by
  have h := xx_foldRadius (G := G) h0 j
  have h' := xx_foldRadius_pos h0 hdx j
  rw [h] at h'
  intro e
  rw [e, mul_zero] at h'
  exact lt_irrefl _ h'

theorem Folds_tp {eps : ℝ} (he : 0 < eps) {G : Grid} {hi : Vec} (hG : TPGrid G hi) {aa : ℝ → ℝ} (hr : ∀ t, aa (-t) = -aa t)
    (hpos : ∀ t, 0 < t → 0 < aa t) (hd : Differentiable ℝ aa) {b : ℝ} (hb : 0 < b) (amax : ℝ) :
    Folds eps G (symTPLike aa b hi) (symTP amax b) (fun p => (tpFold G p).1)
      (fun p => ![sgn (tpFold G p).2.1, sgn (tpFold G p).2.2, sgn (tpFold G p).2.1 * sgn (tpFold G p).2.2])
      (sphLo true true G) (sphHi true G) := by
  have n0 := hG.size 0
  have n1 := hG.size 1
  have n2 := hG.size 2
  have hdx := tp_dxx hG aa b
  have lom : ∀ d, 0 ≤ sphLo true true G d ∧ sphLo true true G d ≤ G.g := by
    intro d; fin_cases d <;> simp [sphLo]
  have him : ∀ d, G.n d - G.g ≤ sphHi true G d ∧ sphHi true G d ≤ G.n d := by
    intro d; fin_cases d <;> simp [sphHi]
  refine ⟨lom, him, fun p hp => tp_box hG hp, fun p hp h => tp_id h, fun p hp => ?_, fun p hp => (tp_signs hG aa b p).toCart hr b hi,
    fun p k => ?_, fun p hp => (tp_signs hG aa b p).unit hr b hi, fun p hp k => ?_⟩
  · have hbx := tp_box hG hp
    refine partner_of he hdx rfl (fun d => ⟨(lom d).1.trans (hbx d).1, (hbx d).2.trans_le (him d).2⟩) ?_
      ((tp_signs hG aa b p).toCart hr b hi)
    have e : (symTP amax b).toCart (xxAt G (symTPLike aa b hi) p) =
        (symTP amax b).toCart (xxAt G (symTPLike aa b hi) (tpFold G p).1) :=
      ((tp_signs hG aa b p).toCart (aa := fun t => t) (fun t => rfl) b _).symm
    rw [e]
    have b1 := hbx 1
    have b2 := hbx 2
    simp [sphLo, sphHi] at b1 b2
    have k1 : 0 < xxAt G (symTPLike aa b hi) (tpFold G p).1 1 ∧ xxAt G (symTPLike aa b hi) (tpFold G p).1 1 < π := by
      show 0 < xx _ _ _ _ ∧ xx _ _ _ _ < π
      rw [xx_polar (c := symTPLike aa b hi) rfl hG.hi1]
      exact polar_mem (by omega) (by omega)
    have k2 : -π < xxAt G (symTPLike aa b hi) (tpFold G p).1 2 ∧ xxAt G (symTPLike aa b hi) (tpFold G p).1 2 < π := by
      show -π < xx _ _ _ _ ∧ xx _ _ _ _ < π
      rw [xx_azimuth (c := symTPLike aa b hi) rfl hG.hi2]
      exact azimuth_mem (by omega) (by omega)
    have k0 : 0 < xxAt G (symTPLike aa b hi) (tpFold G p).1 0 := xx_foldRadius_pos (c := symTPLike aa b hi) rfl (hdx 0) _
    exact (ofCartSymTP_toCart (aa := fun t => t) hb k0 k1.1 k1.2 k2.1 k2.2.le).trans (vec3_ext rfl rfl rfl)
  · rcases sgn_or (tpFold G p).2.1 with h | h <;> rcases sgn_or (tpFold G p).2.2 with h' | h' <;>
      fin_cases k <;> simp [h, h']
  · have ha : aa (xxAt G (symTPLike aa b hi) p 0) ≠ 0 := by
      have hne : xxAt G (symTPLike aa b hi) p 0 ≠ 0 := xx_ne_zero (c := symTPLike aa b hi) rfl (hdx 0) _
      rcases lt_or_gt_of_ne hne with h | h
      · have := hpos _ (neg_pos.2 h)
        rw [hr] at this
        intro e
        rw [e] at this
        simp at this
      · exact (hpos _ h).ne'
    have hv : (symTPLike aa b hi).scale (xxAt G (symTPLike aa b hi) p) 1 ≠ 0 := by
      show √(aa _ ^ 2 + _) ≠ 0
      have : 0 < aa (xxAt G (symTPLike aa b hi) p 0) ^ 2 + (b * sin (xxAt G (symTPLike aa b hi) p 1)) ^ 2 := by positivity
      exact (sqrt_pos.2 this).ne'
    have := (basis_symTPLike hd hb.ne' hi _ hv).orthonormal k k
    rwa [if_pos rfl] at this

/-! ### Cylindrical-like -/

/-- Signs that relate two sets of cylindrical coordinates of a point. -/
structure CylSigns (x y : Vec) (s : Bool) : Prop where
  rho : y 0 = sgn s * x 0
  sin1 : sin (y 1) = sgn s * sin (x 1)
  cos1 : cos (y 1) = sgn s * cos (x 1)
  z : y 2 = x 2

theorem CylSigns.toCart {x y : Vec} {s : Bool} (h : CylSigns x y s) {rho : ℝ → ℝ} (hr : ∀ t, rho (-t) = -rho t)
    (z : ℝ → ℝ) (lo hi : Vec) (o : Option (Vec → Vec)) :
    (cylindricalLike rho z lo hi o).toCart y = (cylindricalLike rho z lo hi o).toCart x := by
  have e := odd_sgn hr s (x 0)
  have hs := sgn_sq s
  refine vec3_ext ?_ ?_ ?_ <;> simp [cylindricalLike, h.rho, h.sin1, h.cos1, h.z, e]
  · linear_combination (rho (x 0) * cos (x 1)) * hs
  · linear_combination (rho (x 0) * sin (x 1)) * hs

theorem CylSigns.unit {x y : Vec} {s : Bool} (h : CylSigns x y s) (rho z : ℝ → ℝ) (lo hi : Vec) (o : Option (Vec → Vec))
    (k i : Fin 3) : (cylindricalLike rho z lo hi o).unit y k i =
      (![sgn s, sgn s, 1] : Vec) k * (cylindricalLike rho z lo hi o).unit x k i := by
  fin_cases k <;> fin_cases i <;> simp [cylindricalLike, h.sin1, h.cos1]

/-- The partner map of the cylindrical systems and its sign. -/
def cylFold (G : Grid) (p : Idx) : Idx × Bool :=
  let s := decide (p 0 < G.g)
  (![foldRadius G.g (p 0), foldAzimuth (G.n 1 - 2 * G.g) (p 1 - G.g) s false + G.g, p 2], s)

/-- What the cylindrical systems need of a grid. -/
structure CylGrid (G : Grid) (lo hi : Vec) : Prop where
  size : ∀ d, 2 * (G.g : ℤ) < G.n d
  even : (G.n 1 - 2 * G.g) % 2 = 0
  lo0 : lo 0 = 0
  lo1 : lo 1 = -π
  pos : 0 < hi 0
  hi1 : hi 1 = π
  lt2 : lo 2 < hi 2

theorem cyl_dxx {G : Grid} {lo hi : Vec} (hG : CylGrid G lo hi) (rho z : ℝ → ℝ) (o : Option (Vec → Vec)) :
    ∀ d, 0 < dxx G (cylindricalLike rho z lo hi o) d := by
  have hπ := pi_pos
  intro d
  refine dxx_pos (hG.size d) ?_
  fin_cases d
  · show lo 0 < hi 0
    rw [hG.lo0]; exact hG.pos
  · show lo 1 < hi 1
    rw [hG.lo1, hG.hi1]; linarith
  · exact hG.lt2

theorem cyl_signs {G : Grid} {lo hi : Vec} (hG : CylGrid G lo hi) (rho z : ℝ → ℝ) (o : Option (Vec → Vec)) (p : Idx) :
    CylSigns (xxAt G (cylindricalLike rho z lo hi o) p) (xxAt G (cylindricalLike rho z lo hi o) (cylFold G p).1)
      (cylFold G p).2 := by
  have N1 : 0 < G.n 1 - 2 * (G.g : ℤ) := by have := hG.size 1; omega
  have az := foldAzimuth_trig N1 hG.even (p 1 - G.g) (cylFold G p).2 false
  have e1 : ∀ j, xx G (cylindricalLike rho z lo hi o) 1 j = azimuth (G.n 1 - 2 * G.g) (j - G.g) := xx_azimuth hG.lo1 hG.hi1
  have q1 : (cylFold G p).1 1 = foldAzimuth (G.n 1 - 2 * G.g) (p 1 - G.g) (cylFold G p).2 false + G.g := rfl
  refine ⟨xx_foldRadius (c := cylindricalLike rho z lo hi o) hG.lo0 (p 0), ?_, ?_, rfl⟩
  · show sin (xx _ _ 1 _) = _ * sin (xx _ _ 1 _)
    rw [e1, e1, q1, add_sub_cancel_right, az.1]; simp [sgn]
  · show cos (xx _ _ 1 _) = _ * cos (xx _ _ 1 _)
    rw [e1, e1, q1, add_sub_cancel_right, az.2]; simp [sgn]

/-- Box of the points that are their own partners. -/
def cylLo (G : Grid) : Idx := ![G.g, G.g, 0]
@[inherit_doc cylLo]
def cylHi (G : Grid) : Idx := ![G.n 0, G.n 1 - G.g, G.n 2]

theorem cyl_box {G : Grid} {lo hi : Vec} (hG : CylGrid G lo hi) {p : Idx} (hp : G.Has p) (d : Fin 3) :
    cylLo G d ≤ (cylFold G p).1 d ∧ (cylFold G p).1 d < cylHi G d := by
  have N1 : 0 < G.n 1 - 2 * (G.g : ℤ) := by have := hG.size 1; omega
  fin_cases d
  · exact foldRadius_mem (hG.size 0) (hp 0)
  · have k := foldAzimuth_mem N1 (p 1 - G.g) (cylFold G p).2 false
    show (G.g : ℤ) ≤ foldAzimuth _ _ (cylFold G p).2 false + G.g ∧ foldAzimuth _ _ (cylFold G p).2 false + G.g < G.n 1 - G.g
    omega
  · exact hp 2

theorem cyl_id {G : Grid} {p : Idx} (hp : ∀ d, cylLo G d ≤ p d ∧ p d < cylHi G d) : (cylFold G p).1 = p := by
  have h0 := hp 0
  have h1 := hp 1
  simp [cylLo, cylHi] at h0 h1
  have s : decide (p 0 < G.g) = false := by simp; omega
  simp only [cylFold, s]
  refine idx_ext (foldRadius_id h0.1) ?_ rfl
  simp [foldAzimuth_id (show 0 ≤ p 1 - (G.g : ℤ) by omega) (show p 1 - (G.g : ℤ) < G.n 1 - 2 * G.g by omega)]

theorem Folds_cyl {eps : ℝ} (he : 0 < eps) {G : Grid} {lo hi : Vec} (hG : CylGrid G lo hi) {rho : ℝ → ℝ}
    (hr : ∀ t, rho (-t) = -rho t) (z : ℝ → ℝ) (o : Option (Vec → Vec)) (rhomax zmin zmax : ℝ) :
    Folds eps G (cylindricalLike rho z lo hi o) (cylindrical rhomax zmin zmax) (fun p => (cylFold G p).1)
      (fun p => ![sgn (cylFold G p).2, sgn (cylFold G p).2, 1]) (cylLo G) (cylHi G) := by
  have n0 := hG.size 0
  have n1 := hG.size 1
  have n2 := hG.size 2
  have hdx := cyl_dxx hG rho z o
  have lom : ∀ d, 0 ≤ cylLo G d ∧ cylLo G d ≤ G.g := by
    intro d; fin_cases d <;> simp [cylLo]
  have him : ∀ d, G.n d - G.g ≤ cylHi G d ∧ cylHi G d ≤ G.n d := by
    intro d; fin_cases d <;> simp [cylHi]
  refine ⟨lom, him, fun p hp => cyl_box hG hp, fun p hp h => cyl_id h, fun p hp => ?_,
    fun p hp => (cyl_signs hG rho z o p).toCart hr z lo hi o,
    fun p k => ?_, fun p hp => (cyl_signs hG rho z o p).unit rho z lo hi o, fun p hp k => ?_⟩
  · have hbx := cyl_box hG hp
    refine partner_of he hdx rfl (fun d => ⟨(lom d).1.trans (hbx d).1, (hbx d).2.trans_le (him d).2⟩) ?_
      ((cyl_signs hG rho z o p).toCart hr z lo hi o)
    have e : (cylindrical rhomax zmin zmax).toCart (xxAt G (cylindricalLike rho z lo hi o) p) =
        (cylindrical rhomax zmin zmax).toCart (xxAt G (cylindricalLike rho z lo hi o) (cylFold G p).1) :=
      ((cyl_signs hG rho z o p).toCart (rho := fun t => t) (fun t => rfl) (fun t => t) _ _ _).symm
    rw [e]
    have b1 := hbx 1
    simp [cylLo, cylHi] at b1
    have k1 : -π < xxAt G (cylindricalLike rho z lo hi o) (cylFold G p).1 1 ∧
        xxAt G (cylindricalLike rho z lo hi o) (cylFold G p).1 1 < π := by
      show -π < xx _ _ _ _ ∧ xx _ _ _ _ < π
      rw [xx_azimuth (c := cylindricalLike rho z lo hi o) hG.lo1 hG.hi1]
      exact azimuth_mem (by omega) (by omega)
    have k0 : 0 < xxAt G (cylindricalLike rho z lo hi o) (cylFold G p).1 0 :=
      xx_foldRadius_pos (c := cylindricalLike rho z lo hi o) hG.lo0 (hdx 0) _
    set y := xxAt G (cylindricalLike rho z lo hi o) (cylFold G p).1 with hy
    exact (inverse_cylindricalLike (rho := fun t => t) (z := fun t => t) (s := fun t => t) (t := fun t => t)
      (lo := ![0, -π, y 2 - 1]) (hi := ![y 0 + 1, π, y 2 + 1]) (fun t h => h) (fun _ => rfl) (fun _ => rfl) (fun _ => rfl)
      (fun _ => rfl) le_rfl le_rfl none).1 y (by
        intro i
        fin_cases i <;> simp [cylindricalLike]
        · exact k0
        · exact k1)
  · rcases sgn_or (cylFold G p).2 with h | h <;> fin_cases k <;> simp [h]
  · have := (basis_cylindricalLike (rho := fun t => t) (z := fun t => t) differentiable_id differentiable_id lo hi o
      (xxAt G (cylindricalLike rho z lo hi o) p)).orthonormal k k
    rw [if_pos rfl] at this
    exact this

/-! ### Cartesian and wedges -/

theorem Folds_cart {eps : ℝ} (he : 0 < eps) {G : Grid} {c : Coords} (hn : ∀ d, 2 * (G.g : ℤ) < G.n d)
    (hlt : ∀ d, c.xxmin d < c.xxmax d) (hb : ∀ x k, ∑ i, c.unit x k i * c.unit x k i = 1) (lo hi : Vec) :
    Folds eps G c (cartesian lo hi) (fun p => p) (fun _ _ => 1) ![0, 0, 0] G.n := by
  have hdx : ∀ d, 0 < dxx G c d := fun d => dxx_pos (hn d) (hlt d)
  refine ⟨fun d => ?_, fun d => ⟨by omega, le_rfl⟩, fun p hp d => ?_, fun p _ _ => rfl, fun p hp => ?_, fun p _ => rfl,
    fun _ _ => .inl rfl, fun p _ k i => (one_mul _).symm, fun p _ k => hb _ k⟩
  · fin_cases d <;> simp
  · have := hp d
    fin_cases d <;> exact this
  · exact partner_of he hdx rfl hp (vec3_ext rfl rfl rfl) rfl

end Verif.CurviBC
