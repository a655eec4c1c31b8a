import Verif.TP.InterpModel
import Verif.TP.EqClaims

/-!
# C98: what TwoPunctures returns at a point
-/
namespace Verif.TP
open Real Verif.RefMetric Verif.BSSN Verif.Wave Verif.Initial
open scoped ContDiff

/-! ## Specification -/

/-- The components, in the frame of the evolution code, of a vector with the components `v` in the frame of the solver: the `x`, `y`, `z` axes of the solver are the
`z`, `x`, `y` axes of the evolution code, or with `swap_xz` its `y`, `x`, `z` axes. -/
def turned (swap : Bool) (v : Vec) : Vec := if swap then ![v 1, v 0, v 2] else ![v 1, v 2, v 0]

/-- The same for an angular momentum; with `swap_xz` the map is a reflection. -/
def turnedSpin (swap : Bool) (v : Vec) : Vec := if swap then -turned swap v else turned swap v

/-- The position, in the frame of the evolution code, of a position in the frame of the solver. -/
def destOf (p : Persist) (s : Vec) : Vec := p.center_offset + turned p.swap_xz s

/-- The position in the frame of the solver of a position in the frame of the evolution code. -/
def sourceOf (p : Persist) (x : Vec) : Vec :=
  let d := x - p.center_offset
  if p.swap_xz then ![d 1, d 0, d 2] else ![d 2, d 0, d 1]

/-- The positions of the punctures in the frame of the evolution code. -/
def plusAt (p : Persist) : Vec := destOf p (plus p.toPar)
@[inherit_doc plusAt]
def minusAt (p : Persist) : Vec := destOf p (minus p.toPar)

/-- `M / r`, inside the radius `E` replaced by a polynomial. -/
noncomputable def extended (E M r : ℝ) : ℝ := if r < E then M * (3 * r ^ 4 / (8 * E ^ 5) - 5 * r ^ 2 / (4 * E ^ 3) + 15 / (8 * E)) else M / r

/-- The conformal factor, as a function of the position in the frame of the evolution code; `w` is the correction. -/
noncomputable def psiAt (p : Persist) (w : Scal) : Scal := fun x =>
  1 + extended p.TP_Extend_Radius p.mp (dist3 (plusAt p) x) / 2 + extended p.TP_Extend_Radius p.mm (dist3 (minusAt p) x) / 2 + w x

/-- The Bowen–York tensor of the two punctures in the frame of the evolution code. -/
noncomputable def curvatureAt (p : Persist) : T2 := fun i j x =>
  bowenYorkA (plusAt p) (turned p.swap_xz p.par_P_plus) (turnedSpin p.swap_xz p.par_S_plus) i j x +
    bowenYorkA (minusAt p) (turned p.swap_xz p.par_P_minus) (turnedSpin p.swap_xz p.par_S_minus) i j x

/-- The symmetric matrix with the given upper half. -/
def sym (d00 d01 d02 d11 d12 d22 : ℝ) : Fin 3 → Fin 3 → ℝ := ![![d00, d01, d02], ![d01, d11, d12], ![d02, d12, d22]]

/-- The metric of a returned structure. -/
def InitialData.gamma (d : InitialData) : Fin 3 → Fin 3 → ℝ := sym d.gammaSphorCartDD00 d.gammaSphorCartDD01 d.gammaSphorCartDD02 d.gammaSphorCartDD11
  d.gammaSphorCartDD12 d.gammaSphorCartDD22

/-- The extrinsic curvature of a returned structure. -/
def InitialData.K (d : InitialData) : Fin 3 → Fin 3 → ℝ := sym d.KSphorCartDD00 d.KSphorCartDD01 d.KSphorCartDD02 d.KSphorCartDD11 d.KSphorCartDD12 d.KSphorCartDD22

/-- The metric that the function returns, as a field. -/
noncomputable def metricField (p : Persist) : T2 := fun i j x => ((TP_Interp p x).map fun d => d.gamma i j).getD 0

/-- The extrinsic curvature that the function returns, as a field. -/
noncomputable def curvatureField (p : Persist) : T2 := fun i j x => ((TP_Interp p x).map fun d => d.K i j).getD 0

/-- The regularisation is off, and the position is no puncture and outside the spheres of radius `TP_Tiny` around the punctures. -/
structure Regular (p : Persist) (x : Vec) : Prop where
  eps : p.TP_epsilon = 0
  tiny : 0 ≤ p.TP_Tiny
  plus : x ≠ plusAt p
  minus : x ≠ minusAt p
  tiny_plus : p.TP_Tiny ≤ dist3 (plusAt p) x
  tiny_minus : p.TP_Tiny ≤ dist3 (minusAt p) x

/-! ## Lemmas on the frames -/

/-- The source axis of a destination axis. -/
def axes (swap : Bool) : Equiv.Perm (Fin 3) := if swap then Equiv.swap 0 1 else finRotate 3

theorem axes_eq : axes false 0 = 1 ∧ axes false 1 = 2 ∧ axes false 2 = 0 ∧ axes true 0 = 1 ∧ axes true 1 = 0 ∧ axes true 2 = 2 := by decide

theorem turned_axes (swap : Bool) (v : Vec) (i : Fin 3) : turned swap v i = v (axes swap i) := by
  obtain ⟨a, b, c, d, e, f⟩ := axes_eq
  cases swap <;> fin_cases i <;> simp [turned, a, b, c, d, e, f]

theorem sourceOf_axes (p : Persist) (x : Vec) (i : Fin 3) : sourceOf p x (axes p.swap_xz i) = x i - p.center_offset i := by
  unfold sourceOf
  obtain ⟨a, b, c, d, e, f⟩ := axes_eq
  cases p.swap_xz <;> fin_cases i <;> simp [a, b, c, d, e, f]

theorem source_dest (p : Persist) (s : Vec) : sourceOf p (destOf p s) = s := by
  funext i
  obtain ⟨k, rfl⟩ := (axes p.swap_xz).surjective i
  rw [sourceOf_axes, destOf, Pi.add_apply, turned_axes, add_sub_cancel_left]

theorem dest_source (p : Persist) (x : Vec) : destOf p (sourceOf p x) = x := by
  funext i
  rw [destOf, Pi.add_apply, turned_axes, sourceOf_axes, add_sub_cancel]

theorem dist_dest (p : Persist) (c x : Vec) : dist3 (destOf p c) x = dist3 c (sourceOf p x) := by
  have e : ∀ v : Vec, ∑ i, v (axes p.swap_xz i) ^ 2 = v 0 ^ 2 + v 1 ^ 2 + v 2 ^ 2 := fun v => by
    rw [Equiv.sum_comp (axes p.swap_xz) fun i => v i ^ 2, Fin.sum_univ_three]
  have e1 := e fun i => sourceOf p x i - c i
  rw [dist3, dist3, ← e1, Fin.sum_univ_three]
  simp only [sourceOf_axes, destOf, Pi.add_apply, turned_axes]
  congr 1
  ring

/-- A function of the position in the frame of the solver, in the frame of the evolution code. -/
def pull (p : Persist) (f : Scal) : Scal := fun x => f (sourceOf p x)

theorem sourceOf_update (p : Persist) (x : Vec) (k : Fin 3) (t : ℝ) :
    sourceOf p (Function.update x k t) = Function.update (sourceOf p x) (axes p.swap_xz k) (t - p.center_offset k) := by
  funext i
  obtain ⟨j, rfl⟩ := (axes p.swap_xz).surjective i
  rw [sourceOf_axes, Function.update_apply, Function.update_apply, sourceOf_axes]
  simp only [EmbeddingLike.apply_eq_iff_eq]
  split_ifs with h
  · rw [h]
  · rfl

theorem pd_pull (p : Persist) (f : Scal) (k : Fin 3) : pd k (pull p f) = pull p (pd (axes p.swap_xz k) f) := by
  funext x
  simp only [pd, pull, sourceOf_update, sourceOf_axes]
  rw [deriv_comp_sub_const (fun t => f (Function.update (sourceOf p x) (axes p.swap_xz k) t))]

theorem sourceOf_contDiff (p : Persist) : ContDiff ℝ ∞ (sourceOf p) := by
  rw [contDiff_pi]
  intro i
  obtain ⟨j, rfl⟩ := (axes p.swap_xz).surjective i
  simp only [sourceOf_axes]
  exact (contDiff_apply ℝ ℝ j).sub contDiff_const

theorem pull_smooth {p : Persist} {Ω Ω' : Dom} (h : ∀ x ∈ Ω, sourceOf p x ∈ Ω') {f : Scal} (hf : Sm Ω' f) : Sm Ω (pull p f) :=
  sm_of_at fun x hx => (hf.at (h x hx)).comp x (sourceOf_contDiff p).contDiffAt

theorem laplacian_pull (p : Persist) (f : Scal) (x : Vec) : laplacian (pull p f) x = laplacian f (sourceOf p x) := by
  simp only [laplacian, pd_pull]
  exact Equiv.sum_comp (axes p.swap_xz) fun k => pd k (pd k f) (sourceOf p x)

/-- The Bowen–York tensor in the two frames. -/
theorem bowenYork_pull (p : Persist) (c P S x : Vec) (i j : Fin 3) :
    bowenYorkA (destOf p c) (turned p.swap_xz P) (turnedSpin p.swap_xz S) i j x = bowenYorkA c P S (axes p.swap_xz i) (axes p.swap_xz j) (sourceOf p x) := by
  simp only [bowenYorkA, dist_dest]
  generalize dist3 c (sourceOf p x) = r
  obtain ⟨n, hn⟩ : ∃ n : Vec, ∀ j, (sourceOf p x j - c j) / r = n j := ⟨_, fun _ => rfl⟩
  have e : ∀ j, (x j - destOf p c j) / r = turned p.swap_xz n j := by
    intro k
    rw [turned_axes, ← hn, sourceOf_axes, destOf, Pi.add_apply, turned_axes]
    ring
  simp only [e, hn]
  clear e hn
  have ec : ∀ i, (crossProduct (turned p.swap_xz n) (turnedSpin p.swap_xz S)) i = (crossProduct n S) (axes p.swap_xz i) := by
    intro i
    obtain ⟨a, b, c, d, e, f⟩ := axes_eq
    cases p.swap_xz <;> fin_cases i <;> simp [cross_apply, turned, turnedSpin, a, b, c, d, e, f] <;> ring
  have ed : turned p.swap_xz n ⬝ᵥ turned p.swap_xz P = n ⬝ᵥ P := by
    simp only [dotProduct, turned_axes]
    exact Equiv.sum_comp (axes p.swap_xz) fun i => n i * P i
  have et : (fun j => turned p.swap_xz n j) = turned p.swap_xz n := rfl
  have en : (fun j => n j) = n := rfl
  rw [et, en]
  simp only [ec, ed]
  simp only [turned_axes, EmbeddingLike.apply_eq_iff_eq]

theorem curvatureAt_eq (p : Persist) (i j : Fin 3) : curvatureAt p i j = pull p (curvature p.toPar (axes p.swap_xz i) (axes p.swap_xz j)) := by
  funext x
  simp only [curvatureAt, plusAt, minusAt, bowenYork_pull, pull, curvature]

theorem ne_dest {p : Persist} {c x : Vec} : x ≠ destOf p c ↔ sourceOf p x ≠ c := by
  constructor
  · rintro h rfl
    exact h (dest_source p x).symm
  · rintro h rfl
    exact h (source_dest p c)

theorem Regular.off {p : Persist} {x : Vec} (h : Regular p x) : sourceOf p x ∈ offPunctures p.toPar := ⟨ne_dest.1 h.plus, ne_dest.1 h.minus⟩

/-! ## Lemmas on the model -/

theorem rpow_quarter {r : ℝ} (hr : 0 ≤ r) : (r ^ 4) ^ (0.25 : ℝ) = r := by
  rw [← rpow_natCast, ← rpow_mul hr]
  norm_num

theorem regularised_eq {par : Par} (he : par.TP_epsilon = 0) {r : ℝ} (hr : 0 ≤ r) (ht : par.TP_Tiny ≤ r) : regularised par (r ^ 2) = r := by
  simp only [regularised, he, sqrt_sq hr, ne_eq, OfNat.ofNat_ne_zero, not_false_eq_true, zero_pow, add_zero, rpow_quarter hr]
  rw [if_neg (not_lt.2 ht)]

theorem EXTEND_eq (E M r : ℝ) : EXTEND E M r = M * (3 * r ^ 4 / (8 * E ^ 5) - 5 * r ^ 2 / (4 * E ^ 3) + 15 / (8 * E)) := by
  unfold EXTEND
  ring

theorem regular_plus {p : Persist} {x : Vec} (h : Regular p x) {s : Vec} (hs : s = sourceOf p x) :
    regularised p.toPar ((s 0 - p.par_b) ^ 2 + s 1 ^ 2 + s 2 ^ 2) = dist3 (plusAt p) x := by
  have e : (s 0 - p.par_b) ^ 2 + s 1 ^ 2 + s 2 ^ 2 = dist3 (plusAt p) x ^ 2 := by
    rw [plusAt, dist_dest, dist3_sq, ← hs]
    simp [plus]
  rw [e, regularised_eq h.eps (dist3_nonneg _ _) h.tiny_plus]

theorem regular_minus {p : Persist} {x : Vec} (h : Regular p x) {s : Vec} (hs : s = sourceOf p x) :
    regularised p.toPar ((s 0 + p.par_b) ^ 2 + s 1 ^ 2 + s 2 ^ 2) = dist3 (minusAt p) x := by
  have e : (s 0 + p.par_b) ^ 2 + s 1 ^ 2 + s 2 ^ 2 = dist3 (minusAt p) x ^ 2 := by
    rw [minusAt, dist_dest, dist3_sq, ← hs]
    simp [minus]
  rw [e, regularised_eq h.eps (dist3_nonneg _ _) h.tiny_minus]

/-- The value of the correction that the function uses at a position of the solver's frame. -/
noncomputable def correction (p : Persist) : Scal := fun s =>
  if p.grid_setup_method = "Taylor expansion" then PunctTaylorExpandAtArbitPosition p.par_b p.npoints_A p.npoints_B p.npoints_phi p.v (s 0) (s 1) (s 2)
  else PunctIntPolAtArbitPositionFast p.par_b p.npoints_A p.npoints_B p.npoints_phi p.cf_v (s 0) (s 1) (s 2)

/-- The lapse that the function computes. -/
noncomputable def lapseOf (p : Persist) (rp rm : ℝ) : ℝ :=
  let E := p.TP_Extend_Radius
  let a := -1.0e100
  let q := 1.0 + 0.5 * p.mp * (if rp < E then EXTEND E 1 rp else 1.0 / rp) + 0.5 * p.mm * (if rm < E then EXTEND E 1 rm else 1.0 / rm)
  let a := if p.initial_lapse = "psi^n" ∨ p.initial_lapse = "brownsville" then
      if p.initial_lapse = "brownsville" then 2.0 / (1.0 + q ^ p.initial_lapse_psi_exponent) else if p.initial_lapse = "psi^n" then q ^ p.initial_lapse_psi_exponent else a
    else a
  let c := if rm < E then (1.0 - 0.5 * EXTEND E p.mm rm - 0.5 * p.mp / rp) / (1.0 + 0.5 * EXTEND E p.mp rm + 0.5 * p.mp / rp)
    else if rp < E then (1.0 - 0.5 * EXTEND E p.mp rp - 0.5 * p.mm / rm) / (1.0 + 0.5 * EXTEND E p.mp rp + 0.5 * p.mm / rm)
    else (1.0 - 0.5 * p.mp / rp - 0.5 * p.mm / rm) / (1.0 + 0.5 * p.mp / rp + 0.5 * p.mm / rm)
  let a := if p.initial_lapse = "twopunctures-antisymmetric" ∨ p.initial_lapse = "twopunctures-averaged" then
      if p.initial_lapse = "twopunctures-averaged" then 0.5 * (1.0 + c) else c
    else a
  if p.multiply_old_lapse then a * -1.0e100 else a

/-- The conformal factor that the function computes. -/
noncomputable def psiOf (p : Persist) (rp rm U : ℝ) : ℝ :=
  let E := p.TP_Extend_Radius
  if rm < E then 1 + 0.5 * EXTEND E p.mm rm + 0.5 * p.mp / rp + U
  else if rp < E then 1 + 0.5 * EXTEND E p.mp rp + 0.5 * p.mm / rm + U
  else 1 + 0.5 * p.mp / rp + 0.5 * p.mm / rm + U

/-- The structure that the function returns. -/
noncomputable def resultOf (swap : Bool) (ψ α : ℝ) (A : Fin 3 → Fin 3 → ℝ) : InitialData where
  gammaSphorCartDD00 := ψ ^ 4
  gammaSphorCartDD01 := 0
  gammaSphorCartDD02 := 0
  gammaSphorCartDD11 := ψ ^ 4
  gammaSphorCartDD12 := 0
  gammaSphorCartDD22 := ψ ^ 4
  KSphorCartDD00 := A 1 1 / ψ ^ 2
  KSphorCartDD01 := (if swap then A 0 1 else A 1 2) / ψ ^ 2
  KSphorCartDD02 := (if swap then A 1 2 else A 0 1) / ψ ^ 2
  KSphorCartDD11 := (if swap then A 0 0 else A 2 2) / ψ ^ 2
  KSphorCartDD12 := A 0 2 / ψ ^ 2
  KSphorCartDD22 := (if swap then A 2 2 else A 0 0) / ψ ^ 2
  alpha := α
  betaSphorCartU := 0
  BSphorCartU := 0

theorem interp_result {p : Persist} (hg : p.grid_setup_method = "Taylor expansion" ∨ p.grid_setup_method = "evaluation") (x : Vec) {s : Vec} (hs : s = sourceOf p x)
    {rp rm : ℝ} (hp : regularised p.toPar ((s 0 - p.par_b) ^ 2 + s 1 ^ 2 + s 2 ^ 2) = rp) (hm : regularised p.toPar ((s 0 + p.par_b) ^ 2 + s 1 ^ 2 + s 2 ^ 2) = rm) :
    TP_Interp p x = some (resultOf p.swap_xz (psiOf p rp rm (correction p s)) (lapseOf p rp rm) (BY_Aijofxyz p.toPar (s 0) (s 1) (s 2))) := by
  have hU : (if p.grid_setup_method = "Taylor expansion" then some (PunctTaylorExpandAtArbitPosition p.par_b p.npoints_A p.npoints_B p.npoints_phi p.v (s 0) (s 1) (s 2))
      else if p.grid_setup_method = "evaluation" then some (PunctIntPolAtArbitPositionFast p.par_b p.npoints_A p.npoints_B p.npoints_phi p.cf_v (s 0) (s 1) (s 2)) else none) =
      some (correction p s) := by
    rcases hg with hg | hg <;> simp [correction, hg]
  have e0 : (![0, 0, 0] : Fin 3 → ℝ) = 0 := by
    funext k
    fin_cases k <;> rfl
  cases hsw : p.swap_xz
  · have s0 : x 2 - p.center_offset 2 = s 0 := by simp [hs, sourceOf, hsw]
    have s1 : x 0 - p.center_offset 0 = s 1 := by simp [hs, sourceOf, hsw]
    have s2 : x 1 - p.center_offset 1 = s 2 := by simp [hs, sourceOf, hsw]
    cases hml : p.multiply_old_lapse <;> simp only [TP_Interp, hsw, hml, Bool.false_eq_true, if_false, if_true, s0, s1, s2, hU, ← sq, hp, hm, resultOf, psiOf, lapseOf, e0, div_one]
  · have s0 : x 1 - p.center_offset 1 = s 0 := by simp [hs, sourceOf, hsw]
    have s1 : x 0 - p.center_offset 0 = s 1 := by simp [hs, sourceOf, hsw]
    have s2 : x 2 - p.center_offset 2 = s 2 := by simp [hs, sourceOf, hsw]
    cases hml : p.multiply_old_lapse <;> simp only [TP_Interp, hsw, hml, Bool.false_eq_true, if_false, if_true, s0, s1, s2, hU, ← sq, hp, hm, resultOf, psiOf, lapseOf, e0, div_one]

theorem interp_eq {p : Persist} (hg : p.grid_setup_method = "Taylor expansion" ∨ p.grid_setup_method = "evaluation") {x : Vec} (h : Regular p x) :
    TP_Interp p x = some (resultOf p.swap_xz (psiOf p (dist3 (plusAt p) x) (dist3 (minusAt p) x) (correction p (sourceOf p x)))
      (lapseOf p (dist3 (plusAt p) x) (dist3 (minusAt p) x)) fun i j => curvature p.toPar i j (sourceOf p x)) := by
  rw [interp_result hg x rfl (regular_plus h rfl) (regular_minus h rfl)]
  congr 2
  funext i j
  have e : ![sourceOf p x 0, sourceOf p x 1, sourceOf p x 2] = sourceOf p x := by
    funext k
    fin_cases k <;> rfl
  rw [C97_components p.toPar _ _ _ (by rw [e]; exact h.off) h.eps h.tiny (by rw [e, ← dist_dest]; exact h.tiny_plus) (by rw [e, ← dist_dest]; exact h.tiny_minus), e]

theorem resultOf_gamma (swap : Bool) (ψ α : ℝ) (A : Fin 3 → Fin 3 → ℝ) (i j : Fin 3) : (resultOf swap ψ α A).gamma i j = if i = j then ψ ^ 4 else 0 := by
  fin_cases i <;> fin_cases j <;> rfl

theorem resultOf_K (swap : Bool) (ψ α : ℝ) {A : Fin 3 → Fin 3 → ℝ} (hA : ∀ i j, A i j = A j i) (i j : Fin 3) :
    (resultOf swap ψ α A).K i j = A (axes swap i) (axes swap j) / ψ ^ 2 := by
  obtain ⟨a, b, c, d, e, f⟩ := axes_eq
  cases swap <;> fin_cases i <;> fin_cases j <;> simp [resultOf, InitialData.K, sym, a, b, c, d, e, f] <;> rw [hA]

theorem psiOf_eq (p : Persist) (rp rm U : ℝ) (h : ¬(rp < p.TP_Extend_Radius ∧ rm < p.TP_Extend_Radius)) :
    psiOf p rp rm U = 1 + extended p.TP_Extend_Radius p.mp rp / 2 + extended p.TP_Extend_Radius p.mm rm / 2 + U := by
  simp only [psiOf, extended, EXTEND_eq]
  split_ifs <;> first | exact absurd ⟨‹_›, ‹_›⟩ h | ring

theorem metricField_eq {p : Persist} (hg : p.grid_setup_method = "Taylor expansion" ∨ p.grid_setup_method = "evaluation") {x : Vec} (h : Regular p x)
    (hE : ¬(dist3 (plusAt p) x < p.TP_Extend_Radius ∧ dist3 (minusAt p) x < p.TP_Extend_Radius)) (i j : Fin 3) :
    metricField p i j x = confFlat (psiAt p (pull p (correction p))) i j x := by
  simp only [metricField, interp_eq hg h, Option.map_some, Option.getD_some, resultOf_gamma, psiOf_eq p _ _ _ hE, confFlat, psiAt, pull]

theorem curvatureField_eq {p : Persist} (hg : p.grid_setup_method = "Taylor expansion" ∨ p.grid_setup_method = "evaluation") {x : Vec} (h : Regular p x)
    (hE : ¬(dist3 (plusAt p) x < p.TP_Extend_Radius ∧ dist3 (minusAt p) x < p.TP_Extend_Radius)) (i j : Fin 3) :
    curvatureField p i j x = confK (psiAt p (pull p (correction p))) (curvatureAt p) i j x := by
  simp only [curvatureField, interp_eq hg h, Option.map_some, Option.getD_some, resultOf_K _ _ _ (fun i j => curvature_symm p.toPar i j _), psiOf_eq p _ _ _ hE, confK, psiAt,
    curvatureAt_eq, pull]

/-! ## The constraints depend on the fields near the point only -/

section
variable {Ω : Dom} {g h K L : T2} (hg : ∀ y ∈ Ω, ∀ i j, g i j y = h i j y) (hK : ∀ y ∈ Ω, ∀ i j, K i j y = L i j y)
include hg

theorem inverse_congr {x : Vec} (hx : x ∈ Ω) (i j : Fin 3) : inverse g i j x = inverse h i j x := by
  simp only [inverse, hg x hx]

theorem christoffel_congr {x : Vec} (hx : x ∈ Ω) (i j k : Fin 3) : christoffel g i j k x = christoffel h i j k x := by
  have e : ∀ a b c, pd c (g a b) x = pd c (h a b) x := fun a b c => pd_congr_on (fun y hy => hg y hy a b) hx c
  simp only [christoffel, inverse_congr hg hx, e]

theorem scalarCurvature_congr {x : Vec} (hx : x ∈ Ω) : scalarCurvature g x = scalarCurvature h x := by
  have e : ∀ a b c d, pd d (christoffel g a b c) x = pd d (christoffel h a b c) x := fun a b c d =>
    pd_congr_on (fun y hy => christoffel_congr hg hy a b c) hx d
  simp only [scalarCurvature, ricci, ricciOf, riemannOf, inverse_congr hg hx, christoffel_congr hg hx, e]

include hK

theorem hamiltonian_congr (m : Matter) {x : Vec} (hx : x ∈ Ω) : hamiltonian g K m x = hamiltonian h L m x := by
  simp only [hamiltonian, scalarCurvature_congr hg hx, trace, raise2, inverse_congr hg hx, hK x hx]

theorem momentum_congr (m : Matter) {x : Vec} (hx : x ∈ Ω) (i : Fin 3) : momentum g K m i x = momentum h L m i x := by
  have eT : ∀ y ∈ Ω, ∀ a b, raise2 g K a b y - inverse g a b y * trace g K y = raise2 h L a b y - inverse h a b y * trace h L y := fun y hy a b => by
    simp only [trace, raise2, inverse_congr hg hy, hK y hy]
  have e : ∀ a b c, pd c (fun y => raise2 g K a b y - inverse g a b y * trace g K y) x = pd c (fun y => raise2 h L a b y - inverse h a b y * trace h L y) x :=
    fun a b c => pd_congr_on (fun y hy => eT y hy a b) hx c
  simp only [momentum, divergence, e, eT x hx, christoffel_congr hg hx]
  simp only [inverse_congr hg hx]

end

/-! ## C98 -/

/-- C98: what the function returns.  Without the regularisation (`TP_epsilon = 0`), at every position that is no puncture, the metric is `ψ⁴ δ_ij` and the extrinsic
curvature `ψ⁻² A_ij`, where `ψ` is the conformal factor of two punctures plus the interpolated correction and `A` the Bowen–York tensor, of punctures at the positions, with
the momenta and with the spins of the solver in the frame of the evolution code; the shift and its derivative vanish. -/
theorem C98_data_partial (p : Persist) (hg : p.grid_setup_method = "Taylor expansion" ∨ p.grid_setup_method = "evaluation") (x : Vec) (h : Regular p x)
    (hE : ¬(dist3 (plusAt p) x < p.TP_Extend_Radius ∧ dist3 (minusAt p) x < p.TP_Extend_Radius)) :
    ∃ d, TP_Interp p x = some d ∧ d.betaSphorCartU = 0 ∧ d.BSphorCartU = 0 ∧ ∃ w : Scal,
      (p.grid_setup_method = "Taylor expansion" → ∀ y, w y = PunctTaylorExpandAtArbitPosition p.par_b p.npoints_A p.npoints_B p.npoints_phi p.v
        (sourceOf p y 0) (sourceOf p y 1) (sourceOf p y 2)) ∧
      (p.grid_setup_method = "evaluation" → ∀ y, w y = PunctIntPolAtArbitPositionFast p.par_b p.npoints_A p.npoints_B p.npoints_phi p.cf_v
        (sourceOf p y 0) (sourceOf p y 1) (sourceOf p y 2)) ∧
      ∀ i j, d.gamma i j = confFlat (psiAt p w) i j x ∧ d.K i j = confK (psiAt p w) (curvatureAt p) i j x := by
  refine ⟨_, interp_eq hg h, rfl, rfl, pull p (correction p), fun e y => ?_, fun e y => ?_, fun i j => ⟨?_, ?_⟩⟩
  · simp only [pull, correction, e, if_true]
  · simp [pull, correction, e]
  · rw [← metricField_eq hg h hE]
    simp only [metricField, interp_eq hg h, Option.map_some, Option.getD_some]
  · rw [← curvatureField_eq hg h hE]
    simp only [curvatureField, interp_eq hg h, Option.map_some, Option.getD_some]

/-- C98: every other method of interpolation ends the program. -/
theorem C98_methods (p : Persist) (x : Vec) : TP_Interp p x = none ↔ p.grid_setup_method ≠ "Taylor expansion" ∧ p.grid_setup_method ≠ "evaluation" := by
  constructor
  · intro h
    by_contra hc
    have hg : p.grid_setup_method = "Taylor expansion" ∨ p.grid_setup_method = "evaluation" := by
      by_contra hn
      exact hc (not_or.1 hn)
    rw [interp_result hg x rfl rfl rfl] at h
    exact absurd h (by simp)
  · rintro ⟨h1, h2⟩
    simp only [TP_Interp, if_neg h1, if_neg h2]

/-- C98: the frames.  The map of the positions is inverse to the one in the function and keeps distances; the punctures are at distance `par_b` from `center_offset`, on
opposite sides. -/
theorem C98_frames (p : Persist) (x s : Vec) :
    sourceOf p (destOf p s) = s ∧ destOf p (sourceOf p x) = x ∧ dist3 (destOf p s) x = dist3 s (sourceOf p x) ∧
    plusAt p = p.center_offset + (if p.swap_xz then ![0, p.par_b, 0] else ![0, 0, p.par_b]) ∧
    minusAt p = p.center_offset - (if p.swap_xz then ![0, p.par_b, 0] else ![0, 0, p.par_b]) := by
  refine ⟨source_dest p s, dest_source p x, dist_dest p s x, ?_, ?_⟩
  · unfold plusAt destOf turned
    cases p.swap_xz <;> simp [plus]
  · unfold minusAt destOf turned
    rw [sub_eq_add_neg]
    cases p.swap_xz <;> simp [minus]

/-- C98: the constraints, in the frame of the evolution code.  Let `cf_v` be the coefficients of the data of the grid, and the masses those of the equation that was solved.
There is one function `u` of the position in the frame of the solver with the values `(A - 1) v` at the nodes, smooth off the axis, for which the following holds on every
open set off the axis and outside the radius of the extension, where the conformal factor is positive: the returned fields satisfy the momentum constraint at every point,
and the Hamiltonian constraint at exactly the positions of those nodes at which the residual of the solver vanishes. -/
theorem C98_constraints (p : Persist) (hb : 0 < p.par_b) (M : ℕ) (hM : 0 < M) (h1 : 0 < p.npoints_A) (h2 : 0 < p.npoints_B) (h3 : p.npoints_phi = 2 * M)
    (hg : p.grid_setup_method = "evaluation") (cf : ℤ → ℝ) (hc : p.cf_v = SpecCoef p.npoints_A p.npoints_B p.npoints_phi 0 p.v.d0 cf)
    (hp : p.mp = p.par_m_plus) (hm : p.mm = p.par_m_minus) (F : ℤ → ℝ) (U : Derivs) :
    ∃ u : Scal, Sm offAxis u ∧
      (∀ i < p.npoints_A, ∀ j < p.npoints_B, ∀ k < p.npoints_phi, u (nodePos p.par_b p.npoints_A p.npoints_B p.npoints_phi i j k) =
        (node p.npoints_A i - 1) * p.v.d0 (Index 0 i j k 1 p.npoints_A p.npoints_B p.npoints_phi)) ∧
      ∀ Ω : Dom, (∀ y ∈ Ω, Regular p y ∧ sourceOf p y ∈ offAxis ∧ p.TP_Extend_Radius ≤ dist3 (plusAt p) y ∧ p.TP_Extend_Radius ≤ dist3 (minusAt p) y ∧
          0 < psiAt p (fun y => u (sourceOf p y)) y) →
        (∀ y ∈ Ω, ∀ i, momentum (metricField p) (curvatureField p) .vacuum i y = 0) ∧
        ∀ i < p.npoints_A, ∀ j < p.npoints_B, ∀ k < p.npoints_phi, destOf p (nodePos p.par_b p.npoints_A p.npoints_B p.npoints_phi i j k) ∈ Ω →
          ((F_of_v p.toPar p.npoints_A p.npoints_B p.npoints_phi p.v F U).2.1 (Index 0 i j k 1 p.npoints_A p.npoints_B p.npoints_phi) = 0 ↔
            hamiltonian (metricField p) (curvatureField p) .vacuum (destOf p (nodePos p.par_b p.npoints_A p.npoints_B p.npoints_phi i j k)) = 0) := by
  obtain ⟨u, hu, hn, ⟨f, hf, hr⟩, ev⟩ := C96_evaluation p.par_b hb p.npoints_A p.npoints_B M h1 h2 hM p.v.d0 cf
  have hR : Represents p.par_b f u := ⟨hu, hr⟩
  rw [h3] at hc ⊢
  have h0 : OnGrid p.npoints_A p.npoints_B (2 * M) p.v.d0 f := by
    intro i hi j hj k hk
    have a1 := hn i hi j hj k hk
    rw [hr _ _ _ (node_mem hi) (node_mem hj)] at a1
    have ne : node p.npoints_A i - 1 ≠ 0 := by
      have := (node_mem hi).2
      linarith
    exact (mul_left_cancel₀ ne a1).symm
  refine ⟨u, hu, hn, fun Ω hΩ => ?_⟩
  have hcor : ∀ y, correction p (sourceOf p y) = u (sourceOf p y) := by
    intro y
    simp only [correction, hg, reduceCtorEq, if_false, hc, h3]
    rw [if_neg (by decide), (ev _ _ _).2]
    congr 1
    funext k
    fin_cases k <;> rfl
  have hψ : ∀ y ∈ Ω, psiAt p (pull p (correction p)) y = pull p (conformal p.toPar u) y := by
    intro y hy
    obtain ⟨-, -, e1, e2, -⟩ := hΩ y hy
    simp only [psiAt, pull, hcor, conformal, extended, if_neg (not_lt.2 e1), if_neg (not_lt.2 e2), hp, hm]
    simp only [plusAt, minusAt, dist_dest]
    ring
  have hγ : ∀ y ∈ Ω, ∀ i j, metricField p i j y = confFlat (pull p (conformal p.toPar u)) i j y := by
    intro y hy i j
    obtain ⟨hr, -, e1, -, -⟩ := hΩ y hy
    rw [metricField_eq (Or.inr hg) hr (fun h => absurd h.1 (not_lt.2 e1))]
    simp only [confFlat, hψ y hy]
  have hK : ∀ y ∈ Ω, ∀ i j, curvatureField p i j y = confK (pull p (conformal p.toPar u)) (curvatureAt p) i j y := by
    intro y hy i j
    obtain ⟨hr, -, e1, -, -⟩ := hΩ y hy
    rw [curvatureField_eq (Or.inr hg) hr (fun h => absurd h.1 (not_lt.2 e1))]
    simp only [confK, hψ y hy]
  have hsrc : ∀ y ∈ Ω, sourceOf p y ∈ offAxis := fun y hy => (hΩ y hy).2.1
  have hpos : ∀ y ∈ Ω, 0 < pull p (conformal p.toPar u) y := by
    intro y hy
    rw [← hψ y hy]
    have := (hΩ y hy).2.2.2.2
    simp only [psiAt, pull, hcor] at this ⊢
    exact this
  have hsm : Sm Ω (pull p (conformal p.toPar u)) := pull_smooth hsrc (conformal_smooth (offAxis_le p.toPar) hu)
  have hoff : ∀ y ∈ Ω, sourceOf p y ∈ offPunctures p.toPar := fun y hy => offAxis_le p.toPar (hsrc y hy)
  have htr : ∀ y ∈ Ω, ∑ i, curvatureAt p i i y = 0 := by
    intro y hy
    simp only [curvatureAt_eq, pull]
    rw [Equiv.sum_comp (axes p.swap_xz) fun i => curvature p.toPar i i (sourceOf p y), curvature_trace (hoff y hy)]
  refine ⟨fun y hy i => ?_, fun i hi j hj k hk hy => ?_⟩
  · rw [momentum_congr hγ hK _ hy, confFlat_momentum hsm hpos (fun a b => by rw [curvatureAt_eq]; exact pull_smooth hoff (curvature_smooth p.toPar _ _))
      (fun y _ a b => by simp only [curvatureAt_eq, pull]; rw [curvature_symm]) htr hy i]
    simp only [curvatureAt_eq, pd_pull, pull]
    rw [Equiv.sum_comp (axes p.swap_xz) fun j => pd j (curvature p.toPar (axes p.swap_xz i) j) (sourceOf p y), curvature_div (hoff y hy), zero_div]
  · obtain ⟨⟨c, hc0, -, e⟩, -⟩ := (C97_residual p.toPar hb p.npoints_A p.npoints_B M hM f hf p.v h0 u hR F U).2.1 i hi j hj k hk
    rw [hamiltonian_congr hγ hK _ hy, confFlat_hamiltonian hsm hpos _ hy, htr _ hy, laplacian_pull, conformal_laplacian (offAxis_le p.toPar) hu (hsrc _ hy)]
    rw [e, mul_eq_zero, or_iff_right hc0.ne']
    have hψ0 := hpos _ hy
    simp only [pull] at hψ0 ⊢
    have hA : ∑ a, ∑ b, curvatureAt p a b (destOf p (nodePos p.par_b p.npoints_A p.npoints_B (2 * M) i j k)) ^ 2 =
        ∑ a, ∑ b, curvature p.toPar a b (nodePos p.par_b p.npoints_A p.npoints_B (2 * M) i j k) ^ 2 := by
      simp only [curvatureAt_eq, pull, source_dest]
      rw [Equiv.sum_comp (axes p.swap_xz) fun a => ∑ b, curvature p.toPar a (axes p.swap_xz b) (nodePos p.par_b p.npoints_A p.npoints_B (2 * M) i j k) ^ 2]
      exact Finset.sum_congr rfl fun a _ => Equiv.sum_comp (axes p.swap_xz) fun b => curvature p.toPar a b (nodePos p.par_b p.npoints_A p.npoints_B (2 * M) i j k) ^ 2
    rw [hA]
    simp only [source_dest] at hψ0 ⊢
    rw [residual_iff hψ0, show ∀ a b : ℝ, ((0 : ℝ) ^ 2 - a) / b = -(a / b) from fun a b => by ring, ← sub_eq_add_neg]

/-- C98: the extension.  For every radius `E > 0` the function that replaces `M / r` is twice continuously differentiable on `r > 0`: it has derivatives of first and second
order everywhere, and the second is continuous. -/
theorem C98_extension (E M : ℝ) (hE : 0 < E) : ∃ f1 f2 : ℝ → ℝ,
    (∀ r, E ≤ r → extended E M r = M / r) ∧ (∀ r, 0 < r → HasDerivAt (extended E M) (f1 r) r) ∧ (∀ r, 0 < r → HasDerivAt f1 (f2 r) r) ∧
      ∀ r, 0 < r → ContinuousAt f2 r := by
  have key : ∀ {f g f' g' : ℝ → ℝ}, (∀ r, 0 < r → HasDerivAt f (f' r) r) → (∀ r, 0 < r → HasDerivAt g (g' r) r) → f E = g E → f' E = g' E →
      ∀ r, 0 < r → HasDerivAt (fun r => if r < E then f r else g r) (if r < E then f' r else g' r) r := by
    intro f g f' g' hf hg h0 h1 r hr
    rcases lt_trichotomy r E with h | rfl | h
    · rw [if_pos h]
      exact (hf r hr).congr_of_eventuallyEq ((eventually_lt_nhds h).mono fun y hy => if_pos hy)
    · rw [if_neg (lt_irrefl _), ← hasDerivWithinAt_univ, ← Set.Iic_union_Ici (a := r)]
      refine HasDerivWithinAt.union ?_ ?_
      · refine (h1 ▸ (hf r hr)).hasDerivWithinAt.congr (fun y hy => ?_) (by rw [if_neg (lt_irrefl _), h0])
        rcases (show y ≤ r from hy).lt_or_eq with h | rfl
        · rw [if_pos h]
        · rw [if_neg (lt_irrefl _), h0]
      · exact (hg r hr).hasDerivWithinAt.congr (fun y hy => if_neg (not_lt.2 hy)) (if_neg (lt_irrefl _))
    · rw [if_neg (not_lt.2 h.le)]
      exact (hg r hr).congr_of_eventuallyEq ((eventually_gt_nhds h).mono fun y hy => if_neg (not_lt.2 (le_of_lt hy)))
  have hE0 := hE.ne'
  have d0 : ∀ r : ℝ, HasDerivAt (fun r => M * (3 * r ^ 4 / (8 * E ^ 5) - 5 * r ^ 2 / (4 * E ^ 3) + 15 / (8 * E)))
      (M * (3 * (4 * r ^ 3) / (8 * E ^ 5) - 5 * (2 * r) / (4 * E ^ 3))) r := fun r => by
    have h4 := hasDerivAt_pow 4 r
    have h2 := hasDerivAt_pow 2 r
    exact (((((h4.const_mul 3).div_const (8 * E ^ 5)).sub ((h2.const_mul 5).div_const (4 * E ^ 3))).add_const (15 / (8 * E))).const_mul M).congr_deriv (by norm_num)
  have d1 : ∀ r : ℝ, HasDerivAt (fun r => M * (3 * (4 * r ^ 3) / (8 * E ^ 5) - 5 * (2 * r) / (4 * E ^ 3)))
      (M * (3 * (4 * (3 * r ^ 2)) / (8 * E ^ 5) - 5 * 2 / (4 * E ^ 3))) r := fun r => by
    have h3 := hasDerivAt_pow 3 r
    have h1 := hasDerivAt_id r
    exact ((((((h3.const_mul 4).const_mul 3).div_const (8 * E ^ 5)).sub (((h1.const_mul 2).const_mul 5).div_const (4 * E ^ 3)))).const_mul M).congr_deriv (by norm_num)
  have g0 : ∀ r : ℝ, 0 < r → HasDerivAt (fun r => M / r) (-M / r ^ 2) r := fun r hr =>
    ((hasDerivAt_inv hr.ne').const_mul M).congr_deriv (by field_simp)
  have g1 : ∀ r : ℝ, 0 < r → HasDerivAt (fun r => -M / r ^ 2) (2 * M / r ^ 3) r := fun r hr => by
    have h2 := (hasDerivAt_pow 2 r).inv (pow_ne_zero 2 hr.ne')
    refine (h2.const_mul (-M)).congr_deriv ?_
    have := hr.ne'
    norm_num
    field_simp
  refine ⟨_, _, fun r hr => if_neg (not_lt.2 hr), key (fun r _ => d0 r) g0 ?_ ?_, key (fun r _ => d1 r) g1 ?_ ?_, fun r hr => ?_⟩
  · field_simp
    ring
  · field_simp
    ring
  · field_simp
    ring
  · field_simp
    ring
  · have c0 : Continuous fun r : ℝ => M * (3 * (4 * (3 * r ^ 2)) / (8 * E ^ 5) - 5 * 2 / (4 * E ^ 3)) := by fun_prop
    have c1 : ∀ r : ℝ, 0 < r → ContinuousAt (fun r => 2 * M / r ^ 3) r := fun r hr =>
      continuousAt_const.div (continuousAt_id.pow 3) (pow_ne_zero 3 hr.ne')
    rcases lt_trichotomy r E with h | rfl | h
    · exact c0.continuousAt.congr ((eventually_lt_nhds h).mono fun y hy => (if_pos hy).symm)
    · rw [← continuousWithinAt_univ, ← Set.Iic_union_Ici (a := r)]
      refine ContinuousWithinAt.union ?_ ?_
      · refine c0.continuousAt.continuousWithinAt.congr (fun y hy => ?_) ?_
        · rcases (show y ≤ r from hy).lt_or_eq with h | rfl
          · rw [if_pos h]
          · rw [if_neg (lt_irrefl _)]
            field_simp
            ring
        · rw [if_neg (lt_irrefl _)]
          field_simp
          ring
      · exact (c1 r hr).continuousWithinAt.congr (fun y hy => if_neg (not_lt.2 hy)) (if_neg (lt_irrefl _))
    · exact (c1 r hr).congr ((eventually_gt_nhds h).mono fun y hy => (if_neg (not_lt.2 (le_of_lt hy))).symm)

/-- C98: the lapse `psi^n` and its variant: the background of the conformal factor, without the correction, to the given power. -/
theorem C98_lapse_power (p : Persist) (hg : p.grid_setup_method = "Taylor expansion" ∨ p.grid_setup_method = "evaluation") (hl : p.multiply_old_lapse = false) (x : Vec)
    (h : Regular p x) :
    let ψ := psiAt p (fun _ => 0) x
    ∃ d, TP_Interp p x = some d ∧ (p.initial_lapse = "psi^n" → d.alpha = ψ ^ p.initial_lapse_psi_exponent) ∧
      (p.initial_lapse = "brownsville" → d.alpha = 2 / (1 + ψ ^ p.initial_lapse_psi_exponent)) := by
  intro ψ
  have e : 1.0 + 0.5 * p.mp * (if dist3 (plusAt p) x < p.TP_Extend_Radius then EXTEND p.TP_Extend_Radius 1 (dist3 (plusAt p) x) else 1.0 / dist3 (plusAt p) x) +
      0.5 * p.mm * (if dist3 (minusAt p) x < p.TP_Extend_Radius then EXTEND p.TP_Extend_Radius 1 (dist3 (minusAt p) x) else 1.0 / dist3 (minusAt p) x) = ψ := by
    simp only [ψ, psiAt, extended, EXTEND_eq]
    rw [show (1.0 : ℝ) = 1 by norm_num, show (0.5 : ℝ) = 1 / 2 by norm_num]
    split_ifs <;> ring
  refine ⟨_, interp_eq hg h, fun hn => ?_, fun hn => ?_⟩
  · simp only [resultOf, lapseOf, hl, hn, e]
    simp
  · simp only [resultOf, lapseOf, hl, hn, e]
    simp
    norm_num

/-- C98: with masses that are not negative and an exponent that is not positive, such as the default -2, the lapse `psi^n` lies between 0 and 1. -/
theorem C98_lapse_range (p : Persist) (hg : p.grid_setup_method = "Taylor expansion" ∨ p.grid_setup_method = "evaluation") (hl : p.multiply_old_lapse = false)
    (hp : 0 ≤ p.mp) (hm : 0 ≤ p.mm) (hn : p.initial_lapse_psi_exponent ≤ 0) (hi : p.initial_lapse = "psi^n") (hE : p.TP_Extend_Radius ≤ 0) (x : Vec) (h : Regular p x) :
    ∃ d, TP_Interp p x = some d ∧ 0 < d.alpha ∧ d.alpha ≤ 1 := by
  obtain ⟨d, hd, h1, -⟩ := C98_lapse_power p hg hl x h
  have e : 1 ≤ psiAt p (fun _ => 0) x := by
    have a := dist3_nonneg (plusAt p) x
    have b := dist3_nonneg (minusAt p) x
    simp only [psiAt, extended, if_neg (not_lt.2 (hE.trans a)), if_neg (not_lt.2 (hE.trans b))]
    have : 0 ≤ p.mp / dist3 (plusAt p) x := div_nonneg hp a
    have : 0 ≤ p.mm / dist3 (minusAt p) x := div_nonneg hm b
    linarith
  refine ⟨d, hd, ?_, ?_⟩
  · rw [h1 hi]
    exact rpow_pos_of_pos (by linarith) _
  · rw [h1 hi]
    exact rpow_le_one_of_one_le_of_nonpos e hn

/-- C98: the other two lapses, outside the radius of the extension of the second puncture: `(1 - s) / (1 + s)` where `1 + s` is the background of the conformal factor, and
the average of this and 1. -/
theorem C98_lapse_antisymmetric (p : Persist) (hg : p.grid_setup_method = "Taylor expansion" ∨ p.grid_setup_method = "evaluation") (hl : p.multiply_old_lapse = false)
    (x : Vec) (h : Regular p x) (hE : p.TP_Extend_Radius ≤ dist3 (minusAt p) x) :
    let ψ := psiAt p (fun _ => 0) x
    ∃ d, TP_Interp p x = some d ∧ (p.initial_lapse = "twopunctures-antisymmetric" → d.alpha = (2 - ψ) / ψ) ∧
      (p.initial_lapse = "twopunctures-averaged" → d.alpha = (1 + (2 - ψ) / ψ) / 2) := by
  intro ψ
  have e1 : (if dist3 (plusAt p) x < p.TP_Extend_Radius then (1.0 - 0.5 * EXTEND p.TP_Extend_Radius p.mp (dist3 (plusAt p) x) - 0.5 * p.mm / dist3 (minusAt p) x) /
      (1.0 + 0.5 * EXTEND p.TP_Extend_Radius p.mp (dist3 (plusAt p) x) + 0.5 * p.mm / dist3 (minusAt p) x)
    else (1.0 - 0.5 * p.mp / dist3 (plusAt p) x - 0.5 * p.mm / dist3 (minusAt p) x) / (1.0 + 0.5 * p.mp / dist3 (plusAt p) x + 0.5 * p.mm / dist3 (minusAt p) x)) =
      (2 - ψ) / ψ := by
    simp only [ψ, psiAt, extended, EXTEND_eq, if_neg (not_lt.2 hE)]
    rw [show (1.0 : ℝ) = 1 by norm_num, show (0.5 : ℝ) = 1 / 2 by norm_num]
    split_ifs
    · congr 1 <;> ring
    · congr 1 <;> ring
  refine ⟨_, interp_eq hg h, fun hn => ?_, fun hn => ?_⟩
  · simp [resultOf, lapseOf, hl, hn, if_neg (not_lt.2 hE), e1]
  · simp only [resultOf, lapseOf, hl, hn, if_neg (not_lt.2 hE), e1]
    norm_num
    ring

/-- Two punctures with different masses, an extension of radius 1/2 and a method for the lapse. -/
noncomputable def unequal (lapse : String) (old : Bool) : Persist :=
  { par_b := 1, par_m_plus := 1, par_m_minus := 2, par_P_plus := 0, par_P_minus := 0, par_S_plus := 0, par_S_minus := 0, TP_epsilon := 0, TP_Tiny := 0,
    v := ⟨0, 0, 0, 0, 0, 0, 0, 0, 0, 0⟩, cf_v := 0, mp := 1, mm := 2, npoints_A := 3, npoints_B := 3, npoints_phi := 4, Newton_maxit := 5, adm_tol := 0, Newton_tol := 0,
    TP_Extend_Radius := 1 / 2, target_M_plus := 1, target_M_minus := 2, center_offset := 0, initial_lapse_psi_exponent := -2, give_bare_mass := true, swap_xz := false,
    multiply_old_lapse := old, grid_setup_method := "evaluation", initial_lapse := lapse }

theorem unequal_regular (lapse : String) (old : Bool) : Regular (unequal lapse old) ![0, 0, -3 / 4] ∧ dist3 (plusAt (unequal lapse old)) ![0, 0, -3 / 4] = 7 / 4 ∧
    dist3 (minusAt (unequal lapse old)) ![0, 0, -3 / 4] = 1 / 4 := by
  obtain ⟨-, -, -, hp, hm⟩ := C98_frames (unequal lapse old) 0 0
  have hp' : plusAt (unequal lapse old) = ![0, 0, 1] := by
    rw [hp]
    simp [unequal]
  have hm' : minusAt (unequal lapse old) = ![0, 0, -1] := by
    rw [hm]
    simp [unequal]
  have dp : dist3 (plusAt (unequal lapse old)) ![0, 0, -3 / 4] = 7 / 4 := by
    rw [hp', dist3, sqrt_eq_iff_mul_self_eq (by positivity) (by norm_num)]
    simp
    norm_num
  have dm : dist3 (minusAt (unequal lapse old)) ![0, 0, -3 / 4] = 1 / 4 := by
    rw [hm', dist3, sqrt_eq_iff_mul_self_eq (by positivity) (by norm_num)]
    simp
    norm_num
  refine ⟨⟨rfl, le_refl (0 : ℝ), fun h => ?_, fun h => ?_, ?_, ?_⟩, dp, dm⟩
  · rw [← dist3_eq, dp] at h
    norm_num at h
  · rw [← dist3_eq, dm] at h
    norm_num at h
  · rw [dp]
    norm_num [unequal]
  · rw [dm]
    norm_num [unequal]

/-- C98 fails for the antisymmetric lapse inside the radius of the extension of the second puncture: the mass of the first puncture stands in the denominator, and the lapse is
not `(1 - s) / (1 + s)`. -/
theorem C98_lapse_violation : ∃ (p : Persist) (x : Vec) (d : InitialData), Regular p x ∧ p.initial_lapse = "twopunctures-antisymmetric" ∧ p.multiply_old_lapse = false ∧
    ¬(dist3 (plusAt p) x < p.TP_Extend_Radius ∧ dist3 (minusAt p) x < p.TP_Extend_Radius) ∧
    TP_Interp p x = some d ∧ d.alpha ≠ (2 - psiAt p (fun _ => 0) x) / psiAt p (fun _ => 0) x := by
  obtain ⟨hr, dp, dm⟩ := unequal_regular "twopunctures-antisymmetric" false
  refine ⟨_, _, _, hr, rfl, rfl, ?_, interp_eq (Or.inr rfl) hr, ?_⟩
  · rw [dp]
    norm_num [unequal]
  · simp only [resultOf, lapseOf, psiAt, dp, dm]
    norm_num [unequal, EXTEND, extended]
    rw [if_neg (by decide)]
    norm_num

/-- C98 fails for `multiply_old_lapse`: there is no old lapse, and for every choice of the lapse with positive values the result is the placeholder -10¹⁰⁰ times the lapse, which is negative. -/
theorem C98_old_lapse_violation (p q : Persist) (hg : p.grid_setup_method = "Taylor expansion" ∨ p.grid_setup_method = "evaluation") (hl : p.multiply_old_lapse = true)
    (hq : q = { p with multiply_old_lapse := false }) (x : Vec) (h : Regular p x) :
    ∃ d e, TP_Interp p x = some d ∧ TP_Interp q x = some e ∧ d.alpha = -10 ^ 100 * e.alpha := by
  have h' : Regular q x := by
    subst hq
    exact ⟨h.eps, h.tiny, h.plus, h.minus, h.tiny_plus, h.tiny_minus⟩
  have hg' : q.grid_setup_method = "Taylor expansion" ∨ q.grid_setup_method = "evaluation" := by
    subst hq
    exact hg
  refine ⟨_, _, interp_eq hg h, interp_eq hg' h', ?_⟩
  subst hq
  simp only [resultOf, lapseOf, hl, if_true, Bool.false_eq_true, if_false]
  rw [mul_comm]
  congr 1
  norm_num

/-- C98: a name of a lapse that the code does not know is no error; the lapse is -10¹⁰⁰ everywhere. -/
theorem C98_lapse_unknown (p : Persist) (hg : p.grid_setup_method = "Taylor expansion" ∨ p.grid_setup_method = "evaluation") (hl : p.multiply_old_lapse = false)
    (hn : p.initial_lapse ∉ ["twopunctures-antisymmetric", "twopunctures-averaged", "psi^n", "brownsville"]) (x : Vec) :
    ∃ d, TP_Interp p x = some d ∧ d.alpha = -10 ^ 100 := by
  refine ⟨_, interp_result hg x rfl rfl rfl, ?_⟩
  simp only [List.mem_cons, not_or, List.not_mem_nil, not_false_eq_true, and_true] at hn
  simp only [resultOf, lapseOf, hl, Bool.false_eq_true, if_false, hn.1, hn.2.1, hn.2.2.1, hn.2.2.2, or_self]
  norm_num

/-- C98: the initialisation.  The target masses have the given ratio and the sum 1, the total momentum vanishes, the spins are `χ M²`, the punctures are at the given distance
of each other, and the data are computed by evaluation, with the lapse `ψ⁻²` and without the two options that change the result. -/
theorem C98_initialize (NRPyPN : Commondata → ℝ × ℝ) (c : Commondata) (hq : 0 < c.mass_ratio) (hs : 0 ≤ c.initial_sep) (par : Persist) :
    let p := initialize_ID_persist_struct NRPyPN c par
    p.target_M_plus = c.mass_ratio * p.target_M_minus ∧ p.target_M_plus + p.target_M_minus = 1 ∧ p.par_P_plus + p.par_P_minus = 0 ∧
    (c.initial_p_t ≠ -1 → c.initial_p_r ≠ -1 → p.par_P_plus = ![-|c.initial_p_r|, |c.initial_p_t|, 0]) ∧
    (∀ i, p.par_S_plus i = c.bbhxy_BH_M_chi i * p.target_M_plus ^ 2 ∧ p.par_S_minus i = c.bbhxy_BH_m_chi i * p.target_M_minus ^ 2) ∧
    dist3 (plusAt p) (minusAt p) = c.initial_sep ∧
    (0 ≤ c.TP_bare_mass_M → 0 ≤ c.TP_bare_mass_m → p.give_bare_mass = true ∧ p.par_m_plus = c.TP_bare_mass_M ∧ p.par_m_minus = c.TP_bare_mass_m) ∧
    (c.TP_bare_mass_M < 0 ∨ c.TP_bare_mass_m < 0 → p.give_bare_mass = false) ∧
    (0 < c.TP_npoints_A → 0 < c.TP_npoints_B → 0 < c.TP_npoints_phi → (p.npoints_A : ℤ) = c.TP_npoints_A ∧ (p.npoints_B : ℤ) = c.TP_npoints_B ∧
      (p.npoints_phi : ℤ) = c.TP_npoints_phi) ∧
    p.grid_setup_method = "evaluation" ∧ p.initial_lapse = "psi^n" ∧ p.initial_lapse_psi_exponent = -2 ∧ p.multiply_old_lapse = false ∧ p.swap_xz = false ∧
    p.TP_Extend_Radius = 0 ∧ p.TP_Tiny = 0 := by
  intro p
  have h1 : 1.0 + c.mass_ratio = 1 + c.mass_ratio := by norm_num
  have hne : 1 + c.mass_ratio ≠ 0 := by linarith
  have e1 : p.target_M_plus = c.mass_ratio / (1 + c.mass_ratio) := by rw [← h1]; rfl
  have e2 : p.target_M_minus = 1 / (1 + c.mass_ratio) := by rw [← h1, ← show (1.0 : ℝ) = 1 by norm_num]; rfl
  refine ⟨?_, ?_, ?_, fun ht hr => ?_, fun i => ⟨?_, ?_⟩, ?_, fun hM hm => ?_, fun h => ?_, fun hA hB hP => ?_, rfl, rfl, ?_, rfl, rfl, ?_, ?_⟩
  · rw [e1, e2]
    ring
  · rw [e1, e2]
    field_simp
    ring
  · funext i
    fin_cases i <;> simp [p, initialize_ID_persist_struct]
  · have a : ¬(c.initial_p_t = -1.0 ∨ c.initial_p_r = -1.0) := by
      rw [show (1.0 : ℝ) = 1 by norm_num]
      exact not_or.2 ⟨ht, hr⟩
    simp only [p, initialize_ID_persist_struct, if_neg a]
  · show c.bbhxy_BH_M_chi i * p.target_M_plus * p.target_M_plus = _
    ring
  · show c.bbhxy_BH_m_chi i * p.target_M_minus * p.target_M_minus = _
    ring
  · have eb : p.par_b = c.initial_sep / 2 := by
      show 0.5 * c.initial_sep = _
      ring
    obtain ⟨-, -, -, hp, hm⟩ := C98_frames p 0 0
    have hsw : p.swap_xz = false := rfl
    rw [hp, hm, dist3]
    simp only [hsw, Bool.false_eq_true, if_false, eb]
    rw [sqrt_eq_iff_mul_self_eq (by positivity) hs]
    simp
    ring
  · have hd : decide (c.TP_bare_mass_M < 0 ∨ c.TP_bare_mass_m < 0) = false := by
      rw [decide_eq_false_iff_not]
      exact not_or.2 ⟨not_lt.2 hM, not_lt.2 hm⟩
    simp only [p, initialize_ID_persist_struct, hd, Bool.not_false, if_true, and_self]
  · simp only [p, initialize_ID_persist_struct, decide_eq_true h, Bool.not_true]
  · have hn : ¬(c.TP_npoints_A < 0 ∨ c.TP_npoints_B < 0 ∨ c.TP_npoints_phi < 0) := by omega
    simp only [p, initialize_ID_persist_struct, if_neg hn]
    omega
  · show (-2.0 : ℝ) = -2
    norm_num
  · show (0.0 : ℝ) = 0
    norm_num
  · show (0.0 : ℝ) = 0
    norm_num

/-- C98 fails for the centre of mass.  The initialisation shifts the punctures such that in the frame of the solver the centre of the target masses is the origin; but it
stores the shift along the `x` axis, and the interpolation takes it as a shift along the `x` axis of the evolution code, which is orthogonal to the line through the
punctures.  For all data with unequal masses the centre of mass is not at the origin of the evolution code: it is off by `(M₊ - M₋) sep / 2` along the `z` axis, and the punctures
are off the `z` axis. -/
theorem C98_centre_violation (NRPyPN : Commondata → ℝ × ℝ) (c : Commondata) (hq : 0 < c.mass_ratio) (h1 : c.mass_ratio ≠ 1) (hs : 0 < c.initial_sep) (par : Persist) :
    let p := initialize_ID_persist_struct NRPyPN c par
    p.target_M_plus * (p.par_b + p.center_offset 0) + p.target_M_minus * (-p.par_b + p.center_offset 0) = 0 ∧
    p.target_M_plus * plusAt p 2 + p.target_M_minus * minusAt p 2 = (p.target_M_plus - p.target_M_minus) * c.initial_sep / 2 ∧
    p.target_M_plus * plusAt p 2 + p.target_M_minus * minusAt p 2 ≠ 0 ∧ plusAt p 0 ≠ 0 ∧ minusAt p 0 ≠ 0 := by
  intro p
  have ha : 1.0 + c.mass_ratio = 1 + c.mass_ratio := by norm_num
  have hne : 1 + c.mass_ratio ≠ 0 := by linarith
  have e1 : p.target_M_plus = c.mass_ratio / (1 + c.mass_ratio) := by rw [← ha]; rfl
  have e2 : p.target_M_minus = 1 / (1 + c.mass_ratio) := by rw [← ha, ← show (1.0 : ℝ) = 1 by norm_num]; rfl
  have eb : p.par_b = c.initial_sep / 2 := by
    show 0.5 * c.initial_sep = _
    ring
  have eo : p.center_offset 0 = -((p.target_M_plus - p.target_M_minus) * c.initial_sep / 2) := by
    show -(c.initial_sep * p.target_M_plus - c.initial_sep * p.target_M_minus) * 0.5 = _
    ring
  have o2 : p.center_offset 2 = 0 := rfl
  obtain ⟨-, -, -, hp, hm⟩ := C98_frames p 0 0
  have hsw : p.swap_xz = false := rfl
  have p2 : plusAt p 2 = c.initial_sep / 2 := by simp [hp, hsw, o2, eb]
  have m2 : minusAt p 2 = -(c.initial_sep / 2) := by simp [hm, hsw, o2, eb]
  have p0 : plusAt p 0 = p.center_offset 0 := by simp [hp, hsw]
  have m0 : minusAt p 0 = p.center_offset 0 := by simp [hm, hsw]
  have hd : (p.target_M_plus - p.target_M_minus) * c.initial_sep / 2 ≠ 0 := by
    have : p.target_M_plus - p.target_M_minus = (c.mass_ratio - 1) / (1 + c.mass_ratio) := by
      rw [e1, e2]
      ring
    rw [this]
    exact div_ne_zero (mul_ne_zero (div_ne_zero (sub_ne_zero.2 h1) hne) hs.ne') (by norm_num)
  have e3 : p.target_M_plus * plusAt p 2 + p.target_M_minus * minusAt p 2 = (p.target_M_plus - p.target_M_minus) * c.initial_sep / 2 := by
    rw [p2, m2]
    ring
  refine ⟨?_, e3, e3 ▸ hd, ?_, ?_⟩
  · rw [eo, eb, e1, e2]
    field_simp
    ring
  · rw [p0, eo]
    exact neg_ne_zero.2 hd
  · rw [m0, eo]
    exact neg_ne_zero.2 hd

/-- A position with all hypotheses of the theorems, inside the radius of the extension of one puncture only. -/
example : ∃ (p : Persist) (x : Vec), Regular p x ∧ p.mm ≠ p.mp ∧ 0 < p.TP_Extend_Radius ∧ p.grid_setup_method = "evaluation" ∧
    ¬(dist3 (plusAt p) x < p.TP_Extend_Radius ∧ dist3 (minusAt p) x < p.TP_Extend_Radius) := by
  obtain ⟨hr, dp, -⟩ := unequal_regular "psi^n" false
  exact ⟨_, _, hr, by norm_num [unequal], by norm_num [unequal], rfl, by rw [dp]; norm_num [unequal]⟩

/-- Near every position off the axis where the conformal factor is positive there is an open set with the hypotheses of `C98_constraints`. -/
example (p : Persist) (u : Scal) (hu : Sm offAxis u) (he : p.TP_epsilon = 0) (ht : p.TP_Tiny = 0) (hE : p.TP_Extend_Radius = 0) (hp : p.mp = p.par_m_plus)
    (hm : p.mm = p.par_m_minus) (x : Vec) (hx : sourceOf p x ∈ offAxis) (h0 : 0 < psiAt p (fun y => u (sourceOf p y)) x) :
    ∃ Ω : Dom, x ∈ Ω ∧ ∀ y ∈ Ω, Regular p y ∧ sourceOf p y ∈ offAxis ∧ p.TP_Extend_Radius ≤ dist3 (plusAt p) y ∧ p.TP_Extend_Radius ≤ dist3 (minusAt p) y ∧
      0 < psiAt p (fun y => u (sourceOf p y)) y := by
  have hψ : ∀ y, psiAt p (fun y => u (sourceOf p y)) y = pull p (conformal p.toPar u) y := by
    intro y
    simp only [psiAt, pull, conformal, extended, hE, if_neg (not_lt.2 (dist3_nonneg _ _)), hp, hm]
    simp only [plusAt, minusAt, dist_dest]
    ring
  let V : Dom := ⟨{y | sourceOf p y ∈ offAxis}, offAxis.isOpen.preimage (sourceOf_contDiff p).continuous⟩
  have hc : ContinuousOn (pull p (conformal p.toPar u)) V := (pull_smooth (Ω := V) (fun y hy => hy) (conformal_smooth (offAxis_le p.toPar) hu)).continuousOn
  refine ⟨⟨V ∩ pull p (conformal p.toPar u) ⁻¹' Set.Ioi 0, hc.isOpen_inter_preimage V.isOpen isOpen_Ioi⟩, ⟨hx, ?_⟩, fun y hy => ?_⟩
  · rw [hψ] at h0
    exact h0
  · have ho := offAxis_le p.toPar hy.1
    refine ⟨⟨he, ht.ge, ne_dest.2 ho.1, ne_dest.2 ho.2, ht ▸ dist3_nonneg _ _, ht ▸ dist3_nonneg _ _⟩, hy.1, hE ▸ dist3_nonneg _ _, hE ▸ dist3_nonneg _ _, ?_⟩
    rw [hψ]
    exact hy.2

end Verif.TP
