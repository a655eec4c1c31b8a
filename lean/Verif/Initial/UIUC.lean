import Verif.Initial.SphCalc
import Verif.Initial.UIUCAlg

/-!
# C84: the black hole of Liu, Etienne and Shapiro
-/
namespace Verif.Initial.UIUC
open Verif.RefMetric Verif.BSSN Real PE
open scoped ContDiff
open UIUCModel (rp rm rBL SIG DEL AA)

/-! ### The constants -/

/-- The parameters: positive mass, and spin below the extremal one. -/
structure Par (M chi : ℝ) : Prop where
  M : 0 < M
  chi : |chi| < 1

variable {M chi : ℝ}

/-- `r_+/4`. -/
noncomputable def bb (M chi : ℝ) : ℝ := rp M chi / 4

section
variable (h : Par M chi)
include h

theorem root_pos : 0 < M ^ 2 - UIUCModel.a M chi ^ 2 := by
  have h1 : chi ^ 2 < 1 := by
    rw [← sq_abs]
    have := abs_nonneg chi
    nlinarith [h.chi]
  have h2 := pow_pos h.M 2
  unfold UIUCModel.a
  nlinarith

theorem bb_pos : 0 < bb M chi := by
  have := sqrt_pos.2 (root_pos h)
  have := h.M
  unfold bb rp
  positivity

theorem rp_eq : rp M chi = 4 * bb M chi := by unfold bb; ring
theorem rm_eq : rm M chi = 2 * M - 4 * bb M chi := by unfold bb rp rm; ring
theorem a_sq : UIUCModel.a M chi ^ 2 = 4 * bb M chi * (2 * M - 4 * bb M chi) := by
  have h1 := sq_sqrt (root_pos h).le
  unfold bb rp
  linear_combination h1

theorem bb_gt : M < 4 * bb M chi := by
  have := sqrt_pos.2 (root_pos h)
  unfold bb rp
  linarith

end

/-! ### Functions of the radius -/

theorem Q_eq (h : Par M chi) {r : ℝ} (hr : 0 < r) : rBL M chi r = (r + bb M chi) ^ 2 * r⁻¹ := by
  rw [rBL, rp_eq h]
  field_simp

theorem Q_ge (h : Par M chi) {r : ℝ} (hr : 0 < r) : 4 * bb M chi ≤ rBL M chi r := by
  rw [Q_eq h hr, ← div_eq_mul_inv, le_div_iff₀ hr]
  nlinarith [sq_nonneg (r - bb M chi)]

theorem Q_pos (h : Par M chi) {r : ℝ} (hr : 0 < r) : 0 < rBL M chi r :=
  lt_of_lt_of_le (by have := bb_pos h; linarith) (Q_ge h hr)

theorem X_pos (h : Par M chi) {r : ℝ} (hr : 0 < r) : 0 < rBL M chi r - rm M chi := by
  have h1 := Q_ge h hr
  have h2 := bb_gt h
  rw [rm_eq h]
  linarith

/-- `(r_BL - r_-)/r`. -/
noncomputable def ff (M chi r : ℝ) : ℝ := (rBL M chi r - rm M chi) / r

theorem ff_pos (h : Par M chi) {r : ℝ} (hr : 0 < r) : 0 < ff M chi r := div_pos (X_pos h hr) hr

/-- The square root of `Δ`, negative inside the throat. -/
noncomputable def ee (M chi r : ℝ) : ℝ := (r - bb M chi) * √(ff M chi r)

/-- The square root of `γ_rr/Σ`. -/
noncomputable def nn (M chi r : ℝ) : ℝ := (r + bb M chi) * r⁻¹ ^ 2 * (√(ff M chi r))⁻¹

theorem nn_pos (h : Par M chi) {r : ℝ} (hr : 0 < r) : 0 < nn M chi r := by
  have := bb_pos h
  have := sqrt_pos.2 (ff_pos h hr)
  unfold nn
  positivity

theorem ee_nn (h : Par M chi) {r : ℝ} (hr : 0 < r) : ee M chi r * nn M chi r = 1 - bb M chi ^ 2 * r⁻¹ ^ 2 := by
  have := (sqrt_pos.2 (ff_pos h hr)).ne'
  unfold ee nn
  field_simp
  ring

theorem d_Q (h : Par M chi) {r : ℝ} (hr : 0 < r) : HasDerivAt (rBL M chi) (ee M chi r * nn M chi r) r := by
  rw [ee_nn h hr]
  have h1 : HasDerivAt (fun t => (t + bb M chi) ^ 2 * t⁻¹) (1 - bb M chi ^ 2 * r⁻¹ ^ 2) r :=
    ((((hasDerivAt_id r).add_const (bb M chi)).pow 2).mul (hasDerivAt_inv hr.ne')).congr_deriv (by
      simp
      field_simp
      ring)
  exact h1.congr_of_eventuallyEq (Filter.eventuallyEq_of_mem (Ioi_mem_nhds hr) fun t ht => Q_eq h ht)

theorem d_f (h : Par M chi) {r : ℝ} (hr : 0 < r) :
    HasDerivAt (ff M chi) ((1 - bb M chi ^ 2 * r⁻¹ ^ 2 - ff M chi r) * r⁻¹) r := by
  have h1 := ((d_Q h hr).sub_const (rm M chi)).div (hasDerivAt_id r) hr.ne'
  refine h1.congr_deriv ?_
  rw [ee_nn h hr, ff]
  simp only [id]
  field_simp

theorem d_w (h : Par M chi) {r : ℝ} (hr : 0 < r) :
    HasDerivAt (fun t => √(ff M chi t)) ((1 - bb M chi ^ 2 * r⁻¹ ^ 2 - ff M chi r) * r⁻¹ / (2 * √(ff M chi r))) r :=
  (d_f h hr).sqrt (ff_pos h hr).ne'

theorem d_e (h : Par M chi) {r : ℝ} (hr : 0 < r) : HasDerivAt (ee M chi) ((rBL M chi r - M) * nn M chi r) r := by
  have hw := sqrt_pos.2 (ff_pos h hr)
  have h1 := ((hasDerivAt_id r).sub_const (bb M chi)).mul (d_w h hr)
  refine h1.congr_deriv ?_
  have e1 := sq_sqrt (ff_pos h hr).le
  have e2 : ff M chi r = ((r + bb M chi) ^ 2 * r⁻¹ - (2 * M - 4 * bb M chi)) * r⁻¹ := by
    rw [ff, Q_eq h hr, rm_eq h, div_eq_mul_inv]
  rw [nn, Q_eq h hr]
  simp only [id]
  generalize √(ff M chi r) = w at *
  have hw' := hw.ne'
  rw [← e1] at e2 ⊢
  field_simp at e2 ⊢
  linear_combination (r + bb M chi) * e2

/-- The logarithmic derivative of `n`. -/
noncomputable def nu (M chi r : ℝ) : ℝ :=
  (r + bb M chi)⁻¹ - 3 / 2 * r⁻¹ - 1 / 2 * (1 - bb M chi ^ 2 * r⁻¹ ^ 2) * (rBL M chi r - rm M chi)⁻¹

theorem d_n (h : Par M chi) {r : ℝ} (hr : 0 < r) : HasDerivAt (nn M chi) (nn M chi r * nu M chi r) r := by
  have hw := sqrt_pos.2 (ff_pos h hr)
  have hb := add_pos hr (bb_pos h)
  have h1 := (((hasDerivAt_id r).add_const (bb M chi)).mul ((hasDerivAt_inv hr.ne').pow 2)).mul ((d_w h hr).inv hw.ne')
  refine h1.congr_deriv ?_
  have e1 := sq_sqrt (ff_pos h hr).le
  have e2 : (rBL M chi r - rm M chi)⁻¹ = (ff M chi r)⁻¹ * r⁻¹ := by
    have := (X_pos h hr).ne'
    rw [ff]
    field_simp
  rw [nn, nu, e2]
  simp only [id, Pi.mul_apply, Pi.pow_apply, Pi.inv_apply, Nat.reduceSub, pow_one]
  generalize √(ff M chi r) = w at *
  rw [← e1]
  have hw' := hw.ne'
  have hb' := hb.ne'
  field_simp
  ring

/-! ### The functions of radius and angle -/

section
variable (h : Par M chi)
include h

theorem SIG_pos {r : ℝ} (hr : 0 < r) (th : ℝ) : 0 < SIG M chi r th := by
  have := Q_pos h hr
  unfold SIG
  positivity

theorem AA_pos {r : ℝ} (hr : 0 < r) (th : ℝ) : 0 < AA M chi r th := by
  have hQ := Q_pos h hr
  have hM := h.M
  have hs := sin_sq_add_cos_sq th
  have e : AA M chi r th = rBL M chi r ^ 2 * (rBL M chi r ^ 2 + UIUCModel.a M chi ^ 2) +
      2 * M * rBL M chi r * UIUCModel.a M chi ^ 2 * sin th ^ 2 +
      (rBL M chi r ^ 2 + UIUCModel.a M chi ^ 2) * UIUCModel.a M chi ^ 2 * cos th ^ 2 := by
    unfold AA DEL
    linear_combination -(rBL M chi r ^ 2 + UIUCModel.a M chi ^ 2) * UIUCModel.a M chi ^ 2 * hs
  rw [e]
  positivity

theorem e_sq {r : ℝ} (hr : 0 < r) : ee M chi r ^ 2 = DEL M chi r := by
  have e1 := sq_sqrt (ff_pos h hr).le
  rw [ee, DEL, mul_pow, e1, ff, a_sq h, rm_eq h, Q_eq h hr]
  field_simp
  ring

end

/-- Radii in an open set of positive numbers, off the axis. -/
structure Region where
  U : Set ℝ
  isOpen : IsOpen U
  pos : ∀ r ∈ U, 0 < r

def Region.dom (R : Region) : Dom := offAxis R.U R.isOpen

noncomputable def gen (M chi : ℝ) : ℕ → Scal
  | 0 => fun y => rBL M chi (y 0)
  | 1 => fun y => ee M chi (y 0)
  | 2 => fun y => nn M chi (y 0)
  | 3 => fun y => (nn M chi (y 0))⁻¹
  | 4 => fun y => sin (y 1)
  | 5 => fun y => cos (y 1)
  | 6 => fun y => (sin (y 1))⁻¹
  | 7 => fun y => (SIG M chi (y 0) (y 1))⁻¹
  | 8 => fun y => (AA M chi (y 0) (y 1))⁻¹
  | 9 => fun y => (√(AA M chi (y 0) (y 1) * SIG M chi (y 0) (y 1)))⁻¹
  | 10 => fun y => (y 0)⁻¹
  | 11 => fun y => (y 0 + bb M chi)⁻¹
  | 12 => fun y => (rBL M chi (y 0) - rm M chi)⁻¹
  | 13 => fun _ => bb M chi
  | 14 => fun _ => UIUCModel.a M chi
  | 15 => fun _ => M
  | _ => fun _ => 0

section
variable (h : Par M chi) {R : Region}
include h

theorem cd_Q {r : ℝ} (hr : 0 < r) : ContDiffAt ℝ ∞ (rBL M chi) r := by
  have h1 : ContDiffAt ℝ ∞ (fun t => (t + bb M chi) ^ 2 * t⁻¹) r :=
    ((contDiffAt_id.add contDiffAt_const).pow 2).mul (contDiffAt_inv ℝ hr.ne')
  exact h1.congr_of_eventuallyEq (Filter.eventuallyEq_of_mem (Ioi_mem_nhds hr) fun t ht => Q_eq h ht)

theorem cd_w {r : ℝ} (hr : 0 < r) : ContDiffAt ℝ ∞ (fun t => √(ff M chi t)) r :=
  (((cd_Q h hr).sub contDiffAt_const).div contDiffAt_id hr.ne').sqrt (ff_pos h hr).ne'

theorem cd_n {r : ℝ} (hr : 0 < r) : ContDiffAt ℝ ∞ (nn M chi) r :=
  ((contDiffAt_id.add contDiffAt_const).mul ((contDiffAt_inv ℝ hr.ne').pow 2)).mul ((cd_w h hr).inv (sqrt_pos.2 (ff_pos h hr)).ne')

theorem sm_Q : Sm R.dom fun y => rBL M chi (y 0) := sm_one 0 fun _ hx => cd_Q h (R.pos _ hx.1)

theorem sm_S : Sm R.dom fun y => SIG M chi (y 0) (y 1) := ((sm_Q h).pow 2).add ((Sm.const (UIUCModel.a M chi ^ 2)).mul (sm_cos.pow 2))

theorem sm_DEL : Sm R.dom fun y => DEL M chi (y 0) :=
  (((sm_Q h).pow 2).sub ((Sm.const (2 * M)).mul (sm_Q h))).add (Sm.const (UIUCModel.a M chi ^ 2))

theorem sm_A : Sm R.dom fun y => AA M chi (y 0) (y 1) :=
  (((((sm_Q h).pow 2).add (Sm.const (UIUCModel.a M chi ^ 2))).pow 2)).sub
    (((sm_DEL h).mul (Sm.const (UIUCModel.a M chi ^ 2))).mul (sm_sin.pow 2))

theorem sm_AS : Sm R.dom fun y => AA M chi (y 0) (y 1) * SIG M chi (y 0) (y 1) := (sm_A h).mul (sm_S h)

theorem AS_pos {x : Vec} (hx : x ∈ R.dom) : 0 < AA M chi (x 0) (x 1) * SIG M chi (x 0) (x 1) :=
  mul_pos (AA_pos h (R.pos _ hx.1) _) (SIG_pos h (R.pos _ hx.1) _)

variable {x : Vec} (hx : x ∈ R.dom)
include hx

theorem pd_Q (k : Fin 3) : pd k (fun y => rBL M chi (y 0)) x = if k = 0 then ee M chi (x 0) * nn M chi (x 0) else 0 :=
  pd_one 0 (d_Q h (R.pos _ hx.1)) k

theorem pd_S (k : Fin 3) : pd k (fun y => SIG M chi (y 0) (y 1)) x = if k = 0 then 2 * rBL M chi (x 0) * (ee M chi (x 0) * nn M chi (x 0))
    else if k = 1 then -2 * UIUCModel.a M chi ^ 2 * sin (x 1) * cos (x 1) else 0 := by
  refine (dpd_add hx k ((sm_Q h).pow 2) ((Sm.const (UIUCModel.a M chi ^ 2)).mul (sm_cos.pow 2))).trans ?_
  rw [Gens.pd_pow hx k (sm_Q h) 2, dpd_cmul hx k _ (sm_cos.pow 2), Gens.pd_pow hx k sm_cos 2, dpd_cos, pd_Q h hx]
  fin_cases k <;> simp <;> ring

theorem pd_A (k : Fin 3) : pd k (fun y => AA M chi (y 0) (y 1)) x =
    if k = 0 then (4 * rBL M chi (x 0) * (rBL M chi (x 0) ^ 2 + UIUCModel.a M chi ^ 2) -
      (2 * rBL M chi (x 0) - 2 * M) * UIUCModel.a M chi ^ 2 * sin (x 1) ^ 2) * (ee M chi (x 0) * nn M chi (x 0))
    else if k = 1 then -2 * DEL M chi (x 0) * UIUCModel.a M chi ^ 2 * sin (x 1) * cos (x 1) else 0 := by
  have s1 : Sm R.dom fun y => rBL M chi (y 0) ^ 2 + UIUCModel.a M chi ^ 2 := ((sm_Q h).pow 2).add (Sm.const (UIUCModel.a M chi ^ 2))
  have hD : pd k (fun y => DEL M chi (y 0)) x = (2 * rBL M chi (x 0) - 2 * M) * if k = 0 then ee M chi (x 0) * nn M chi (x 0) else 0 := by
    refine (dpd_add hx k (((sm_Q h).pow 2).sub ((Sm.const (2 * M)).mul (sm_Q h))) (Sm.const (UIUCModel.a M chi ^ 2))).trans ?_
    rw [dpd_sub hx k ((sm_Q h).pow 2) ((Sm.const (2 * M)).mul (sm_Q h)), Gens.pd_pow hx k (sm_Q h) 2, dpd_cmul hx k _ (sm_Q h), dpd_const,
      pd_Q h hx]
    push_cast
    ring
  refine (dpd_sub hx k (s1.pow 2) (((sm_DEL h).mul (Sm.const (UIUCModel.a M chi ^ 2))).mul (sm_sin.pow 2))).trans ?_
  rw [Gens.pd_pow hx k s1 2, dpd_add hx k ((sm_Q h).pow 2) (Sm.const _), Gens.pd_pow hx k (sm_Q h) 2, dpd_const,
    dpd_mul hx k ((sm_DEL h).mul (Sm.const _)) (sm_sin.pow 2), dpd_mul hx k (sm_DEL h) (Sm.const _), hD, dpd_const,
    Gens.pd_pow hx k sm_sin 2, dpd_sin, pd_Q h hx]
  fin_cases k <;> simp <;> ring

end

/-- The functions and their derivatives. -/
noncomputable def gens (h : Par M chi) (R : Region) : Gens R.dom where
  g := gen M chi
  D := D
  out i hi x := by
    obtain ⟨n, rfl⟩ := Nat.exists_eq_add_of_le' hi
    rfl
  sm i := match i with
    | 0 => sm_Q h
    | 1 => sm_one (Ω := R.dom) 0 fun x hx => (contDiffAt_id.sub contDiffAt_const).mul (cd_w h (R.pos _ hx.1))
    | 2 => sm_one (Ω := R.dom) 0 fun x hx => cd_n h (R.pos _ hx.1)
    | 3 => (sm_one (Ω := R.dom) 0 fun x hx => cd_n h (R.pos _ hx.1)).inv fun x hx => (nn_pos h (R.pos _ hx.1)).ne'
    | 4 => sm_sin
    | 5 => sm_cos
    | 6 => sm_csc fun x hx => hx.2
    | 7 => (sm_S h).inv fun x hx => (SIG_pos h (R.pos _ hx.1) _).ne'
    | 8 => (sm_A h).inv fun x hx => (AA_pos h (R.pos _ hx.1) _).ne'
    | 9 => ((sm_AS h).sqrt fun x hx => (AS_pos h hx).ne').inv fun x hx => (sqrt_pos.2 (AS_pos h hx)).ne'
    | 10 => (sm_coord 0).inv fun x hx => (R.pos _ hx.1).ne'
    | 11 => ((sm_coord 0).add (Sm.const (bb M chi))).inv fun x hx => (add_pos (R.pos _ hx.1) (bb_pos h)).ne'
    | 12 => ((sm_Q h).sub (Sm.const (rm M chi))).inv fun x hx => (X_pos h (R.pos _ hx.1)).ne'
    | 13 => Sm.const _
    | 14 => Sm.const _
    | 15 => Sm.const _
    | _ + 16 => Sm.const 0
  pd_g k i x hx := by
    have hr := R.pos _ hx.1
    match i with
    | 0 =>
      refine (pd_Q h hx k).trans ?_
      fin_cases k <;> simp [D, tab1, D0, D1, D2, ev, gen]
    | 1 =>
      refine (pd_one 0 (d_e h hr) k).trans ?_
      fin_cases k <;> simp [D, tab1, D0, D1, D2, ev, gen] <;> ring
    | 2 =>
      refine (pd_one 0 (d_n h hr) k).trans ?_
      fin_cases k <;> simp [D, tab1, D0, D1, D2, ev, gen, nu] <;> ring
    | 3 =>
      refine (pd_one (φ := fun t => (nn M chi t)⁻¹) 0 ((d_n h hr).inv (nn_pos h hr).ne') k).trans ?_
      have e : -(nn M chi (x 0) * nu M chi (x 0)) / nn M chi (x 0) ^ 2 = -(nn M chi (x 0))⁻¹ * nu M chi (x 0) := by
        have := (nn_pos h hr).ne'
        field_simp
      rw [e]
      fin_cases k <;> simp [D, tab1, D0, D1, D2, ev, gen, nu] <;> ring
    | 4 =>
      refine (dpd_sin k).trans ?_
      fin_cases k <;> simp [D, tab1, D0, D1, D2, ev, gen]
    | 5 =>
      refine (dpd_cos k).trans ?_
      fin_cases k <;> simp [D, tab1, D0, D1, D2, ev, gen]
    | 6 =>
      refine (dpd_csc hx.2 k).trans ?_
      fin_cases k <;> simp [D, tab1, D0, D1, D2, ev, gen, div_eq_mul_inv]
    | 7 =>
      refine (dpd_inv hx k (sm_S h) fun x hx => (SIG_pos h (R.pos _ hx.1) _).ne').trans ?_
      rw [pd_S h hx]
      fin_cases k <;> simp [D, tab1, D0, D1, D2, ev, gen] <;> ring
    | 8 =>
      refine (dpd_inv hx k (sm_A h) fun x hx => (AA_pos h (R.pos _ hx.1) _).ne').trans ?_
      rw [pd_A h hx]
      fin_cases k <;> simp [D, tab1, D0, D1, D2, ev, gen, DEL] <;> ring
    | 9 =>
      have hp := AS_pos h hx
      have hs := sqrt_pos.2 hp
      refine (dpd_inv hx k ((sm_AS h).sqrt fun x hx => (AS_pos h hx).ne') fun x hx => (sqrt_pos.2 (AS_pos h hx)).ne').trans ?_
      rw [dpd_sqrt hx k (sm_AS h) fun x hx => (AS_pos h hx).ne', dpd_mul hx k (sm_A h) (sm_S h), pd_A h hx, pd_S h hx]
      have e : ∀ X Y : ℝ, -((X * SIG M chi (x 0) (x 1) + AA M chi (x 0) (x 1) * Y) / (2 * √(AA M chi (x 0) (x 1) * SIG M chi (x 0) (x 1)))) *
          (√(AA M chi (x 0) (x 1) * SIG M chi (x 0) (x 1)))⁻¹ ^ 2 =
          -1 / 2 * (√(AA M chi (x 0) (x 1) * SIG M chi (x 0) (x 1)))⁻¹ * ((AA M chi (x 0) (x 1))⁻¹ * X + (SIG M chi (x 0) (x 1))⁻¹ * Y) := fun X Y => by
        have e2 := sq_sqrt hp.le
        have h1 := (AA_pos h hr (x 1)).ne'
        have h2 := (SIG_pos h hr (x 1)).ne'
        generalize √(AA M chi (x 0) (x 1) * SIG M chi (x 0) (x 1)) = w at *
        have h3 := hs.ne'
        field_simp
        rw [e2]
        ring
      rw [e]
      fin_cases k <;> simp [D, tab1, D0, D1, D2, ev, gen, DEL] <;> ring
    | 10 =>
      refine (pd_one (φ := fun t => t⁻¹) 0 (hasDerivAt_inv hr.ne') k).trans ?_
      fin_cases k <;> simp [D, tab1, D0, D1, D2, ev, gen]
    | 11 =>
      refine (pd_one (φ := fun t => (t + bb M chi)⁻¹) 0 (((hasDerivAt_id (x 0)).add_const (bb M chi)).inv (add_pos hr (bb_pos h)).ne') k).trans ?_
      fin_cases k <;> simp [D, tab1, D0, D1, D2, ev, gen, neg_div]
    | 12 =>
      refine (pd_one (φ := fun t => (rBL M chi t - rm M chi)⁻¹) 0 (((d_Q h hr).sub_const (rm M chi)).inv (X_pos h hr).ne') k).trans ?_
      fin_cases k <;> simp [D, tab1, D0, D1, D2, ev, gen, div_eq_mul_inv] <;> ring
    | 13 =>
      refine (dpd_const k _).trans ?_
      fin_cases k <;> simp [D, tab1, D0, D1, D2, ev]
    | 14 =>
      refine (dpd_const k _).trans ?_
      fin_cases k <;> simp [D, tab1, D0, D1, D2, ev]
    | 15 =>
      refine (dpd_const k _).trans ?_
      fin_cases k <;> simp [D, tab1, D0, D1, D2, ev]
    | n + 16 =>
      refine (dpd_const k 0).trans ?_
      fin_cases k <;> simp [D, tab1, D0, D1, D2, ev]

section
variable (h : Par M chi) {R : Region} {x : Vec} (hx : x ∈ R.dom)
include hx

theorem rel : ∀ r ∈ rels, r.ev ((gens h R).at' x) = 0 := by
  have hr := R.pos _ hx.1
  have h1 := (AA_pos h hr (x 1)).ne'
  have h2 := (SIG_pos h hr (x 1)).ne'
  have h3 := sin_sq_add_cos_sq (x 1)
  have h4 := (nn_pos h hr).ne'
  have h5 : sin (x 1) ≠ 0 := hx.2
  simp only [rels, List.mem_cons, List.not_mem_nil, or_false, forall_eq_or_imp, forall_eq]
  refine ⟨?_, ?_, ?_, ?_, ?_, ?_, ?_⟩
  · have e := e_sq h hr
    unfold DEL at e
    simp [ev, Gens.at', gens, gen]
    linear_combination e
  · simp [ev, Gens.at', gens, gen]
  · simp [ev, Gens.at', gens, gen]
    field_simp
    ring
  · simp [ev, Gens.at', gens, gen]
    field_simp
    ring
  · have e : SIG M chi (x 0) (x 1) = rBL M chi (x 0) ^ 2 + UIUCModel.a M chi ^ 2 * cos (x 1) ^ 2 := rfl
    simp [ev, Gens.at', gens, gen]
    linear_combination (SIG M chi (x 0) (x 1))⁻¹ * (-e) + inv_mul_cancel₀ h2
  · have e : AA M chi (x 0) (x 1) = (rBL M chi (x 0) ^ 2 + UIUCModel.a M chi ^ 2) ^ 2 -
      (rBL M chi (x 0) ^ 2 - 2 * M * rBL M chi (x 0) + UIUCModel.a M chi ^ 2) * UIUCModel.a M chi ^ 2 * sin (x 1) ^ 2 := rfl
    simp [ev, Gens.at', gens, gen]
    linear_combination (AA M chi (x 0) (x 1))⁻¹ * (-e) + inv_mul_cancel₀ h1
  · have e := sq_sqrt (AS_pos h hx).le
    simp only [ev, Gens.at', gens, gen, inv_pow, e, mul_inv]
    push_cast
    ring

theorem hG0 (i j : Fin 3) : UIUCModel.gammaDD M chi i j x = (G0 i j).ev ((gens h R).at' x) := by
  have hr := R.pos _ hx.1
  have hat : ∀ i, (gens h R).at' x i = gen M chi i x := fun _ => rfl
  have e0 : UIUCModel.gammaDD M chi 0 0 x = SIG M chi (x 0) (x 1) * nn M chi (x 0) ^ 2 := by
    have e := sq_sqrt (ff_pos h hr).le
    have := (X_pos h hr).ne'
    simp only [UIUCModel.gammaDD, nn, mul_pow, inv_pow, e, rp_eq h]
    rw [ff]
    field_simp
  have r0 : UIUCModel.gammaDD M chi 0 0 x = G000.ev ((gens h R).at' x) := by
    rw [e0]
    simp only [G000, ev, hat, gen, SIG]
    push_cast
    ring
  have r1 : UIUCModel.gammaDD M chi 1 1 x = G011.ev ((gens h R).at' x) := by
    simp only [UIUCModel.gammaDD, G011, ev, hat, gen, SIG]
    ring
  have r2 : UIUCModel.gammaDD M chi 2 2 x = G022.ev ((gens h R).at' x) := by
    simp only [UIUCModel.gammaDD, G022, ev, hat, gen, div_eq_mul_inv, AA, DEL]
    push_cast
    ring
  have z : ∀ ρ, (0 : ℝ) = ev ρ (k 0 1) := fun ρ => by simp [ev]
  exact match i, j with
  | 0, 0 => r0
  | 1, 1 => r1
  | 2, 2 => r2
  | 0, 1 => z _
  | 0, 2 => z _
  | 1, 0 => z _
  | 1, 2 => z _
  | 2, 0 => z _
  | 2, 1 => z _

theorem hK0 (i j : Fin 3) : UIUCModel.KDD M chi i j x = (K0 i j).ev ((gens h R).at' x) := by
  have hr := R.pos _ hx.1
  have hat : ∀ i, (gens h R).at' x i = gen M chi i x := fun _ => rfl
  have en : (1 + rp M chi / (4 * x 0)) * (√(x 0 * (rBL M chi (x 0) - rm M chi)))⁻¹ = nn M chi (x 0) := by
    have e : x 0 * (rBL M chi (x 0) - rm M chi) = x 0 ^ 2 * ff M chi (x 0) := by
      rw [ff]
      field_simp
    rw [e, sqrt_mul (sq_nonneg _), sqrt_sq hr.le, nn, rp_eq h]
    field_simp
  have rr : UIUCModel.Krp M chi x = K002.ev ((gens h R).at' x) := by
    simp only [UIUCModel.Krp, div_eq_mul_inv, mul_one, mul_inv] at en ⊢
    rw [mul_assoc _ (1 + _) _, en]
    simp only [K002, ev, hat, gen]
    push_cast
    ring
  have tp : UIUCModel.Ktp M chi x = K012.ev ((gens h R).at' x) := by
    have e : (x 0 - rp M chi / 4) * √((rBL M chi (x 0) - rm M chi) / x 0) = ee M chi (x 0) := rfl
    rw [UIUCModel.Ktp, mul_assoc _ (x 0 - _) _, e]
    simp only [K012, ev, hat, gen, div_eq_mul_inv, mul_inv]
    push_cast
    ring
  have z : ∀ ρ, (0 : ℝ) = ev ρ (k 0 1) := fun ρ => by simp [ev]
  exact match i, j with
  | 0, 0 => z _
  | 1, 1 => z _
  | 2, 2 => z _
  | 0, 1 => z _
  | 0, 2 => rr
  | 1, 0 => z _
  | 1, 2 => tp
  | 2, 0 => rr
  | 2, 1 => tp

end

/-- The lapse `√(ΔΣ/A)`, with the sign of `√Δ`. -/
noncomputable def lapse (M chi : ℝ) : Scal := fun x =>
  ee M chi (x 0) * SIG M chi (x 0) (x 1) * (√(AA M chi (x 0) (x 1) * SIG M chi (x 0) (x 1)))⁻¹

/-- The shift of the Kerr metric. -/
noncomputable def shift (M chi : ℝ) : T1 := fun i x =>
  if i = 2 then -2 * M * UIUCModel.a M chi * rBL M chi (x 0) / AA M chi (x 0) (x 1) else 0

/-- All the polynomial identities. -/
noncomputable def slice (h : Par M chi) (R : Region) {α : Scal} (hα : ∀ x ∈ R.dom, α x = lapse M chi x) :
    Slice (gens h R) (UIUCModel.gammaDD M chi) (UIUCModel.KDD M chi) α (shift M chi) where
  G := G
  I := I
  Γ := Γ
  Ric := Ric
  hG i j x hx := (hG0 h hx i j).trans (G0_eq ((gens h R).out' x) (rel h hx) i j)
  hI x hx := inv ((gens h R).out' x) (rel h hx)
  hΓ x hx := chr ((gens h R).out' x) (rel h hx)
  hRic x hx := ric ((gens h R).out' x) (rel h hx)
  Kp := K
  t := t
  U := U
  T := T
  a := a
  b := b
  hK i j x hx := (hK0 h hx i j).trans (K0_eq ((gens h R).out' x) (rel h hx) i j)
  ha x hx := by
    rw [hα x hx]
    simp [lapse, a, ev, Gens.at', gens, gen, SIG]
    ring
  hb i x hx := by
    fin_cases i
    · simp [shift, b, tab1, ev]
    · simp [shift, b, tab1, ev]
    · simp [shift, b, tab1, ev, Gens.at', gens, gen, div_eq_mul_inv]
      ring
  ht x hx := tr ((gens h R).out' x) (rel h hx)
  hU x hx := up ((gens h R).out' x) (rel h hx)
  hT x hx := tt ((gens h R).out' x) (rel h hx)
  ham x hx := ham ((gens h R).out' x) (rel h hx)
  mom x hx := mom ((gens h R).out' x) (rel h hx)
  gdot x hx := gdot ((gens h R).out' x) (rel h hx)
  kdot x hx := kdot ((gens h R).out' x) (rel h hx)

end Verif.Initial.UIUC
