import Verif.TP.Inverse
import Mathlib.Analysis.SpecialFunctions.Complex.LogDeriv
import Mathlib.Analysis.Calculus.ContDiff.Polynomial
import Mathlib.Analysis.SpecialFunctions.Sqrt

/-!
# Smoothness of the functions that the grid of TwoPunctures represents
-/
namespace Verif.TP
open Real Verif.RefMetric Verif.BSSN
open scoped ContDiff

/-! ## Specification -/

/-- The positions off the axis through the punctures. -/
def offAxis : Dom := ⟨{x | 0 < x 1 ^ 2 + x 2 ^ 2}, isOpen_lt continuous_const (((continuous_apply 1).pow 2).add ((continuous_apply 2).pow 2))⟩

/-- The function `(A - 1) v(A, B, phi)` as a function of the Cartesian position. -/
noncomputable def cartesian (b : ℝ) (v : ℝ → ℝ → ℝ → ℝ) : Scal := fun x =>
  let q := toABphi b (x 0) (x 1) (x 2)
  (q.1 - 1) * v q.1 q.2.1 q.2.2

/-! ## Resolved functions -/

theorem contDiff_trig (M : ℕ) (c : ℕ → ℝ) : ContDiff ℝ ∞ (trig M c) := by
  unfold trig
  refine ContDiff.add ?_ (ContDiff.sum fun l _ => ?_)
  · exact contDiff_const.mul (contDiff_const.add (contDiff_const.mul (contDiff_cos.comp (contDiff_const.mul contDiff_id))))
  · exact (contDiff_const.mul (contDiff_cos.comp (contDiff_const.mul contDiff_id))).add
      (contDiff_const.mul (contDiff_sin.comp (contDiff_const.mul contDiff_id)))

theorem Resolved.contDiff {n1 n2 M : ℕ} (hM : 0 < M) {f : ℝ → ℝ → ℝ → ℝ} (h : Resolved n1 n2 (2 * M) f) : ContDiff ℝ ∞ (unc f) := by
  have hc : ∀ i j : ℕ, ∃ c : ℕ → ℝ, ∀ phi, f (node n1 i) (node n2 j) phi = trig M c phi := fun i j => (isTrig_iff M hM _).1 (h.inPhi _ _)
  choose c hc using hc
  have e : unc f = fun q => ∑ i ∈ Finset.range n1, (∑ j ∈ Finset.range n2, trig M (c i j) (q 2) * (card n2 j).eval (q 1)) * (card n1 i).eval (q 0) := by
    funext q
    rw [unc, (h.inA (q 1) (q 2)).cardinal]
    refine Finset.sum_congr rfl fun i _ => ?_
    rw [(h.inB (node n1 i) (q 2)).cardinal]
    congr 1
    exact Finset.sum_congr rfl fun j _ => by rw [hc]
  have hp : ∀ p : Polynomial ℝ, ContDiff ℝ ∞ fun x => p.eval x := fun p => by
    simpa using p.contDiff_aeval (𝕜 := ℝ) ∞
  rw [e]
  refine ContDiff.sum fun i _ => (ContDiff.sum fun j _ => ?_).mul ((hp _).comp (contDiff_apply ℝ ℝ 0))
  exact ((contDiff_trig M _).comp (contDiff_apply ℝ ℝ 2)).mul ((hp _).comp (contDiff_apply ℝ ℝ 1))

theorem Resolved.smooth {n1 n2 M : ℕ} (hM : 0 < M) {f : ℝ → ℝ → ℝ → ℝ} (h : Resolved n1 n2 (2 * M) f) (Ω : Dom) : Sm Ω (unc f) :=
  (h.contDiff hM).contDiffOn

theorem trig_periodic (M : ℕ) (c : ℕ → ℝ) (x : ℝ) (m : ℤ) : trig M c (x + 2 * π * m) = trig M c x := by
  have hc : ∀ l : ℕ, cos (l * (x + 2 * π * m)) = cos (l * x) := fun l => by
    rw [show (l : ℝ) * (x + 2 * π * m) = l * x + ((l * m : ℤ) : ℝ) * (2 * π) by push_cast; ring, cos_add_int_mul_two_pi]
  have hs : ∀ l : ℕ, sin (l * (x + 2 * π * m)) = sin (l * x) := fun l => by
    rw [show (l : ℝ) * (x + 2 * π * m) = l * x + ((l * m : ℤ) : ℝ) * (2 * π) by push_cast; ring, sin_add_int_mul_two_pi]
  simp only [trig, hc, hs]

theorem Resolved.periodic {n1 n2 M : ℕ} (hM : 0 < M) {f : ℝ → ℝ → ℝ → ℝ} (h : Resolved n1 n2 (2 * M) f) (A B phi : ℝ) (m : ℤ) :
    f A B (phi + 2 * π * m) = f A B phi := by
  obtain ⟨c, hc⟩ := (isTrig_iff M hM _).1 (h.inPhi A B)
  rw [hc, hc, trig_periodic]

/-- The value of a resolved function depends on the direction of `phi` only. -/
theorem Resolved.direction {n1 n2 M : ℕ} (hM : 0 < M) {f : ℝ → ℝ → ℝ → ℝ} (h : Resolved n1 n2 (2 * M) f) (A B : ℝ) {phi phi' : ℝ}
    (hc : cos phi = cos phi') (hs : sin phi = sin phi') : f A B phi = f A B phi' := by
  obtain ⟨n, hn⟩ := Angle.angle_eq_iff_two_pi_dvd_sub.1 (Angle.cos_sin_inj hc hs)
  rw [show phi = phi' + 2 * π * n by linarith, h.periodic hM]

/-! ## The product rule -/

theorem jet_timesAm1 {f : ℝ → ℝ → ℝ → ℝ} (hf : ContDiff ℝ ∞ (unc f)) (A B phi : ℝ) :
    jetABphi (fun A B phi => (A - 1) * f A B phi) A B phi = timesAm1 (A - 1) (jetABphi f A B phi) := by
  have h1 := jetABphi_eq (fun A B phi => (A - 1) * f A B phi) ![A, B, phi]
  have h2 := jetABphi_eq f ![A, B, phi]
  simp only [Matrix.cons_val] at h1 h2
  rw [h1, h2]
  have hx : (![A, B, phi] : Vec) ∈ (⊤ : Dom) := trivial
  have s : Sm ⊤ (unc f) := hf.contDiffOn
  have s0 : Sm ⊤ fun q : Vec => q 0 - 1 := ((contDiff_apply ℝ ℝ 0).sub contDiff_const).contDiffOn
  have e : unc (fun A B phi => (A - 1) * f A B phi) = fun q => (q 0 - 1) * unc f q := rfl
  have d0 : ∀ k, pd k (fun q : Vec => q 0 - 1) = fun _ => if 0 = k then 1 else 0 := fun k => by
    funext q
    have := dpd_sub (Ω := ⊤) (x := q) trivial k (contDiff_apply ℝ ℝ (0 : Fin 3)).contDiffOn (Sm.const 1)
    rw [this, pd_coord, dpd_const, sub_zero]
  have d1 : ∀ k, pd k (fun q => (q 0 - 1) * unc f q) = fun q => (if 0 = k then 1 else 0) * unc f q + (q 0 - 1) * pd k (unc f) q := fun k => by
    funext q
    rw [dpd_mul (Ω := ⊤) trivial k s0 s, d0]
  have d2 : ∀ k l, pd l (pd k (fun q => (q 0 - 1) * unc f q)) ![A, B, phi] = (if 0 = k then 1 else 0) * pd l (unc f) ![A, B, phi] +
      ((if 0 = l then 1 else 0) * pd k (unc f) ![A, B, phi] + (A - 1) * pd l (pd k (unc f)) ![A, B, phi]) := fun k l => by
    rw [d1, dpd_add hx l ((Sm.const _).mul s) (s0.mul (s.pd k)), dpd_cmul hx l _ s, dpd_mul hx l s0 (s.pd k), d0]
    simp
  have n0 : (0 : Fin 3) ≠ 1 := by decide
  have n1 : (0 : Fin 3) ≠ 2 := by decide
  rw [e]
  unfold jetOf timesAm1
  simp only [d2]
  simp only [d1, if_true, if_neg n0, if_neg n1, Matrix.cons_val]
  ext <;> simp only [] <;> ring

/-! ## The function of the Cartesian position -/

/-- `toABphi` inverts `position` off the axis. -/
theorem toABphi_of_position {b A B phi : ℝ} (hb : 0 < b) (hA : -1 < A ∧ A < 1) (hB : -1 < B ∧ B < 1) (hp : 0 ≤ phi ∧ phi < 2 * π) :
    toABphi b (position b A B phi 0) (position b A B phi 1) (position b A B phi 2) = (A, B, phi) := by
  obtain ⟨a1, a2, a3, a4⟩ := toABphi_position b (position b A B phi 0) (position b A B phi 1) (position b A B phi 2) hb
  have e : (![position b A B phi 0, position b A B phi 1, position b A B phi 2] : Vec) = position b A B phi := by
    funext i
    fin_cases i <;> rfl
  rw [e] at a4
  obtain ⟨b1, b2, b3⟩ := position_inj hb hA hB hp a1 a2 a3 a4
  exact Prod.ext b1 (Prod.ext b2 b3)

theorem position_add (b A B phi : ℝ) (m : ℤ) : position b A B (phi + 2 * π * m) = position b A B phi := by
  have e : phi + 2 * π * m = phi + m * (2 * π) := by ring
  simp only [position, e, cos_add_int_mul_two_pi, sin_add_int_mul_two_pi]

theorem exists_reduced (phi : ℝ) : ∃ m : ℤ, 0 ≤ phi + 2 * π * m ∧ phi + 2 * π * m < 2 * π := by
  have hp := two_pi_pos
  refine ⟨-⌊phi / (2 * π)⌋, ?_, ?_⟩
  · have := Int.floor_le (phi / (2 * π))
    rw [le_div_iff₀ hp] at this
    push_cast
    linarith
  · have := Int.lt_floor_add_one (phi / (2 * π))
    rw [div_lt_iff₀ hp] at this
    push_cast
    linarith

theorem cartesian_position {b A B : ℝ} (phi : ℝ) (hb : 0 < b) (hA : -1 < A ∧ A < 1) (hB : -1 < B ∧ B < 1) {n1 n2 M : ℕ} (hM : 0 < M)
    {v : ℝ → ℝ → ℝ → ℝ} (h : Resolved n1 n2 (2 * M) v) : cartesian b v (position b A B phi) = (A - 1) * v A B phi := by
  obtain ⟨m, hm⟩ := exists_reduced phi
  rw [← position_add b A B phi m, cartesian]
  simp only [toABphi_of_position hb hA hB hm, h.periodic hM]

/-- Off the axis `A` exceeds `-1`, and `B` is a smooth function of `A` and the position. -/
theorem toABphi_B {b : ℝ} (hb : 0 < b) {x : Vec} (hx : x ∈ offAxis) :
    let q := toABphi b (x 0) (x 1) (x 2)
    let a := (q.1 + 1) / 2
    0 < a ∧ a < 1 ∧
    q.2.1 = -(x 0 * (1 - a ^ 2) / (b * (1 + a ^ 2))) / (1 + √(x 1 ^ 2 + x 2 ^ 2) * (1 - a ^ 2) / (2 * a * b)) := by
  intro q a
  obtain ⟨X, R, hX, hR, hR', e1, e2, ex, er⟩ := toABphi_XR b (x 0) (x 1) (x 2) hb
  have hn : ‖(⟨x 1, x 2⟩ : ℂ)‖ = √(x 1 ^ 2 + x 2 ^ 2) := by
    rw [Complex.norm_def, Complex.normSq_mk, pow_two, pow_two]
  have hn0 : 0 < √(x 1 ^ 2 + x 2 ^ 2) := sqrt_pos.2 hx
  rw [hn] at er
  have ha : a = tanh (0.5 * X) := by
    simp only [a, q, e1]
    ring
  have hm : tanh (0.5 * X) ∈ Set.Ioo (-1) (1 : ℝ) := ⟨neg_one_lt_tanh _, tanh_lt_one _⟩
  have hXX : 2 * artanh (tanh (0.5 * X)) = X := by
    rw [artanh_tanh]
    ring
  have hc := cosh_two_artanh hm
  have hs := sinh_two_artanh hm
  rw [hXX, ← ha] at hc hs
  have ha1 : a < 1 := by
    rw [ha]
    exact hm.2
  have ha0' : 0 ≤ a := by
    rw [ha]
    exact tanh_nonneg' (by linarith)
  have ha0 : 0 < a := by
    rcases ha0'.lt_or_eq with h | h
    · exact h
    · exfalso
      rw [← h] at hs
      simp at hs
      rw [hs] at er
      simp at er
      exact hn0.ne' er.symm
  have hd : 0 < 1 - a ^ 2 := by nlinarith
  refine ⟨ha0, ha1, ?_⟩
  have hB : π / 2 + 2 * arctan (tan (0.5 * R - π / 4)) = R := by
    rw [arctan_tan (by linarith [pi_pos]) (by linarith [pi_pos])]
    ring
  have hcR := cos_R (tan (0.5 * R - π / 4))
  have hsR := sin_R (tan (0.5 * R - π / 4))
  rw [hB] at hcR hsR
  have hq : q.2.1 = tan (0.5 * R - π / 4) := e2
  rw [hq]
  generalize tan (0.5 * R - π / 4) = B at *
  have h1 : 0 < 1 + B ^ 2 := by positivity
  have r1 : x 0 * (1 - a ^ 2) / (b * (1 + a ^ 2)) = cos R := by
    rw [← ex, hc]
    field_simp
  have r2 : √(x 1 ^ 2 + x 2 ^ 2) * (1 - a ^ 2) / (2 * a * b) = sin R := by
    rw [← er, hs]
    field_simp
  rw [r1, r2, hcR, hsR]
  field_simp
  ring

theorem contDiff_tanh' : ContDiff ℝ ∞ tanh := by
  have : tanh = fun x => sinh x / cosh x := funext tanh_eq_sinh_div_cosh
  rw [this]
  exact contDiff_sinh.div contDiff_cosh fun x => (cosh_pos x).ne'

theorem smooth_A {b : ℝ} (hb : 0 < b) : Sm offAxis fun x => (toABphi b (x 0) (x 1) (x 2)).1 := by
  refine sm_of_at fun x hx => ?_
  have hx' : 0 < x 1 ^ 2 + x 2 ^ 2 := hx
  have c : ∀ i : Fin 3, ContDiffAt ℝ ∞ (fun x : Vec => x i / b) x := fun i => (contDiff_apply ℝ ℝ i).contDiffAt.div_const b
  have hr : ContDiffAt ℝ ∞ (fun x : Vec => x 1 / b * (x 1 / b) + x 2 / b * (x 2 / b)) x := ((c 1).mul (c 1)).add ((c 2).mul (c 2))
  have hr0 : 0 < x 1 / b * (x 1 / b) + x 2 / b * (x 2 / b) := by
    have : x 1 / b * (x 1 / b) + x 2 / b * (x 2 / b) = (x 1 ^ 2 + x 2 ^ 2) / b ^ 2 := by
      field_simp
    rw [this]
    positivity
  have h1 : ContDiffAt ℝ ∞ (fun x : Vec => 0.5 * (x 0 / b * (x 0 / b) + (x 1 / b * (x 1 / b) + x 2 / b * (x 2 / b)) - 1)) x :=
    contDiffAt_const.mul ((((c 0).mul (c 0)).add hr).sub contDiffAt_const)
  have h2 := ((h1.mul h1).add hr).sqrt (by
    have := mul_self_nonneg (0.5 * (x 0 / b * (x 0 / b) + (x 1 / b * (x 1 / b) + x 2 / b * (x 2 / b)) - 1))
    linarith)
  have h3 := (h1.add h2).sqrt (by
    set w := 0.5 * (x 0 / b * (x 0 / b) + (x 1 / b * (x 1 / b) + x 2 / b * (x 2 / b)) - 1)
    have : |w| < √(w * w + (x 1 / b * (x 1 / b) + x 2 / b * (x 2 / b))) := by
      rw [← sqrt_sq_eq_abs]
      exact sqrt_lt_sqrt (sq_nonneg _) (by nlinarith)
    have := (abs_lt.1 this).1
    linarith)
  exact (contDiffAt_const.mul (contDiff_tanh'.contDiffAt.comp x (contDiffAt_const.mul h3.arsinh))).sub contDiffAt_const

theorem smooth_B {b : ℝ} (hb : 0 < b) : Sm offAxis fun x => (toABphi b (x 0) (x 1) (x 2)).2.1 := by
  have hA : Sm offAxis fun x => ((toABphi b (x 0) (x 1) (x 2)).1 + 1) / 2 := by
    have := ((smooth_A hb).add (Sm.const 1)).mul (Sm.const (1 / 2))
    exact this.congr fun x _ => by ring
  have hn : Sm offAxis fun x => √(x 1 ^ 2 + x 2 ^ 2) := sm_of_at fun x hx =>
    ((((contDiff_apply ℝ ℝ 1).pow 2).add ((contDiff_apply ℝ ℝ 2).pow 2)).contDiffAt).sqrt (ne_of_gt hx)
  have h0 : Sm offAxis fun x => x 0 := (contDiff_apply ℝ ℝ 0).contDiffOn
  have hd : Sm offAxis fun x => 1 - (((toABphi b (x 0) (x 1) (x 2)).1 + 1) / 2) ^ 2 := (Sm.const 1).sub (hA.pow 2)
  refine Sm.congr ?_ fun x hx => (toABphi_B hb hx).2.2
  refine ((((h0.mul hd).div ((Sm.const b).mul ((Sm.const 1).add (hA.pow 2))) fun x _ => by positivity).neg).div
    ((Sm.const 1).add ((hn.mul hd).div (((Sm.const 2).mul hA).mul (Sm.const b)) fun x hx => ?_)) fun x hx => ?_)
  · have := (toABphi_B hb hx).1
    positivity
  · have h1 := (toABphi_B hb hx).1
    have h2 := (toABphi_B hb hx).2.1
    have : 0 < 1 - (((toABphi b (x 0) (x 1) (x 2)).1 + 1) / 2) ^ 2 := by nlinarith
    positivity

/-- The function that the grid represents is smooth off the axis. -/
theorem cartesian_smooth {b : ℝ} (hb : 0 < b) {n1 n2 M : ℕ} (hM : 0 < M) {v : ℝ → ℝ → ℝ → ℝ} (h : Resolved n1 n2 (2 * M) v) :
    Sm offAxis (cartesian b v) := by
  refine sm_of_at fun x hx => ?_
  have hx' : 0 < x 1 ^ 2 + x 2 ^ 2 := hx
  let w : Vec → ℂ := fun x => x 1 + x 2 * Complex.I
  have hw : ∀ y, w y = ⟨y 1, y 2⟩ := fun y => by
    apply Complex.ext <;> simp [w]
  have hw0 : w x ≠ 0 := by
    intro h0
    rw [hw] at h0
    have h1 := congrArg Complex.re h0
    have h2 := congrArg Complex.im h0
    simp only [Complex.zero_re, Complex.zero_im] at h1 h2
    rw [h1, h2] at hx'
    simp at hx'
  -- an angle that is smooth near `x`
  let ψ : Vec → ℝ := fun y => Complex.arg (w x) + (Complex.log (w y / w x)).im
  have hre : ContDiff ℝ ∞ w := (Complex.ofRealCLM.contDiff.comp (contDiff_apply ℝ ℝ 1)).add
    ((Complex.ofRealCLM.contDiff.comp (contDiff_apply ℝ ℝ 2)).mul contDiff_const)
  have hψ : ContDiffAt ℝ ∞ ψ x := by
    have h1 : ContDiffAt ℝ ∞ (fun y => w y / w x) x := (hre.div_const _).contDiffAt
    have h2 : ContDiffAt ℝ ∞ Complex.log (w x / w x) := by
      rw [div_self hw0]
      exact (Complex.contDiffAt_log (by simp)).restrict_scalars ℝ
    have h3 : ContDiffAt ℝ ∞ (fun y => Complex.log (w y / w x)) x := ContDiffAt.comp x (f := fun y => w y / w x) h2 h1
    exact contDiffAt_const.add (Complex.imCLM.contDiff.contDiffAt.comp x h3)
  have hdir : ∀ y ∈ offAxis, cartesian b v y = ((toABphi b (y 0) (y 1) (y 2)).1 - 1) *
      v (toABphi b (y 0) (y 1) (y 2)).1 (toABphi b (y 0) (y 1) (y 2)).2.1 (ψ y) := by
    intro y hy
    have hy' : 0 < y 1 ^ 2 + y 2 ^ 2 := hy
    obtain ⟨-, -, ec, es⟩ := toABphi_phi b (y 0) (y 1) (y 2)
    have hy0 : w y ≠ 0 := by
      intro h0
      rw [hw] at h0
      have h1 := congrArg Complex.re h0
      have h2 := congrArg Complex.im h0
      simp only [Complex.zero_re, Complex.zero_im] at h1 h2
      rw [h1, h2] at hy'
      simp at hy'
    have hny : ‖w y‖ ≠ 0 := norm_ne_zero_iff.2 hy0
    have hang : ((ψ y : ℝ) : Angle) = (Complex.arg (w y) : Angle) := by
      have : ψ y = Complex.arg (w x) + Complex.arg (w y / w x) := by simp [ψ, Complex.log_im]
      rw [this, Angle.coe_add, Complex.arg_div_coe_angle hy0 hw0]
      abel
    have hcψ : cos (ψ y) = cos (Complex.arg (w y)) := by
      rw [← Angle.cos_coe, hang, Angle.cos_coe]
    have hsψ : sin (ψ y) = sin (Complex.arg (w y)) := by
      rw [← Angle.sin_coe, hang, Angle.sin_coe]
    rw [cartesian]
    congr 1
    refine h.direction hM _ _ ?_ ?_
    · rw [hcψ, Complex.cos_arg hy0, eq_div_iff hny, mul_comm]
      rw [hw]
      exact ec
    · rw [hsψ, Complex.sin_arg, eq_div_iff hny, mul_comm]
      rw [hw]
      exact es
  have hA := (smooth_A hb).at hx
  have hB := (smooth_B hb).at hx
  have hq : ContDiffAt ℝ ∞ (fun y => (![(toABphi b (y 0) (y 1) (y 2)).1, (toABphi b (y 0) (y 1) (y 2)).2.1, ψ y] : Vec)) x := by
    refine contDiffAt_pi.2 fun i => ?_
    fin_cases i
    · exact hA
    · exact hB
    · exact hψ
  have hv := ((h.contDiff hM).contDiffAt (x := ![(toABphi b (x 0) (x 1) (x 2)).1, (toABphi b (x 0) (x 1) (x 2)).2.1, ψ x])).comp x hq
  refine ((hA.sub (contDiffAt_const (c := (1 : ℝ)))).mul hv).congr_of_eventuallyEq (Filter.eventually_of_mem (offAxis.isOpen.mem_nhds hx) fun y hy => ?_)
  exact hdir y hy

theorem position_offAxis {b A B : ℝ} (phi : ℝ) (hb : 0 < b) (hA : -1 < A ∧ A < 1) (hB : -1 < B ∧ B < 1) : position b A B phi ∈ offAxis := by
  show 0 < position b A B phi 1 ^ 2 + position b A B phi 2 ^ 2
  simp only [position, Matrix.cons_val]
  have e : ∀ r : ℝ, (r * cos phi) ^ 2 + (r * sin phi) ^ 2 = r ^ 2 := fun r => by
    linear_combination r ^ 2 * sin_sq_add_cos_sq phi
  rw [e]
  have h1 : 0 < 1 - ((A + 1) / 2) ^ 2 := by nlinarith [hA.1, hA.2]
  have h2 : 0 < 1 - B ^ 2 := by nlinarith [hB.1, hB.2]
  have h3 : 0 < A + 1 := by linarith [hA.1]
  positivity

end Verif.TP
