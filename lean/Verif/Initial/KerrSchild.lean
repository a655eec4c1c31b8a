import Verif.Initial.SphCalc
import Verif.Initial.KerrSchildAlg

/-!
# C84: Kerr-Schild data with a radial offset
-/
namespace Verif.Initial.KS
open Verif.RefMetric Verif.BSSN Real PE
open scoped ContDiff

variable {M a₀ r0 : ℝ}

/-- Outside the ring and off the axis. -/
def dom (r0 : ℝ) : Dom := offAxis {r | 0 < r + r0} (isOpen_lt continuous_const (continuous_id.add continuous_const))

noncomputable def gen (M a₀ r0 : ℝ) : ℕ → Scal
  | 0 => fun y => y 0 + r0
  | 1 => fun y => sin (y 1)
  | 2 => fun y => cos (y 1)
  | 3 => fun y => (KSModel.rho2 a₀ r0 y)⁻¹
  | 4 => fun y => (sin (y 1))⁻¹
  | 5 => fun y => (√(1 + 2 * M * ((y 0 + r0) * (KSModel.rho2 a₀ r0 y)⁻¹)))⁻¹
  | 6 => fun _ => a₀
  | 7 => fun _ => M
  | _ => fun _ => 0

theorem pos {x : Vec} (hx : x ∈ dom r0) : 0 < x 0 + r0 := hx.1
theorem sin_ne {x : Vec} (hx : x ∈ dom r0) : sin (x 1) ≠ 0 := hx.2
theorem rho_pos {x : Vec} (hx : x ∈ dom r0) : 0 < KSModel.rho2 a₀ r0 x := by
  have := pos hx
  unfold KSModel.rho2
  have := mul_self_nonneg a₀
  positivity
theorem z_pos (hM : 0 ≤ M) {x : Vec} (hx : x ∈ dom r0) : 0 < 1 + 2 * M * ((x 0 + r0) * (KSModel.rho2 a₀ r0 x)⁻¹) := by
  have := pos hx
  have := rho_pos (a₀ := a₀) hx
  positivity

theorem sm_k : Sm (dom r0) fun y => y 0 + r0 := (sm_coord 0).add (Sm.const r0)
theorem pd_k (k : Fin 3) (x : Vec) : pd k (fun y => y 0 + r0) x = if k = 0 then 1 else 0 :=
  pd_one (φ := fun t => t + r0) 0 ((hasDerivAt_id _).add_const r0) k

theorem sm_rho : Sm (dom r0) (KSModel.rho2 a₀ r0) := (sm_k.mul sm_k).add ((Sm.const (a₀ * a₀)).mul (sm_cos.pow 2))
theorem pd_rho {x : Vec} (hx : x ∈ dom r0) (k : Fin 3) : pd k (KSModel.rho2 a₀ r0) x =
    if k = 0 then 2 * (x 0 + r0) else if k = 1 then -2 * a₀ ^ 2 * sin (x 1) * cos (x 1) else 0 := by
  refine (dpd_add hx k (sm_k.mul sm_k) ((Sm.const (a₀ * a₀)).mul (sm_cos.pow 2))).trans ?_
  rw [dpd_mul hx k sm_k sm_k, dpd_cmul hx k _ (sm_cos.pow 2), Gens.pd_pow hx k sm_cos 2, dpd_cos, pd_k]
  fin_cases k <;> simp <;> ring

theorem sm_inv : Sm (dom r0) fun y => (KSModel.rho2 a₀ r0 y)⁻¹ := sm_rho.inv fun _ hx => (rho_pos hx).ne'
theorem pd_inv {x : Vec} (hx : x ∈ dom r0) (k : Fin 3) : pd k (fun y => (KSModel.rho2 a₀ r0 y)⁻¹) x =
    -(if k = 0 then 2 * (x 0 + r0) else if k = 1 then -2 * a₀ ^ 2 * sin (x 1) * cos (x 1) else 0) * (KSModel.rho2 a₀ r0 x)⁻¹ ^ 2 := by
  rw [dpd_inv hx k sm_rho fun _ hx => (rho_pos hx).ne', pd_rho hx]

theorem sm_z : Sm (dom r0) fun y => 1 + 2 * M * ((y 0 + r0) * (KSModel.rho2 a₀ r0 y)⁻¹) :=
  (Sm.const 1).add ((Sm.const (2 * M)).mul (sm_k.mul sm_inv))
theorem sm_q (hM : 0 ≤ M) : Sm (dom r0) fun y => √(1 + 2 * M * ((y 0 + r0) * (KSModel.rho2 a₀ r0 y)⁻¹)) :=
  sm_z.sqrt fun _ hx => (z_pos hM hx).ne'

/-- The functions and their derivatives. -/
noncomputable def gens (a₀ r0 : ℝ) (hM : 0 ≤ M) : Gens (dom r0) where
  g := gen M a₀ r0
  D := D
  out i hi x := by
    obtain ⟨n, rfl⟩ := Nat.exists_eq_add_of_le' hi
    rfl
  sm i := match i with
    | 0 => sm_k
    | 1 => sm_sin
    | 2 => sm_cos
    | 3 => sm_inv
    | 4 => sm_csc fun x hx => sin_ne hx
    | 5 => (sm_q hM).inv fun _ hx => (sqrt_pos.2 (z_pos hM hx)).ne'
    | 6 => Sm.const a₀
    | 7 => Sm.const M
    | _ + 8 => Sm.const 0
  pd_g k i x hx := by
    have h0 := (pos hx).ne'
    have h2 := sin_ne hx
    match i with
    | 0 =>
      refine (pd_k k x).trans ?_
      fin_cases k <;> simp [D, tab1, D0, D1, D2, ev, gen]
    | 1 =>
      refine (dpd_sin k).trans ?_
      fin_cases k <;> simp [D, tab1, D0, D1, D2, ev, gen]
    | 2 =>
      refine (dpd_cos k).trans ?_
      fin_cases k <;> simp [D, tab1, D0, D1, D2, ev, gen]
    | 3 =>
      refine (pd_inv hx k).trans ?_
      fin_cases k <;> simp [D, tab1, D0, D1, D2, ev, gen] <;> ring
    | 4 =>
      refine (dpd_csc h2 k).trans ?_
      fin_cases k <;> simp [D, tab1, D0, D1, D2, ev, gen, div_eq_mul_inv]
    | 5 =>
      have hq := sqrt_pos.2 (z_pos (a₀ := a₀) hM hx)
      refine (dpd_inv hx k (sm_q hM) fun _ hx => (sqrt_pos.2 (z_pos hM hx)).ne').trans ?_
      rw [dpd_sqrt hx k sm_z fun _ hx => (z_pos hM hx).ne', dpd_add hx k (Sm.const 1) ((Sm.const (2 * M)).mul (sm_k.mul sm_inv)),
        dpd_const, dpd_cmul hx k _ (sm_k.mul sm_inv), dpd_mul hx k sm_k sm_inv, pd_k, pd_inv hx]
      have e : ∀ X q : ℝ, 0 < q → -((0 + 2 * M * X) / (2 * q)) * q⁻¹ ^ 2 = -M * X * q⁻¹ ^ 3 := fun X q hq => by
        field_simp
        ring
      simp only [e _ _ hq]
      fin_cases k <;> simp [D, tab1, D0, D1, D2, ev, gen] <;> ring
    | 6 =>
      refine (dpd_const k a₀).trans ?_
      fin_cases k <;> simp [D, tab1, D0, D1, D2, ev]
    | 7 =>
      refine (dpd_const k M).trans ?_
      fin_cases k <;> simp [D, tab1, D0, D1, D2, ev]
    | n + 8 =>
      refine (dpd_const k 0).trans ?_
      fin_cases k <;> simp [D, tab1, D0, D1, D2, ev]

theorem rel (hM : 0 ≤ M) {x : Vec} (hx : x ∈ dom r0) : ∀ r ∈ rels, r.ev ((gens a₀ r0 hM).at' x) = 0 := by
  have h0 := (pos hx).ne'
  have h1 := (rho_pos (a₀ := a₀) hx).ne'
  have h2 := sin_ne hx
  have h3 := sin_sq_add_cos_sq (x 1)
  have hz := z_pos (a₀ := a₀) hM hx
  simp only [rels, List.mem_cons, List.not_mem_nil, or_false, forall_eq_or_imp, forall_eq]
  refine ⟨?_, ?_, ?_, ?_⟩
  · simp [ev, Gens.at', gens, gen]
  · have e : KSModel.rho2 a₀ r0 x = (x 0 + r0) ^ 2 + a₀ ^ 2 * cos (x 1) ^ 2 := by unfold KSModel.rho2; ring
    simp [ev, Gens.at', gens, gen]
    linear_combination (KSModel.rho2 a₀ r0 x)⁻¹ * (-e) + inv_mul_cancel₀ h1
  · simp [ev, Gens.at', gens, gen]
    field_simp
    ring
  · have e := inv_mul_cancel₀ (sqrt_pos.2 hz).ne'
    have e2 := sq_sqrt hz.le
    simp [ev, Gens.at', gens, gen]
    grind

theorem hG0 (hM : 0 ≤ M) (i j : Fin 3) {x : Vec} (hx : x ∈ dom r0) :
    KSModel.gammaDD M a₀ r0 i j x = (G0 i j).ev ((gens a₀ r0 hM).at' x) := by
  have e : KSModel.rho2 a₀ r0 x = (x 0 + r0) ^ 2 + a₀ ^ 2 * cos (x 1) ^ 2 := by unfold KSModel.rho2; ring
  fin_cases i <;> fin_cases j <;>
    simp [KSModel.gammaDD, KSModel.grr, G0, tab2, ev, Gens.at', gens, gen, div_eq_mul_inv, G000, G001, G002, G010, G011, G012, G020, G021, G022] <;>
    first | linear_combination e | ring1

theorem hq (x : Vec) : KSModel.alpha M a₀ r0 x = gen M a₀ r0 5 x := by
  simp only [KSModel.alpha, gen, div_eq_mul_inv, mul_assoc, one_mul]

theorem hA (x : Vec) : KSModel.A a₀ r0 x = 2 * KSModel.rho2 a₀ r0 x := by
  unfold KSModel.A KSModel.rho2
  rw [cos_two_mul]
  ring

section
variable (hM : 0 ≤ M) {x : Vec} (hx : x ∈ dom r0)
include hM hx

theorem hB : (KSModel.B M a₀ r0 x)⁻¹ = gen M a₀ r0 3 x * gen M a₀ r0 5 x ^ 2 / 2 := by
  have h1 := (rho_pos (a₀ := a₀) hx).ne'
  have hz := z_pos (a₀ := a₀) hM hx
  have e : KSModel.B M a₀ r0 x = 2 * KSModel.rho2 a₀ r0 x * (1 + 2 * M * ((x 0 + r0) * (KSModel.rho2 a₀ r0 x)⁻¹)) := by
    rw [KSModel.B, hA]
    field_simp
    ring
  rw [e]
  simp only [gen, inv_pow, sq_sqrt hz.le, mul_inv]
  ring

theorem hD : KSModel.D M a₀ r0 x = gen M a₀ r0 5 x * (1 + 2 * M * (gen M a₀ r0 0 x * gen M a₀ r0 3 x)) := by
  have hz := z_pos (a₀ := a₀) hM hx
  have hs := sqrt_pos.2 hz
  have e : KSModel.D M a₀ r0 x = √(1 + 2 * M * ((x 0 + r0) * (KSModel.rho2 a₀ r0 x)⁻¹)) := by
    unfold KSModel.D KSModel.rho2
    congr 1
    rw [div_eq_mul_inv, add_comm (a₀ * a₀ * _)]
    ring
  rw [e]
  show _ = (√_)⁻¹ * (1 + 2 * M * ((x 0 + r0) * (KSModel.rho2 a₀ r0 x)⁻¹))
  rw [eq_inv_mul_iff_mul_eq₀ hs.ne', mul_self_sqrt hz.le]

theorem hK0 (i j : Fin 3) : KSModel.KDD M a₀ r0 i j x = (K0 i j).ev ((gens a₀ r0 hM).at' x) := by
  have e : KSModel.rho2 a₀ r0 x = (x 0 + r0) ^ 2 + a₀ ^ 2 * cos (x 1) ^ 2 := by unfold KSModel.rho2; ring
  have iA : (KSModel.A a₀ r0 x)⁻¹ = gen M a₀ r0 3 x / 2 := by
    rw [hA, mul_inv]
    simp only [gen]
    ring
  have c2 := cos_two_mul' (x 1)
  have c4 : cos (4 * x 1) = 2 * (cos (x 1) ^ 2 - sin (x 1) ^ 2) ^ 2 - 1 := by
    rw [← c2, ← cos_two_mul, ← mul_assoc]
    norm_num
  have iB := hB (a₀ := a₀) hM hx
  have eD := hD (a₀ := a₀) hM hx
  have A' := hA (a₀ := a₀) (r0 := r0) x
  rw [e] at A'
  have g0 : gen M a₀ r0 0 x = x 0 + r0 := rfl
  have g1 : gen M a₀ r0 1 x = sin (x 1) := rfl
  have g2 : gen M a₀ r0 2 x = cos (x 1) := rfl
  have g6 : gen M a₀ r0 6 x = a₀ := rfl
  have g7 : gen M a₀ r0 7 x = M := rfl
  have hat : ∀ i, (gens a₀ r0 hM).at' x i = gen M a₀ r0 i x := fun _ => rfl
  have rr : KSModel.Krr M a₀ r0 x = K000.ev ((gens a₀ r0 hM).at' x) := by
    simp only [KSModel.Krr, div_eq_mul_inv, mul_inv, iA, iB]
    simp only [A', eD, c2, g0, K000, ev, hat, g1, g2, g6, g7]
    push_cast
    ring
  have rt : KSModel.Krt M a₀ r0 x = K001.ev ((gens a₀ r0 hM).at' x) := by
    simp only [KSModel.Krt, div_eq_mul_inv, mul_inv, iA, iB]
    simp only [eD, g0, K001, ev, hat, g1, g2, g6, g7]
    push_cast
    ring
  have rp : KSModel.Krp M a₀ r0 x = K002.ev ((gens a₀ r0 hM).at' x) := by
    simp only [KSModel.Krp, div_eq_mul_inv, mul_inv, iA]
    simp only [eD, c2, g0, K002, ev, hat, g1, g2, g6, g7]
    push_cast
    ring
  have tt : KSModel.Ktt M a₀ r0 x = K011.ev ((gens a₀ r0 hM).at' x) := by
    simp only [KSModel.Ktt, div_eq_mul_inv, iB]
    simp only [eD, g0, K011, ev, hat, g1, g2, g6, g7]
    push_cast
    ring
  have tp : KSModel.Ktp M a₀ r0 x = K012.ev ((gens a₀ r0 hM).at' x) := by
    simp only [KSModel.Ktp, div_eq_mul_inv, mul_inv, iA, iB]
    simp only [eD, g0, K012, ev, hat, g1, g2, g6, g7]
    push_cast
    ring
  have pp : KSModel.Kpp M a₀ r0 x = K022.ev ((gens a₀ r0 hM).at' x) := by
    simp only [KSModel.Kpp, div_eq_mul_inv, mul_inv, iA, iB]
    simp only [eD, c2, c4, g0, K022, ev, hat, g1, g2, g6, g7]
    push_cast
    ring
  exact match i, j with
  | 0, 0 => rr
  | 0, 1 => rt
  | 1, 0 => rt
  | 0, 2 => rp
  | 2, 0 => rp
  | 1, 1 => tt
  | 1, 2 => tp
  | 2, 1 => tp
  | 2, 2 => pp

end

/-- All the polynomial identities. -/
noncomputable def slice (a₀ r0 : ℝ) (hM : 0 ≤ M) :
    Slice (gens a₀ r0 hM) (KSModel.gammaDD M a₀ r0) (KSModel.KDD M a₀ r0) (KSModel.alpha M a₀ r0) (KSModel.betaU M a₀ r0) where
  G := G
  I := I
  Γ := Γ
  Ric := Ric
  hG i j x hx := (hG0 hM i j hx).trans (G0_eq ((gens a₀ r0 hM).out' x) (rel hM hx) i j)
  hI x hx := inv ((gens a₀ r0 hM).out' x) (rel hM hx)
  hΓ x hx := chr ((gens a₀ r0 hM).out' x) (rel hM hx)
  hRic x hx := ric ((gens a₀ r0 hM).out' x) (rel hM hx)
  Kp := K
  t := t
  U := U
  T := T
  a := a
  b := b
  hK i j x hx := (hK0 hM hx i j).trans (K0_eq ((gens a₀ r0 hM).out' x) (rel hM hx) i j)
  ha x hx := hq x
  hb i x hx := by
    fin_cases i
    · show KSModel.betaU M a₀ r0 0 x = _
      rw [KSModel.betaU, hq]
      simp [b, tab1, ev, Gens.at', gens, gen, div_eq_mul_inv]
      ring
    · simp [KSModel.betaU, b, tab1, ev]
    · simp [KSModel.betaU, b, tab1, ev]
  ht x hx := tr ((gens a₀ r0 hM).out' x) (rel hM hx)
  hU x hx := up ((gens a₀ r0 hM).out' x) (rel hM hx)
  hT x hx := tt ((gens a₀ r0 hM).out' x) (rel hM hx)
  ham x hx := ham ((gens a₀ r0 hM).out' x) (rel hM hx)
  mom x hx := mom ((gens a₀ r0 hM).out' x) (rel hM hx)
  gdot x hx := gdot ((gens a₀ r0 hM).out' x) (rel hM hx)
  kdot x hx := kdot ((gens a₀ r0 hM).out' x) (rel hM hx)

end Verif.Initial.KS
