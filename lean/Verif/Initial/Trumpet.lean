import Verif.Initial.SphCalc
import Verif.Initial.TrumpetAlg

/-!
# C84: the static trumpet
-/
namespace Verif.Initial.Trumpet
open Verif.RefMetric Verif.BSSN Real PE
open scoped ContDiff

variable {M : ℝ}

/-- Outside the puncture and off the axis. -/
def dom : Dom := offAxis (Set.Ioi 0) isOpen_Ioi

noncomputable def gen (M : ℝ) : ℕ → Scal
  | 0 => fun y => y 0
  | 1 => fun y => (y 0)⁻¹
  | 2 => fun y => (y 0 + M)⁻¹
  | 3 => fun y => sin (y 1)
  | 4 => fun y => cos (y 1)
  | 5 => fun y => (sin (y 1))⁻¹
  | 6 => fun _ => M
  | _ => fun _ => 0

theorem pos {x : Vec} (hx : x ∈ dom) : 0 < x 0 := hx.1
theorem sin_ne {x : Vec} (hx : x ∈ dom) : sin (x 1) ≠ 0 := hx.2
theorem sum_ne (hM : 0 ≤ M) {x : Vec} (hx : x ∈ dom) : x 0 + M ≠ 0 := (add_pos_of_pos_of_nonneg (pos hx) hM).ne'

/-- The functions and their derivatives. -/
noncomputable def gens (hM : 0 ≤ M) : Gens dom where
  g := gen M
  D := D
  out i hi x := by
    obtain ⟨n, rfl⟩ := Nat.exists_eq_add_of_le' hi
    rfl
  sm i := match i with
    | 0 => sm_coord 0
    | 1 => (sm_coord 0).inv fun x hx => (pos hx).ne'
    | 2 => ((sm_coord 0).add (Sm.const M)).inv fun x hx => sum_ne hM hx
    | 3 => sm_sin
    | 4 => sm_cos
    | 5 => sm_csc fun x hx => sin_ne hx
    | 6 => Sm.const M
    | _ + 7 => Sm.const 0
  pd_g k i x hx := by
    have h0 := (pos hx).ne'
    have h1 := sum_ne hM hx
    have h2 := sin_ne hx
    match i with
    | 0 =>
      refine (pd_one (φ := fun t => t) 0 (hasDerivAt_id _) k).trans ?_
      fin_cases k <;> simp [D, tab1, D0, D1, D2, ev, gen]
    | 1 =>
      refine (pd_one (φ := fun t => t⁻¹) 0 (hasDerivAt_inv h0) k).trans ?_
      fin_cases k <;> simp [D, tab1, D0, D1, D2, ev, gen]
    | 2 =>
      refine (pd_one (φ := fun t => (t + M)⁻¹) 0 (((hasDerivAt_id (x 0)).add_const M).inv h1) k).trans ?_
      fin_cases k <;> simp [D, tab1, D0, D1, D2, ev, gen, neg_div]
    | 3 =>
      refine (dpd_sin k).trans ?_
      fin_cases k <;> simp [D, tab1, D0, D1, D2, ev, gen]
    | 4 =>
      refine (dpd_cos k).trans ?_
      fin_cases k <;> simp [D, tab1, D0, D1, D2, ev, gen]
    | 5 =>
      refine (dpd_csc h2 k).trans ?_
      fin_cases k <;> simp [D, tab1, D0, D1, D2, ev, gen, div_eq_mul_inv]
    | 6 =>
      refine (dpd_const k M).trans ?_
      fin_cases k <;> simp [D, tab1, D0, D1, D2, ev]
    | n + 7 =>
      refine (dpd_const k 0).trans ?_
      fin_cases k <;> simp [D, tab1, D0, D1, D2, ev]

theorem rel (hM : 0 ≤ M) {x : Vec} (hx : x ∈ dom) : ∀ r ∈ rels, r.ev ((gens hM).at' x) = 0 := by
  have h0 := (pos hx).ne'
  have h1 := sum_ne hM hx
  have h2 := sin_ne hx
  have h3 := sin_sq_add_cos_sq (x 1)
  simp only [rels, List.mem_cons, List.not_mem_nil, or_false, forall_eq_or_imp, forall_eq]
  refine ⟨?_, ?_, ?_, ?_⟩ <;> simp [ev, Gens.at', gens, gen] <;> first | (field_simp; ring) | linarith

theorem hG0 (hM : 0 ≤ M) (i j : Fin 3) {x : Vec} (hx : x ∈ dom) : TrumpetModel.gammaDD M i j x = (G0 i j).ev ((gens hM).at' x) := by
  have h0 := (pos hx).ne'
  have e : TrumpetModel.psi0 M (x 0) ^ 4 = (1 + M / x 0) ^ 2 := by
    rw [TrumpetModel.psi0, show (4 : ℕ) = 2 * 2 from rfl, pow_mul, sq_sqrt (add_nonneg one_pos.le (div_nonneg hM (pos hx).le))]
  fin_cases i <;> fin_cases j <;>
    simp [TrumpetModel.gammaDD, e, G0, tab2, ev, Gens.at', gens, gen, G000, G001, G002, G010, G011, G012, G020, G021, G022] <;> field_simp <;> ring

theorem hK0 (hM : 0 ≤ M) (i j : Fin 3) {x : Vec} (hx : x ∈ dom) : TrumpetModel.KDD M i j x = (K0 i j).ev ((gens hM).at' x) := by
  have h0 := (pos hx).ne'
  fin_cases i <;> fin_cases j <;>
    simp [TrumpetModel.KDD, K0, tab2, ev, Gens.at', gens, gen, K000, K001, K002, K010, K011, K012, K020, K021, K022] <;> field_simp

/-- All the polynomial identities. -/
noncomputable def slice (hM : 0 ≤ M) :
    Slice (gens hM) (TrumpetModel.gammaDD M) (TrumpetModel.KDD M) (TrumpetModel.alpha M) (TrumpetModel.betaU M) where
  G := G
  I := I
  Γ := Γ
  Ric := Ric
  hG i j x hx := (hG0 hM i j hx).trans (G0_eq ((gens hM).out' x) (rel hM hx) i j)
  hI x hx := inv ((gens hM).out' x) (rel hM hx)
  hΓ x hx := chr ((gens hM).out' x) (rel hM hx)
  hRic x hx := ric ((gens hM).out' x) (rel hM hx)
  Kp := K
  t := t
  U := U
  T := T
  a := a
  b := b
  hK i j x hx := (hK0 hM i j hx).trans (K0_eq ((gens hM).out' x) (rel hM hx) i j)
  ha x hx := by
    simp [TrumpetModel.alpha, a, ev, Gens.at', gens, gen, div_eq_mul_inv]
  hb i x hx := by
    have h1 := sum_ne hM hx
    fin_cases i <;> simp [TrumpetModel.betaU, b, tab1, ev, Gens.at', gens, gen] <;> field_simp
  ht x hx := tr ((gens hM).out' x) (rel hM hx)
  hU x hx := up ((gens hM).out' x) (rel hM hx)
  hT x hx := tt ((gens hM).out' x) (rel hM hx)
  ham x hx := ham ((gens hM).out' x) (rel hM hx)
  mom x hx := mom ((gens hM).out' x) (rel hM hx)
  gdot x hx := gdot ((gens hM).out' x) (rel hM hx)
  kdot x hx := kdot ((gens hM).out' x) (rel hM hx)

end Verif.Initial.Trumpet
