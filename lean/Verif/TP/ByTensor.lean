import Verif.TP.EqModel
import Verif.Initial.Claims

/-!
# The Bowen–York extrinsic curvature of TwoPunctures
-/
namespace Verif.TP
open Real Verif.RefMetric Verif.BSSN Verif.Wave Verif.Initial
open scoped ContDiff

/-! ## Specification -/

/-- The extrinsic curvature of Bowen and York for a puncture at `c` with linear momentum `P` and angular momentum `S`; `n` is the direction from the puncture
and `r` the distance: `3/(2r²) (P_i n_j + P_j n_i - (δ_ij - n_i n_j) n·P) - 3/r³ ((n × S)_i n_j + (n × S)_j n_i)`. -/
noncomputable def bowenYorkA (c P S : Vec) : T2 := fun i j x =>
  let r := dist3 c x
  let n : Vec := fun j => (x j - c j) / r
  3 / (2 * r ^ 2) * (P i * n j + P j * n i - ((if i = j then 1 else 0) - n i * n j) * (n ⬝ᵥ P)) -
    3 / r ^ 3 * ((crossProduct n S) i * n j + (crossProduct n S) j * n i)

/-- The positions of the punctures in the frame of the solver. -/
def plus (par : Par) : Vec := ![par.par_b, 0, 0]
@[inherit_doc plus]
def minus (par : Par) : Vec := ![-par.par_b, 0, 0]

/-- Everywhere but at the punctures. -/
def offPunctures (par : Par) : Dom := away (plus par) ⊓ away (minus par)

/-- The conformal extrinsic curvature of two punctures. -/
noncomputable def curvature (par : Par) : T2 := fun i j x =>
  bowenYorkA (plus par) par.par_P_plus par.par_S_plus i j x + bowenYorkA (minus par) par.par_P_minus par.par_S_minus i j x

/-- The conformal factor of two punctures with the correction `u`. -/
noncomputable def conformal (par : Par) (u : Scal) : Scal := fun x =>
  1 + par.par_m_plus / (2 * dist3 (plus par) x) + par.par_m_minus / (2 * dist3 (minus par) x) + u x

/-! ## Lemmas -/

/-- The tensor as a polynomial in the components of `x - c` and the inverse distance. -/
noncomputable def AE (P S : Vec) (i j : Fin 3) : QE :=
  .add (.mul (.k (3 / 2)) (.mul (.add (.add (.add (.mul (.k (P i)) (.y j)) (.mul (.k (P j)) (.y i))) (.mul (.k (if i = j then -1 else 0)) (.dotE P)))
      (.mul (.mul (.dotE P) (.mul (.y i) (.y j))) (.mul .q .q))) (.mul .q (.mul .q .q))))
    (.mul (.k (-3)) (.mul (.add (.mul (.crossE S i) (.y j)) (.mul (.crossE S j) (.y i))) (.mul .q (.mul .q (.mul .q (.mul .q .q))))))

theorem cross_eval (c x S : Vec) (i : Fin 3) (r : ℝ) : (crossProduct (fun j => (x j - c j) / r) S) i = (QE.crossE S i).eval c x / r := by
  fin_cases i <;> simp [cross_apply, QE.crossE, QE.eval] <;> ring

theorem AE_eval {c x : Vec} (hx : x ≠ c) (P S : Vec) (i j : Fin 3) : (AE P S i j).eval c x = bowenYorkA c P S i j x := by
  have hr := (dist3_pos hx).ne'
  simp only [bowenYorkA, cross_eval]
  have hd : ((fun j => (x j - c j) / dist3 c x) ⬝ᵥ P) = (QE.dotE P).eval c x / dist3 c x := by
    simp only [dotProduct, QE.dotE, QE.eval, Fin.sum_univ_three]
    ring
  rw [hd]
  simp only [AE, QE.eval, invDist]
  generalize (QE.dotE P).eval c x = d
  generalize (QE.crossE S i).eval c x = a
  generalize (QE.crossE S j).eval c x = b
  split_ifs <;> field_simp <;> ring

set_option maxHeartbeats 4000000 in
theorem AE_div {c x : Vec} (hx : x ≠ c) (P S : Vec) (i : Fin 3) : ∑ j, ((AE P S i j).der j).eval c x = 0 := by
  have h := invDist_sq hx
  set q := invDist c x with hq
  set y0 := x 0 - c 0 with h0
  set y1 := x 1 - c 1 with h1
  set y2 := x 2 - c 2 with h2
  fin_cases i
  all_goals
    simp only [AE, QE.eval, QE.der, QE.dotE, QE.crossE, Fin.sum_univ_three, Fin.zero_eta, Fin.mk_one, Fin.reduceFinMk]
    simp only [Matrix.cons_val_zero, Matrix.cons_val_one, Matrix.cons_val, QE.eval, QE.der]
    simp only [Fin.isValue, reduceIte, Fin.reduceEq, ← hq, ← h0, ← h1, ← h2]
    clear_value q y0 y1 y2
    grind

theorem AE_trace {c x : Vec} (hx : x ≠ c) (P S : Vec) : ∑ i, (AE P S i i).eval c x = 0 := by
  have h := invDist_sq hx
  simp only [AE, QE.eval, QE.dotE, QE.crossE, Fin.sum_univ_three]
  simp only [Matrix.cons_val_zero, Matrix.cons_val_one, Matrix.cons_val, QE.eval]
  simp only [if_true]
  set q := invDist c x
  set y0 := x 0 - c 0
  set y1 := x 1 - c 1
  set y2 := x 2 - c 2
  clear_value q y0 y1 y2
  linear_combination (3 / 2) * q ^ 3 * (P 0 * y0 + P 1 * y1 + P 2 * y2) * h

/-- A polynomial for each puncture. -/
noncomputable def pair (par : Par) (a b : QE) : Scal := fun x => a.eval (plus par) x + b.eval (minus par) x

theorem pair_smooth (par : Par) (a b : QE) : Sm (offPunctures par) (pair par a b) :=
  ((a.smooth (plus par)).mono fun _ h => h.1).add ((b.smooth (minus par)).mono fun _ h => h.2)

theorem pd_pair {par : Par} {x : Vec} (hx : x ∈ offPunctures par) (n : Fin 3) (a b : QE) : pd n (pair par a b) x = pair par (a.der n) (b.der n) x := by
  have ha : Sm (offPunctures par) (a.eval (plus par)) := (a.smooth (plus par)).mono fun _ h => h.1
  have hb : Sm (offPunctures par) (b.eval (minus par)) := (b.smooth (minus par)).mono fun _ h => h.2
  exact (dpd_add hx n ha hb).trans (by rw [QE.pd_eval hx.1, QE.pd_eval hx.2]; rfl)

theorem curvature_pair (par : Par) (i j : Fin 3) (x : Vec) (hx : x ∈ offPunctures par) :
    curvature par i j x = pair par (AE par.par_P_plus par.par_S_plus i j) (AE par.par_P_minus par.par_S_minus i j) x := by
  rw [pair, AE_eval hx.1, AE_eval hx.2]
  rfl

theorem curvature_smooth (par : Par) (i j : Fin 3) : Sm (offPunctures par) (curvature par i j) :=
  (pair_smooth par _ _).congr fun x hx => curvature_pair par i j x hx

theorem curvature_symm (par : Par) (i j : Fin 3) (x : Vec) : curvature par i j x = curvature par j i x := by
  simp only [curvature, bowenYorkA, eq_comm (a := i) (b := j)]
  ring

theorem curvature_trace {par : Par} {x : Vec} (hx : x ∈ offPunctures par) : ∑ i, curvature par i i x = 0 := by
  simp only [curvature_pair par _ _ x hx, pair, Finset.sum_add_distrib]
  rw [AE_trace hx.1, AE_trace hx.2, add_zero]

theorem curvature_div {par : Par} {x : Vec} (hx : x ∈ offPunctures par) (i : Fin 3) : ∑ j, pd j (curvature par i j) x = 0 := by
  have e : ∀ j, pd j (curvature par i j) x = pair par ((AE par.par_P_plus par.par_S_plus i j).der j) ((AE par.par_P_minus par.par_S_minus i j).der j) x :=
    fun j => by rw [pd_congr_on (fun y hy => curvature_pair par i j y hy) hx j, pd_pair hx]
  simp only [e, pair, Finset.sum_add_distrib]
  rw [AE_div hx.1, AE_div hx.2, add_zero]

/-- The background of the conformal factor. -/
theorem background_pair (par : Par) (u : Scal) (x : Vec) : conformal par u x =
    pair par (.add (.k 1) (.mul (.k (par.par_m_plus / 2)) .q)) (.mul (.k (par.par_m_minus / 2)) .q) x + u x := by
  simp only [conformal, pair, QE.eval, invDist]
  ring

theorem conformal_smooth {par : Par} {Ω : Dom} (hΩ : Ω ≤ offPunctures par) {u : Scal} (hu : Sm Ω u) : Sm Ω (conformal par u) :=
  (((pair_smooth par _ _).mono hΩ).add hu).congr fun x _ => background_pair par u x

theorem conformal_laplacian {par : Par} {Ω : Dom} (hΩ : Ω ≤ offPunctures par) {u : Scal} (hu : Sm Ω u) {x : Vec} (hx : x ∈ Ω) :
    laplacian (conformal par u) x = laplacian u x := by
  let a : QE := .add (.k 1) (.mul (.k (par.par_m_plus / 2)) .q)
  let b : QE := .mul (.k (par.par_m_minus / 2)) .q
  have hb : Sm Ω (pair par a b) := (pair_smooth par _ _).mono hΩ
  have e : conformal par u = fun x => pair par a b x + u x := funext fun x => background_pair par u x
  have e2 : ∀ k, pd k (pd k (conformal par u)) x = pd k (pd k (pair par a b)) x + pd k (pd k u) x := by
    intro k
    rw [e, pd_congr_on (fun y hy => dpd_add hy k hb hu) hx k, dpd_add hx k (hb.pd k) (hu.pd k)]
  have e3 : ∀ k, pd k (pd k (pair par a b)) x = pair par ((a.der k).der k) ((b.der k).der k) x := fun k => by
    rw [pd_congr_on (fun y hy => pd_pair hy k a b) (hΩ hx) k, pd_pair (hΩ hx)]
  simp only [laplacian, e2, Finset.sum_add_distrib, e3]
  have h0 := invDist_harmonic (hΩ hx).1
  have h1 := invDist_harmonic (hΩ hx).2
  simp only [pair, a, b, QE.der, QE.eval, Fin.sum_univ_three] at h0 h1 ⊢
  linear_combination par.par_m_plus / 2 * h0 + par.par_m_minus / 2 * h1

theorem sq_plus (par : Par) (x y z : ℝ) : (x - par.par_b) * (x - par.par_b) + y * y + z * z = dist3 (plus par) ![x, y, z] ^ 2 := by
  rw [dist3_sq]
  simp [plus]
  ring

theorem sq_minus (par : Par) (x y z : ℝ) : (x + par.par_b) * (x + par.par_b) + y * y + z * z = dist3 (minus par) ![x, y, z] ^ 2 := by
  rw [dist3_sq]
  simp [minus]
  ring

theorem dist3_nonneg (c x : Vec) : 0 ≤ dist3 c x := Real.sqrt_nonneg _

theorem BY_Aij_eq {par : Par} {x y z : ℝ} (hx : ![x, y, z] ∈ offPunctures par) (i j : Fin 3) :
    BY_Aij par x y z (dist3 (plus par) ![x, y, z] ^ 2) (dist3 (minus par) ![x, y, z] ^ 2) i j = curvature par i j ![x, y, z] := by
  have hp := (dist3_pos hx.1).ne'
  have hm := (dist3_pos hx.2).ne'
  simp only [BY_Aij, sqrt_sq (dist3_nonneg _ _), curvature, bowenYorkA]
  have np : (![(x - par.par_b) / dist3 (plus par) ![x, y, z], y / dist3 (plus par) ![x, y, z], z / dist3 (plus par) ![x, y, z]] : Fin 3 → ℝ) =
      fun j => (![x, y, z] j - plus par j) / dist3 (plus par) ![x, y, z] := by
    funext k
    fin_cases k <;> simp [plus]
  have nm : (![(x + par.par_b) / dist3 (minus par) ![x, y, z], y / dist3 (minus par) ![x, y, z], z / dist3 (minus par) ![x, y, z]] : Fin 3 → ℝ) =
      fun j => (![x, y, z] j - minus par j) / dist3 (minus par) ![x, y, z] := by
    funext k
    fin_cases k <;> simp [minus]
  rw [np, nm]
  obtain ⟨n, hn⟩ : ∃ n : Fin 3 → ℝ, ∀ j, (![x, y, z] j - plus par j) / dist3 (plus par) ![x, y, z] = n j := ⟨_, fun _ => rfl⟩
  obtain ⟨m, hm'⟩ : ∃ n : Fin 3 → ℝ, ∀ j, (![x, y, z] j - minus par j) / dist3 (minus par) ![x, y, z] = n j := ⟨_, fun _ => rfl⟩
  simp only [hn, hm']
  clear hn hm' np nm
  generalize dist3 (plus par) ![x, y, z] = r at *
  generalize dist3 (minus par) ![x, y, z] = s at *
  have c1 : ∀ (n S : Vec) (i : Fin 3), (![n 1 * S 2 - n 2 * S 1, n 2 * S 0 - n 0 * S 2, n 0 * S 1 - n 1 * S 0] : Fin 3 → ℝ) i = (crossProduct n S) i :=
    fun n S i => by rw [cross_apply]
  simp only [c1]
  simp only [dotProduct, Fin.sum_univ_three]
  generalize (crossProduct n par.par_S_plus) i = a1
  generalize (crossProduct n par.par_S_plus) j = a2
  generalize (crossProduct m par.par_S_minus) i = a3
  generalize (crossProduct m par.par_S_minus) j = a4
  rw [show (1.5 : ℝ) = 3 / 2 by norm_num, show (3.0 : ℝ) = 3 by norm_num]
  split_ifs <;> ring

end Verif.TP
