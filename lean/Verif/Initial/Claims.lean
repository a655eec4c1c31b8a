import Verif.Initial.BowenYork
import Verif.Wave.Claims
import Mathlib.LinearAlgebra.CrossProduct

/-!
# C82: puncture data by hyperbolic relaxation
-/
namespace Verif.Initial
open Verif.RefMetric Verif.BSSN Verif.Wave Verif.IndexedExp Real
open scoped ContDiff

/-! ## Specification -/

/-- The conformal factor `ψ = ψ_background + u`. -/
noncomputable def psi (p : Punctures) (u : Scal) : Scal := fun y => psi_background p y + u y

/-- The conformal Killing operator `(LV)_{ij} = ∂_j V_i + ∂_i V_j - ⅔ δ_{ij} ∂_k V_k`. -/
noncomputable def longitudinal (V : T1) : T2 := fun i j x =>
  pd j (V i) x + pd i (V j) x - 2 / 3 * (if i = j then 1 else 0) * ∑ k, pd k (V k) x

/-- The solution of Bowen and York for a puncture at `c` with momentum `P` and spin `S`, with `n` the direction from the puncture:
`V = -(7P + n(n·P))/4r + (n × S)/r²`. -/
noncomputable def bowenYork (c P S : Vec) : T1 := fun i x =>
  let r := dist3 c x
  let n : Vec := fun j => (x j - c j) / r
  (crossProduct n S) i / r ^ 2 - (7 * P i + n i * (n ⬝ᵥ P)) / (4 * r)

/-- The symbols of the right-hand sides at the point `x` of a coordinate system: the unknowns are functions `u`, `v` on space, and
the source terms have the values that the code computes. -/
noncomputable def symsAt (p : Punctures) (X : Vec → Vec) (u v : Scal) (wavespeed : ℝ) (x : Vec) : Syms where
  uu := u (X x)
  vv := v (X x)
  uu_dD i := pd i (fun y => u (X y)) x
  uu_dDD i j := pd j (pd i fun y => u (X y)) x
  variable_wavespeed := wavespeed
  psi_background := (sourceTerms p (X x)).1
  ADD_times_AUU := (sourceTerms p (X x)).2

/-! ## Derivatives of the data -/

/-- A polynomial for each puncture. -/
noncomputable def two (p : Punctures) (a b : QE) : Scal := fun x => a.eval (punc0 p) x + b.eval (punc1 p) x

theorem two_smooth (p : Punctures) (a b : QE) : Sm (offPunc p) (two p a b) :=
  ((a.smooth (punc0 p)).mono fun _ h => h.1).add ((b.smooth (punc1 p)).mono fun _ h => h.2)

theorem pd_two {p : Punctures} {x : Vec} (hx : x ∈ offPunc p) (n : Fin 3) (a b : QE) :
    pd n (two p a b) x = two p (a.der n) (b.der n) x := by
  have ha : Sm (offPunc p) (a.eval (punc0 p)) := (a.smooth (punc0 p)).mono fun _ h => h.1
  have hb : Sm (offPunc p) (b.eval (punc1 p)) := (b.smooth (punc1 p)).mono fun _ h => h.2
  exact (dpd_add hx n ha hb).trans (by rw [QE.pd_eval hx.1, QE.pd_eval hx.2]; rfl)

theorem pd_pd_two {p : Punctures} {x : Vec} (hx : x ∈ offPunc p) (n m : Fin 3) (a b : QE) :
    pd m (pd n (two p a b)) x = two p ((a.der n).der m) ((b.der n).der m) x := by
  rw [pd_congr_on (fun y hy => pd_two hy n a b) hx m, pd_two hx]

theorem VU_two (p : Punctures) (i : Fin 3) : VU p i = two p (.VE p.P0U p.S0U i) (.VE p.P1U p.S1U i) := by
  funext x
  simp only [VU, two, QE.VE_eval, x0U_eq, x1U_eq]

theorem V_div_eq {p : Punctures} {x : Vec} (hx : x ∈ offPunc p) : V_div (VU p) x =
    3 / 2 * dot p.P0U (x0U p x) * invDist (punc0 p) x ^ 3 + 3 / 2 * dot p.P1U (x1U p x) * invDist (punc1 p) x ^ 3 := by
  simp only [V_div, VU_two, pd_two hx, two, Finset.sum_add_distrib]
  rw [QE.VE_div hx.1, QE.VE_div hx.2, x0U_eq, x1U_eq]

theorem longitudinal_smooth (p : Punctures) (i j : Fin 3) : Sm (offPunc p) (longitudinal (VU p) i j) := by
  have h : ∀ i, Sm (offPunc p) (VU p i) := fun i => by rw [VU_two]; exact two_smooth p _ _
  exact (((h i).pd j).add ((h j).pd i)).sub ((Sm.const _).mul (Sm.sum fun k => (h k).pd k))

theorem longitudinal_symm (V : T1) (i j : Fin 3) (x : Vec) : longitudinal V i j x = longitudinal V j i x := by
  simp only [longitudinal, eq_comm (a := i) (b := j)]
  ring

theorem longitudinal_trace (V : T1) (x : Vec) : ∑ i, longitudinal V i i x = 0 := by
  simp only [longitudinal, if_true, Fin.sum_univ_three]
  ring

/-- The Bowen–York tensor is free of divergence. -/
theorem longitudinal_divergence {p : Punctures} {x : Vec} (hx : x ∈ offPunc p) (i : Fin 3) :
    ∑ j, pd j (longitudinal (VU p) i j) x = 0 := by
  have h : ∀ i, Sm (offPunc p) (VU p i) := fun i => by rw [VU_two]; exact two_smooth p _ _
  have e : ∀ j, pd j (longitudinal (VU p) i j) x = pd j (pd j (VU p i)) x + pd j (pd i (VU p j)) x -
      2 / 3 * (if i = j then 1 else 0) * ∑ k, pd j (pd k (VU p k)) x := by
    intro j
    refine (dpd_sub hx j (((h i).pd j).add ((h j).pd i)) ((Sm.const _).mul (Sm.sum fun k => (h k).pd k))).trans ?_
    rw [dpd_add hx j ((h i).pd j) ((h j).pd i), dpd_cmul hx j _ (Sm.sum fun k => (h k).pd k), dpd_sum hx j fun k => (h k).pd k]
  have e2 : ∑ j, pd j (longitudinal (VU p) i j) x =
      ∑ j, (pd j (pd j (VU p i)) x + pd j (pd i (VU p j)) x - 2 / 3 * pd i (pd j (VU p j)) x) := by
    simp only [e, Finset.sum_sub_distrib, mul_ite, ite_mul, mul_one, mul_zero, zero_mul, Finset.sum_ite_eq, Finset.mem_univ,
      if_true, ← Finset.mul_sum]
  rw [e2]
  simp only [VU_two, pd_pd_two hx, two]
  have h0 := QE.VE_longitudinal hx.1 p.P0U p.S0U i
  have h1 := QE.VE_longitudinal hx.2 p.P1U p.S1U i
  simp only [Fin.sum_univ_three] at h0 h1 ⊢
  linear_combination h0 + h1

theorem psi_background_two (p : Punctures) : psi_background p =
    two p (.add (.k 1) (.mul (.k (p.bare_mass_0 / 2)) .q)) (.mul (.k (p.bare_mass_1 / 2)) .q) := by
  funext x
  simp only [psi_background, two, QE.eval, x0U_eq, x1U_eq, norm3_eq, invDist]
  ring

theorem psi_background_smooth (p : Punctures) : Sm (offPunc p) (psi_background p) := by
  rw [psi_background_two]
  exact two_smooth p _ _

theorem invDist_harmonic {c x : Vec} (hx : x ≠ c) : ∑ i, ((QE.q.der i).der i).eval c x = 0 := by
  have h := invDist_sq hx
  simp only [QE.der, QE.eval, Fin.sum_univ_three, if_true]
  linear_combination (3 * invDist c x ^ 3) * h

/-- The background is harmonic. -/
theorem psi_background_laplacian {p : Punctures} {x : Vec} (hx : x ∈ offPunc p) : laplacian (psi_background p) x = 0 := by
  rw [psi_background_two]
  simp only [laplacian, pd_pd_two hx, two, QE.der, QE.eval]
  have h0 := invDist_harmonic hx.1
  have h1 := invDist_harmonic hx.2
  simp only [QE.der, QE.eval, Fin.sum_univ_three] at h0 h1 ⊢
  linear_combination p.bare_mass_0 / 2 * h0 + p.bare_mass_1 / 2 * h1

theorem psi_smooth {p : Punctures} {Ω : Dom} (hΩ : Ω ≤ offPunc p) {u : Scal} (hu : Sm Ω u) : Sm Ω (psi p u) :=
  ((psi_background_smooth p).mono hΩ).add hu

theorem psi_laplacian {p : Punctures} {Ω : Dom} (hΩ : Ω ≤ offPunc p) {u : Scal} (hu : Sm Ω u) {x : Vec} (hx : x ∈ Ω) :
    laplacian (psi p u) x = laplacian u x := by
  have hb : Sm Ω (psi_background p) := (psi_background_smooth p).mono hΩ
  have e : ∀ k, pd k (pd k (psi p u)) x = pd k (pd k (psi_background p)) x + pd k (pd k u) x := by
    intro k
    rw [pd_congr_on (fun y hy => show pd k (psi p u) y = pd k (psi_background p) y + pd k u y from dpd_add hy k hb hu) hx k,
      dpd_add hx k (hb.pd k) (hu.pd k)]
  have h0 := psi_background_laplacian (hΩ hx)
  simp only [laplacian] at h0 ⊢
  simp only [e, Finset.sum_add_distrib, h0, zero_add]

/-! ## Theorems -/

/-- The background and the vector are the textbook expressions for punctures at `(0, 0, ±zPunc)`. -/
theorem C82_formula {p : Punctures} {x : Vec} (hx : x ∈ offPunc p) (i : Fin 3) :
    psi_background p x = 1 + p.bare_mass_0 / (2 * dist3 ![0, 0, p.zPunc] x) + p.bare_mass_1 / (2 * dist3 ![0, 0, -p.zPunc] x) ∧
    VU p i x = bowenYork ![0, 0, p.zPunc] p.P0U p.S0U i x + bowenYork ![0, 0, -p.zPunc] p.P1U p.S1U i x := by
  constructor
  · simp only [psi_background, x0U_eq, x1U_eq, norm3_eq, punc0, punc1]
  · have key : ∀ (c P S : Vec), x ≠ c → VU_single (fun i => x i - c i) P S i = bowenYork c P S i x := by
      intro c P S hc
      have hr := (dist3_pos hc).ne'
      simp only [VU_single, bowenYork, norm3_eq, dot, cross, leviCivita_table, Fin.sum_univ_three, dotProduct]
      fin_cases i <;> simp [cross_apply] <;> field_simp <;> ring
    simp only [VU, x0U_eq, x1U_eq]
    rw [key _ _ _ hx.1, key _ _ _ hx.2]
    rfl

section
variable {P : CoordParams} (hb : P.b ≠ 0) {name : Py.Str} {c : Coords} (h : choose P name = .sys c) {p : Punctures} {Ω : Dom}
  (hΩ : Ω ≤ offPunc p) {u : Scal} (hu : Sm Ω u)
include hb h hΩ hu

/-- The residual is that of the equation `Δψ + ⅛ A_{ij}A^{ij} ψ⁻⁷ = 0` for `ψ = ψ_background + u`, in every coordinate system. -/
theorem C82_residual (v : Scal) (wavespeed : ℝ) (x : Vec) (hx : c.toCart x ∈ Ω) (hs : ∀ i, c.scale x i ≠ 0) :
    residual c.scale x (symsAt p c.toCart u v wavespeed x) = laplacian (psi p u) (c.toCart x) +
      1 / 8 * (∑ i, ∑ j, ADD_conf (VU p) i j (c.toCart x) ^ 2) * psi p u (c.toCart x) ^ (-7 : ℤ) := by
  have h1 := congrArg Prod.snd (C81_curvilinear hb h hu v 1 x hx hs)
  simp only [curviRhs, Wave.symsOf, contractedGammahatU, mul_one, one_pow, one_mul] at h1
  rw [psi_laplacian hΩ hu hx, ← h1]
  simp only [residual, symsAt, sourceTerms, ADD_times_AUU, psi, sq]

/-- The stationary states of the relaxation are the solutions of that equation. -/
theorem C82_stationary (v : Scal) {wavespeed : ℝ} (hw : wavespeed ≠ 0) (eta : ℝ) (x : Vec) (hx : c.toCart x ∈ Ω)
    (hs : ∀ i, c.scale x i ≠ 0) :
    (uu_rhs eta (symsAt p c.toCart u v wavespeed x) = 0 ∧ vv_rhs c.scale x (symsAt p c.toCart u v wavespeed x) = 0) ↔
      (v (c.toCart x) = eta * u (c.toCart x) ∧ laplacian (psi p u) (c.toCart x) +
        1 / 8 * (∑ i, ∑ j, ADD_conf (VU p) i j (c.toCart x) ^ 2) * psi p u (c.toCart x) ^ (-7 : ℤ) = 0) := by
  rw [← C82_residual hb h hΩ hu v wavespeed x hx hs]
  refine and_congr ?_ ?_
  · exact sub_eq_zero
  · show _ * _ = 0 ↔ _
    rw [mul_eq_zero, or_iff_left]
    exact mul_ne_zero hw hw

end

theorem residual_iff {ψ Δ A2 : ℝ} (hp : 0 < ψ) : Δ + 1 / 8 * A2 * ψ ^ (-7 : ℤ) = 0 ↔ -8 * Δ / ψ ^ 5 - A2 / ψ ^ 12 = 0 := by
  have h0 := hp.ne'
  have e : -8 * Δ / ψ ^ 5 - A2 / ψ ^ 12 = -8 / ψ ^ 5 * (Δ + 1 / 8 * A2 * ψ ^ (-7 : ℤ)) := by
    rw [show (-7 : ℤ) = -((7 : ℕ) : ℤ) by norm_num, zpow_neg, zpow_natCast]
    field_simp
    ring
  rw [e, mul_eq_zero, or_iff_right]
  have : (0 : ℝ) < ψ ^ 5 := by positivity
  exact div_ne_zero (by norm_num) this.ne'

/-- The Bowen–York vector of the code gives data that satisfy the momentum constraint, for all momenta and spins; and the
Hamiltonian constraint is the elliptic equation. -/
theorem C82_vector {p : Punctures} {Ω : Dom} (hΩ : Ω ≤ offPunc p) {ψ : Scal} (hψ : Sm Ω ψ) (hp : ∀ y ∈ Ω, 0 < ψ y) {y : Vec} (hy : y ∈ Ω) :
    (∀ i, momentum (confFlat ψ) (confK ψ (longitudinal (VU p))) .vacuum i y = 0) ∧
      (hamiltonian (confFlat ψ) (confK ψ (longitudinal (VU p))) .vacuum y = 0 ↔
        laplacian ψ y + 1 / 8 * (∑ i, ∑ j, longitudinal (VU p) i j y ^ 2) * ψ y ^ (-7 : ℤ) = 0) := by
  constructor
  · intro i
    rw [confFlat_momentum hψ hp (fun a b => (longitudinal_smooth p a b).mono hΩ) (fun y _ a b => longitudinal_symm _ a b y)
      (fun y _ => longitudinal_trace _ y) hy i, longitudinal_divergence (hΩ hy), zero_div]
  · rw [confFlat_hamiltonian hψ hp _ hy, longitudinal_trace, residual_iff (hp y hy)]
    rw [show ((0 : ℝ) ^ 2 - ∑ i, ∑ j, longitudinal (VU p) i j y ^ 2) / ψ y ^ 12 = -((∑ i, ∑ j, longitudinal (VU p) i j y ^ 2) / ψ y ^ 12) by ring,
      ← sub_eq_add_neg]

/-- Without momenta the tensor of the code is the Bowen–York tensor. -/
theorem ADD_conf_spin {p : Punctures} (h0 : p.P0U = 0) (h1 : p.P1U = 0) {x : Vec} (hx : x ∈ offPunc p) (i j : Fin 3) :
    ADD_conf (VU p) i j x = longitudinal (VU p) i j x := by
  have h : V_div (VU p) x = 0 := by
    rw [V_div_eq hx, h0, h1]
    simp [dot]
  have h' : ∑ k, pd k (VU p k) x = 0 := h
  simp only [ADD_conf, longitudinal, h, h', mul_zero]

/-- **C82**, without linear momenta: the residual vanishes exactly where the data `γ = ψ⁴δ`, `K = ψ⁻²A` satisfy the Hamiltonian
constraint, and the momentum constraint holds.  With momenta this fails, see `C82_momentum_violation`. -/
theorem C82_constraints_partial {P : CoordParams} (hb : P.b ≠ 0) {name : Py.Str} {c : Coords} (h : choose P name = .sys c) {p : Punctures}
    (h0 : p.P0U = 0) (h1 : p.P1U = 0) {Ω : Dom} (hΩ : Ω ≤ offPunc p) {u : Scal} (hu : Sm Ω u) (hp : ∀ y ∈ Ω, 0 < psi p u y)
    (v : Scal) (wavespeed : ℝ) (x : Vec) (hx : c.toCart x ∈ Ω) (hs : ∀ i, c.scale x i ≠ 0) :
    (residual c.scale x (symsAt p c.toCart u v wavespeed x) = 0 ↔
      hamiltonian (confFlat (psi p u)) (confK (psi p u) (ADD_conf (VU p))) .vacuum (c.toCart x) = 0) ∧
    ∀ i, momentum (confFlat (psi p u)) (confK (psi p u) (ADD_conf (VU p))) .vacuum i (c.toCart x) = 0 := by
  have hψ := psi_smooth hΩ hu
  have hA : ∀ y ∈ Ω, ∀ i j, ADD_conf (VU p) i j y = longitudinal (VU p) i j y := fun y hy i j => ADD_conf_spin h0 h1 (hΩ hy) i j
  constructor
  · rw [C82_residual hb h hΩ hu v wavespeed x hx hs, confFlat_hamiltonian hψ hp _ hx, residual_iff (hp _ hx)]
    simp only [hA _ hx, longitudinal_trace]
    rw [show ((0 : ℝ) ^ 2 - ∑ i, ∑ j, longitudinal (VU p) i j (c.toCart x) ^ 2) / psi p u (c.toCart x) ^ 12 =
      -((∑ i, ∑ j, longitudinal (VU p) i j (c.toCart x) ^ 2) / psi p u (c.toCart x) ^ 12) by ring, ← sub_eq_add_neg]
  · intro i
    rw [confFlat_momentum hψ hp (fun a b => ((longitudinal_smooth p a b).mono hΩ).congr fun y hy => hA y hy a b)
      (fun y hy a b => by rw [hA y hy, hA y hy, longitudinal_symm]) (fun y hy => by simp only [hA y hy, longitudinal_trace]) hx i]
    have : ∀ j, pd j (ADD_conf (VU p) i j) (c.toCart x) = pd j (longitudinal (VU p) i j) (c.toCart x) := fun j =>
      pd_congr_on (fun y hy => hA y hy i j) hx j
    simp only [this, longitudinal_divergence (hΩ hx), zero_div]

/-- The trace of the tensor of the code: twice the divergence of the vector. -/
theorem C82_trace {p : Punctures} {x : Vec} (hx : x ∈ offPunc p) : ∑ i, ADD_conf (VU p) i i x =
    3 * (p.P0U ⬝ᵥ (x - punc0 p)) / dist3 (punc0 p) x ^ 3 + 3 * (p.P1U ⬝ᵥ (x - punc1 p)) / dist3 (punc1 p) x ^ 3 := by
  have h := V_div_eq hx
  have e : ∑ i, ADD_conf (VU p) i i x = 2 * V_div (VU p) x := by
    simp only [ADD_conf, kronecker_delta, if_true, V_div, Fin.sum_univ_three]
    ring
  have d : ∀ (P c : Vec), (P ⬝ᵥ (x - c)) = dot P fun i => x i - c i := fun _ _ => rfl
  rw [e, h, d, d, x0U_eq, x1U_eq]
  simp only [invDist]
  ring

/-- One puncture with a linear momentum. -/
noncomputable def moving : Punctures := ⟨1, 0, 5, ![0, 0, 1], 0, 0, 0⟩

theorem moving_off : (![0, 0, 6] : Vec) ∈ offPunc moving := by
  refine ⟨fun h => ?_, fun h => ?_⟩
  · have h2 : (6 : ℝ) = 5 := congrFun h 2
    norm_num at h2
  · have h2 : (6 : ℝ) = -5 := congrFun h 2
    norm_num at h2

theorem moving_pd (i j : Fin 3) : pd j (VU moving i) ![0, 0, 6] = ![![-1 / 4, 0, 0], ![0, -1 / 4, 0], ![0, 0, 2]] i j := by
  have hq : invDist (punc0 moving) ![0, 0, 6] = 1 := by
    have e : dist3 (punc0 moving) ![0, 0, 6] = √((0 - 0) ^ 2 + (0 - 0) ^ 2 + (6 - 5) ^ 2) := rfl
    rw [invDist, e]
    norm_num
  rw [show punc0 moving = ![0, 0, 5] from rfl] at hq
  rw [VU_two, pd_two moving_off]
  fin_cases i <;> fin_cases j <;> simp [two, QE.VE, QE.eval, QE.der, QE.dotE, QE.crossE, hq, moving, punc0] <;> norm_num

theorem moving_div : ∑ k, pd k (VU moving k) ![0, 0, 6] = 3 / 2 := by
  simp only [moving_pd, Fin.sum_univ_three]
  simp
  norm_num

theorem moving_A2 : ∑ i, ∑ j, ADD_conf (VU moving) i j ![0, 0, 6] ^ 2 = 45 / 2 := by
  have hd : V_div (VU moving) ![0, 0, 6] = 3 / 2 := moving_div
  simp only [ADD_conf, moving_pd, hd, kronecker_delta, Fin.sum_univ_three]
  simp
  norm_num

theorem moving_L2 : ∑ i, ∑ j, longitudinal (VU moving) i j ![0, 0, 6] ^ 2 = 27 / 2 := by
  simp only [longitudinal, moving_pd, moving_div, Fin.sum_univ_three]
  simp
  norm_num

/-- **C82** fails with linear momenta, because `kronecker_delta` in `ADD_conf_cartesian` is zero for equal and one for different
indices: where the residual vanishes, the Hamiltonian constraint is violated, whether the extrinsic curvature is that of the code
or the Bowen–York tensor. -/
theorem C82_momentum_violation {P : CoordParams} (hb : P.b ≠ 0) {name : Py.Str} {c : Coords} (h : choose P name = .sys c) {Ω : Dom}
    (hΩ : Ω ≤ offPunc moving) {u : Scal} (hu : Sm Ω u) (hp : ∀ y ∈ Ω, 0 < psi moving u y) (v : Scal) (wavespeed : ℝ) (x : Vec)
    (hX : c.toCart x = ![0, 0, 6]) (hx : c.toCart x ∈ Ω) (hs : ∀ i, c.scale x i ≠ 0)
    (hr : residual c.scale x (symsAt moving c.toCart u v wavespeed x) = 0) :
    hamiltonian (confFlat (psi moving u)) (confK (psi moving u) (ADD_conf (VU moving))) .vacuum (c.toCart x) ≠ 0 ∧
    hamiltonian (confFlat (psi moving u)) (confK (psi moving u) (longitudinal (VU moving))) .vacuum (c.toCart x) ≠ 0 := by
  have hψ := psi_smooth hΩ hu
  rw [C82_residual hb h hΩ hu v wavespeed x hx hs, residual_iff (hp _ hx)] at hr
  rw [confFlat_hamiltonian hψ hp _ hx, confFlat_hamiltonian hψ hp _ hx, longitudinal_trace]
  have hpos : (0 : ℝ) < psi moving u (c.toCart x) ^ 12 := pow_pos (hp _ hx) 12
  have ht : ∑ i, ADD_conf (VU moving) i i (c.toCart x) = 3 := by
    have e : ∑ i, ADD_conf (VU moving) i i (c.toCart x) = 2 * ∑ k, pd k (VU moving k) (c.toCart x) := by
      simp only [ADD_conf, kronecker_delta, if_true, Fin.sum_univ_three]
      ring
    rw [e, hX, moving_div]
    norm_num
  rw [ht]
  rw [hX, moving_A2] at hr
  rw [hX, moving_A2, moving_L2]
  rw [hX] at hpos
  have e1 : ∀ a b : ℝ, a - 45 / 2 / b = 0 → 0 < b → a + (3 ^ 2 - 45 / 2) / b = 9 / b := fun a b h1 h2 => by
    have : a = 45 / 2 / b := by linarith
    rw [this]
    field_simp
    norm_num
  have e2 : ∀ a b : ℝ, a - 45 / 2 / b = 0 → 0 < b → a + (0 ^ 2 - 27 / 2) / b = 9 / b := fun a b h1 h2 => by
    have : a = 45 / 2 / b := by linarith
    rw [this]
    field_simp
    norm_num
  rw [e1 _ _ hr hpos, e2 _ _ hr hpos]
  exact ⟨(div_pos (by norm_num) hpos).ne', (div_pos (by norm_num) hpos).ne'⟩

/-! ## Concrete cases -/

theorem psi_background_pos (p : Punctures) (h0 : 0 ≤ p.bare_mass_0) (h1 : 0 ≤ p.bare_mass_1) (x : Vec) : 0 < psi_background p x := by
  have a : 0 ≤ p.bare_mass_0 / (2 * norm3 (x0U p x)) := div_nonneg h0 (mul_nonneg two_pos.le (Real.sqrt_nonneg _))
  have b : 0 ≤ p.bare_mass_1 / (2 * norm3 (x1U p x)) := div_nonneg h1 (mul_nonneg two_pos.le (Real.sqrt_nonneg _))
  unfold psi_background
  linarith

/-- Two spinning punctures, at the first step of the relaxation (`u = 0`), in Cartesian coordinates. -/
example : ∃ (p : Punctures) (c : Coords) (x : Vec), p.P0U = 0 ∧ p.P1U = 0 ∧ p.S0U ≠ 0 ∧ choose demo (c% "Cartesian") = .sys c ∧
    c.toCart x ∈ offPunc p ∧ (∀ i, c.scale x i ≠ 0) ∧ ∀ y ∈ offPunc p, 0 < psi p (fun _ => 0) y := by
  refine ⟨⟨1, 2, 5, 0, 0, ![1, 0, 0], ![0, 1, 0]⟩, _, ![0, 0, 6], rfl, rfl, fun h => ?_, rfl, ⟨fun h => ?_, fun h => ?_⟩, ?_, fun y _ => ?_⟩
  · have h2 : (1 : ℝ) = 0 := congrFun h 0
    norm_num at h2
  · have h2 : (6 : ℝ) = 5 := congrFun h 2
    norm_num at h2
  · have h2 : (6 : ℝ) = -5 := congrFun h 2
    norm_num at h2
  · intro i
    fin_cases i <;> simp [cartesian]
  · have := psi_background_pos ⟨1, 2, 5, 0, 0, ![1, 0, 0], ![0, 1, 0]⟩ (by norm_num) (by norm_num) y
    unfold psi
    linarith

/-- The residual of a moving puncture does vanish at the point of `C82_momentum_violation` for some `u`. -/
example : ∃ (c : Coords) (Ω : Dom) (u : Scal), choose demo (c% "Cartesian") = .sys c ∧ Ω ≤ offPunc moving ∧ Sm Ω u ∧
    (∀ y ∈ Ω, 0 < psi moving u y) ∧ c.toCart ![0, 0, 6] = ![0, 0, 6] ∧ c.toCart ![0, 0, 6] ∈ Ω ∧ (∀ i, c.scale ![0, 0, 6] i ≠ 0) ∧
    residual c.scale ![0, 0, 6] (symsAt moving c.toCart u (fun _ => 0) 1 ![0, 0, 6]) = 0 := by
  let a : ℝ := -(45 / 32) * psi_background moving ![0, 0, 6] ^ (-7 : ℤ)
  let u : Scal := fun y => a * (y 0 * y 0)
  have h0 : Sm ⊤ fun y : Vec => y 0 := (smooth_coord (N := ∞) 0).contDiffOn
  have hu : Sm ⊤ u := (Sm.const a).mul (h0.mul h0)
  have hc : ContinuousOn (psi moving u) (offPunc moving) :=
    (psi_smooth (p := moving) le_rfl (hu.mono fun _ _ => trivial)).continuousOn
  let Ω : Dom := ⟨offPunc moving ∩ psi moving u ⁻¹' Set.Ioi 0, hc.isOpen_inter_preimage (offPunc moving).isOpen isOpen_Ioi⟩
  have hX : (cartesian demo.lo demo.hi).toCart ![0, 0, 6] = ![0, 0, 6] := by
    funext i
    fin_cases i <;> simp [cartesian]
  have hu0 : u ![0, 0, 6] = 0 := by simp [u]
  have hps : psi moving u ![0, 0, 6] = psi_background moving ![0, 0, 6] := by rw [psi, hu0, add_zero]
  have hpp := psi_background_pos moving (by norm_num [moving]) (by norm_num [moving]) ![0, 0, 6]
  have hmem : (![0, 0, 6] : Vec) ∈ Ω := ⟨moving_off, by rw [Set.mem_preimage, hps]; exact hpp⟩
  have hΩ : Ω ≤ offPunc moving := fun y hy => hy.1
  have hs : ∀ i, (cartesian demo.lo demo.hi).scale ![0, 0, 6] i ≠ 0 := fun i => by fin_cases i <;> simp [cartesian]
  have huΩ : Sm Ω u := hu.mono fun _ _ => trivial
  refine ⟨_, Ω, u, rfl, hΩ, huΩ, fun y hy => hy.2, hX, by rw [hX]; exact hmem, hs, ?_⟩
  rw [C82_residual (by norm_num [demo]) (name := c% "Cartesian") rfl hΩ huΩ _ _ _ (by rw [hX]; exact hmem) hs, hX, moving_A2,
    psi_laplacian hΩ huΩ hmem, hps]
  have hL : laplacian u ![0, 0, 6] = 2 * a := by
    have d0 : ∀ (y : Vec) k, pd k (fun y : Vec => y 0) y = if (0 : Fin 3) = k then 1 else 0 := fun y k => by
      simpa using pd_coord 0 y k 0
    have d1 : ∀ (k : Fin 3) (y : Vec), pd k u y = a * (2 * (if (0 : Fin 3) = k then 1 else 0) * y 0) := fun k y => by
      show pd k (fun y => a * (y 0 * y 0)) y = _
      rw [dpd_cmul (Ω := ⊤) trivial k _ (h0.mul h0), dpd_mul (Ω := ⊤) trivial k h0 h0, d0]
      ring
    have d2 : ∀ (k : Fin 3) (y : Vec), pd k (pd k u) y = a * (2 * (if (0 : Fin 3) = k then 1 else 0) * (if (0 : Fin 3) = k then 1 else 0)) :=
      fun k y => by
      rw [show pd k u = fun y => a * (2 * (if (0 : Fin 3) = k then 1 else 0) * y 0) from funext (d1 k),
        dpd_cmul (Ω := ⊤) trivial k _ ((Sm.const _).mul h0), dpd_cmul (Ω := ⊤) trivial k _ h0, d0]
    simp only [laplacian, d2, Fin.sum_univ_three]
    simp
    ring
  rw [hL]
  simp only [a]
  ring

end Verif.Initial
