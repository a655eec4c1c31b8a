import Verif.Hydro.Laws

/-!
# C87: the GRHD equations are the conservation laws
-/
namespace Verif.Hydro
open Verif.RefMetric Verif.IndexedExp Verif.BSSN Verif.Equations
open scoped ContDiff

/-- `∂_t U + ∂_j F^j + connection - source` at `(t, x)`. -/
noncomputable def balance (U : Scal4) (flux : Fin 3 → Scal4) (conn src t : ℝ) (x : Vec) : ℝ :=
  deriv (fun τ => U τ x) t + ∑ j, pd j (flux j t) x + conn - src

/-- The density `α √(γ/γ̂)` of the four-volume, relative to that of the reference metric. -/
noncomputable def weight (s : Vec → Vec) (F : Fields) (c : CF) (x : Vec) : ℝ :=
  F.alpha x * √(detOf (gammaF s F c) x / detOf (ghatF s) x)

section
variable {P : CoordParams} {name : Py.Str} {C : Coords} {Ω : Dom} {F : ℝ → Fields} {c : CF} {H : ℝ → Vec → Hyd} {t : ℝ} {x : Vec}

theorem weight_eq (W : Flow P name C Ω F c H t x) : weight C.scale (F t) c x = (F t).alpha x * e6phi (gfsAt (F t) x) c := by
  have hd : detOf (ghatF C.scale) x ≠ 0 := W.S.rfm.isMetric.det x W.mem
  rw [weight, ← e6_sq W.S W.mem (W.dets x W.mem), mul_div_assoc, div_self hd, mul_one, Real.sqrt_sq]
  rw [e6_eq W.S W.mem]
  exact (Real.exp_pos _).le

theorem u4U_eq (y : Vec) (h : Hyd) (τ : ℝ) (hH : H τ y = h) (μ : Fin 4) : u4U (rfmAt C.scale y) h μ = velocity C.scale H μ τ y := by
  subst hH
  refine Fin.cases rfl (fun i => ?_) μ
  simp only [u4U, velocity, VU, rfmAt, RefMetric.ReU, Fin.cons_succ]
  ring

theorem VU_eq (y : Vec) (τ : ℝ) (j : Fin 3) : VU (rfmAt C.scale y) (H τ y) j * (H τ y).u4Ut = velocity C.scale H j.succ τ y :=
  u4U_eq y _ τ rfl j.succ

/-- The code's `T^{μν}` is that of the fluid. -/
theorem T4UU_eq {τ : ℝ} (S : Setting P name C Ω (F τ) c) {y : Vec} (hy : y ∈ Ω) (hα : (F τ).alpha y ≠ 0) (μ ν : Fin 4) :
    T4UU (rfmAt C.scale y) (gfsAt (F τ) y) c (H τ y) μ ν = fluid (spacetime C.scale F c) (velocity C.scale H) H μ ν τ y := by
  rw [T4UU, fluid, g4UU_eq S hy, u4U_eq y _ τ rfl, u4U_eq y _ τ rfl]
  exact congrArg _ (congrArg _ (inv4_eq S hy hα μ ν).symm)

theorem T4UD_eq {τ : ℝ} (S : Setting P name C Ω (F τ) c) {y : Vec} (hy : y ∈ Ω) (hα : (F τ).alpha y ≠ 0) (μ ν : Fin 4) :
    T4UD (rfmAt C.scale y) (gfsAt (F τ) y) c (H τ y) μ ν =
      ∑ σ, fluid (spacetime C.scale F c) (velocity C.scale H) H μ σ τ y * spacetime C.scale F c σ ν τ y :=
  Finset.sum_congr rfl fun σ _ => by rw [T4UU_eq S hy hα, g4DD_eq S hy]; rfl

theorem T4UU_symm {τ : ℝ} (S : Setting P name C Ω (F τ) c) {y : Vec} (hy : y ∈ Ω) (μ ν : Fin 4) :
    T4UU (rfmAt C.scale y) (gfsAt (F τ) y) c (H τ y) μ ν = T4UU (rfmAt C.scale y) (gfsAt (F τ) y) c (H τ y) ν μ := by
  have h : g4UU (rfmAt C.scale y) (gfsAt (F τ) y) c μ ν = g4UU (rfmAt C.scale y) (gfsAt (F τ) y) c ν μ := by
    rw [g4UU_eq S hy, g4UU_eq S hy]
    refine Fin.cases ?_ (fun i => ?_) μ <;> refine Fin.cases ?_ (fun j => ?_) ν <;>
      simp only [split4, Fin.cons_zero, Fin.cons_succ]
    rw [S.metric.inverse_symm hy, mul_comm]
  rw [T4UU, T4UU, h]
  ring

/-- From the divergence of a density to the balance of the code. -/
theorem balance_eq (W : Flow P name C Ω F c H t x) {J : Fin 4 → Scal4} (hJ : ∀ μ, Df Ω t x (J μ)) {U : Scal4} {flux : Fin 3 → Scal4} {conn : ℝ}
    (src : ℝ)
    (hU : ∀ τ y, y ∈ Ω → Setting P name C Ω (F τ) c → (F τ).alpha y ≠ 0 → U τ y = (F τ).alpha y * e6phi (gfsAt (F τ) y) c * J 0 τ y)
    (hF : ∀ j, ∀ y ∈ Ω, flux j t y = (F t).alpha y * e6phi (gfsAt (F t) y) c * J j.succ t y)
    (hc : conn = ∑ i, ∑ j, (rfmAt C.scale x).GammahatUDD i i j * flux j t x) :
    balance U flux conn src t x = weight C.scale (F t) c x * div1 (spacetime C.scale F c) J t x - src := by
  have hx := W.mem
  have h := W.divergence_law hJ
  have e0 : deriv (fun τ => U τ x) t = d4 (fun τ y => (F τ).alpha y * e6phi (gfsAt (F τ) y) c * J 0 τ y) t x 0 :=
    Filter.EventuallyEq.deriv_eq (W.near.mono fun τ g => hU τ x hx g.1 (g.2 x hx).1)
  have ej : ∀ j, pd j (flux j t) x = d4 (fun τ y => (F τ).alpha y * e6phi (gfsAt (F τ) y) c * J j.succ τ y) t x j.succ :=
    fun j => pd_congr_on (hF j) hx j
  rw [weight_eq W, ← h, balance, hc, e0, Fin.sum_univ_succ (n := 3)]
  simp only [ej, fun j => hF j x hx]

/-- **C87.** Baryon number: the code's equation for `ρ_*` is `∇_μ (ρ u^μ) = 0`. -/
theorem C87_baryon (W : Flow P name C Ω F c H t x) :
    balance (fun τ y => rho_star (rfmAt C.scale y) (gfsAt (F τ) y) c (H τ y))
      (fun j τ y => rho_star_fluxU (rfmAt C.scale y) (gfsAt (F τ) y) c (H τ y) j)
      (rho_star_connection_term (rfmAt C.scale x) (gfsAt (F t) x) c (H t x)) 0 t x =
    weight C.scale (F t) c x * div1 (spacetime C.scale F c) (fun μ τ y => (H τ y).rhob * velocity C.scale H μ τ y) t x := by
  refine (balance_eq W (fun μ => W.rho.mul (W.dVel μ)) 0 (fun τ y _ _ _ => ?_) (fun j y _ => ?_) rfl).trans (sub_zero _)
  · simp only [rho_star, u4U_eq y _ τ rfl]; rw [← mul_assoc]; rfl
  · simp only [rho_star_fluxU, rho_star, u4U_eq y _ t rfl, ← VU_eq]
    show (F t).alpha y * _ * _ * (H t y).u4Ut * _ = _
    ring

/-- **C87.** Electron number: the code's equation for `Ye_*` is `∇_μ (Y_e ρ u^μ) = 0`. -/
theorem C87_electron (W : Flow P name C Ω F c H t x) :
    balance (fun τ y => Ye_star (rfmAt C.scale y) (gfsAt (F τ) y) c (H τ y))
      (fun j τ y => Ye_star_fluxU (rfmAt C.scale y) (gfsAt (F τ) y) c (H τ y) j)
      (Ye_star_connection_term (rfmAt C.scale x) (gfsAt (F t) x) c (H t x)) 0 t x =
    weight C.scale (F t) c x *
      div1 (spacetime C.scale F c) (fun μ τ y => (H τ y).Ye * (H τ y).rhob * velocity C.scale H μ τ y) t x := by
  refine (balance_eq W (fun μ => (W.Ye.mul W.rho).mul (W.dVel μ)) 0 (fun τ y _ _ _ => ?_) (fun j y _ => ?_) rfl).trans (sub_zero _)
  · simp only [Ye_star, u4U_eq y _ τ rfl]
    show _ * (F τ).alpha y * _ * _ * _ = _
    ring
  · simp only [Ye_star_fluxU, Ye_star, u4U_eq y _ t rfl, ← VU_eq]
    show _ * (F t).alpha y * _ * _ * (H t y).u4Ut * _ = _
    ring

theorem fluid_symm (W : Flow P name C Ω F c H t x) (a b : Fin 4) :
    fluid (spacetime C.scale F c) (velocity C.scale H) H a b t x = fluid (spacetime C.scale F c) (velocity C.scale H) H b a t x := by
  simp only [fluid, W.inv4_symm a b]; ring

theorem metric_inv (W : Flow P name C Ω F c H t x) (a b : Fin 4) :
    ∑ σ, spacetime C.scale F c a σ t x * inv4 (spacetime C.scale F c) σ b t x = if a = b then 1 else 0 := by
  simp only [W.inv4_val]
  exact coord_mul_split (W.lapse x W.mem) (gamma_symm W.S W.mem) (W.S.metric.mul_inverse W.mem) a b

theorem metric_symm (W : Flow P name C Ω F c H t x) (a b : Fin 4) : spacetime C.scale F c a b t x = spacetime C.scale F c b a t x := by
  have hγ := gamma_symm W.S W.mem
  refine Fin.cases ?_ (fun i => ?_) a <;> refine Fin.cases ?_ (fun j => ?_) b
  · rfl
  · show ∑ i, gammaF C.scale (F t) c i j x * betaF C.scale (F t) i x = ∑ i, gammaF C.scale (F t) c j i x * betaF C.scale (F t) i x
    exact Finset.sum_congr rfl fun i _ => by rw [hγ]
  · show ∑ j, gammaF C.scale (F t) c i j x * betaF C.scale (F t) j x = ∑ j, gammaF C.scale (F t) c j i x * betaF C.scale (F t) j x
    exact Finset.sum_congr rfl fun i _ => by rw [hγ]
  · exact hγ i j

theorem covhat_eq {G : Fields} (S : Setting P name C Ω G c) (hx : x ∈ Ω) (i j k : Fin 3) :
    covhatdD_gammaDD (rfmAt C.scale x) (gfsAt G x) c i j k = pd i (gammaF C.scale G c j k) x -
      ∑ l, ((rfmAt C.scale x).GammahatUDD l i j * gammaF C.scale G c l k x + (rfmAt C.scale x).GammahatUDD l i k * gammaF C.scale G c j l x) := by
  have hφ := phiF_smooth S.smooth S.conformal
  have e : (exp_m4phi (gfsAt G x) c)⁻¹ = Real.exp (4 * phiF G c x) := by
    rw [exp_m4phi_eq S.smooth S.conformal hx, ← Real.exp_neg]; congr 1; ring
  have eb : ∀ a b, gammabarDD (rfmAt C.scale x) (gfsAt G x) a b = gammabarF C.scale G a b x := fun _ _ => rfl
  rw [pd_congr_on (fun y hy => gammaF_eq S.smooth S.conformal y hy j k) hx i,
    dpd_mul hx i ((Sm.const 4).mul hφ).exp (gammabarF_smooth S.rfm S.smooth j k), dpd_exp hx i ((Sm.const 4).mul hφ), dpd_cmul hx i 4 hφ,
    pd_phiF S.smooth S.conformal hx, pd_gammabarF S.rfm S.smooth hx]
  simp only [covhatdD_gammaDD, e, eb, gammaF_eq S.smooth S.conformal x hx, Fin.sum_univ_three]
  ring

theorem momentum_alg {A α dα : ℝ} {γ dγ : Fin 3 → Fin 3 → ℝ} {β dβ : Fin 3 → ℝ} {Γ : Fin 3 → Fin 3 → Fin 3 → ℝ} {T : Fin 4 → Fin 4 → ℝ}
    (hγ : ∀ i j, γ i j = γ j i) (hΓ : ∀ a j k, Γ a j k = Γ a k j) (hT : ∀ a b, T a b = T b a) (hdγ : ∀ i j, dγ i j = dγ j i) (i : Fin 3) :
    A * (-(T 0 0 * α * dα) + (∑ k, (∑ σ, T 0 σ * coordMetric γ α β σ k.succ) * dβ k) +
      ∑ j, ∑ k, 1 / 2 * dγ j k * (T 0 0 * β j * β k + 2 * T 0 j.succ * β k + T j.succ k.succ)) -
    (∑ j, ∑ l, Γ l j i * (A * ∑ σ, T j.succ σ * coordMetric γ α β σ l.succ)) -
    A * (-(T 0 0 * α * dα) + (∑ j, ((∑ σ, T 0 σ * coordMetric γ α β σ j.succ) * dβ j +
        ∑ k, (∑ σ, T 0 σ * coordMetric γ α β σ j.succ) * Γ j i k * β k)) +
      ∑ j, ∑ k, 1 / 2 * (dγ j k - ∑ l, (Γ l i j * γ l k + Γ l i k * γ j l)) *
        (T 0 0 * β j * β k + 2 * T 0 j.succ * β k + T j.succ k.succ)) = 0 := by
  have t : ∀ i : Fin 3, T i.succ 0 = T 0 i.succ := fun i => hT _ _
  have g : ∀ l j, Γ l j i = Γ l i j := fun l j => hΓ l j i
  simp only [g, coordMetric, Fin.sum_univ_succ (n := 3), Fin.cons_zero, Fin.cons_succ, t]
  generalize (fun l j => Γ l i j) = Δ
  simp only [Fin.sum_univ_three, hγ 1 0, hγ 2 0, hγ 2 1, hdγ 1 0, hdγ 2 0, hdγ 2 1, hT (Fin.succ 1) (Fin.succ 0),
    hT (Fin.succ 2) (Fin.succ 0), hT (Fin.succ 2) (Fin.succ 1)]
  ring

/-- **C87.** Momentum: the code's equation for `S̃_i` is `g_{iν} ∇_μ T^{μν} = 0`. -/
theorem C87_momentum (W : Flow P name C Ω F c H t x) (i : Fin 3) :
    balance (fun τ y => S_tildeD (rfmAt C.scale y) (gfsAt (F τ) y) c (H τ y) i)
      (fun j τ y => S_tilde_fluxUD (rfmAt C.scale y) (gfsAt (F τ) y) c (H τ y) j i)
      (S_tilde_connection_termsD (rfmAt C.scale x) (gfsAt (F t) x) c (H t x) i)
      (S_tilde_source_termD (rfmAt C.scale x) (gfsAt (F t) x) c (H t x) i) t x =
    weight C.scale (F t) c x * ∑ ν, spacetime C.scale F c i.succ ν t x *
      div2 (spacetime C.scale F c) (fluid (spacetime C.scale F c) (velocity C.scale H) H) ν t x := by
  have hx := W.mem
  have hα := W.lapse x hx
  have S := W.S
  set g := spacetime C.scale F c with hgdef
  set T := fluid g (velocity C.scale H) H with hTdef
  have hdT : ∀ μ ν, Df Ω t x (T μ ν) := W.dFluid
  have hdg : ∀ μ ν, Df Ω t x (g μ ν) := W.dMetric
  have gs : ∀ a b, g a b t x = g b a t x := metric_symm W
  have ds : ∀ a b μ, d4 (g a b) t x μ = d4 (g b a) t x μ := W.d_metric_symm
  have Ts : ∀ a b, T a b t x = T b a t x := fluid_symm W
  have hJ : ∀ μ, Df Ω t x fun τ y => ∑ σ, T μ σ τ y * g σ i.succ τ y := fun μ => Df.sum4 fun σ => (hdT μ σ).mul (hdg σ _)
  have hb := balance_eq W hJ
    (U := fun τ y => S_tildeD (rfmAt C.scale y) (gfsAt (F τ) y) c (H τ y) i)
    (flux := fun j τ y => S_tilde_fluxUD (rfmAt C.scale y) (gfsAt (F τ) y) c (H τ y) j i)
    (conn := ∑ a, ∑ j, (rfmAt C.scale x).GammahatUDD a a j * S_tilde_fluxUD (rfmAt C.scale x) (gfsAt (F t) x) c (H t x) j i)
    0 (fun τ y hy S' hα' => by rw [S_tildeD, T4UD_eq S' hy hα']; rfl) (fun j y hy => by rw [S_tilde_fluxUD, T4UD_eq S hy (W.lapse y hy)]; rfl) rfl
  have hl := lower_divP2 (g := fun a b => g a b t x) (U := fun a b => inv4 g a b t x) (dg := fun a b μ => d4 (g a b) t x μ)
    (T := fun a b => T a b t x) (dT := fun a b μ => d4 (T a b) t x μ) W.inv4_symm W.d_metric_symm (metric_inv W) (fluid_symm W) i.succ
  have h1 : div1 g (fun μ τ y => ∑ σ, T μ σ τ y * g σ i.succ τ y) t x =
      ∑ ν, g i.succ ν t x * div2 g T ν t x + 1 / 2 * ∑ μ, ∑ σ, d4 (g μ σ) t x i.succ * T μ σ t x := by
    have e2 : ∀ ν, div2 g T ν t x = divP2 (fun a b => inv4 g a b t x) (fun a b μ => d4 (g a b) t x μ) (fun a b => T a b t x)
      (fun a b μ => d4 (T a b) t x μ) ν := fun ν => rfl
    have e1 : div1 g (fun μ τ y => ∑ σ, T μ σ τ y * g σ i.succ τ y) t x = divP1 (fun a b => inv4 g a b t x)
      (fun a b μ => d4 (g a b) t x μ) (fun μ => ∑ σ, T μ σ t x * g σ i.succ t x)
      fun μ ν => d4 (fun τ y => ∑ σ, T μ σ τ y * g σ i.succ τ y) t x ν := rfl
    simp only [e2]
    rw [hl, e1, divP1_eq W.inv4_symm W.d_metric_symm]
    have d : ∀ μ, d4 (fun τ y => ∑ σ, T μ σ τ y * g σ i.succ τ y) t x μ =
        ∑ σ, (g i.succ σ t x * d4 (T μ σ) t x μ + d4 (g i.succ σ) t x μ * T μ σ t x) := fun μ => by
      rw [d4_sum4 hx fun σ => (hdT μ σ).mul (hdg σ _)]
      exact Finset.sum_congr rfl fun σ _ => by
        rw [d4_mul hx (hdT μ σ) (hdg σ _), gs σ, ds σ]; ring
    have a1 : ∑ μ, ∑ l, (d4 (g i.succ μ) t x l - 1 / 2 * d4 (g μ l) t x i.succ) * T μ l t x =
        (∑ μ, ∑ l, d4 (g i.succ l) t x μ * T μ l t x) - 1 / 2 * ∑ μ, ∑ l, d4 (g μ l) t x i.succ * T μ l t x := by
      have : ∑ μ, ∑ l, d4 (g i.succ l) t x μ * T μ l t x = ∑ μ, ∑ l, d4 (g i.succ μ) t x l * T μ l t x := by
        rw [Finset.sum_comm]
        exact Finset.sum_congr rfl fun a _ => Finset.sum_congr rfl fun b _ => by rw [Ts b a]
      rw [this]
      simp only [Finset.mul_sum, ← Finset.sum_sub_distrib]
      exact Finset.sum_congr rfl fun a _ => Finset.sum_congr rfl fun b _ => by ring
    have a2 : ∀ l, ∑ σ, T l σ t x * g σ i.succ t x = ∑ ν, g i.succ ν t x * T l ν t x := fun l =>
      Finset.sum_congr rfl fun σ _ => by rw [gs σ]; ring
    simp only [d, a1, a2, Finset.sum_add_distrib]
    ring
  have hf := split_force (γ := fun i j => gammaF C.scale (F t) c i j x) (β := fun i => betaF C.scale (F t) i x) (gamma_symm S hx)
    W.dgamma_symm W.d_metric (fluid_symm W) i.succ
  have hTT : ∀ a b, T4UU (rfmAt C.scale x) (gfsAt (F t) x) c (H t x) a b = T a b t x := T4UU_eq S hx hα
  have hTD : ∀ a b, T4UD (rfmAt C.scale x) (gfsAt (F t) x) c (H t x) a b = ∑ σ, T a σ t x *
      coordMetric (fun i j => gammaF C.scale (F t) c i j x) ((F t).alpha x) (fun i => betaF C.scale (F t) i x) σ b := T4UD_eq S hx hα
  have hΓ : ∀ a j k, (rfmAt C.scale x).GammahatUDD a j k = (rfmAt C.scale x).GammahatUDD a k j := fun a j k => by
    have e : ∀ j k, (rfmAt C.scale x).GammahatUDD a j k = christoffel (ghatF C.scale) a j k x := fun j k => Gammahat_eq x a j k
    rw [e, e, S.rfm.isMetric.christoffel_symm hx]
  have alg := momentum_alg (A := (F t).alpha x * e6phi (gfsAt (F t) x) c) (α := (F t).alpha x) (dα := pd i (F t).alpha x)
    (dβ := fun j => pd i (betaF C.scale (F t) j) x) (dγ := fun j k => pd i (gammaF C.scale (F t) c j k) x)
    (β := fun i => betaF C.scale (F t) i x) (gamma_symm S hx) hΓ Ts (fun j k => W.dgamma_symm j k i.succ) i
  have hcov : ∀ j k, covhatdD_gammaDD (rfmAt C.scale x) (gfsAt (F t) x) c i j k = pd i (gammaF C.scale (F t) c j k) x -
      ∑ l, ((rfmAt C.scale x).GammahatUDD l i j * gammaF C.scale (F t) c l k x +
        (rfmAt C.scale x).GammahatUDD l i k * gammaF C.scale (F t) c j l x) := covhat_eq S hx i
  have hbU : ∀ k, betaU (rfmAt C.scale x) (gfsAt (F t) x) k = betaF C.scale (F t) k x := fun _ => rfl
  have hbd : ∀ j, betaU_dD (rfmAt C.scale x) (gfsAt (F t) x) j i = pd i (betaF C.scale (F t) j) x := fun j =>
    (pd_betaF S.rfm S.smooth hx j i).symm
  rw [h1] at hb
  have ea : (gfsAt (F t) x).alpha = (F t).alpha x := rfl
  have ead : (gfsAt (F t) x).alpha_dD i = pd i (F t).alpha x := rfl
  have hconn : S_tilde_connection_termsD (rfmAt C.scale x) (gfsAt (F t) x) c (H t x) i =
      (∑ a, ∑ j, (rfmAt C.scale x).GammahatUDD a a j * S_tilde_fluxUD (rfmAt C.scale x) (gfsAt (F t) x) c (H t x) j i) -
      ∑ j, ∑ l, (rfmAt C.scale x).GammahatUDD l j i * S_tilde_fluxUD (rfmAt C.scale x) (gfsAt (F t) x) c (H t x) j l := by
    simp only [S_tilde_connection_termsD, Finset.sum_sub_distrib]
  have hflux : ∀ j l, S_tilde_fluxUD (rfmAt C.scale x) (gfsAt (F t) x) c (H t x) j l = (F t).alpha x * e6phi (gfsAt (F t) x) c *
      ∑ σ, T j.succ σ t x * coordMetric (fun i j => gammaF C.scale (F t) c i j x) ((F t).alpha x) (fun i => betaF C.scale (F t) i x) σ l.succ :=
    fun j l => by rw [S_tilde_fluxUD, hTD]; rfl
  simp only [balance, hconn] at hb ⊢
  simp only [weight_eq W] at hb ⊢
  have hf' : 1 / 2 * ∑ μ, ∑ σ, d4 (g μ σ) t x i.succ * T μ σ t x = -(T 0 0 t x * (F t).alpha x * pd i (F t).alpha x) +
      (∑ k : Fin 3, (∑ σ, T 0 σ t x * coordMetric (fun i j => gammaF C.scale (F t) c i j x) ((F t).alpha x)
        (fun i => betaF C.scale (F t) i x) σ k.succ) * pd i (betaF C.scale (F t) k) x) +
      ∑ j : Fin 3, ∑ k : Fin 3, 1 / 2 * pd i (gammaF C.scale (F t) c j k) x * (T 0 0 t x * betaF C.scale (F t) j x * betaF C.scale (F t) k x +
        2 * T 0 j.succ t x * betaF C.scale (F t) k x + T j.succ k.succ t x) := hf
  simp only [hflux] at hb ⊢
  rw [hf'] at hb
  simp only [S_tilde_source_termD, hTT, hTD, hcov, hbU, hbd, ea, ead]
  linear_combination hb + alg

/-- **C87.** Energy: if `K_{ij}` is the extrinsic curvature, the code's equation for `τ̃` is `α ∇_μ T^{μ0} - ∇_μ (ρ u^μ) = 0`. -/
theorem C87_energy (W : Flow P name C Ω F c H t x) (hkin : ∀ i j, deriv (fun τ => gammaF C.scale (F τ) c i j x) t =
      admGammaRhs (gammaF C.scale (F t) c) (KF C.scale (F t) c) (F t).alpha (betaF C.scale (F t)) i j x) :
    balance (fun τ y => tau_tilde (rfmAt C.scale y) (gfsAt (F τ) y) c (H τ y))
      (fun j τ y => tau_tilde_fluxU (rfmAt C.scale y) (gfsAt (F τ) y) c (H τ y) j)
      (tau_connection_term (rfmAt C.scale x) (gfsAt (F t) x) c (H t x))
      (tau_source_term (rfmAt C.scale x) (gfsAt (F t) x) c (H t x)) t x =
    weight C.scale (F t) c x * ((F t).alpha x *
        div2 (spacetime C.scale F c) (fluid (spacetime C.scale F c) (velocity C.scale H) H) 0 t x -
      div1 (spacetime C.scale F c) (fun μ τ y => (H τ y).rhob * velocity C.scale H μ τ y) t x) := by
  have hx := W.mem
  have hα := W.lapse x hx
  have S := W.S
  have ha := W.dAlpha
  set g := spacetime C.scale F c with hgdef
  set T := fluid g (velocity C.scale H) H with hTdef
  have hdT : ∀ μ ν, Df Ω t x (T μ ν) := W.dFluid
  have Ts : ∀ a b, T a b t x = T b a t x := fluid_symm W
  have hN : ∀ μ, Df Ω t x fun τ y => (H τ y).rhob * velocity C.scale H μ τ y := fun μ => W.rho.mul (W.dVel μ)
  have hJ : ∀ μ, Df Ω t x fun τ y => (F τ).alpha y * T 0 μ τ y - (H τ y).rhob * velocity C.scale H μ τ y :=
    fun μ => (ha.mul (hdT 0 μ)).sub (hN μ)
  have hb := balance_eq W hJ
    (U := fun τ y => tau_tilde (rfmAt C.scale y) (gfsAt (F τ) y) c (H τ y))
    (flux := fun j τ y => tau_tilde_fluxU (rfmAt C.scale y) (gfsAt (F τ) y) c (H τ y) j)
    (conn := tau_connection_term (rfmAt C.scale x) (gfsAt (F t) x) c (H t x))
    (tau_source_term (rfmAt C.scale x) (gfsAt (F t) x) c (H t x))
    (fun τ y hy S' hα' => by
      simp only [tau_tilde, rho_star, T4UU_eq S' hy hα', u4U_eq y _ τ rfl]
      show (F τ).alpha y ^ 2 * _ * _ - (F τ).alpha y * _ * _ * _ = _
      ring)
    (fun j y hy => by
      simp only [tau_tilde_fluxU, rho_star, T4UU_eq S hy (W.lapse y hy), u4U_eq y _ t rfl, ← VU_eq]
      show (F t).alpha y ^ 2 * _ * _ - (F t).alpha y * _ * _ * (H t y).u4Ut * _ = _
      ring) rfl
  have h1 : div1 g (fun μ τ y => (F τ).alpha y * T 0 μ τ y - (H τ y).rhob * velocity C.scale H μ τ y) t x =
      (F t).alpha x * div2 g T 0 t x - div1 g (fun μ τ y => (H τ y).rhob * velocity C.scale H μ τ y) t x +
      (∑ μ, d4 (fun τ => (F τ).alpha) t x μ * T 0 μ t x - (F t).alpha x * ∑ μ, ∑ l, chr4 g 0 μ l t x * T μ l t x) := by
    have d : ∀ μ, d4 (fun τ y => (F τ).alpha y * T 0 μ τ y - (H τ y).rhob * velocity C.scale H μ τ y) t x μ =
        d4 (fun τ => (F τ).alpha) t x μ * T 0 μ t x + (F t).alpha x * d4 (T μ 0) t x μ -
          d4 (fun τ y => (H τ y).rhob * velocity C.scale H μ τ y) t x μ := fun μ => by
      have e : d4 (T 0 μ) t x μ = d4 (T μ 0) t x μ := by
        refine d4_congr hx (W.near.mono fun τ h => ?_) (fun y hy => ?_) μ
        · rw [hTdef, ← T4UU_eq h.1 hx (h.2 x hx).1, ← T4UU_eq h.1 hx (h.2 x hx).1]
          exact T4UU_symm h.1 hx 0 μ
        · rw [hTdef, ← T4UU_eq S hy (W.lapse y hy), ← T4UU_eq S hy (W.lapse y hy)]
          exact T4UU_symm S hy 0 μ
      rw [d4_sub hx (ha.mul (hdT 0 μ)) (hN μ), d4_mul hx ha (hdT 0 μ), e]
    have s : ∀ l, T 0 l t x = T l 0 t x := fun l => Ts 0 l
    simp only [div1, div2, d]
    simp only [s, mul_sub, Finset.sum_add_distrib, Finset.sum_sub_distrib, mul_add, Finset.mul_sum]
    have c1 : ∑ μ, ∑ l, chr4 g μ μ l t x * ((F t).alpha x * T l 0 t x) = ∑ μ, ∑ l, (F t).alpha x * (chr4 g μ μ l t x * T l 0 t x) :=
      Finset.sum_congr rfl fun μ _ => Finset.sum_congr rfl fun l _ => by ring
    rw [c1]
    ring
  have hw := split_work (u := fun i j => inverse (gammaF C.scale (F t) c) i j x) hα (gamma_symm S hx) W.dgamma_symm W.d_metric
    (K := fun i j => KF C.scale (F t) c i j x) (S.K_symm hx) (fun i j => (hkin i j).trans rfl) Ts
  have hchr : ∀ μ l, chr4 g 0 μ l t x = chrP (split4 (fun i j => inverse (gammaF C.scale (F t) c) i j x) ((F t).alpha x)
      fun i => betaF C.scale (F t) i x) (fun a b μ => d4 (g a b) t x μ) 0 μ l := fun μ l =>
    Finset.sum_congr rfl fun σ _ => by rw [W.inv4_val]
  have hsrc : tau_source_term (rfmAt C.scale x) (gfsAt (F t) x) c (H t x) =
      (∑ μ, d4 (fun τ => (F τ).alpha) t x μ * T 0 μ t x - (F t).alpha x * ∑ μ, ∑ l, chr4 g 0 μ l t x * T μ l t x) *
        ((F t).alpha x * e6phi (gfsAt (F t) x) c) := by
    simp only [hchr]
    refine Eq.trans ?_ (congrArg (· * ((F t).alpha x * e6phi (gfsAt (F t) x) c)) hw.symm)
    simp only [tau_source_term, T4UU_eq S hx hα]
    rfl
  rw [hb, h1, hsrc, weight_eq W]
  ring

/-- **C87.** The code's equations hold at a point exactly when baryon number, electron number, energy and momentum are conserved there. -/
theorem C87_conservation (W : Flow P name C Ω F c H t x) (hkin : ∀ i j, deriv (fun τ => gammaF C.scale (F τ) c i j x) t =
      admGammaRhs (gammaF C.scale (F t) c) (KF C.scale (F t) c) (F t).alpha (betaF C.scale (F t)) i j x) :
    (balance (fun τ y => rho_star (rfmAt C.scale y) (gfsAt (F τ) y) c (H τ y))
        (fun j τ y => rho_star_fluxU (rfmAt C.scale y) (gfsAt (F τ) y) c (H τ y) j)
        (rho_star_connection_term (rfmAt C.scale x) (gfsAt (F t) x) c (H t x)) 0 t x = 0 ∧
      balance (fun τ y => Ye_star (rfmAt C.scale y) (gfsAt (F τ) y) c (H τ y))
        (fun j τ y => Ye_star_fluxU (rfmAt C.scale y) (gfsAt (F τ) y) c (H τ y) j)
        (Ye_star_connection_term (rfmAt C.scale x) (gfsAt (F t) x) c (H t x)) 0 t x = 0 ∧
      balance (fun τ y => tau_tilde (rfmAt C.scale y) (gfsAt (F τ) y) c (H τ y))
        (fun j τ y => tau_tilde_fluxU (rfmAt C.scale y) (gfsAt (F τ) y) c (H τ y) j)
        (tau_connection_term (rfmAt C.scale x) (gfsAt (F t) x) c (H t x))
        (tau_source_term (rfmAt C.scale x) (gfsAt (F t) x) c (H t x)) t x = 0 ∧
      ∀ i, balance (fun τ y => S_tildeD (rfmAt C.scale y) (gfsAt (F τ) y) c (H τ y) i)
        (fun j τ y => S_tilde_fluxUD (rfmAt C.scale y) (gfsAt (F τ) y) c (H τ y) j i)
        (S_tilde_connection_termsD (rfmAt C.scale x) (gfsAt (F t) x) c (H t x) i)
        (S_tilde_source_termD (rfmAt C.scale x) (gfsAt (F t) x) c (H t x) i) t x = 0) ↔
    (div1 (spacetime C.scale F c) (fun μ τ y => (H τ y).rhob * velocity C.scale H μ τ y) t x = 0 ∧
      div1 (spacetime C.scale F c) (fun μ τ y => (H τ y).Ye * (H τ y).rhob * velocity C.scale H μ τ y) t x = 0 ∧
      ∀ ν, div2 (spacetime C.scale F c) (fluid (spacetime C.scale F c) (velocity C.scale H) H) ν t x = 0) := by
  have hx := W.mem
  have hα := W.lapse x hx
  have hw : weight C.scale (F t) c x ≠ 0 := by
    rw [weight_eq W, e6_eq W.S hx]
    exact mul_ne_zero hα (Real.exp_pos _).ne'
  rw [C87_baryon W, C87_electron W, C87_energy W hkin]
  simp only [C87_momentum W, mul_eq_zero, hw, false_or]
  constructor
  · rintro ⟨h1, h2, h3, h4⟩
    have h0 : div2 (spacetime C.scale F c) (fluid (spacetime C.scale F c) (velocity C.scale H) H) 0 t x = 0 := by
      rw [h1, sub_zero] at h3
      exact (mul_eq_zero.1 h3).resolve_left hα
    refine ⟨h1, h2, Fin.cases h0 fun k => ?_⟩
    have h5 : ∀ i, ∑ j : Fin 3, gammaF C.scale (F t) c i j x *
        div2 (spacetime C.scale F c) (fluid (spacetime C.scale F c) (velocity C.scale H) H) j.succ t x = 0 := fun i => by
      have := h4 i
      rw [Fin.sum_univ_succ (n := 3), h0, mul_zero, zero_add] at this
      exact this
    have h6 : ∑ j : Fin 3, (∑ i, inverse (gammaF C.scale (F t) c) k i x * gammaF C.scale (F t) c i j x) *
        div2 (spacetime C.scale F c) (fluid (spacetime C.scale F c) (velocity C.scale H) H) j.succ t x = 0 := by
      simp only [Finset.sum_mul]
      rw [Finset.sum_comm]
      refine Finset.sum_eq_zero fun i _ => ?_
      simp only [mul_assoc, ← Finset.mul_sum, h5, mul_zero]
    simpa [W.S.metric.inverse_mul hx] using h6
  · rintro ⟨h1, h2, h3⟩
    exact ⟨h1, h2, by rw [h3, h1]; simp, fun i => Finset.sum_eq_zero fun ν _ => by rw [h3, mul_zero]⟩

/-- **C87.** The stress-energy tensor and the densities: `T^{μν}` is that of a perfect fluid in the metric, `e^{6φ} = √(γ/γ̂)`, and the
components of the velocity recovered from `u` are those that went in. -/
theorem C87_values (W : Flow P name C Ω F c H t x) (hu : (H t x).u4Ut ≠ 0) (μ ν : Fin 4) (j : Fin 3) :
    T4UU (rfmAt C.scale x) (gfsAt (F t) x) c (H t x) μ ν = fluid (spacetime C.scale F c) (velocity C.scale H) H μ ν t x ∧
    T4UD (rfmAt C.scale x) (gfsAt (F t) x) c (H t x) μ ν =
      ∑ σ, fluid (spacetime C.scale F c) (velocity C.scale H) H μ σ t x * spacetime C.scale F c σ ν t x ∧
    e6phi (gfsAt (F t) x) c = √(detOf (gammaF C.scale (F t) c) x / detOf (ghatF C.scale) x) ∧
    VU_from_u4U (rfmAt C.scale x) (H t x) j = (H t x).rescaledvU j / C.scale x j := by
  have hα := W.lapse x W.mem
  refine ⟨T4UU_eq W.S W.mem hα μ ν, T4UD_eq W.S W.mem hα μ ν, ?_, ?_⟩
  · have := weight_eq W
    rw [weight] at this
    exact (mul_left_cancel₀ hα this).symm
  · simp only [VU_from_u4U, u4U, VU, rfmAt, RefMetric.ReU, Fin.cons_succ, Fin.cons_zero]
    field_simp

/-- **C87.** The rescaled quantities are the components with respect to the unit vectors of the coordinates: an upper index is multiplied by
the scale factor, a lower one divided by it. -/
theorem C87_rescaled (W : Flow P name C Ω F c H t x) (i j : Fin 3) :
    rescaledT4UU (rfmAt C.scale x) (gfsAt (F t) x) c (H t x) 0 0 = T4UU (rfmAt C.scale x) (gfsAt (F t) x) c (H t x) 0 0 ∧
    rescaledT4UU (rfmAt C.scale x) (gfsAt (F t) x) c (H t x) 0 j.succ = T4UU (rfmAt C.scale x) (gfsAt (F t) x) c (H t x) 0 j.succ * C.scale x j ∧
    rescaledT4UU (rfmAt C.scale x) (gfsAt (F t) x) c (H t x) j.succ 0 = T4UU (rfmAt C.scale x) (gfsAt (F t) x) c (H t x) j.succ 0 * C.scale x j ∧
    rescaledT4UU (rfmAt C.scale x) (gfsAt (F t) x) c (H t x) i.succ j.succ =
      T4UU (rfmAt C.scale x) (gfsAt (F t) x) c (H t x) i.succ j.succ * (C.scale x i * C.scale x j) ∧
    rescaledT4UD (rfmAt C.scale x) (gfsAt (F t) x) c (H t x) 0 0 = T4UD (rfmAt C.scale x) (gfsAt (F t) x) c (H t x) 0 0 ∧
    rescaledT4UD (rfmAt C.scale x) (gfsAt (F t) x) c (H t x) 0 j.succ = T4UD (rfmAt C.scale x) (gfsAt (F t) x) c (H t x) 0 j.succ / C.scale x j ∧
    rescaledT4UD (rfmAt C.scale x) (gfsAt (F t) x) c (H t x) j.succ 0 = T4UD (rfmAt C.scale x) (gfsAt (F t) x) c (H t x) j.succ 0 * C.scale x j ∧
    rescaledT4UD (rfmAt C.scale x) (gfsAt (F t) x) c (H t x) i.succ j.succ =
      T4UD (rfmAt C.scale x) (gfsAt (F t) x) c (H t x) i.succ j.succ * C.scale x i / C.scale x j ∧
    rescaledS_tildeD (rfmAt C.scale x) (gfsAt (F t) x) c (H t x) i = S_tildeD (rfmAt C.scale x) (gfsAt (F t) x) c (H t x) i / C.scale x i ∧
    rescaled_rho_star_fluxU (rfmAt C.scale x) (gfsAt (F t) x) c (H t x) j =
      rho_star_fluxU (rfmAt C.scale x) (gfsAt (F t) x) c (H t x) j * C.scale x j ∧
    rescaled_Ye_star_fluxU (rfmAt C.scale x) (gfsAt (F t) x) c (H t x) j =
      Ye_star_fluxU (rfmAt C.scale x) (gfsAt (F t) x) c (H t x) j * C.scale x j ∧
    rescaled_tau_tilde_fluxU (rfmAt C.scale x) (gfsAt (F t) x) c (H t x) j =
      tau_tilde_fluxU (rfmAt C.scale x) (gfsAt (F t) x) c (H t x) j * C.scale x j ∧
    rescaled_S_tilde_fluxUD (rfmAt C.scale x) (gfsAt (F t) x) c (H t x) i j =
      S_tilde_fluxUD (rfmAt C.scale x) (gfsAt (F t) x) c (H t x) i j * C.scale x i / C.scale x j := by
  have hi := W.S.rfm.ne x W.mem i
  have hj := W.S.rfm.ne x W.mem j
  have hR : ∀ k, (rfmAt C.scale x).ReU k = 1 / C.scale x k := fun _ => rfl
  have hs := T4UU_symm (H := H) (τ := t) W.S W.mem 0 j.succ
  refine ⟨rfl, ?_, ?_, ?_, rfl, ?_, ?_, ?_, ?_, ?_, ?_, ?_, ?_⟩
  · simp only [rescaledT4UU, Fin.cons_zero, Fin.cons_succ, hR]; field_simp
  · simp only [rescaledT4UU, Fin.cons_zero, Fin.cons_succ, hR, hs]; field_simp
  · simp only [rescaledT4UU, Fin.cons_succ, hR]; field_simp
  · simp only [rescaledT4UD, Fin.cons_zero, Fin.cons_succ, hR]; field_simp
  · simp only [rescaledT4UD, Fin.cons_zero, Fin.cons_succ, hR]; field_simp
  · simp only [rescaledT4UD, Fin.cons_succ, hR]; field_simp
  · simp only [rescaledS_tildeD, S_tildeD, rescaledT4UD, Fin.cons_zero, Fin.cons_succ, hR]; field_simp
  · simp only [rescaled_rho_star_fluxU, hR]; field_simp
  · simp only [rescaled_Ye_star_fluxU, hR]; field_simp
  · simp only [rescaled_tau_tilde_fluxU, tau_tilde_fluxU, rescaledT4UU, Fin.cons_zero, Fin.cons_succ, hR]; field_simp
  · simp only [rescaled_S_tilde_fluxUD, S_tilde_fluxUD, rescaledT4UD, Fin.cons_succ, hR]; field_simp

end

/-! ## The hypotheses can be met -/

/-- A curved space that expands, with a shift. -/
noncomputable def expandF (τ : ℝ) : Fields := { demoF0 with
  aDD := fun _ _ _ => 0
  vetU := fun i _ => ![0, 0, 5] i
  trK := fun y => -3 / (1 + y 1 ^ 2)
  cf := fun y => Real.exp (-τ) * (1 + y 0 ^ 2) }

@[inherit_doc expandF]
noncomputable def expandH (τ : ℝ) (y : Vec) : Hyd := ⟨fun i => τ * y i, 1 + y 0 ^ 2, τ + y 1, y 2, 1 + y 0, τ * y 2⟩

theorem expandF_setting (τ : ℝ) : Setting demo (c% "Cartesian") (cartesian demo.lo demo.hi) ⊤ (expandF τ) .W := by
  have h : ∀ i : Fin 3, Sm ⊤ fun x : Vec => x i := fun i => (smooth_coord (N := ∞) i).contDiffOn
  have z : ∀ a : ℝ, Sm ⊤ fun _ : Vec => a := fun a => Sm.const a
  refine ⟨by norm_num [demo], ?_, fun x _ i => one3_rfm.ne x trivial i, { demoF0_smooth with
    aDD := fun _ _ => z 0, vetU := fun _ => z _, trK := ?_, cf := ?_, asymm := fun _ _ => rfl }, fun x _ => ?_, fun x _ => ?_⟩
  · rw [choose, if_pos (by decide), cartesianChoice, if_pos rfl]
  · exact (z (-3)).div ((z 1).add ((h 1).pow 2)) fun y _ => by positivity
  · exact (z (Real.exp (-τ))).mul ((z 1).add ((h 0).pow 2))
  · show (0 : ℝ) < Real.exp (-τ) * (1 + x 0 ^ 2)
    positivity
  · have : (Matrix.of fun a b => gammabarF one3 (expandF τ) a b x).det = 1 := demoF0_det x
    exact this ▸ one_ne_zero

theorem expand_flow (t : ℝ) (x : Vec) : Flow demo (c% "Cartesian") (cartesian demo.lo demo.hi) ⊤ expandF .W expandH t x := by
  have h : ∀ i : Fin 3, Df ⊤ t x fun _ y => y i := fun i => Df.static (smooth_coord (N := ∞) i).contDiffOn
  have hτ : Df ⊤ t x fun τ _ => τ := ⟨differentiableAt_id, Sm.const t⟩
  have h2 : Df ⊤ t x fun _ y => 1 + y 0 ^ 2 := by simp only [sq]; exact (Df.const 1).add ((h 0).mul (h 0))
  refine ⟨Filter.Eventually.of_forall fun τ => ⟨expandF_setting τ, fun y _ => ⟨?_, ?_⟩⟩, trivial, fun i j => differentiableAt_const _,
    fun i => differentiableAt_const _, ?_, differentiableAt_const _, fun i => hτ.mul (h i), h2, hτ.add (h 1), h 2, (Df.const 1).add (h 0),
    hτ.mul (h 2)⟩
  · show 1 + y 1 ^ 2 ≠ 0
    positivity
  · refine (demoF0_det y).trans ?_
    show 1 = (Matrix.of fun a b => ghatF one3 a b y).det
    simp [Matrix.det_fin_three, ghatF, RefMetric.ghatDD, one3]
  · exact ((differentiableAt_id.neg).exp).mul_const _

theorem expand_kin (t : ℝ) (x : Vec) (i j : Fin 3) : deriv (fun τ => gammaF one3 (expandF τ) .W i j x) t =
    admGammaRhs (gammaF one3 (expandF t) .W) (KF one3 (expandF t) .W) (expandF t).alpha (betaF one3 (expandF t)) i j x := by
  have e : ∀ τ y, gammaF one3 (expandF τ) .W i j y = Real.exp (2 * τ) * ((1 + y 0 ^ 2)⁻¹ ^ 2 * gammabarF one3 demoF0 i j y) := fun τ y => by
    show 1 / (Real.exp (-τ) * (1 + y 0 ^ 2)) ^ 2 * gammabarF one3 demoF0 i j y = _
    rw [mul_pow, ← Real.exp_nat_mul, show ((2 : ℕ) : ℝ) * -τ = -(2 * τ) by push_cast; ring, Real.exp_neg]
    have : (1 + y 0 ^ 2 : ℝ) ≠ 0 := by positivity
    field_simp
  have hd : deriv (fun τ => gammaF one3 (expandF τ) .W i j x) t = 2 * gammaF one3 (expandF t) .W i j x := by
    simp only [e]
    have := (((hasDerivAt_id t).const_mul 2).exp.mul_const ((1 + x 0 ^ 2)⁻¹ ^ 2 * gammabarF one3 demoF0 i j x)).deriv
    simp only [id, mul_one] at this
    rw [this]; ring
  have hz : pd 2 (gammaF one3 (expandF t) .W i j) x = 0 := by
    have : ∀ τ, gammaF one3 (expandF t) .W i j (Function.update x 2 τ) = gammaF one3 (expandF t) .W i j x := fun τ => by
      rw [e, e]
      have hb : gammabarF one3 demoF0 i j (Function.update x 2 τ) = gammabarF one3 demoF0 i j x := by
        have h1 := congrFun (congrFun (demoF0_gammabar (Function.update x 2 τ)) i) j
        have h2 := congrFun (congrFun (demoF0_gammabar x) i) j
        simp only [Matrix.of_apply] at h1 h2
        rw [h1, h2]
        simp
      rw [hb]; simp
    show deriv (fun τ => gammaF one3 (expandF t) .W i j (Function.update x 2 τ)) (x 2) = 0
    simp only [this, deriv_const]
  have hβ : ∀ k, betaF one3 (expandF t) k = fun _ => ![0, 0, 5] k := fun k => by
    funext y
    fin_cases k <;> simp [betaF, betaU, gfsAt, rfmAt, expandF, RefMetric.ReU, one3]
  have hβd : ∀ k l, pd l (betaF one3 (expandF t) k) x = 0 := fun k l => by
    rw [hβ]
    show deriv (fun _ => _) _ = 0
    exact deriv_const _ _
  have hK : KF one3 (expandF t) .W i j x = -gammaF one3 (expandF t) .W i j x / (1 + x 1 ^ 2) := by
    rw [KF_eq one3_rfm (expandF_setting t).smooth (expandF_setting t).conformal x trivial,
      gammaF_eq (expandF_setting t).smooth (expandF_setting t).conformal x trivial]
    have : AbarF one3 (expandF t) i j x = 0 := by simp [AbarF, AbarDD, gfsAt, expandF]
    have h3 : (expandF t).trK x = -3 / (1 + x 1 ^ 2) := rfl
    rw [this, h3]
    ring
  have hα : (expandF t).alpha x = 1 + x 1 ^ 2 := rfl
  rw [hd, admGammaRhs, lieDD, hK, hα]
  simp only [Fin.sum_univ_three, hβd, hz]
  simp only [hβ]
  have : (1 + x 1 ^ 2 : ℝ) ≠ 0 := by positivity
  simp
  field_simp

/-- The hypotheses of C87 are met in a curved, expanding space with a shift and a moving fluid. -/
example (t : ℝ) (x : Vec) : ∃ (C : Coords) (F : ℝ → Fields) (H : ℝ → Vec → Hyd), Flow demo (c% "Cartesian") C ⊤ F .W H t x ∧
    (∀ i j, deriv (fun τ => gammaF C.scale (F τ) .W i j x) t =
      admGammaRhs (gammaF C.scale (F t) .W) (KF C.scale (F t) .W) (F t).alpha (betaF C.scale (F t)) i j x) ∧ (H t x).u4Ut ≠ 0 ∧
    (F t).vetU 2 x ≠ 0 ∧ (F t).hDD 0 1 ![0, 1, 0] ≠ 0 ∧ (H 1 ![1, 1, 1]).rescaledvU 0 ≠ 0 := by
  refine ⟨_, _, _, expand_flow t x, expand_kin t x, ?_, ?_, ?_, ?_⟩
  · show 1 + x 0 ^ 2 ≠ 0
    positivity
  · simp [expandF]
  · simp [expandF, demoF0]
  · simp [expandH]

end Verif.Hydro
