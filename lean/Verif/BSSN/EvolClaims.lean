import Verif.BSSN.Algebraic
import Verif.BSSN.GaugeModel

/-!
# The evolution of `Λ̄`, of the algebraic constraints and of the gauge: the claims
-/
namespace Verif.BSSN
open Verif.RefMetric Verif.IndexedExp Real
open scoped ContDiff

section
variable {P : CoordParams} {name : Py.Str} {C : Coords} {Ω : Dom} {F : ℝ → Fields} {c : CF}
  {T : Option (Fin 4 → Fin 4 → Scal)} {t : ℝ} {x : Vec}

/-- **C75**: let `Λ̄^i` have the value it stands for at the time `t`, and let `Ā` be tracefree.  Then the rate of change
of `γ̄^{jk}(Γ̄^i_{jk} - Γ̂^i_{jk})` is the right-hand side of `Λ̄^i` up to a multiple of the momentum constraint, and with
`Λ̄^i` evolved by that right-hand side the two differ at first order by that multiple only. -/
theorem C75_lambda (S : Setting P name C Ω (F t) c) (hΛ : Conformal C.scale (F t) Ω) (htr : Traceless C.scale (F t) Ω)
    (hx : x ∈ Ω) (hsol : SolvesAt1 Ω C.scale c T F t x) (i : Fin 3) :
    HasDerivAt (fun τ => ∑ j, ∑ k, inverse (gammabarF C.scale (F τ)) j k x *
        (christoffel (gammabarF C.scale (F τ)) i j k x - christoffel (ghatF C.scale) i j k x))
      (Lambdabar_rhsU (rfmAt C.scale x) (gfsAt (F t) x) c (T4At T x) i - 2 * (F t).alpha x * Real.exp (4 * phiF (F t) c x) *
        momentum (gammaF C.scale (F t) c) (KF C.scale (F t) c) (matterF C.scale (F t) c T) i x) t ∧
    HasDerivAt (fun τ => LambdabarF C.scale (F τ) i x - ∑ j, ∑ k, inverse (gammabarF C.scale (F τ)) j k x *
        (christoffel (gammabarF C.scale (F τ)) i j k x - christoffel (ghatF C.scale) i j k x))
      (2 * (F t).alpha x * Real.exp (4 * phiF (F t) c x) *
        momentum (gammaF C.scale (F t) c) (KF C.scale (F t) c) (matterF C.scale (F t) c T) i x) t := by
  have h := deriv_lambdaOf S.rfm S.smooth S.det hx S.conformal (fun i j k l y hy => riemann_hat S.hb S.known S.regular
    (fun i j k => Gammahat_smooth S.rfm i j k) hy i j k l) hΛ (fun y hy => S.tr htr hy) hsol i
  rw [(C73_momentum S htr T hx i).1] at h
  refine ⟨h, ?_⟩
  have h0 : (rfmAt C.scale x).ReU i ≠ 0 := (rfmAt_regular (S.regular x hx)).ReU i
  have h2 := (hsol.lambdaU i).mul_const ((rfmAt C.scale x).ReU i)
  rw [lambda_rhsU, div_mul_cancel₀ _ h0] at h2
  exact (h2.sub h).congr_deriv (by ring)

/-- **C75**, on constraint-satisfying data: `Λ̄^i` keeps the value it stands for, at first order. -/
theorem C75_lambda_constrained (S : Setting P name C Ω (F t) c) (hΛ : Conformal C.scale (F t) Ω) (htr : Traceless C.scale (F t) Ω)
    (hx : x ∈ Ω) (hsol : SolvesAt1 Ω C.scale c T F t x) (i : Fin 3)
    (hM : momentum (gammaF C.scale (F t) c) (KF C.scale (F t) c) (matterF C.scale (F t) c T) i x = 0) :
    HasDerivAt (fun τ => LambdabarF C.scale (F τ) i x - ∑ j, ∑ k, inverse (gammabarF C.scale (F τ)) j k x *
        (christoffel (gammabarF C.scale (F τ)) i j k x - christoffel (ghatF C.scale) i j k x)) 0 t := by
  have h := (C75_lambda S hΛ htr hx hsol i).2
  rw [hM, mul_zero] at h
  exact h

/-- **C76**: the ratio `det γ̄ / det γ̂` is carried along the shift, whatever the data; the trace of `Ā` satisfies a
linear-homogeneous transport equation (up to its square). -/
theorem C76_transport (S : Setting P name C Ω (F t) c) (hx : x ∈ Ω) (hsol : SolvesAt C.scale c T F t x) :
    HasDerivAt (fun τ => detOf (gammabarF C.scale (F τ)) x / detOf (ghatF C.scale) x)
      (∑ k, betaF C.scale (F t) k x * pd k (fun y => detOf (gammabarF C.scale (F t)) y / detOf (ghatF C.scale) y) x) t ∧
    HasDerivAt (fun τ => trace (gammabarF C.scale (F τ)) (AbarF C.scale (F τ)) x)
      (∑ k, betaF C.scale (F t) k x * pd k (trace (gammabarF C.scale (F t)) (AbarF C.scale (F t))) x +
        (F t).alpha x * trace (gammabarF C.scale (F t)) (AbarF C.scale (F t)) x *
          ((F t).trK x - 2 / 3 * trace (gammabarF C.scale (F t)) (AbarF C.scale (F t)) x)) t :=
  ⟨deriv_det S.rfm S.smooth S.det hx hsol, deriv_trA S.rfm S.smooth S.det hx hsol S.conformal⟩

/-- **C76**: the evolution keeps both algebraic constraints, at first order: if `det γ̄ = det γ̂` on the open set then
`∂_t det γ̄ = 0`, and if `γ̄^{ij} Ā_{ij} = 0` there then `∂_t (γ̄^{ij} Ā_{ij}) = 0`.  With or without matter, for every lapse
and shift. -/
theorem C76_preserved (S : Setting P name C Ω (F t) c) (hx : x ∈ Ω) (hsol : SolvesAt C.scale c T F t x) :
    ((∀ y ∈ Ω, (Matrix.of fun a b => gammabarF C.scale (F t) a b y).det = (Matrix.of fun a b => ghatF C.scale a b y).det) →
      HasDerivAt (fun τ => (Matrix.of fun a b => gammabarF C.scale (F τ) a b x).det) 0 t) ∧
    (Traceless C.scale (F t) Ω → HasDerivAt (fun τ => trace (gammabarF C.scale (F τ)) (AbarF C.scale (F τ)) x) 0 t) := by
  obtain ⟨h1, h2⟩ := C76_transport S hx hsol
  have hh := S.rfm.isMetric.det
  constructor
  · intro h
    have e : ∀ k, pd k (fun y => detOf (gammabarF C.scale (F t)) y / detOf (ghatF C.scale) y) x = 0 := fun k => by
      rw [pd_congr_on (g := fun _ => 1) (fun y hy => by
        show detOf (gammabarF C.scale (F t)) y / detOf (ghatF C.scale) y = 1
        rw [detOf, h y hy]; exact div_self (hh y hy)) hx k, dpd_const]
    simp only [e, mul_zero, Finset.sum_const_zero] at h1
    have h3 := h1.mul_const (detOf (ghatF C.scale) x)
    simp only [div_mul_cancel₀ _ (show detOf (ghatF C.scale) x ≠ 0 from hh x hx), zero_mul] at h3
    exact h3
  · intro h
    have e : ∀ k, pd k (trace (gammabarF C.scale (F t)) (AbarF C.scale (F t))) x = 0 := fun k => by
      rw [pd_congr_on (g := fun _ => 0) (fun y hy => h y hy) hx k, dpd_const]
    simpa only [e, h x hx, mul_zero, zero_mul, Finset.sum_const_zero, add_zero] using h2

end

/-! ### Gauge -/

/-- `β^j D_j V^i` with the covariant derivative of the metric `g`. -/
noncomputable def advect (g : T2) (β V : T1) (i : Fin 3) : Scal := fun x =>
  ∑ j, β j x * (pd j (V i) x + ∑ m, christoffel g i m j x * V m x)

/-- `β^j ∂_j V^i`. -/
noncomputable def advect0 (β V : T1) (i : Fin 3) : Scal := fun x => ∑ j, β j x * pd j (V i) x

/-- `B^i` as a field. -/
noncomputable def BF (s : Vec → Vec) (F : Fields) : T1 := fun i y => BU (rfmAt s y) (gfsAt F y) i

/-- A call of `BSSN_gauge_RHSs`. -/
structure Call where
  c : CF
  key : Key
  lapse : Py.Str
  shift : Py.Str

/-- The state after some calls. -/
noncomputable def after : List Call → Cache → Cache
  | [], Z => Z
  | d :: ds, Z => after ds (BSSN_gauge_RHSs d.c d.key d.lapse d.shift Z).1

/-- What a call returns after the calls `ds` of the same process. -/
noncomputable def result (ds : List Call) (d : Call) : Except String (Rfm → Gfs → Option (Fin 4 → Fin 4 → ℝ) → ℝ → GaugeRhs) :=
  (BSSN_gauge_RHSs d.c d.key d.lapse d.shift (after ds [])).2

/-- The lapse options (with the conformal factors for which they are supported). -/
def LapseSupported (c : CF) (lapse : Py.Str) : Prop :=
  lapse = c% "OnePlusLog" ∨ lapse = c% "OnePlusLogAlt" ∨ lapse = c% "Frozen" ∨ (lapse = c% "HarmonicSlicing" ∧ c ≠ .chi)

theorem lapseRhs_ok (c : CF) (lapse : Py.Str) : (∃ a, lapseRhs c lapse = .ok a) ↔ LapseSupported c lapse := by
  unfold lapseRhs LapseSupported
  by_cases h1 : lapse = c% "OnePlusLog"
  · simp [h1]
  by_cases h2 : lapse = c% "HarmonicSlicing"
  · subst h2; cases c <;> simp
  by_cases h3 : lapse = c% "Frozen"
  · subst h3; simp
  by_cases h4 : lapse = c% "OnePlusLogAlt"
  · subst h4; simp
  simp [h1, h2, h3, h4]

/-- **C77**: the call raises `ValueError` exactly if the lapse option, the shift option or the combination of harmonic
slicing with `χ` is not supported, whatever calls were made before. -/
theorem C77_supported (ds : List Call) (d : Call) :
    ((∃ e, result ds d = .ok e) ↔ LapseSupported d.c d.lapse ∧ d.shift ∈ shiftOptions) ∧
    (∀ m, result ds d = .error m → m = "ValueError") := by
  unfold result BSSN_gauge_RHSs
  rw [← lapseRhs_ok]
  cases h : lapseRhs d.c d.lapse with
  | error e =>
    refine ⟨by simp, ?_⟩
    intro m hm
    have : e = "ValueError" := by
      revert h
      unfold lapseRhs
      cases d.c <;> grind
    simp only [Except.error.injEq] at hm
    rw [← hm, this]
  | ok a =>
    by_cases hsh : d.shift ∈ shiftOptions
    · simp [hsh]
    · simp [hsh]

theorem result_ok {ds : List Call} {d : Call} {e : Rfm → Gfs → Option (Fin 4 → Fin 4 → ℝ) → ℝ → GaugeRhs} (h : result ds d = .ok e) :
    ∃ a, lapseRhs d.c d.lapse = .ok a ∧ d.shift ∈ shiftOptions ∧ ∀ R G T4 eta,
      (e R G T4 eta).alpha_rhs = a R G ∧ ∃ B : V1, (d.key ∉ after ds [] → d.shift ≠ c% "Frozen" → B = BU R G) ∧
      (e R G T4 eta).vet_rhsU = (fun i => (shiftRhs R G d.c T4 eta d.shift B).1 i / R.ReU i) ∧
      (e R G T4 eta).bet_rhsU = fun i => (shiftRhs R G d.c T4 eta d.shift B).2 i / R.ReU i := by
  unfold result BSSN_gauge_RHSs at h
  cases ha : lapseRhs d.c d.lapse with
  | error m => rw [ha] at h; simp at h
  | ok a =>
    rw [ha] at h
    by_cases hsh : d.shift ∈ shiftOptions
    · simp only [hsh, not_true_eq_false, if_false, Except.ok.injEq] at h
      refine ⟨a, rfl, hsh, fun R G T4 eta => ?_⟩
      rw [← h]
      refine ⟨rfl, _, ?_, rfl, rfl⟩
      intro h1 h2
      rw [if_neg]
      simp only [h2, if_false]
      exact h1
    · simp [hsh] at h

theorem after_mem (key : Key) (ds : List Call) (Z : Cache) : key ∈ after ds Z ↔
    key ∈ Z ∨ ∃ d ∈ ds, d.key = key ∧ d.shift = c% "Frozen" ∧ LapseSupported d.c d.lapse := by
  induction ds generalizing Z with
  | nil => simp [after]
  | cons d ds ih =>
    rw [after, ih]
    have : key ∈ (BSSN_gauge_RHSs d.c d.key d.lapse d.shift Z).1 ↔
        key ∈ Z ∨ (d.key = key ∧ d.shift = c% "Frozen" ∧ LapseSupported d.c d.lapse) := by
      unfold BSSN_gauge_RHSs
      rw [← lapseRhs_ok]
      cases lapseRhs d.c d.lapse with
      | error m => simp
      | ok a =>
        by_cases hf : d.shift = c% "Frozen"
        · have : d.shift ∈ shiftOptions := by rw [hf]; simp [shiftOptions]
          simp [hf, show (c% "Frozen") ∈ shiftOptions by simp [shiftOptions], or_comm, eq_comm]
        · by_cases hsh : d.shift ∈ shiftOptions <;> simp [hf, hsh]
    rw [this]
    simp only [List.mem_cons, exists_eq_or_imp, or_assoc]

/-- The gauge variables change at the rates `e`, and `lambdaU` at its rate. -/
structure GaugeAt (s : Vec → Vec) (c : CF) (T : Option (Fin 4 → Fin 4 → Scal)) (eta : ℝ)
    (e : Rfm → Gfs → Option (Fin 4 → Fin 4 → ℝ) → ℝ → GaugeRhs) (F : ℝ → Fields) (t : ℝ) (x : Vec) : Prop where
  alpha : HasDerivAt (fun τ => (F τ).alpha x) (e (rfmAt s x) (gfsAt (F t) x) (T4At T x) eta).alpha_rhs t
  vetU : ∀ i, HasDerivAt (fun τ => (F τ).vetU i x) ((e (rfmAt s x) (gfsAt (F t) x) (T4At T x) eta).vet_rhsU i) t
  betU : ∀ i, HasDerivAt (fun τ => (F τ).betU i x) ((e (rfmAt s x) (gfsAt (F t) x) (T4At T x) eta).bet_rhsU i) t
  lambdaU : ∀ i, HasDerivAt (fun τ => (F τ).lambdaU i x) (lambda_rhsU (rfmAt s x) (gfsAt (F t) x) c (T4At T x) i) t

section
variable {P : CoordParams} {name : Py.Str} {C : Coords} {Ω : Dom} {F : ℝ → Fields} {T : Option (Fin 4 → Fin 4 → Scal)} {t : ℝ} {x : Vec}
  {ds : List Call} {d : Call} {e : Rfm → Gfs → Option (Fin 4 → Fin 4 → ℝ) → ℝ → GaugeRhs} {eta : ℝ}

/-- **C77**, the lapse: the three algebraic conditions, and harmonic slicing keeps `α - e^{6φ}` when `φ` is evolved by its
right-hand side.  Earlier calls make no difference. -/
theorem C77_lapse (S : Setting P name C Ω (F t) d.c) (hx : x ∈ Ω) (he : result ds d = .ok e)
    (hg : GaugeAt C.scale d.c T eta e F t x) :
    (d.lapse = c% "OnePlusLog" → HasDerivAt (fun τ => (F τ).alpha x)
      (∑ i, betaF C.scale (F t) i x * pd i (F t).alpha x - 2 * (F t).alpha x * (F t).trK x) t) ∧
    (d.lapse = c% "OnePlusLogAlt" → HasDerivAt (fun τ => (F τ).alpha x)
      (∑ i, betaF C.scale (F t) i x * pd i (F t).alpha x - (F t).alpha x * (1 - (F t).alpha x) * (F t).trK x) t) ∧
    (d.lapse = c% "Frozen" → HasDerivAt (fun τ => (F τ).alpha x) 0 t) ∧
    (d.lapse = c% "HarmonicSlicing" → SolvesAt C.scale d.c T F t x →
      HasDerivAt (fun τ => (F τ).alpha x - Real.exp (6 * phiF (F τ) d.c x)) 0 t) := by
  obtain ⟨a, ha, -, hr⟩ := result_ok he
  have hα := hg.alpha
  rw [(hr _ _ _ _).1] at hα
  refine ⟨fun h => ?_, fun h => ?_, fun h => ?_, fun h hsol => ?_⟩
  · rw [h, lapseRhs.eq_def, if_pos rfl, Except.ok.injEq] at ha
    subst ha
    refine hα.congr_deriv ?_
    simp only [gfsAt, betaF]
    ring
  · rw [h, lapseRhs.eq_def, if_neg (by decide), if_neg (by decide), if_neg (by decide), if_pos rfl, Except.ok.injEq] at ha
    subst ha
    refine hα.congr_deriv ?_
    simp only [gfsAt, betaF]
    ring
  · rw [h, lapseRhs.eq_def, if_neg (by decide), if_neg (by decide), if_pos rfl, Except.ok.injEq] at ha
    subst ha
    exact hα
  · have hcf := hsol.cf
    have hc := S.conformal x hx
    rw [h, lapseRhs.eq_def, if_neg (by decide), if_pos rfl] at ha
    generalize d.c = c at *
    cases c with
    | chi => simp at ha
    | phi =>
      simp only [Except.ok.injEq] at ha
      subst ha
      have h2 := hα.sub ((hcf.const_mul 6).exp)
      refine h2.congr_deriv ?_
      have e1 : (gfsAt (F t) x).cf = (F t).cf x := rfl
      simp only [e1]
      ring
    | W =>
      simp only [Except.ok.injEq] at ha
      subst ha
      have h0 : 0 < (F t).cf x := hc
      have h2 := hα.sub (((hcf.log h0.ne').const_mul (6 * -(1 / 2))).exp)
      have e2 : (fun τ => (F τ).alpha x - Real.exp (6 * phiF (F τ) .W x)) =
          fun τ => (F τ).alpha x - Real.exp (6 * -(1 / 2) * Real.log ((F τ).cf x)) := by
        funext τ; simp only [phiF]; congr 2; ring
      rw [e2]
      refine h2.congr_deriv ?_
      have e1 : (gfsAt (F t) x).cf = (F t).cf x := rfl
      have e3 : Real.exp (6 * -(1 / 2) * Real.log ((F t).cf x)) = ((F t).cf x ^ 3)⁻¹ := by
        rw [show 6 * -(1 / 2) * Real.log ((F t).cf x) = -(Real.log ((F t).cf x ^ 3)) by rw [Real.log_pow]; push_cast; ring,
          Real.exp_neg, Real.exp_log (by positivity)]
      simp only [e1, e3]
      field_simp
      ring

/-- **C77**, the shift, if no earlier call of the process for the same coordinate system asked for a frozen shift: the
equations of the comments, with the covariant derivative of `γ̄` or of `γ̂` and with `∂_t Λ̄` the actual rate of change.
`advect` and `advect0` are `β^j D_j` and `β^j ∂_j`. -/
theorem C77_shift_partial (S : Setting P name C Ω (F t) d.c) (hx : x ∈ Ω) (he : result ds d = .ok e)
    (hno : ∀ d' ∈ ds, d'.key = d.key → d'.shift ≠ c% "Frozen")
    (hg : GaugeAt C.scale d.c T eta e F t x) (i : Fin 3) (β B Λ : T1) (hβ : β = betaF C.scale (F t)) (hB : B = BF C.scale (F t))
    (hΛ : Λ = LambdabarF C.scale (F t)) (βt Bt Λt : ℝ) (hβt : βt = deriv (fun τ => betaF C.scale (F τ) i x) t)
    (hBt : Bt = deriv (fun τ => BF C.scale (F τ) i x) t) (hΛt : Λt = deriv (fun τ => LambdabarF C.scale (F τ) i x) t) :
    (d.shift = c% "Frozen" → βt = 0 ∧ Bt = 0) ∧
    (d.shift = c% "GammaDriving2ndOrder_NoCovariant" → βt = advect0 β β i x + B i x ∧
      Bt = advect0 β B i x + 3 / 4 * (Λt - advect0 β Λ i x) - eta * B i x) ∧
    (d.shift = c% "GammaDriving2ndOrder_Covariant" → βt = advect (gammabarF C.scale (F t)) β β i x + B i x ∧
      Bt = advect (gammabarF C.scale (F t)) β B i x + 3 / 4 * (Λt - advect (gammabarF C.scale (F t)) β Λ i x) - eta * B i x) ∧
    (d.shift = c% "GammaDriving2ndOrder_Covariant__Hatted" → βt = advect (ghatF C.scale) β β i x + B i x ∧
      Bt = advect (ghatF C.scale) β B i x + 3 / 4 * (Λt - advect (ghatF C.scale) β Λ i x) - eta * B i x) ∧
    (d.shift = c% "GammaDriving1stOrder_Covariant" →
      βt = advect (gammabarF C.scale (F t)) β β i x + 3 / 4 * Λ i x - eta * β i x ∧ Bt = 0) ∧
    (d.shift = c% "GammaDriving1stOrder_Covariant__Hatted" →
      βt = advect (ghatF C.scale) β β i x + 3 / 4 * Λ i x - eta * β i x ∧ Bt = 0) ∧
    (d.shift = c% "NonAdvectingGammaDriving" → βt = B i x ∧ Bt = 3 / 4 * Λt - eta * B i x) := by
  obtain ⟨a, ha, -, hr⟩ := result_ok he
  have hkey : d.key ∉ after ds [] := by
    rw [after_mem]
    rintro (h | ⟨d', h1, h2, h3, -⟩)
    · simp at h
    · exact hno d' h1 h2 h3
  obtain ⟨-, B', hB', h1, h2⟩ := hr (rfmAt C.scale x) (gfsAt (F t) x) (T4At T x) eta
  have h0 : (rfmAt C.scale x).ReU i ≠ 0 := (rfmAt_regular (S.regular x hx)).ReU i
  have d1 := ((hg.vetU i).mul_const ((rfmAt C.scale x).ReU i)).deriv
  have d2 := ((hg.betU i).mul_const ((rfmAt C.scale x).ReU i)).deriv
  have d3 := ((hg.lambdaU i).mul_const ((rfmAt C.scale x).ReU i)).deriv
  rw [h1, div_mul_cancel₀ _ h0] at d1
  rw [h2, div_mul_cancel₀ _ h0] at d2
  rw [lambda_rhsU, div_mul_cancel₀ _ h0] at d3
  replace d1 : βt = _ := hβt.trans d1
  replace d2 : Bt = _ := hBt.trans d2
  replace d3 : Λt = _ := hΛt.trans d3
  have f1 : ∀ j, betaU_dupD (rfmAt C.scale x) (gfsAt (F t) x) i j = pd j (β i) x := fun j => by
    rw [hβ, pd_betaF S.rfm S.smooth hx]; rfl
  have f2 : ∀ j, BU_dupD (rfmAt C.scale x) (gfsAt (F t) x) i j = pd j (B i) x := fun j => by
    rw [hB]
    show _ = pd j (fun y => (F t).betU i y * RefMetric.ReU C.scale i y) x
    rw [dpd_mul hx j (S.smooth.betU i) (S.rfm.ReU i)]
    rfl
  have f3 : ∀ j, LambdabarU_dupD (rfmAt C.scale x) (gfsAt (F t) x) i j = pd j (Λ i) x := fun j => by
    rw [hΛ, pd_LambdabarF S.rfm S.smooth hx, add_comm]; rfl
  have f4 : ∀ j, betaU (rfmAt C.scale x) (gfsAt (F t) x) j = β j x := fun j => by rw [hβ]; rfl
  have f5 : ∀ j, LambdabarU (rfmAt C.scale x) (gfsAt (F t) x) j = Λ j x := fun j => by rw [hΛ]; rfl
  have f6 : ∀ m j, GammabarUDD (rfmAt C.scale x) (gfsAt (F t) x) i m j = christoffel (gammabarF C.scale (F t)) i m j x := fun m j =>
    GammabarUDD_eq S.rfm S.smooth hx i m j
  have f7 : ∀ m j, (rfmAt C.scale x).GammahatUDD i m j = christoffel (ghatF C.scale) i m j x := fun m j => Gammahat_eq x i m j
  have f8 : d.shift ≠ c% "Frozen" → B' = fun j => B j x := fun h => by rw [hB' hkey h, hB]; rfl
  have k1 : ∀ (g : T2) (V : T1), advect g β V i x = ∑ j, β j x * pd j (V i) x + ∑ j, ∑ m, β j x * christoffel g i m j x * V m x := fun g V => by
    simp only [advect, mul_add, Finset.sum_add_distrib, Finset.mul_sum, mul_assoc]
  have k2 : ∀ V : T1, ∑ j, -(3 / 4) * β j x * pd j (V i) x = -(3 / 4) * ∑ j, β j x * pd j (V i) x := fun V => by
    rw [Finset.mul_sum]; exact Finset.sum_congr rfl fun _ _ => by ring
  have k3 : ∀ (g : T2) (V : T1), ∑ j, ∑ m, -(3 / 4) * β j x * christoffel g i m j x * V m x =
      -(3 / 4) * ∑ j, ∑ m, β j x * christoffel g i m j x * V m x := fun g V => by
    rw [Finset.mul_sum]
    refine Finset.sum_congr rfl fun _ _ => ?_
    rw [Finset.mul_sum]; exact Finset.sum_congr rfl fun _ _ => by ring
  have k4 : ∀ V : T1, ∑ j, -β j x * pd j (V i) x = -∑ j, β j x * pd j (V i) x := fun V => by
    rw [← Finset.sum_neg_distrib]; exact Finset.sum_congr rfl fun _ _ => by ring
  refine ⟨fun h => ?_, fun h => ?_, fun h => ?_, fun h => ?_, fun h => ?_, fun h => ?_, fun h => ?_⟩ <;> rw [h] at d1 d2 <;>
    simp only [shiftRhs, show Py.containsSub (c% "GammaDriving2ndOrder_Covariant") (c% "Frozen") = false by decide +kernel,
      show Py.containsSub (c% "GammaDriving1stOrder_Covariant") (c% "Frozen") = false by decide +kernel,
      show Py.containsSub (c% "GammaDriving2ndOrder_Covariant") (c% "GammaDriving2ndOrder_NoCovariant") = false by decide +kernel,
      show Py.containsSub (c% "GammaDriving1stOrder_Covariant") (c% "GammaDriving2ndOrder_NoCovariant") = false by decide +kernel,
      show Py.containsSub (c% "GammaDriving2ndOrder_Covariant") (c% "GammaDriving2ndOrder_Covariant") = true by decide +kernel,
      show Py.containsSub (c% "GammaDriving1stOrder_Covariant") (c% "GammaDriving2ndOrder_Covariant") = false by decide +kernel,
      show Py.containsSub (c% "GammaDriving2ndOrder_Covariant") (c% "GammaDriving2ndOrder_Covariant__Hatted") = true by decide +kernel,
      show Py.containsSub (c% "GammaDriving1stOrder_Covariant") (c% "GammaDriving2ndOrder_Covariant__Hatted") = false by decide +kernel,
      show Py.containsSub (c% "GammaDriving2ndOrder_Covariant") (c% "GammaDriving1stOrder_Covariant") = false by decide +kernel,
      show Py.containsSub (c% "GammaDriving1stOrder_Covariant") (c% "GammaDriving1stOrder_Covariant") = true by decide +kernel,
      show Py.containsSub (c% "GammaDriving2ndOrder_Covariant") (c% "GammaDriving1stOrder_Covariant__Hatted") = false by decide +kernel,
      show Py.containsSub (c% "GammaDriving1stOrder_Covariant") (c% "GammaDriving1stOrder_Covariant__Hatted") = true by decide +kernel,
      show Py.containsSub (c% "GammaDriving2ndOrder_Covariant") (c% "NonAdvectingGammaDriving") = false by decide +kernel,
      show Py.containsSub (c% "GammaDriving1stOrder_Covariant") (c% "NonAdvectingGammaDriving") = false by decide +kernel] at d1 d2
  · simp (decide := true) only [Bool.false_eq_true, if_false] at d1 d2
    exact ⟨d1, d2⟩
  · simp (decide := true) only [Bool.false_eq_true, if_false, if_true, f8 (by rw [h]; decide), f1, f2, f3, f4, ← d3, k4] at d1 d2
    rw [d1, d2]
    exact ⟨by unfold advect0; ring, by unfold advect0; ring⟩
  · simp (decide := true) only [Bool.false_eq_true, if_false, if_true, connection, decide_false, f8 (by rw [h]; decide), f1, f2, f3, f4, f5, f6, ← d3, k2, k3] at d1 d2
    rw [d1, d2, k1, k1, k1]
    exact ⟨by ring, by ring⟩
  · simp (decide := true) only [Bool.false_eq_true, if_false, if_true, connection, decide_true, f8 (by rw [h]; decide), f1, f2, f3, f4, f5, f7, ← d3, k2, k3] at d1 d2
    rw [d1, d2, k1, k1, k1]
    exact ⟨by ring, by ring⟩
  · simp (decide := true) only [Bool.false_eq_true, if_false, if_true, connection, decide_false, f1, f4, f5, f6] at d1 d2
    rw [d1, d2, k1]
    exact ⟨by ring, rfl⟩
  · simp (decide := true) only [Bool.false_eq_true, if_false, if_true, connection, decide_true, f1, f4, f5, f7] at d1 d2
    rw [d1, d2, k1]
    exact ⟨by ring, rfl⟩
  · simp (decide := true) only [Bool.false_eq_true, if_false, if_true, f8 (by rw [h]; decide), ← d3] at d1 d2
    rw [d1, d2]
    exact ⟨by ring, by ring⟩

end

/-- **C77** fails for the shift if an earlier call for the same coordinate system asked for a frozen shift: that call set
the cached `B^i` to zero, and the right-hand side of the shift then lacks the term `B^i`. -/
theorem C77_history_violation : ∃ (d0 d : Call) (e e' : Rfm → Gfs → Option (Fin 4 → Fin 4 → ℝ) → ℝ → GaugeRhs) (F : Fields) (x : Vec),
    F.Smooth ⊤ ∧ result [] d = .ok e ∧ result [d0] d = .ok e' ∧
    ∀ eta, (e (rfmAt one3 x) (gfsAt F x) none eta).vet_rhsU 0 = 1 ∧ (e' (rfmAt one3 x) (gfsAt F x) none eta).vet_rhsU 0 = 0 := by
  have z : ∀ a : ℝ, Sm ⊤ fun _ : Vec => a := fun a => Sm.const a
  refine ⟨⟨.W, (c% "Cartesian", false), c% "OnePlusLog", c% "Frozen"⟩,
    ⟨.W, (c% "Cartesian", false), c% "OnePlusLog", c% "NonAdvectingGammaDriving"⟩, _, _, { msqF with betU := fun _ _ => 1 }, 0,
    ⟨fun _ _ => z _, fun _ _ => z _, fun _ => z _, fun _ => z _, fun _ => z _, (smooth_coord (N := ∞) 0).contDiffOn, z _, z _,
      fun _ _ => rfl, fun _ _ => rfl⟩, rfl, rfl, fun eta => ⟨?_, ?_⟩⟩
  · show (0 + (1 : ℝ) * (1 / (![1, 1, 1] : Vec) 0)) / (1 / (![1, 1, 1] : Vec) 0) = 1
    simp
  · show (0 + (0 : ℝ)) / (1 / (![1, 1, 1] : Vec) 0) = 0
    simp

/-! ### Non-vacuity -/

/-- The fields `F` advanced by one explicit Euler step of length `τ` of all equations. -/
noncomputable def step (s : Vec → Vec) (c : CF) (T : Option (Fin 4 → Fin 4 → Scal)) (eta : ℝ)
    (e : Rfm → Gfs → Option (Fin 4 → Fin 4 → ℝ) → ℝ → GaugeRhs) (F : Fields) (τ : ℝ) : Fields :=
  { euler s c T F τ with
    lambdaU := fun i x => F.lambdaU i x + τ * lambda_rhsU (rfmAt s x) (gfsAt F x) c (T4At T x) i
    alpha := fun x => F.alpha x + τ * (e (rfmAt s x) (gfsAt F x) (T4At T x) eta).alpha_rhs
    vetU := fun i x => F.vetU i x + τ * (e (rfmAt s x) (gfsAt F x) (T4At T x) eta).vet_rhsU i
    betU := fun i x => F.betU i x + τ * (e (rfmAt s x) (gfsAt F x) (T4At T x) eta).bet_rhsU i }

section
variable {P : CoordParams} {name : Py.Str} {C : Coords} {Ω : Dom} {F : Fields} {c : CF} (T : Option (Fin 4 → Fin 4 → Scal)) (eta : ℝ)
  (e : Rfm → Gfs → Option (Fin 4 → Fin 4 → ℝ) → ℝ → GaugeRhs)

theorem step_zero (s : Vec → Vec) : step s c T eta e F 0 = F := by simp [step, euler]

theorem step_solves (S : Setting P name C Ω F c) (htr : Traceless C.scale F Ω) {x : Vec} (hx : x ∈ Ω) :
    SolvesAt1 Ω C.scale c T (step C.scale c T eta e F) 0 x ∧ GaugeAt C.scale c T eta e (step C.scale c T eta e F) 0 x := by
  have h : ∀ a b : ℝ, HasDerivAt (fun τ : ℝ => a + τ * b) b 0 := fun a b => by
    simpa using ((hasDerivAt_id (0 : ℝ)).mul_const b).const_add a
  have hs : ∀ i j, Sm Ω fun y => h_rhsDD (rfmAt C.scale y) (gfsAt F y) i j := fun i j =>
    h_rhs_smooth (F := fun _ => F) (t := 0) S.rfm S.smooth (fun y hy => S.tr htr hy) i j
  refine ⟨⟨⟨fun i j => ?_, fun i j => ?_, ?_, ?_⟩, fun i => ?_, fun τ i j => ?_, fun i j k => ?_⟩, ⟨?_, fun i => ?_, fun i => ?_, fun i => ?_⟩⟩
  case refine_6 => exact (S.smooth.hDD i j).add ((Sm.const τ).mul (hs i j))
  case refine_7 =>
    rw [step_zero]
    have e1 : (fun τ => pd k ((step C.scale c T eta e F τ).hDD i j) x) = fun τ => pd k (F.hDD i j) x +
        τ * pd k (fun y => h_rhsDD (rfmAt C.scale y) (gfsAt F y) i j) x := by
      funext τ
      show pd k (fun y => F.hDD i j y + τ * h_rhsDD (rfmAt C.scale y) (gfsAt F y) i j) x = _
      rw [dpd_add hx k (S.smooth.hDD i j) ((Sm.const τ).mul (hs i j)), dpd_cmul hx k τ (hs i j)]
    rw [e1]
    exact h _ _
  all_goals rw [step_zero]; exact h _ _

end

/-- The hypotheses of C75 to C77 are met by curved data with shift, with and without matter, for every supported pair of
options. -/
example (T : Option (Fin 4 → Fin 4 → Scal)) (eta : ℝ) (lapse shift : Py.Str) (h1 : LapseSupported .W lapse) (h2 : shift ∈ shiftOptions) :
    ∃ (C : Coords) (F : ℝ → Fields) (e : _), result [] ⟨.W, (c% "Cartesian", false), lapse, shift⟩ = .ok e ∧
    Setting demo (c% "Cartesian") C ⊤ (F 0) .W ∧ Conformal C.scale (F 0) ⊤ ∧ Traceless C.scale (F 0) ⊤ ∧
    (∀ y, (Matrix.of fun a b => gammabarF C.scale (F 0) a b y).det = (Matrix.of fun a b => ghatF C.scale a b y).det) ∧
    (∀ x, SolvesAt1 ⊤ C.scale .W T F 0 x ∧ GaugeAt C.scale .W T eta e F 0 x) := by
  obtain ⟨e, he⟩ := (C77_supported [] ⟨.W, (c% "Cartesian", false), lapse, shift⟩).1.2 ⟨h1, h2⟩
  refine ⟨cartesian demo.lo demo.hi, step one3 .W T eta e demoF, e, he, ?_, ?_, ?_, fun y => ?_, fun x => ?_⟩
  · rw [step_zero]; exact demoF_setting
  · rw [step_zero]; exact demoF_conformal
  · rw [step_zero]; exact demoF_traceless
  · rw [step_zero]
    have e1 : (Matrix.of fun a b => gammabarF one3 demoF a b y).det = 1 := demoF0_det y
    have e2 : (Matrix.of fun a b => ghatF one3 a b y).det = 1 := by
      rw [Matrix.det_fin_three]
      simp [ghatF, RefMetric.ghatDD, one3]
    exact e1.trans e2.symm
  · exact step_solves T eta e demoF_setting demoF_traceless (x := x) trivial

end Verif.BSSN
