import Verif.BSSN.Evolution
import Verif.BSSN.Flat

/-!
# The BSSN quantities, constraints and evolution equations: the claims
-/
namespace Verif.BSSN
open Verif.RefMetric Verif.IndexedExp Real
open scoped ContDiff

/-- The setting of the claims: a supported coordinate system, an open set without coordinate singularity, smooth evolved
variables with symmetric `hDD` and `aDD`, positive `cf` if it is `W` or `χ`, and an invertible `γ̄_{ij}`. -/
structure Setting (P : CoordParams) (name : Py.Str) (C : Coords) (Ω : Dom) (F : Fields) (c : CF) : Prop where
  hb : P.b ≠ 0
  known : choose P name = .sys C
  regular : ∀ x ∈ Ω, ∀ i, C.scale x i ≠ 0
  smooth : F.Smooth Ω
  conformal : ∀ x ∈ Ω, cfValid c (F.cf x)
  det : ∀ x ∈ Ω, (Matrix.of fun a b => gammabarF C.scale F a b x).det ≠ 0

/-- `Λ̄^i` has the value it stands for, `γ̄^{jk} (Γ̄^i_{jk} - Γ̂^i_{jk})`. -/
def Conformal (s : Vec → Vec) (F : Fields) (Ω : Dom) : Prop := ∀ i, ∀ x ∈ Ω,
  LambdabarF s F i x = ∑ j, ∑ k, inverse (gammabarF s F) j k x *
    (christoffel (gammabarF s F) i j k x - christoffel (ghatF s) i j k x)

/-- `γ̄^{ij} Ā_{ij} = 0`. -/
def Traceless (s : Vec → Vec) (F : Fields) (Ω : Dom) : Prop := ∀ x ∈ Ω, trace (gammabarF s F) (AbarF s F) x = 0

namespace Setting
variable {P : CoordParams} {name : Py.Str} {C : Coords} {Ω : Dom} {F : Fields} {c : CF} (S : Setting P name C Ω F c)
include S

theorem rfm : IsRfm Ω C.scale := isRfm_of_choose S.hb S.known S.regular

theorem ricci (hΛ : Conformal C.scale F Ω) {x : Vec} (hx : x ∈ Ω) (i j : Fin 3) :
    RbarDD (rfmAt C.scale x) (gfsAt F x) i j = ricci (gammabarF C.scale F) i j x := by
  refine RbarDD_eq S.rfm S.smooth S.det (fun i j k l y hy => riemann_hat S.hb S.known S.regular
    (fun i j k => Gammahat_smooth S.rfm i j k) hy i j k l) (fun i y hy => ?_) hx i j
  rw [hΛ i y hy]
  simp only [Gammahat_eq]

theorem tr (h : Traceless C.scale F Ω) {x : Vec} (hx : x ∈ Ω) : trAbar (rfmAt C.scale x) (gfsAt F x) = 0 := by
  rw [trAbar_eq S.rfm S.smooth, h x hx]

end Setting

section
variable {P : CoordParams} {name : Py.Str} {C : Coords} {Ω : Dom} {F : Fields} {c : CF}

/-- **C71**: what the unrescaled fields are.  `γ̄_{ij} = γ̂_{ij} + h_{ij} s_i s_j`, `Ā_{ij} = a_{ij} s_i s_j`, vectors have
the factor `1/s_i`; `γ_{ij} = e^{4φ} γ̄_{ij}` and `K_{ij} = e^{4φ} Ā_{ij} + ⅓ γ_{ij} K`, with `φ` from the evolved
variable (`φ`, `W = e^{-2φ}` or `χ = e^{-4φ}`). -/
theorem C71_fields (S : Setting P name C Ω F c) {x : Vec} (hx : x ∈ Ω) (i j : Fin 3) :
    gammabarF C.scale F i j x = (if i = j then C.scale x i ^ 2 else 0) + F.hDD i j x * (C.scale x i * C.scale x j) ∧
    AbarF C.scale F i j x = F.aDD i j x * (C.scale x i * C.scale x j) ∧
    LambdabarF C.scale F i x = F.lambdaU i x / C.scale x i ∧
    betaF C.scale F i x = F.vetU i x / C.scale x i ∧
    gammaF C.scale F c i j x = Real.exp (4 * phiF F c x) * gammabarF C.scale F i j x ∧
    KF C.scale F c i j x = Real.exp (4 * phiF F c x) * AbarF C.scale F i j x + 1 / 3 * gammaF C.scale F c i j x * F.trK x ∧
    (c = .phi → F.cf x = phiF F c x) ∧ (c = .W → F.cf x = Real.exp (-2 * phiF F c x)) ∧
    (c = .chi → F.cf x = Real.exp (-4 * phiF F c x)) := by
  refine ⟨?_, rfl, ?_, ?_, gammaF_eq S.smooth S.conformal x hx i j, ?_, ?_, ?_, ?_⟩
  · simp only [gammabarF, gammabarDD, gfsAt, rfmAt, RefMetric.ReDD, RefMetric.ghatDD]
    rw [add_comm]
  · simp only [LambdabarF, LambdabarU, gfsAt, rfmAt, RefMetric.ReU]; ring
  · simp only [betaF, betaU, gfsAt, rfmAt, RefMetric.ReU]; ring
  · rw [← exp4phi_eq S.smooth S.conformal hx]; rfl
  · rintro rfl; rfl
  · rintro rfl
    have h0 : 0 < F.cf x := S.conformal x hx
    simp only [phiF]
    rw [show -2 * (-(1 / 2) * Real.log (F.cf x)) = Real.log (F.cf x) by ring, Real.exp_log h0]
  · rintro rfl
    have h0 : 0 < F.cf x := S.conformal x hx
    simp only [phiF]
    rw [show -4 * (-(1 / 4) * Real.log (F.cf x)) = Real.log (F.cf x) by ring, Real.exp_log h0]

/-- **C71**: each derivative expression of the quantities is the partial derivative it is named after, in every coordinate
system and for each conformal factor. -/
theorem C71_derivatives (S : Setting P name C Ω F c) {x : Vec} (hx : x ∈ Ω) (i j k l : Fin 3) :
    gammabarDD_dD (rfmAt C.scale x) (gfsAt F x) i j k = pd k (gammabarF C.scale F i j) x ∧
    gammabarDD_dDD (rfmAt C.scale x) (gfsAt F x) i j k l = pd l (pd k (gammabarF C.scale F i j)) x ∧
    AbarDD_dD (rfmAt C.scale x) (gfsAt F x) i j k = pd k (AbarF C.scale F i j) x ∧
    betaU_dD (rfmAt C.scale x) (gfsAt F x) i j = pd j (betaF C.scale F i) x ∧
    betaU_dDD (rfmAt C.scale x) (gfsAt F x) i j k = pd k (pd j (betaF C.scale F i)) x ∧
    phi_dD (gfsAt F x) c i = pd i (phiF F c) x ∧
    phi_dDD (gfsAt F x) c i j = pd j (pd i (phiF F c)) x ∧
    phidD (gfsAt F x) c i = pd i (phiF F c) x ∧
    phidDD (gfsAt F x) c i j = pd j (pd i (phiF F c)) x ∧
    exp_m4phi (gfsAt F x) c = Real.exp (-4 * phiF F c x) ∧
    exp4phi (gfsAt F x) c = Real.exp (4 * phiF F c x) ∧
    exp4phidD (gfsAt F x) c k = pd k (fun y => Real.exp (4 * phiF F c y)) x ∧
    exp4phidDD (gfsAt F x) c k l = pd l (pd k fun y => Real.exp (4 * phiF F c y)) x ∧
    gammaDDdD (rfmAt C.scale x) (gfsAt F x) c i j k = pd k (gammaF C.scale F c i j) x ∧
    gammaDDdDD (rfmAt C.scale x) (gfsAt F x) c i j k l = pd l (pd k (gammaF C.scale F c i j)) x ∧
    KDDdD (rfmAt C.scale x) (gfsAt F x) c i j k = pd k (KF C.scale F c i j) x :=
  have hs := S.rfm
  have hF := S.smooth
  have hc := S.conformal
  ⟨(pd_gammabarF hs hF hx i j k).symm, (pd_pd_gammabarF hs hF hx i j k l).symm, (pd_AbarF hs hF hx i j k).symm,
    (pd_betaF hs hF hx i j).symm, (pd_pd_betaF hs hF hx i j k).symm, (pd_phiF hF hc hx i).symm, (pd_pd_phiF hF hc hx i j).symm,
    phidD_eq hF hc hx i, phidDD_eq hF hc hx i j, exp_m4phi_eq hF hc hx, exp4phi_eq hF hc hx, (pd_exp4phi hs hF hc hx k).symm,
    (pd_pd_exp4phi hs hF hc hx k l).symm, (pd_gammaF hs hF hc hx i j k).symm, (pd_pd_gammaF hs hF hc hx i j k l).symm,
    (pd_KF hs hF hc hx i j k).symm⟩

/-- **C71**: the connections, the inverse metrics, the covariant derivatives. -/
theorem C71_connections (S : Setting P name C Ω F c) {x : Vec} (hx : x ∈ Ω) (i j k : Fin 3) :
    gammabarUU (rfmAt C.scale x) (gfsAt F x) i j = inverse (gammabarF C.scale F) i j x ∧
    gammaUU (rfmAt C.scale x) (gfsAt F x) c i j = inverse (gammaF C.scale F c) i j x ∧
    GammabarUDD (rfmAt C.scale x) (gfsAt F x) i j k = christoffel (gammabarF C.scale F) i j k x ∧
    GammaUDD (rfmAt C.scale x) (gfsAt F x) c i j k = christoffel (gammaF C.scale F c) i j k x ∧
    AbarUU (rfmAt C.scale x) (gfsAt F x) i j = raise2 (gammabarF C.scale F) (AbarF C.scale F) i j x ∧
    trAbar (rfmAt C.scale x) (gfsAt F x) = trace (gammabarF C.scale F) (AbarF C.scale F) x ∧
    phi_dBarDD (rfmAt C.scale x) (gfsAt F x) c i j = hessian (gammabarF C.scale F) (phiF F c) i j x ∧
    gammabarDD_dHatD (rfmAt C.scale x) (gfsAt F x) i j k = pd k (gammabarF C.scale F i j) x -
      ∑ m, (christoffel (ghatF C.scale) m k i x * gammabarF C.scale F m j x +
        christoffel (ghatF C.scale) m k j x * gammabarF C.scale F i m x) := by
  have hs := S.rfm
  have hF := S.smooth
  have hc := S.conformal
  refine ⟨gammabarUU_eq hs hF x i j, gammaUU_eq hs hF hc x i j, GammabarUDD_eq hs hF hx i j k, GammaUDD_eq hs hF hc hx i j k,
    AbarUU_eq hs hF x i j, trAbar_eq hs hF x, phi_dBarDD_eq hs hF hc hx i j, ?_⟩
  rw [dHatD_eq hs hF hx]
  simp only [covDD, Gammahat_eq]

/-- **C72**: when `Λ̄^i` has the value it stands for, the code's `R̄_{ij}` is the Ricci tensor of `γ̄_{ij}`, in every
supported coordinate system. -/
theorem C72_ricci (S : Setting P name C Ω F c) (hΛ : Conformal C.scale F Ω) {x : Vec} (hx : x ∈ Ω) (i j : Fin 3) :
    RbarDD (rfmAt C.scale x) (gfsAt F x) i j = ricci (gammabarF C.scale F) i j x := S.ricci hΛ hx i j

/-- **C73**: `H` is the Hamiltonian constraint of `γ_{ij}`, `K_{ij}` and the matter fields. -/
theorem C73_hamiltonian (S : Setting P name C Ω F c) (hΛ : Conformal C.scale F Ω) (htr : Traceless C.scale F Ω)
    (T : Option (Fin 4 → Fin 4 → Scal)) {x : Vec} (hx : x ∈ Ω) :
    H (rfmAt C.scale x) (gfsAt F x) c (T4At T x) =
      hamiltonian (gammaF C.scale F c) (KF C.scale F c) (matterF C.scale F c T) x :=
  H_eq S.rfm S.smooth S.conformal S.det hx T (fun i j => S.ricci hΛ hx i j) (S.tr htr hx)

/-- **C73**: `M^i` is the momentum constraint, and `mU` its rescaled components. -/
theorem C73_momentum (S : Setting P name C Ω F c) (htr : Traceless C.scale F Ω)
    (T : Option (Fin 4 → Fin 4 → Scal)) {x : Vec} (hx : x ∈ Ω) (i : Fin 3) :
    MU (rfmAt C.scale x) (gfsAt F x) c (T4At T x) i =
      momentum (gammaF C.scale F c) (KF C.scale F c) (matterF C.scale F c T) i x ∧
    mU (rfmAt C.scale x) (gfsAt F x) c (T4At T x) i =
      C.scale x i * momentum (gammaF C.scale F c) (KF C.scale F c) (matterF C.scale F c T) i x := by
  have h := MU_eq S.rfm S.smooth S.conformal S.det hx T (fun y hy => S.tr htr hy) i
  refine ⟨h, ?_⟩
  rw [mU, h]
  simp only [rfmAt, RefMetric.ReU]
  rw [div_div_eq_mul_div, div_one, mul_comm]

/-- **C73**, what `Msquared` is: not `M_i M^i = γ_{ij} M^i M^j` as its comment says, but `e^{-4φ}` times that. -/
theorem C73_msquared_partial (S : Setting P name C Ω F c) (htr : Traceless C.scale F Ω)
    (T : Option (Fin 4 → Fin 4 → Scal)) {x : Vec} (hx : x ∈ Ω) :
    Msquared (rfmAt C.scale x) (gfsAt F x) c (T4At T x) = Real.exp (-4 * phiF F c x) *
      ∑ i, ∑ j, gammaF C.scale F c i j x * momentum (gammaF C.scale F c) (KF C.scale F c) (matterF C.scale F c T) i x *
        momentum (gammaF C.scale F c) (KF C.scale F c) (matterF C.scale F c T) j x := by
  have hE : Real.exp (-4 * phiF F c x) * Real.exp (4 * phiF F c x) = 1 := by rw [← Real.exp_add]; simp
  simp only [Msquared, (C73_momentum S htr T hx _).1, gammaF_eq S.smooth S.conformal x hx, Finset.mul_sum]
  refine Finset.sum_congr rfl fun i _ => Finset.sum_congr rfl fun j _ => ?_
  have e : gammabarDD (rfmAt C.scale x) (gfsAt F x) i j = gammabarF C.scale F i j x := rfl
  rw [e]
  linear_combination (-gammabarF C.scale F i j x * momentum (gammaF C.scale F c) (KF C.scale F c) (matterF C.scale F c T) i x *
    momentum (gammaF C.scale F c) (KF C.scale F c) (matterF C.scale F c T) j x) * hE

end

section
variable {P : CoordParams} {name : Py.Str} {C : Coords} {Ω : Dom} {F : ℝ → Fields} {t : ℝ} {c : CF}

/-- **C74**: where the evolved variables change at the rates given by the code, `γ_{ij}` obeys the ADM equation. -/
theorem C74_gamma (S : Setting P name C Ω (F t) c) (htr : Traceless C.scale (F t) Ω)
    {T : Option (Fin 4 → Fin 4 → Scal)} {x : Vec} (hx : x ∈ Ω) (hsol : SolvesAt C.scale c T F t x) (i j : Fin 3) :
    HasDerivAt (fun τ => gammaF C.scale (F τ) c i j x)
      (admGammaRhs (gammaF C.scale (F t) c) (KF C.scale (F t) c) (F t).alpha (betaF C.scale (F t)) i j x) t :=
  deriv_gamma S.rfm S.smooth hx hsol S.conformal (S.tr htr hx) i j

/-- **C74**: and `K_{ij}` obeys the ADM equation up to the Hamiltonian constraint, which the code uses to replace the
curvature scalar in the equation for `K`. -/
theorem C74_K (S : Setting P name C Ω (F t) c) (hΛ : Conformal C.scale (F t) Ω) (htr : Traceless C.scale (F t) Ω)
    {T : Option (Fin 4 → Fin 4 → Scal)} {x : Vec} (hx : x ∈ Ω) (hsol : SolvesAt C.scale c T F t x) (i j : Fin 3) :
    HasDerivAt (fun τ => KF C.scale (F τ) c i j x)
      (admKRhs (gammaF C.scale (F t) c) (KF C.scale (F t) c) (F t).alpha (betaF C.scale (F t)) (matterF C.scale (F t) c T) i j x -
        1 / 3 * (F t).alpha x * gammaF C.scale (F t) c i j x *
          hamiltonian (gammaF C.scale (F t) c) (KF C.scale (F t) c) (matterF C.scale (F t) c T) x) t :=
  deriv_K S.rfm S.smooth hx hsol S.conformal S.det (fun i j => S.ricci hΛ hx i j) (S.tr htr hx) i j

/-- **C74**: on data satisfying the Hamiltonian constraint, exactly the ADM equation. -/
theorem C74_K_constrained (S : Setting P name C Ω (F t) c) (hΛ : Conformal C.scale (F t) Ω) (htr : Traceless C.scale (F t) Ω)
    {T : Option (Fin 4 → Fin 4 → Scal)} {x : Vec} (hx : x ∈ Ω) (hsol : SolvesAt C.scale c T F t x)
    (hH : hamiltonian (gammaF C.scale (F t) c) (KF C.scale (F t) c) (matterF C.scale (F t) c T) x = 0) (i j : Fin 3) :
    HasDerivAt (fun τ => KF C.scale (F τ) c i j x)
      (admKRhs (gammaF C.scale (F t) c) (KF C.scale (F t) c) (F t).alpha (betaF C.scale (F t)) (matterF C.scale (F t) c T) i j x) t := by
  have := C74_K S hΛ htr hx hsol i j
  rwa [hH, mul_zero, sub_zero] at this

end

/-! ### The hypotheses are met -/

/-- The fields `F` and, at the time `τ`, those fields advanced by one explicit Euler step of length `τ`. -/
noncomputable def euler (s : Vec → Vec) (c : CF) (T : Option (Fin 4 → Fin 4 → Scal)) (F : Fields) (τ : ℝ) : Fields :=
  { F with
    hDD := fun i j x => F.hDD i j x + τ * h_rhsDD (rfmAt s x) (gfsAt F x) i j
    aDD := fun i j x => F.aDD i j x + τ * a_rhsDD (rfmAt s x) (gfsAt F x) c (T4At T x) i j
    cf := fun x => F.cf x + τ * cf_rhs (rfmAt s x) (gfsAt F x) c
    trK := fun x => F.trK x + τ * trK_rhs (rfmAt s x) (gfsAt F x) c (T4At T x) }

theorem euler_zero (s : Vec → Vec) (c : CF) (T : Option (Fin 4 → Fin 4 → Scal)) (F : Fields) : euler s c T F 0 = F := by
  simp [euler]

theorem euler_solves (s : Vec → Vec) (c : CF) (T : Option (Fin 4 → Fin 4 → Scal)) (F : Fields) (x : Vec) :
    SolvesAt s c T (euler s c T F) 0 x := by
  have h : ∀ a b : ℝ, HasDerivAt (fun τ : ℝ => a + τ * b) b 0 := fun a b => by
    simpa using ((hasDerivAt_id (0 : ℝ)).mul_const b).const_add a
  constructor <;> intros <;> rw [euler_zero] <;> exact h _ _

/-- A curved, nonunit example in Cartesian coordinates: `γ̄ = dx⁰² + (dx¹ + x¹ dx⁰)² + dx²²` (hyperbolic plane times a
line, of determinant 1), tracefree `Ā`, and `Λ̄` computed from `γ̄`. -/
noncomputable def demoF0 : Fields where
  hDD := ![![fun x => x 1 ^ 2, fun x => x 1, fun _ => 0], ![fun x => x 1, fun _ => 0, fun _ => 0], ![fun _ => 0, fun _ => 0, fun _ => 0]]
  aDD := ![![fun _ => 0, fun _ => 0, fun x => x 0], ![fun _ => 0, fun _ => 0, fun _ => 0], ![fun x => x 0, fun _ => 0, fun _ => 0]]
  lambdaU _ _ := 0
  vetU := ![fun x => x 1, fun _ => 2, fun x => x 0 * x 2]
  betU _ _ := 0
  trK x := x 2
  cf x := 1 + x 0 ^ 2
  alpha x := 1 + x 1 ^ 2

/-- The Cartesian scale factors. -/
def one3 : Vec → Vec := fun _ => ![1, 1, 1]

@[inherit_doc demoF0]
noncomputable def demoF : Fields := { demoF0 with
  lambdaU := fun i x => ∑ j, ∑ k, inverse (gammabarF one3 demoF0) j k x *
    (christoffel (gammabarF one3 demoF0) i j k x - christoffel (ghatF one3) i j k x) }

theorem one3_rfm : IsRfm ⊤ one3 := ⟨fun _ => contDiffOn_const, fun x _ i => by fin_cases i <;> simp [one3]⟩

theorem demoF0_smooth : demoF0.Smooth ⊤ := by
  have h : ∀ i : Fin 3, Sm ⊤ fun x : Vec => x i := fun i => (smooth_coord (N := ∞) i).contDiffOn
  have z : ∀ a : ℝ, Sm ⊤ fun _ : Vec => a := fun a => Sm.const a
  constructor
  · intro i j; fin_cases i <;> fin_cases j <;> first | exact z _ | exact h _ | exact (h 1).pow 2
  · intro i j; fin_cases i <;> fin_cases j <;> first | exact z _ | exact h _
  · intro i; exact z _
  · intro i; fin_cases i <;> first | exact z _ | exact h _ | exact (h 0).mul (h 2)
  · intro i; exact z _
  · exact h 2
  · exact (z 1).add ((h 0).pow 2)
  · exact (z 1).add ((h 1).pow 2)
  · intro i j; fin_cases i <;> fin_cases j <;> rfl
  · intro i j; fin_cases i <;> fin_cases j <;> rfl

theorem demoF0_gammabar (x : Vec) : (Matrix.of fun a b => gammabarF one3 demoF0 a b x) =
    !![1 + x 1 ^ 2, x 1, 0; x 1, 1, 0; 0, 0, 1] := by
  ext i j
  fin_cases i <;> fin_cases j <;>
    simp [gammabarF, gammabarDD, gfsAt, rfmAt, RefMetric.ReDD, RefMetric.ghatDD, one3, demoF0, add_comm]

theorem demoF0_det (x : Vec) : (Matrix.of fun a b => gammabarF one3 demoF0 a b x).det = 1 := by
  rw [demoF0_gammabar, Matrix.det_fin_three]
  simp
  ring

theorem demoF_setting : Setting demo (c% "Cartesian") (cartesian demo.lo demo.hi) ⊤ demoF .W := by
  have hm := gammabarF_metric one3_rfm demoF0_smooth fun y _ => by rw [demoF0_det]; exact one_ne_zero
  refine ⟨by norm_num [demo], ?_, fun x _ i => one3_rfm.ne x trivial i, { demoF0_smooth with lambdaU := fun i => ?_ }, fun x _ => ?_, fun x _ => ?_⟩
  · rw [choose, if_pos (by decide), cartesianChoice, if_pos rfl]
  · exact Sm.sum fun j => Sm.sum fun k => (hm.inverse_smooth j k).mul
      ((hm.christoffel_smooth i j k).sub (one3_rfm.isMetric.christoffel_smooth i j k))
  · show (0 : ℝ) < 1 + x 0 ^ 2
    positivity
  · have : (Matrix.of fun a b => gammabarF one3 demoF a b x).det = 1 := demoF0_det x
    exact this ▸ one_ne_zero

theorem demoF_conformal : Conformal (cartesian demo.lo demo.hi).scale demoF ⊤ := by
  intro i x _
  have h1 : LambdabarF one3 demoF i x = demoF.lambdaU i x := by
    fin_cases i <;> simp [LambdabarF, LambdabarU, gfsAt, rfmAt, RefMetric.ReU, one3]
  exact h1

theorem demoF_traceless : Traceless (cartesian demo.lo demo.hi).scale demoF ⊤ := by
  intro x _
  have hm := gammabarF_metric one3_rfm demoF0_smooth fun y _ => by rw [demoF0_det]; exact one_ne_zero
  have e : inverse (gammabarF one3 demoF0) 0 2 x = 0 := by
    unfold inverse
    rw [demoF0_gammabar, Matrix.inv_def, Matrix.smul_apply, Matrix.adjugate_fin_three]
    simp
  have e' : inverse (gammabarF one3 demoF0) 2 0 x = 0 := by rw [hm.inverse_symm (Ω := ⊤) trivial, e]
  show ∑ i, ∑ j, inverse (gammabarF one3 demoF0) i j x * AbarF one3 demoF i j x = 0
  simp only [Fin.sum_univ_three, e, e']
  simp [AbarF, AbarDD, gfsAt, demoF, demoF0]

/-- The hypotheses of C71 to C74 are met by curved data, with and without matter. -/
example (T : Option (Fin 4 → Fin 4 → Scal)) : ∃ (C : Coords) (F : ℝ → Fields),
    Setting demo (c% "Cartesian") C ⊤ (F 0) .W ∧ Conformal C.scale (F 0) ⊤ ∧ Traceless C.scale (F 0) ⊤ ∧
    (∀ x, SolvesAt C.scale .W T F 0 x) ∧ gammabarF C.scale (F 0) 0 1 ![0, 1, 0] ≠ 0 ∧ AbarF C.scale (F 0) 0 2 ![1, 0, 0] ≠ 0 := by
  refine ⟨cartesian demo.lo demo.hi, euler one3 .W T demoF, ?_, ?_, ?_, euler_solves one3 .W T demoF, ?_, ?_⟩
  · rw [euler_zero]; exact demoF_setting
  · rw [euler_zero]; exact demoF_conformal
  · rw [euler_zero]; exact demoF_traceless
  · rw [euler_zero]
    have : gammabarF one3 demoF 0 1 ![0, 1, 0] = 1 := by
      simp [gammabarF, gammabarDD, gfsAt, rfmAt, RefMetric.ReDD, RefMetric.ghatDD, one3, demoF, demoF0]
    intro h
    exact one_ne_zero (this.symm.trans h)
  · rw [euler_zero]
    have : AbarF one3 demoF 0 2 ![1, 0, 0] = 1 := by
      simp [AbarF, AbarDD, gfsAt, rfmAt, RefMetric.ReDD, one3, demoF, demoF0]
    intro h
    exact one_ne_zero (this.symm.trans h)

/-! ### `Msquared` -/

/-- Flat space, `φ = 1`, `K = x⁰`. -/
noncomputable def msqF : Fields where
  hDD _ _ _ := 0
  aDD _ _ _ := 0
  lambdaU _ _ := 0
  vetU _ _ := 0
  betU _ _ := 0
  trK x := x 0
  cf _ := 1
  alpha _ := 1

/-- **C73** fails for `Msquared`: it is not `γ_{ij} M^i M^j`. -/
theorem C73_msquared_violation : ∃ (C : Coords) (F : Fields) (x : Vec),
    Setting demo (c% "Cartesian") C ⊤ F .phi ∧ Traceless C.scale F ⊤ ∧
    Msquared (rfmAt C.scale x) (gfsAt F x) .phi none ≠
      ∑ i, ∑ j, gammaF C.scale F .phi i j x * MU (rfmAt C.scale x) (gfsAt F x) .phi none i * MU (rfmAt C.scale x) (gfsAt F x) .phi none j := by
  have h : ∀ i : Fin 3, Sm ⊤ fun x : Vec => x i := fun i => (smooth_coord (N := ∞) i).contDiffOn
  have z : ∀ a : ℝ, Sm ⊤ fun _ : Vec => a := fun a => Sm.const a
  have e1 : ∀ x, (Matrix.of fun a b => gammabarF one3 msqF a b x) = 1 := fun x => by
    ext i j
    fin_cases i <;> fin_cases j <;> simp [gammabarF, gammabarDD, gfsAt, rfmAt, RefMetric.ReDD, RefMetric.ghatDD, one3, msqF]
  have hS : Setting demo (c% "Cartesian") (cartesian demo.lo demo.hi) ⊤ msqF .phi := by
    refine ⟨by norm_num [demo], ?_, fun x _ i => one3_rfm.ne x trivial i, ⟨fun _ _ => z _, fun _ _ => z _, fun _ => z _, fun _ => z _,
      fun _ => z _, h 0, z _, z _, fun _ _ => rfl, fun _ _ => rfl⟩, fun x _ => trivial, fun x _ => ?_⟩
    · rw [choose, if_pos (by decide), cartesianChoice, if_pos rfl]
    · have := e1 x
      show (Matrix.of fun a b => gammabarF one3 msqF a b x).det ≠ 0
      rw [this, Matrix.det_one]; exact one_ne_zero
  have hA : ∀ x i j, AbarF one3 msqF i j x = 0 := fun x i j => by simp [AbarF, AbarDD, gfsAt, msqF]
  have hT : Traceless (cartesian demo.lo demo.hi).scale msqF ⊤ := fun x _ => by
    show ∑ i, ∑ j, inverse (gammabarF one3 msqF) i j x * AbarF one3 msqF i j x = 0
    simp [hA]
  refine ⟨_, msqF, 0, hS, hT, ?_⟩
  have hm := C73_msquared_partial hS hT none (x := 0) trivial
  simp only [← (C73_momentum hS hT none (x := 0) trivial _).1] at hm
  have hn : T4At none 0 = none := rfl
  rw [hn] at hm
  rw [hm]
  set Q := ∑ i, ∑ j, gammaF (cartesian demo.lo demo.hi).scale msqF .phi i j 0 *
    MU (rfmAt (cartesian demo.lo demo.hi).scale 0) (gfsAt msqF 0) .phi none i *
    MU (rfmAt (cartesian demo.lo demo.hi).scale 0) (gfsAt msqF 0) .phi none j with hQ
  have hU : ∀ i j, gammabarUU (rfmAt one3 0) (gfsAt msqF 0) i j = if i = j then 1 else 0 := fun i j => by
    rw [gammabarUU_eq one3_rfm hS.smooth, inverse, e1, inv_one, Matrix.one_apply]
  have hK : ∀ j, (gfsAt msqF 0).trK_dD j = if j = 0 then 1 else 0 := fun j => by
    show pd j (fun x => x 0) 0 = _
    fin_cases j <;> simp [RefMetric.pd]
  have hM : ∀ i, MU (rfmAt one3 0) (gfsAt msqF 0) .phi none i = if i = 0 then -(2 / 3) * Real.exp (-4) else 0 := fun i => by
    have hd : ∀ i j k, AbarDD_dD (rfmAt one3 0) (gfsAt msqF 0) i j k = 0 := fun i j k => by
      rw [← pd_AbarF one3_rfm hS.smooth (Ω := ⊤) trivial, show AbarF one3 msqF i j = fun _ => 0 from funext fun x => hA x i j, dpd_const]
    have hA' : ∀ i j, AbarDD (rfmAt one3 0) (gfsAt msqF 0) i j = 0 := fun i j => hA 0 i j
    have he : exp_m4phi (gfsAt msqF 0) .phi = Real.exp (-4) := by simp [exp_m4phi, gfsAt, msqF]
    simp only [MU, AbarUU, AbarDD_dBarD, hd, hA', hU, hK, he, mul_zero, zero_mul, Finset.sum_const_zero, add_zero, zero_add,
      mul_ite, mul_one, Finset.sum_ite_eq, Finset.sum_ite_eq', Finset.mem_univ, if_true, ite_mul]
  have hg : gammaF one3 msqF .phi 0 0 0 = Real.exp 4 := by
    simp [gammaF, gammaDD, exp4phi, gammabarDD, gfsAt, rfmAt, RefMetric.ReDD, RefMetric.ghatDD, one3, msqF]
  have hv : Q = Real.exp 4 * (-(2 / 3) * Real.exp (-4)) * (-(2 / 3) * Real.exp (-4)) := by
    rw [hQ]
    show ∑ i, ∑ j, gammaF one3 msqF .phi i j 0 * MU (rfmAt one3 0) (gfsAt msqF 0) .phi none i *
      MU (rfmAt one3 0) (gfsAt msqF 0) .phi none j = _
    simp only [hM, Fin.sum_univ_three, hg]
    simp only [if_true, show (1 : Fin 3) ≠ 0 by decide, show (2 : Fin 3) ≠ 0 by decide, if_false, mul_zero, zero_mul, add_zero]
  have h0 : Q ≠ 0 := by rw [hv]; positivity
  have h1 : Real.exp (-4 * phiF msqF .phi 0) < 1 := by simp [phiF, msqF]
  intro h2
  have : Real.exp (-4 * phiF msqF .phi 0) = 1 := mul_right_cancel₀ h0 (by rw [one_mul]; exact h2)
  exact h1.ne this

end Verif.BSSN
