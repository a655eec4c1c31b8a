import Verif.BSSN.LambdaAlgebra
import Verif.BSSN.Claims

/-!
# The evolution equation of `Λ̄` and the algebraic constraints
-/
namespace Verif.BSSN
open Verif.RefMetric Verif.IndexedExp Real

section
variable {Ω : Dom} {s : Vec → Vec} {F : Fields} {c : CF} (hs : IsRfm Ω s) (hF : F.Smooth Ω)
include hs

theorem det_smooth : Sm Ω (RefMetric.detgammahat s) := by
  have h := hs.smooth
  exact (((((h 0).mul (h 1)).mul (h 2)).pow 2)).congr fun y _ => det_ghat s y

theorem det_ne {y : Vec} (hy : y ∈ Ω) : RefMetric.detgammahat s y ≠ 0 := ((C63_inverse s y (hs.ne y hy)).2.2.1).ne'

include hF

/-- `D̄_k β^k` as the code writes it, as a field. -/
theorem sigma_smooth : Sm Ω fun y => Dbarbetacontraction (rfmAt s y) (gfsAt F y) := by
  have hd := det_smooth hs
  have h : Sm Ω fun y => ∑ k, (pd k (betaF s F k) y + betaF s F k y * pd k (RefMetric.detgammahat s) y / (2 * RefMetric.detgammahat s y)) :=
    Sm.sum fun k => ((betaF_smooth hs hF k).pd k).add (((betaF_smooth hs hF k).mul (hd.pd k)).div ((Sm.const 2).mul hd)
      fun y hy => mul_ne_zero two_ne_zero (det_ne hs hy))
  refine h.congr fun y hy => ?_
  unfold Dbarbetacontraction
  simp only [pd_betaF hs hF hy]
  rfl

theorem pd_sigma {x : Vec} (hx : x ∈ Ω) (m : Fin 3) :
    pd m (fun y => Dbarbetacontraction (rfmAt s y) (gfsAt F y)) x = Dbarbetacontraction_dBarD (rfmAt s x) (gfsAt F x) m := by
  have hd := det_smooth hs
  have hβ := betaF_smooth hs hF
  have h0 : ∀ y ∈ Ω, 2 * RefMetric.detgammahat s y ≠ 0 := fun y hy => mul_ne_zero two_ne_zero (det_ne hs hy)
  have e : ∀ y ∈ Ω, Dbarbetacontraction (rfmAt s y) (gfsAt F y) =
      ∑ k, (pd k (betaF s F k) y + betaF s F k y * pd k (RefMetric.detgammahat s) y / (2 * RefMetric.detgammahat s y)) := fun y hy => by
    unfold Dbarbetacontraction
    simp only [pd_betaF hs hF hy]
    rfl
  rw [pd_congr_on e hx, dpd_sum hx m fun k => ((hβ k).pd k).add (((hβ k).mul (hd.pd k)).div ((Sm.const 2).mul hd) h0)]
  unfold Dbarbetacontraction_dBarD
  refine Finset.sum_congr rfl fun k _ => ?_
  rw [dpd_add hx m ((hβ k).pd k) (((hβ k).mul (hd.pd k)).div ((Sm.const 2).mul hd) h0),
    dpd_div hx m ((hβ k).mul (hd.pd k)) ((Sm.const 2).mul hd) h0, dpd_mul hx m (hβ k) (hd.pd k), dpd_cmul hx m 2 hd,
    pd_pd_betaF hs hF hx, pd_betaF hs hF hx]
  have e1 : detgammabar (rfmAt s x) = RefMetric.detgammahat s x := rfl
  have e2 : ∀ k, detgammabar_dD (rfmAt s x) k = pd k (RefMetric.detgammahat s) x := fun _ => rfl
  have e3 : detgammabar_dDD (rfmAt s x) k m = pd m (pd k (RefMetric.detgammahat s)) x := rfl
  have e4 : betaU (rfmAt s x) (gfsAt F x) k = betaF s F k x := rfl
  rw [e1, e2, e2, e3, e4]
  have := det_ne hs hx
  field_simp
  ring

end

/-- The value that `Λ̄^i` stands for. -/
noncomputable def lambdaOf (s : Vec → Vec) (F : Fields) : T1 := fun i x =>
  ∑ j, ∑ k, inverse (gammabarF s F) j k x * (christoffel (gammabarF s F) i j k x - christoffel (ghatF s) i j k x)

section
variable {Ω : Dom} {s : Vec → Vec} {F : Fields} {c : CF} (hs : IsRfm Ω s) (hF : F.Smooth Ω)
  (hc : ∀ y ∈ Ω, cfValid c (F.cf y)) (hdet : ∀ y ∈ Ω, (Matrix.of fun a b => gammabarF s F a b y).det ≠ 0) {x : Vec} (hx : x ∈ Ω)
include hs hF hdet hx

theorem pd_lambdaOf (i m : Fin 3) : pd m (lambdaOf s F i) x =
    ∑ j, ∑ k, (-(∑ a, ∑ b, inverse (gammabarF s F) j a x * pd m (gammabarF s F a b) x * inverse (gammabarF s F) b k x) *
      (christoffel (gammabarF s F) i j k x - christoffel (ghatF s) i j k x) + inverse (gammabarF s F) j k x *
      (pd m (christoffel (gammabarF s F) i j k) x - pd m (christoffel (ghatF s) i j k) x)) := by
  have hg := gammabarF_metric hs hF hdet
  have hU := hg.inverse_smooth
  have hD : ∀ j k, Sm Ω fun y => christoffel (gammabarF s F) i j k y - christoffel (ghatF s) i j k y := fun j k =>
    (hg.christoffel_smooth i j k).sub (hs.isMetric.christoffel_smooth i j k)
  unfold lambdaOf
  rw [dpd_sum hx m fun j => Sm.sum fun k => (hU j k).mul (hD j k)]
  refine Finset.sum_congr rfl fun j _ => ?_
  rw [dpd_sum hx m fun k => (hU j k).mul (hD j k)]
  refine Finset.sum_congr rfl fun k _ => ?_
  rw [dpd_mul hx m (hU j k) (hD j k), dpd_sub hx m (hg.christoffel_smooth i j k) (hs.isMetric.christoffel_smooth i j k), hg.pd_inverse hx]
  congr 2
  refine congrArg _ (Finset.sum_congr rfl fun a _ => Finset.sum_congr rfl fun b _ => ?_)
  rw [hg.inverse_symm hx k b]
  ring

include hc

theorem lambda_source (T4 : Option (Fin 4 → Fin 4 → ℝ)) (i : Fin 3) :
    Lambdabar_rhsU (rfmAt s x) (gfsAt F x) c T4 i - 2 * F.alpha x * Real.exp (4 * phiF F c x) * MU (rfmAt s x) (gfsAt F x) c T4 i =
    Lambdabar_rhsU (rfmAt s x) (gfsAt F x) c none i - 2 * F.alpha x * Real.exp (4 * phiF F c x) * MU (rfmAt s x) (gfsAt F x) c none i := by
  have hE : Real.exp (4 * phiF F c x) * Real.exp (-4 * phiF F c x) = 1 := by rw [← Real.exp_add]; simp
  cases T4 with
  | none => rfl
  | some T =>
    have e1 : Lambdabar_rhsU (rfmAt s x) (gfsAt F x) c (some T) i =
        Lambdabar_rhsU (rfmAt s x) (gfsAt F x) c none i + src_Lambdabar (rfmAt s x) (gfsAt F x) c T i := by
      simp only [Lambdabar_rhsU, add_zero]
    have e2 : MU (rfmAt s x) (gfsAt F x) c (some T) i = MU (rfmAt s x) (gfsAt F x) c none i + src_MU (rfmAt s x) (gfsAt F x) c T i := by
      simp only [MU, add_zero]
    have e3 : src_Lambdabar (rfmAt s x) (gfsAt F x) c T i = 2 * F.alpha x * Real.exp (4 * phiF F c x) * src_MU (rfmAt s x) (gfsAt F x) c T i := by
      simp only [src_Lambdabar, src_MU, gammaUU_eq hs hF hc, inverse_gammaF hs hF hc hdet hx, gammabarUU_eq hs hF]
      have e4 : (gfsAt F x).alpha = F.alpha x := rfl
      rw [e4]
      simp only [Fin.sum_univ_three]
      linear_combination (16 * π * F.alpha x * (inverse (gammabarF s F) i 0 x * bSD (rfmAt s x) (gfsAt F x) c T 0 +
        inverse (gammabarF s F) i 1 x * bSD (rfmAt s x) (gfsAt F x) c T 1 +
        inverse (gammabarF s F) i 2 x * bSD (rfmAt s x) (gfsAt F x) c T 2)) * hE
    rw [e1, e2, e3]
    ring

end

/-- Like `SolvesAt`, with `lambdaU`, and with the spatial derivatives of `h_{ij}` changing at the derivatives of its rate, as they do when the
solution has continuous second derivatives in time and space. -/
structure SolvesAt1 (Ω : Dom) (s : Vec → Vec) (c : CF) (T : Option (Fin 4 → Fin 4 → Scal)) (F : ℝ → Fields) (t : ℝ) (x : Vec) : Prop
    extends SolvesAt s c T F t x where
  lambdaU : ∀ i, HasDerivAt (fun τ => (F τ).lambdaU i x) (lambda_rhsU (rfmAt s x) (gfsAt (F t) x) c (T4At T x) i) t
  smooth : ∀ τ i j, Sm Ω ((F τ).hDD i j)
  pd_hDD : ∀ i j k, HasDerivAt (fun τ => pd k ((F τ).hDD i j) x) (pd k (fun y => h_rhsDD (rfmAt s y) (gfsAt (F t) y) i j) x) t

section
variable {Ω : Dom} {s : Vec → Vec} {c : CF} {T : Option (Fin 4 → Fin 4 → Scal)} {F : ℝ → Fields} {t : ℝ} {x : Vec}
  (hs : IsRfm Ω s) (hF : (F t).Smooth Ω) (hdet : ∀ y ∈ Ω, (Matrix.of fun a b => gammabarF s (F t) a b y).det ≠ 0)
  (hx : x ∈ Ω)

/-- The Lie derivative of `γ̄` as a field. -/
noncomputable def lieF (s : Vec → Vec) (F : Fields) : T2 := fun i j y =>
  ∑ n, (betaF s F n y * pd n (gammabarF s F i j) y + pd i (betaF s F n) y * gammabarF s F n j y + pd j (betaF s F n) y * gammabarF s F i n y)

include hs hF

theorem lieF_smooth (i j : Fin 3) : Sm Ω (lieF s (F t) i j) := by
  have hβ := betaF_smooth hs hF
  have hg := gammabarF_smooth hs hF
  exact Sm.sum fun n => (((hβ n).mul ((hg i j).pd n)).add (((hβ n).pd i).mul (hg n j))).add (((hβ n).pd j).mul (hg i n))

theorem pd_lieF {x : Vec} (hx : x ∈ Ω) (i j l : Fin 3) : pd l (lieF s (F t) i j) x =
    ∑ n, (pd l (betaF s (F t) n) x * pd n (gammabarF s (F t) i j) x + betaF s (F t) n x * pd l (pd n (gammabarF s (F t) i j)) x +
      pd l (pd i (betaF s (F t) n)) x * gammabarF s (F t) n j x + pd i (betaF s (F t) n) x * pd l (gammabarF s (F t) n j) x +
      pd l (pd j (betaF s (F t) n)) x * gammabarF s (F t) i n x + pd j (betaF s (F t) n) x * pd l (gammabarF s (F t) i n) x) := by
  have hβ := betaF_smooth hs hF
  have hg := gammabarF_smooth hs hF
  unfold lieF
  rw [dpd_sum hx l fun n => (((hβ n).mul ((hg i j).pd n)).add (((hβ n).pd i).mul (hg n j))).add (((hβ n).pd j).mul (hg i n))]
  refine Finset.sum_congr rfl fun n _ => ?_
  rw [dpd_add hx l (((hβ n).mul ((hg i j).pd n)).add (((hβ n).pd i).mul (hg n j))) (((hβ n).pd j).mul (hg i n)),
    dpd_add hx l ((hβ n).mul ((hg i j).pd n)) (((hβ n).pd i).mul (hg n j)), dpd_mul hx l (hβ n) ((hg i j).pd n),
    dpd_mul hx l ((hβ n).pd i) (hg n j), dpd_mul hx l ((hβ n).pd j) (hg i n)]
  ring

/-- The three parts of the rate of `γ̄`. -/
theorem rate_split (htr : ∀ y ∈ Ω, trAbar (rfmAt s y) (gfsAt (F t) y) = 0) (y : Vec) (hy : y ∈ Ω) (i j : Fin 3) :
    gammabar_rhsDD (rfmAt s y) (gfsAt (F t) y) i j = lieF s (F t) i j y +
      (-(2 / 3) * Dbarbetacontraction (rfmAt s y) (gfsAt (F t) y)) * gammabarF s (F t) i j y + (-2 * (F t).alpha y) * AbarF s (F t) i j y := by
  unfold gammabar_rhsDD lieF
  rw [htr y hy]
  simp only [pd_betaF hs hF hy, pd_gammabarF hs hF hy]
  have e1 : gammabarDD_dD (rfmAt s y) (gfsAt (F t) y) = gammabarDD_dupD (rfmAt s y) (gfsAt (F t) y) := rfl
  have e2 : (gfsAt (F t) y).alpha = (F t).alpha y := rfl
  rw [e1, e2]
  simp only [gammabarF, AbarF, betaF]
  ring

theorem rate_smooth (htr : ∀ y ∈ Ω, trAbar (rfmAt s y) (gfsAt (F t) y) = 0) (i j : Fin 3) :
    Sm Ω fun y => gammabar_rhsDD (rfmAt s y) (gfsAt (F t) y) i j :=
  (((lieF_smooth hs hF i j).add (((Sm.const (-(2 / 3))).mul (sigma_smooth hs hF)).mul (gammabarF_smooth hs hF i j))).add
    (((Sm.const (-2)).mul hF.alpha).mul (AbarF_smooth hs hF i j))).congr fun y hy => rate_split hs hF htr y hy i j

theorem h_rhs_smooth (htr : ∀ y ∈ Ω, trAbar (rfmAt s y) (gfsAt (F t) y) = 0) (i j : Fin 3) :
    Sm Ω fun y => h_rhsDD (rfmAt s y) (gfsAt (F t) y) i j :=
  (rate_smooth hs hF htr i j).div (hs.ReDD i j) fun y hy => (rfmAt_regular (hs.ne y hy)).ReDD i j

/-- The rate of `Λ̄^i` in the code is the rate of the quantity it stands for, up to the momentum constraint. -/
theorem deriv_lambdaOf (hdet : ∀ y ∈ Ω, (Matrix.of fun a b => gammabarF s (F t) a b y).det ≠ 0) (hx : x ∈ Ω)
    (hc : ∀ y ∈ Ω, cfValid c ((F t).cf y))
    (hflat : ∀ i j k l, ∀ y ∈ Ω, riemannOf (RefMetric.GammahatUDD s) i j k l y = 0)
    (hΛ : Conformal s (F t) Ω) (htr : ∀ y ∈ Ω, trAbar (rfmAt s y) (gfsAt (F t) y) = 0)
    (hsol : SolvesAt1 Ω s c T F t x) (i : Fin 3) :
    HasDerivAt (fun τ => lambdaOf s (F τ) i x)
      (Lambdabar_rhsU (rfmAt s x) (gfsAt (F t) x) c (T4At T x) i -
        2 * (F t).alpha x * Real.exp (4 * phiF (F t) c x) * MU (rfmAt s x) (gfsAt (F t) x) c (T4At T x) i) t := by
  have hg := gammabarF_metric hs hF hdet
  have hA := AbarF_smooth hs hF
  have hβ := betaF_smooth hs hF
  have hσ := sigma_smooth hs hF
  have hlie := lieF_smooth hs hF
  -- the rate as a field
  set Y : T2 := fun i j y => gammabar_rhsDD (rfmAt s y) (gfsAt (F t) y) i j with hY
  have hYe : ∀ i j, ∀ y ∈ Ω, Y i j y = lieF s (F t) i j y +
      (-(2 / 3) * Dbarbetacontraction (rfmAt s y) (gfsAt (F t) y)) * gammabarF s (F t) i j y + (-2 * (F t).alpha y) * AbarF s (F t) i j y :=
    fun i j y hy => rate_split hs hF htr y hy i j
  have s1 := fun i j => ((Sm.const (-(2 / 3))).mul hσ).mul (hg.smooth i j)
  have s2 := fun i j => ((Sm.const (-2)).mul hF.alpha).mul (hA i j)
  have hd1 : ∀ i j, HasDerivAt (fun τ => gammabarF s (F τ) i j x) (Y i j x) t := fun i j => deriv_gammabar hs hx hsol.toSolvesAt i j
  have hRe : ∀ i j, ∀ y ∈ Ω, (rfmAt s y).ReDD i j ≠ 0 := fun i j y hy => (rfmAt_regular (hs.ne y hy)).ReDD i j
  have hd2 : ∀ i j k, HasDerivAt (fun τ => pd k (gammabarF s (F τ) i j) x) (pd k (Y i j) x) t := fun i j k => by
    have e : ∀ τ, pd k (gammabarF s (F τ) i j) x = pd k ((F τ).hDD i j) x * RefMetric.ReDD s i j x +
        (F τ).hDD i j x * pd k (RefMetric.ReDD s i j) x + pd k (RefMetric.ghatDD s i j) x := fun τ => by
      show pd k (fun y => (F τ).hDD i j y * RefMetric.ReDD s i j y + RefMetric.ghatDD s i j y) x = _
      rw [dpd_add hx k ((hsol.smooth τ i j).mul (hs.ReDD i j)) (hs.ghatDD i j), dpd_mul hx k (hsol.smooth τ i j) (hs.ReDD i j)]
    simp only [e]
    refine ((((hsol.pd_hDD i j k).mul_const _).add ((hsol.hDD i j).mul_const _)).add_const _).congr_deriv ?_
    have hh := h_rhs_smooth hs hF htr i j
    have e2 : pd k (Y i j) x = pd k (fun y => h_rhsDD (rfmAt s y) (gfsAt (F t) y) i j * RefMetric.ReDD s i j y) x :=
      pd_congr_on (fun y hy => (div_mul_cancel₀ _ (hRe i j y hy)).symm) hx k
    rw [e2, dpd_mul hx k hh (hs.ReDD i j)]
  refine (hasDerivAt_lambda hd1 hd2 (hdet x hx) (fun a b c => christoffel (ghatF s) a b c x) i).congr_deriv ?_
  -- split the rate
  have hX : (fun i j => Y i j x) = fun a b => (lieF s (F t) a b x + (-(2 / 3) * Dbarbetacontraction (rfmAt s x) (gfsAt (F t) x)) * gammabarF s (F t) a b x) +
      (-2 * (F t).alpha x) * AbarF s (F t) a b x := by
    funext a b; exact hYe a b x hx
  have hdX : (fun i j k => pd k (Y i j) x) = fun a b k => (pd k (lieF s (F t) a b) x +
      ((-(2 / 3) * Dbarbetacontraction_dBarD (rfmAt s x) (gfsAt (F t) x) k) * gammabarF s (F t) a b x +
      (-(2 / 3) * Dbarbetacontraction (rfmAt s x) (gfsAt (F t) x)) * pd k (gammabarF s (F t) a b) x)) +
      ((-2 * pd k (F t).alpha x) * AbarF s (F t) a b x + (-2 * (F t).alpha x) * pd k (AbarF s (F t) a b) x) := by
    funext a b k
    rw [pd_congr_on (fun y hy => hYe a b y hy) hx k, dpd_add hx k ((hlie a b).add (s1 a b)) (s2 a b), dpd_add hx k (hlie a b) (s1 a b),
      dpd_mul hx k ((Sm.const (-(2 / 3))).mul hσ) (hg.smooth a b), dpd_mul hx k ((Sm.const (-2)).mul hF.alpha) (hA a b),
      dpd_cmul hx k _ hσ, dpd_cmul hx k _ hF.alpha, pd_sigma hs hF hx]
  rw [hX, hdX, dtLam_add, dtLam_add, lambda_source hs hF hc hdet hx]
  -- the shift
  have hsym : ∀ a b, gammabarF s (F t) a b x = gammabarF s (F t) b a x := fun a b => congrFun (gammabarF_symm hs hF a b) x
  have hUg := fun a b => hg.inverse_mul hx a b
  have hgU := fun a b => hg.mul_inverse hx a b
  have hUs := fun a b => hg.inverse_symm hx a b
  have h1 := fun a j k => hg.lower_christoffel hx a j k
  have hChr := hg.christoffel_smooth
  have h2 : ∀ a j k m, ∑ l, (pd m (gammabarF s (F t) a l) x * christoffel (gammabarF s (F t)) l j k x +
      gammabarF s (F t) a l x * pd m (christoffel (gammabarF s (F t)) l j k) x) =
      1 / 2 * (pd m (pd j (gammabarF s (F t) a k)) x + pd m (pd k (gammabarF s (F t) a j)) x - pd m (pd a (gammabarF s (F t) j k)) x) := fun a j k m => by
    have h := pd_congr_on (fun y hy => hg.lower_christoffel hy a j k) hx m
    rw [dpd_sum hx m fun l => (hg.smooth a l).mul (hChr l j k),
      dpd_cmul hx m _ ((((hg.smooth a k).pd j).add ((hg.smooth a j).pd k)).sub ((hg.smooth j k).pd a)),
      dpd_sub hx m (((hg.smooth a k).pd j).add ((hg.smooth a j).pd k)) ((hg.smooth j k).pd a),
      dpd_add hx m ((hg.smooth a k).pd j) ((hg.smooth a j).pd k)] at h
    rw [← h]
    exact Finset.sum_congr rfl fun l _ => (dpd_mul hx m (hg.smooth a l) (hChr l j k)).symm
  have hL := dtLam_lie (g := fun a b => gammabarF s (F t) a b x) (U := fun a b => inverse (gammabarF s (F t)) a b x)
    (dg := fun a b k => pd k (gammabarF s (F t) a b) x) (Γ := fun a b k => christoffel (gammabarF s (F t)) a b k x)
    (dΓ := fun a b k l => pd l (christoffel (gammabarF s (F t)) a b k) x) hsym hUg hgU
    (Δ := fun a b k => christoffel (gammabarF s (F t)) a b k x - christoffel (ghatF s) a b k x)
    (H := fun a b k => christoffel (ghatF s) a b k x) (dH := fun a b k l => pd l (christoffel (ghatF s) a b k) x) (fun _ _ _ => rfl)
    (fun a => betaF s (F t) a x) (fun a b => pd b (betaF s (F t) a) x) (fun a b k => pd k (pd b (betaF s (F t) a)) x)
    (fun a b l => pd l (lieF s (F t) a b) x) (fun a j k => by
      have := dtGamma_lie (g := fun a b => gammabarF s (F t) a b x) (U := fun a b => inverse (gammabarF s (F t)) a b x)
        (dg := fun a b k => pd k (gammabarF s (F t) a b) x) (Γ := fun a b k => christoffel (gammabarF s (F t)) a b k x)
        (dΓ := fun a b k l => pd l (christoffel (gammabarF s (F t)) a b k) x)
        (ddg := fun a b k l => pd l (pd k (gammabarF s (F t) a b)) x) hsym hUg h1 h2
        (fun a b k l => (dpd_comm hx k (hg.smooth a b) l).symm) (fun a => betaF s (F t) a x) (fun a b => pd b (betaF s (F t) a) x)
        (fun a b k => pd k (pd b (betaF s (F t) a)) x) (fun a b k => (dpd_comm hx b (hβ a) k).symm) a j k
      simp only [pd_lieF hs hF hx]
      exact this) i
  have hC := dtLam_conf (g := fun a b => gammabarF s (F t) a b x) (U := fun a b => inverse (gammabarF s (F t)) a b x)
    (dg := fun a b k => pd k (gammabarF s (F t) a b) x) (Γ := fun a b k => christoffel (gammabarF s (F t)) a b k x) hsym hUs hUg hgU h1
    (Δ := fun a b k => christoffel (gammabarF s (F t)) a b k x - christoffel (ghatF s) a b k x)
    (-(2 / 3) * Dbarbetacontraction (rfmAt s x) (gfsAt (F t) x)) (fun k => -(2 / 3) * Dbarbetacontraction_dBarD (rfmAt s x) (gfsAt (F t) x) k) i
  have htr0 : ∀ y ∈ Ω, ∑ a, ∑ b, inverse (gammabarF s (F t)) a b y * AbarF s (F t) a b y = 0 := fun y hy => by
    have := htr y hy
    rw [trAbar_eq hs hF] at this
    exact this
  have hdtr : ∀ k, ∑ a, ∑ b, (-(∑ a', ∑ b', inverse (gammabarF s (F t)) a a' x * pd k (gammabarF s (F t) a' b') x *
      inverse (gammabarF s (F t)) b' b x) * AbarF s (F t) a b x + inverse (gammabarF s (F t)) a b x * pd k (AbarF s (F t) a b) x) = 0 := fun k => by
    have h := pd_congr_on (g := fun _ => 0) htr0 hx k
    rw [dpd_sum hx k fun a => Sm.sum fun b => (hg.inverse_smooth a b).mul (hA a b)] at h
    have h0 : pd k (fun _ : Vec => (0 : ℝ)) x = 0 := dpd_const k 0
    rw [h0] at h
    rw [← h]
    refine Finset.sum_congr rfl fun a _ => ?_
    rw [dpd_sum hx k fun b => (hg.inverse_smooth a b).mul (hA a b)]
    refine Finset.sum_congr rfl fun b _ => ?_
    rw [dpd_mul hx k (hg.inverse_smooth a b) (hA a b), hg.pd_inverse hx]
    congr 3
    refine Finset.sum_congr rfl fun a' _ => Finset.sum_congr rfl fun b' _ => ?_
    rw [hUs b b']
    ring
  have hT := dtLam_tracefree (g := fun a b => gammabarF s (F t) a b x) (U := fun a b => inverse (gammabarF s (F t)) a b x)
    (dg := fun a b k => pd k (gammabarF s (F t) a b) x) (Γ := fun a b k => christoffel (gammabarF s (F t)) a b k x) hsym hUs hUg h1
    (Δ := fun a b k => christoffel (gammabarF s (F t)) a b k x - christoffel (ghatF s) a b k x)
    (A := fun a b => AbarF s (F t) a b x) (Au := fun a b => raise2 (gammabarF s (F t)) (AbarF s (F t)) a b x)
    (dA := fun a b k => pd k (AbarF s (F t) a b) x) (fun a b k => by rw [gammabarF_symm hs hF])
    (fun a b => by rw [AbarF_symm hs hF]) (fun a b k => by rw [AbarF_symm hs hF]) (fun _ _ => rfl) (htr0 x hx) hdtr hgU
    (-2 * (F t).alpha x) (fun k => -2 * pd k (F t).alpha x) i
  have hL' : dtLam (fun a b => inverse (gammabarF s (F t)) a b x) (fun a b k => christoffel (gammabarF s (F t)) a b k x)
      (fun a b k => christoffel (gammabarF s (F t)) a b k x - christoffel (ghatF s) a b k x)
      (fun a b => lieF s (F t) a b x) (fun a b l => pd l (lieF s (F t) a b) x) i = _ := hL
  rw [hL', hC, hT]
  clear hL hL' hC hT hX hdX hYe hd1 hd2 s1 s2
  -- the terms of the code
  have hH : ∀ a b k, (rfmAt s x).GammahatUDD a b k = christoffel (ghatF s) a b k x := fun a b k => Gammahat_eq x a b k
  have hHs : ∀ a b k, christoffel (ghatF s) a b k x = christoffel (ghatF s) a k b x := fun a b k => hs.isMetric.christoffel_symm hx a b k
  have hHd : ∀ a b k l, (rfmAt s x).GammahatUDDdD a b k l = pd l (christoffel (ghatF s) a b k) x := fun a b k l =>
    congrFun (congrArg (pd l) (funext fun y => Gammahat_eq y a b k)) x
  have hHds : ∀ a b k l, pd l (christoffel (ghatF s) a b k) x = pd l (christoffel (ghatF s) a k b) x := fun a b k l =>
    pd_congr_on (fun y hy => hs.isMetric.christoffel_symm hy a b k) hx l
  have t1 : ∀ m, ∑ j, ∑ k, (-(∑ a, ∑ b, inverse (gammabarF s (F t)) j a x * pd m (gammabarF s (F t) a b) x * inverse (gammabarF s (F t)) b k x) *
      (christoffel (gammabarF s (F t)) i j k x - christoffel (ghatF s) i j k x) + inverse (gammabarF s (F t)) j k x *
      (pd m (christoffel (gammabarF s (F t)) i j k) x - pd m (christoffel (ghatF s) i j k) x)) =
      LambdabarU_dupD (rfmAt s x) (gfsAt (F t) x) i m := fun m => by
    rw [← pd_lambdaOf hs hF hdet hx i m]
    exact (pd_congr_on (fun y hy => (hΛ i y hy).symm) hx m).trans ((pd_LambdabarF hs hF hx i m).trans (add_comm _ _))
  have t2 : ∀ m, ∑ j, ∑ k, inverse (gammabarF s (F t)) j k x * (christoffel (gammabarF s (F t)) m j k x - christoffel (ghatF s) m j k x) =
      LambdabarU (rfmAt s x) (gfsAt (F t) x) m := fun m => (hΛ m x hx).symm
  have t3 : ∀ j k, DGammaUDD (rfmAt s x) (gfsAt (F t) x) i j k = christoffel (gammabarF s (F t)) i j k x - christoffel (ghatF s) i j k x := fun j k => by
    unfold DGammaUDD
    rw [GammabarUDD_eq hs hF hx, hH]
  have t4 : ∀ j k, lieG (fun a b k => christoffel (ghatF s) a b k x) (fun a b k l => pd l (christoffel (ghatF s) a b k) x)
      (fun a => betaF s (F t) a x) (fun a b => pd b (betaF s (F t) a) x) (fun a b k => pd k (pd b (betaF s (F t) a)) x) i j k =
      Term2aUDD (rfmAt s x) (gfsAt (F t) x) i j k + Term2bUDD (rfmAt s x) (gfsAt (F t) x) i j k + Term2cUDD (rfmAt s x) (gfsAt (F t) x) i j k :=
    fun j k => by
    have hfl : ∀ m, riemannOf (RefMetric.GammahatUDD s) i k m j x = 0 := fun m => hflat i k m j x hx
    have e : RefMetric.GammahatUDD s = christoffel (ghatF s) := funext fun a => funext fun b => funext fun c => funext fun y => Gammahat_eq y a b c
    simp only [riemannOf, e] at hfl
    simp only [Term2aUDD, Term2bUDD, Term2cUDD, lieG, hH, hHd, ← pd_betaF hs hF hx, ← pd_pd_betaF hs hF hx]
    rw [dpd_comm hx k (hβ i) j]
    have hb : ∀ m, betaU (rfmAt s x) (gfsAt (F t) x) m = betaF s (F t) m x := fun _ => rfl
    simp only [hb]
    have f0 := hfl 0
    have f1 := hfl 1
    have f2 := hfl 2
    simp only [Fin.sum_univ_three] at f0 f1 f2 ⊢
    simp only [hHs _ k j, hHs _ j 0, hHs _ j 1, hHs _ j 2] at f0 f1 f2 ⊢
    linear_combination betaF s (F t) 0 x * f0 + betaF s (F t) 1 x * f1 + betaF s (F t) 2 x * f2
  have h5 : ∀ k l j, covDD (fun i j k => christoffel (gammabarF s (F t)) i j k x) (fun i j => AbarF s (F t) i j x)
      (fun i j k => pd k (AbarF s (F t) i j) x) k l j = AbarDD_dBarD (rfmAt s x) (gfsAt (F t) x) k l j := fun k l j => by
    unfold covDD AbarDD_dBarD
    simp only [pd_AbarF hs hF hx, GammabarUDD_eq hs hF hx, AbarF, Fin.sum_univ_three]
    ring
  have h6 : ∀ j, (gfsAt (F t) x).trK_dD j = pd j (F t).trK x := fun _ => rfl
  have h7 : ∀ j, (gfsAt (F t) x).alpha_dD j = pd j (F t).alpha x := fun _ => rfl
  have h8 : (gfsAt (F t) x).alpha = (F t).alpha x := rfl
  have hb : ∀ m, betaU (rfmAt s x) (gfsAt (F t) x) m = betaF s (F t) m x := fun _ => rfl
  have hE : Real.exp (4 * phiF (F t) c x) * Real.exp (-4 * phiF (F t) c x) = 1 := by rw [← Real.exp_add]; simp
  simp only [t1, t2, t4, h5]
  unfold Lambdabar_rhsU MU DGammaU
  simp only [t3, t2, h6, h7, h8, hb, gammabarUU_eq hs hF, AbarUU_eq hs hF, ← pd_phiF hF hc hx, exp_m4phi_eq hF hc hx, ← pd_betaF hs hF hx, add_zero]
  have hM : ∀ M : ℝ, 2 * (F t).alpha x * Real.exp (4 * phiF (F t) c x) * (M * Real.exp (-4 * phiF (F t) c x)) = 2 * (F t).alpha x * M := fun M => by
    linear_combination 2 * (F t).alpha x * M * hE
  rw [hM]
  generalize hW : (∑ j, ∑ k, ∑ l, inverse (gammabarF s (F t)) i k x * inverse (gammabarF s (F t)) j l x * AbarDD_dBarD (rfmAt s x) (gfsAt (F t) x) k l j) = W
  simp only [Fin.sum_univ_three]
  ring

end

end Verif.BSSN
