import Verif.RefMetric.CoordsClaims
import Verif.IndexedExp.InvertersProps
import Mathlib.Analysis.Calculus.FDeriv.Symmetric
import Mathlib.Analysis.Calculus.Deriv.Pi
import Mathlib.LinearAlgebra.Matrix.NonsingularInverse
import Mathlib.Analysis.SpecialFunctions.Trigonometric.Deriv
import Mathlib.Analysis.SpecialFunctions.ExpDeriv

/-!
# Properties of the hatted quantities (C63)
-/
namespace Verif.RefMetric
open Verif.Py Verif.IndexedExp Real

/-! ### Partial derivatives -/

theorem pd_eq {f : Vec → ℝ} {x : Vec} (hf : DifferentiableAt ℝ f x) (k : Fin 3) : pd k f x = fderiv ℝ f x (Pi.single k 1) := by
  unfold pd
  have hu : HasDerivAt (Function.update x k) (Pi.single k 1) (x k) := hasDerivAt_update x k (x k)
  have he : Function.update x k (x k) = x := Function.update_eq_self k x
  have hf' : HasFDerivAt f (fderiv ℝ f x) (Function.update x k (x k)) := by rw [he]; exact hf.hasFDerivAt
  exact (hf'.comp_hasDerivAt (x k) hu).deriv

theorem pd_contDiff {f : Vec → ℝ} (hf : ContDiff ℝ 2 f) (k : Fin 3) : ContDiff ℝ 1 (pd k f) := by
  have : pd k f = fun x => fderiv ℝ f x (Pi.single k 1) := by
    funext x
    exact pd_eq ((hf.differentiable (by norm_num)) x) k
  rw [this]
  exact (hf.fderiv_right (m := 1) (by norm_num)).clm_apply contDiff_const

theorem pd_comm {f : Vec → ℝ} (hf : ContDiff ℝ 2 f) (k l : Fin 3) (x : Vec) : pd k (pd l f) x = pd l (pd k f) x := by
  have hd : ∀ l, pd l f = fun x => fderiv ℝ f x (Pi.single l 1) := fun l => by
    funext x
    exact pd_eq ((hf.differentiable (by norm_num)) x) l
  have h1 : Differentiable ℝ (fderiv ℝ f) := (hf.fderiv_right (m := 1) (by norm_num)).differentiable (by norm_num)
  have h2 : ∀ k l, pd k (pd l f) x = fderiv ℝ (fderiv ℝ f) x (Pi.single k 1) (Pi.single l 1) := by
    intro k l
    rw [pd_eq (((pd_contDiff hf l).differentiable (by norm_num)) x), hd l]
    rw [fderiv_clm_apply (h1 x) (differentiableAt_const _)]
    simp
  rw [h2, h2]
  exact (hf.contDiffAt.isSymmSndFDerivAt (by simp)) _ _

theorem pd_mul {f g : Vec → ℝ} (hf : Differentiable ℝ f) (hg : Differentiable ℝ g) (k : Fin 3) (x : Vec) :
    pd k (fun y => f y * g y) x = pd k f x * g x + f x * pd k g x := by
  rw [pd_eq ((hf x).fun_mul (hg x)), pd_eq (hf x), pd_eq (hg x), fderiv_fun_mul (hf x) (hg x)]
  simp
  ring

theorem pd_sum {f : Fin 3 → Vec → ℝ} (hf : ∀ a, Differentiable ℝ (f a)) (k : Fin 3) (x : Vec) :
    pd k (fun y => ∑ a, f a y) x = ∑ a, pd k (f a) x := by
  rw [pd_eq (DifferentiableAt.fun_sum fun a _ => hf a x), fderiv_fun_sum fun a _ => hf a x]
  simp [pd_eq (hf _ x)]

/-! ### Inverse, determinant, rescaling -/

theorem det_ghat (s : Vec → Vec) (x : Vec) : detgammahat s x = (s x 0 * s x 1 * s x 2) ^ 2 := by
  simp [detgammahat, symmInv3Det, ghatDD]
  ring

/-- Where no scale factor vanishes: `ghatUU` is the inverse of `ghatDD`, the determinant is the determinant and positive,
`ReU` is inverse to `ReD`, and the rescaled reference metric is the unit matrix. -/
theorem C63_inverse (s : Vec → Vec) (x : Vec) (h : ∀ i, s x i ≠ 0) :
    (Matrix.of fun i j => ghatUU s i j x) * (Matrix.of fun i j => ghatDD s i j x) = 1 ∧
    detgammahat s x = (Matrix.of fun i j => ghatDD s i j x).det ∧ 0 < detgammahat s x ∧
    (∀ i, ReU s i x * ReD s i x = 1) ∧ (∀ i j, ReDD s i j x = ReD s i x * ReD s j x) ∧
    (∀ i j, ghatDD s i j x = (if i = j then 1 else 0) * ReDD s i j x) := by
  have hd : s x 0 * s x 1 * s x 2 ≠ 0 := mul_ne_zero (mul_ne_zero (h 0) (h 1)) (h 2)
  have h0 := h 0
  have h1 := h 1
  have h2 := h 2
  refine ⟨?_, ?_, ?_, ?_, ?_, ?_⟩
  · ext i j
    have := det_ghat s x
    unfold detgammahat at this
    fin_cases i <;> fin_cases j <;> simp [Matrix.mul_apply, Fin.sum_univ_three, ghatUU, this] <;>
      simp [symmInv3Num, ghatDD] <;> field_simp
  · rw [det_ghat, Matrix.det_fin_three]
    simp [ghatDD]
    ring
  · rw [det_ghat]; positivity
  · intro i
    have := h i
    unfold ReU ReD
    field_simp
  · intro i j; rfl
  · intro i j
    unfold ghatDD ReDD
    split
    · next e => subst e; ring
    · ring

theorem ghatUU_mul (s : Vec → Vec) (x : Vec) (h : ∀ i, s x i ≠ 0) (i j : Fin 3) :
    ∑ m, ghatDD s i m x * ghatUU s m j x = if i = j then 1 else 0 := by
  have := mul_eq_one_comm.1 (C63_inverse s x h).1
  have e := congrFun (congrFun this i) j
  rw [Matrix.mul_apply, Matrix.one_apply] at e
  exact e

theorem ghatDD_symm (s : Vec → Vec) (i j : Fin 3) : ghatDD s i j = ghatDD s j i := by
  funext x
  unfold ghatDD
  by_cases h : i = j
  · subst h; rfl
  · rw [if_neg h, if_neg (Ne.symm h)]

/-! ### The connection -/

/-- Lowered Christoffel symbols. -/
theorem lower_Gamma (s : Vec → Vec) (x : Vec) (h : ∀ i, s x i ≠ 0) (n k l : Fin 3) :
    ∑ i, ghatDD s n i x * GammahatUDD s i k l x =
      1 / 2 * (ghatDDdD s n k l x + ghatDDdD s n l k x - ghatDDdD s k l n x) := by
  have : ∑ i, ghatDD s n i x * GammahatUDD s i k l x =
      ∑ m, (∑ i, ghatDD s n i x * ghatUU s i m x) *
        (1 / 2 * (ghatDDdD s m k l x + ghatDDdD s m l k x - ghatDDdD s k l m x)) := by
    unfold GammahatUDD
    simp_rw [Finset.mul_sum, Finset.sum_mul]
    rw [Finset.sum_comm]
    exact Finset.sum_congr rfl fun m _ => Finset.sum_congr rfl fun i _ => by ring
  rw [this]
  simp_rw [ghatUU_mul s x h]
  simp

/-- The connection is symmetric and preserves the reference metric. -/
theorem C63_connection (s : Vec → Vec) (x : Vec) (h : ∀ i, s x i ≠ 0) :
    (∀ i k l, GammahatUDD s i k l x = GammahatUDD s i l k x) ∧
    ∀ i j k, pd k (ghatDD s i j) x =
      ∑ m, GammahatUDD s m k i x * ghatDD s m j x + ∑ m, GammahatUDD s m k j x * ghatDD s i m x := by
  have hsym : ∀ i j k, ghatDDdD s i j k x = ghatDDdD s j i k x := by
    intro i j k
    unfold ghatDDdD
    rw [ghatDD_symm]
  constructor
  · intro i k l
    unfold GammahatUDD
    exact Finset.sum_congr rfl fun m _ => by rw [hsym k l m]; ring
  · intro i j k
    have e1 : ∑ m, GammahatUDD s m k i x * ghatDD s m j x = ∑ m, ghatDD s j m x * GammahatUDD s m k i x :=
      Finset.sum_congr rfl fun m _ => by rw [ghatDD_symm s m j]; ring
    have e2 : ∑ m, GammahatUDD s m k j x * ghatDD s i m x = ∑ m, ghatDD s i m x * GammahatUDD s m k j x :=
      Finset.sum_congr rfl fun m _ => by ring
    rw [e1, e2, lower_Gamma s x h, lower_Gamma s x h]
    rw [hsym j k i, hsym j i k, hsym k i j, hsym i k j, hsym k j i]
    unfold ghatDDdD
    ring

/-! ### Flatness -/

variable {N : WithTop ℕ∞}

theorem smooth_sinhv1 (ampl w : ℝ) : ContDiff ℝ N fun t => sinhv1 t ampl w := by
  unfold sinhv1
  fun_prop

theorem smooth_sinhv2 (n : ℕ) (ampl w slope : ℝ) : ContDiff ℝ N fun t => sinhv2 n t ampl w slope := by
  unfold sinhv2
  fun_prop

theorem smooth_coord (i : Fin 3) : ContDiff ℝ N fun x : Vec => x i := contDiff_apply ℝ ℝ i

theorem smooth_sphericalLike {r : ℝ → ℝ} (hr : ContDiff ℝ N r) (lo hi : Vec) (o : Option (Vec → Vec)) (a : Fin 3) :
    ContDiff ℝ N fun y => (sphericalLike r lo hi o).toCart y a := by
  have h0 := hr.comp (smooth_coord 0)
  have s1 := contDiff_sin.comp (smooth_coord (N := N) 1)
  have c1 := contDiff_cos.comp (smooth_coord (N := N) 1)
  have s2 := contDiff_sin.comp (smooth_coord (N := N) 2)
  have c2 := contDiff_cos.comp (smooth_coord (N := N) 2)
  fin_cases a
  · exact (h0.mul s1).mul c2
  · exact (h0.mul s1).mul s2
  · exact h0.mul c1

theorem smooth_cylindricalLike {r z : ℝ → ℝ} (hr : ContDiff ℝ N r) (hz : ContDiff ℝ N z) (lo hi : Vec)
    (o : Option (Vec → Vec)) (a : Fin 3) : ContDiff ℝ N fun y => (cylindricalLike r z lo hi o).toCart y a := by
  have h0 := hr.comp (smooth_coord 0)
  have s1 := contDiff_sin.comp (smooth_coord (N := N) 1)
  have c1 := contDiff_cos.comp (smooth_coord (N := N) 1)
  fin_cases a
  · exact h0.mul c1
  · exact h0.mul s1
  · exact hz.comp (smooth_coord 2)

theorem smooth_symTPLike {aa : ℝ → ℝ} (ha : ContDiff ℝ N aa) {b : ℝ} (hb : b ≠ 0) (hi : Vec) (a : Fin 3) :
    ContDiff ℝ N fun y => (symTPLike aa b hi).toCart y a := by
  have h0 := ha.comp (smooth_coord 0)
  have s1 := contDiff_sin.comp (smooth_coord (N := N) 1)
  have c1 := contDiff_cos.comp (smooth_coord (N := N) 1)
  have s2 := contDiff_sin.comp (smooth_coord (N := N) 2)
  have c2 := contDiff_cos.comp (smooth_coord (N := N) 2)
  fin_cases a
  · exact (h0.mul s1).mul c2
  · exact (h0.mul s1).mul s2
  · exact (((h0.pow 2).add contDiff_const).sqrt fun x => by
      have : 0 < b ^ 2 := by positivity
      positivity).mul c1

theorem smooth_wedges (ampl w rmin : ℝ) (a : Fin 3) :
    ContDiff ℝ N (fun y => (upperWedge ampl w rmin).toCart y a) ∧
    ContDiff ℝ N fun y => (lowerWedge ampl w rmin).toCart y a := by
  have h0 := (smooth_sinhv1 ampl w).comp (smooth_coord (N := N) 0)
  have s1 := contDiff_sin.comp (smooth_coord (N := N) 1)
  have c1 := contDiff_cos.comp (smooth_coord (N := N) 1)
  have s2 := contDiff_sin.comp (smooth_coord (N := N) 2)
  have c2 := contDiff_cos.comp (smooth_coord (N := N) 2)
  fin_cases a
  · exact ⟨h0.neg.mul c1, h0.mul c1⟩
  · exact ⟨(h0.mul s1).mul s2, (h0.mul s1).mul s2⟩
  · exact ⟨(h0.mul s1).mul c2, (h0.neg.mul s1).mul c2⟩

theorem smooth_toCart {P : CoordParams} (hb : P.b ≠ 0) {name : Str} {c : Coords} (h : choose P name = .sys c)
    (a : Fin 3) : ContDiff ℝ N fun y => c.toCart y a := by
  cases known_of_choose h with
  | cartesian => fin_cases a <;> exact smooth_coord _
  | sinhCartesian => fin_cases a <;> exact (smooth_sinhv1 _ _).comp (smooth_coord _)
  | spherical => exact smooth_sphericalLike contDiff_id _ _ _ a
  | sinhSpherical => exact smooth_sphericalLike (smooth_sinhv1 _ _) _ _ _ a
  | holey => exact smooth_sphericalLike (smooth_sinhv1 _ _) _ _ _ a
  | ringHoley => exact smooth_sphericalLike (smooth_sinhv1 _ _) _ _ _ a
  | sphericalv2 => exact smooth_sphericalLike (smooth_sinhv2 _ _ _ _) _ _ _ a
  | upper => exact (smooth_wedges _ _ _ a).1
  | lower => exact (smooth_wedges _ _ _ a).2
  | symTP => exact smooth_symTPLike contDiff_id hb _ a
  | sinhSymTP => exact smooth_symTPLike (smooth_sinhv1 _ _) hb _ a
  | cylindrical => exact smooth_cylindricalLike contDiff_id contDiff_id _ _ _ a
  | sinhCylindrical => exact smooth_cylindricalLike (smooth_sinhv1 _ _) (smooth_sinhv1 _ _) _ _ _ a
  | cylindricalv2 => exact smooth_cylindricalLike (smooth_sinhv2 _ _ _ _) (smooth_sinhv2 _ _ _ _) _ _ _ a

theorem flat_of_metric {c : Coords} (hX : ∀ a, ContDiff ℝ 2 fun y => c.toCart y a)
    (hg : ∀ x i j, ghatDD c.scale i j x = flatMetric c i j x) (x : Vec) (h : ∀ i, c.scale x i ≠ 0) (k l a : Fin 3) :
    ∑ i, GammahatUDD c.scale i k l x * pd i (fun y => c.toCart y a) x = pd k (pd l fun y => c.toCart y a) x := by
  set X : Fin 3 → Vec → ℝ := fun a y => c.toCart y a with hXdef
  have hd : ∀ i a, Differentiable ℝ (pd i (X a)) := fun i a => (pd_contDiff (hX a) i).differentiable (by norm_num)
  have hdg : ∀ i j k, ghatDDdD c.scale i j k x =
      ∑ a, (pd k (pd i (X a)) x * pd j (X a) x + pd i (X a) x * pd k (pd j (X a)) x) := by
    intro i j k
    unfold ghatDDdD
    rw [show ghatDD c.scale i j = fun y => ∑ a, pd i (X a) y * pd j (X a) y from funext fun y => hg y i j]
    rw [pd_sum fun a => (hd i a).fun_mul (hd j a)]
    exact Finset.sum_congr rfl fun a _ => pd_mul (hd i a) (hd j a) k x
  -- lowered symbols
  have hlow : ∀ n, ∑ i, ghatDD c.scale n i x * GammahatUDD c.scale i k l x =
      ∑ b, pd n (X b) x * pd k (pd l (X b)) x := by
    intro n
    rw [lower_Gamma c.scale x h, hdg, hdg, hdg, ← Finset.sum_add_distrib, ← Finset.sum_sub_distrib, Finset.mul_sum]
    refine Finset.sum_congr rfl fun b _ => ?_
    rw [pd_comm (hX b) l n, pd_comm (hX b) k n, pd_comm (hX b) l k]
    ring
  -- the matrix of the derivatives is invertible
  let E : Matrix (Fin 3) (Fin 3) ℝ := Matrix.of fun i b => pd i (X b) x
  let G : Matrix (Fin 3) (Fin 3) ℝ := Matrix.of fun i j => ghatDD c.scale i j x
  let Γ : Fin 3 → ℝ := fun i => GammahatUDD c.scale i k l x
  let D : Fin 3 → ℝ := fun b => pd k (pd l (X b)) x
  have hG : G = E * E.transpose := by
    ext i j
    rw [Matrix.mul_apply]
    exact hg x i j
  have hGdet : G.det ≠ 0 := by
    have := (C63_inverse c.scale x h).2
    rw [show G.det = detgammahat c.scale x from this.1.symm]
    exact this.2.1.ne'
  have hE : IsUnit E.det := by
    rw [hG, Matrix.det_mul] at hGdet
    exact isUnit_iff_ne_zero.2 (left_ne_zero_of_mul hGdet)
  have hmv : G.mulVec Γ = E.mulVec D := by
    funext n
    exact hlow n
  rw [hG, ← Matrix.mulVec_mulVec] at hmv
  have hinj : E.transpose.mulVec Γ = D := by
    have := congrArg (fun v => (E⁻¹).mulVec v) hmv
    simpa [Matrix.mulVec_mulVec, ← Matrix.mul_assoc, Matrix.nonsing_inv_mul _ hE] using this
  have := congrFun hinj a
  show ∑ i, Γ i * E i a = D a
  rw [← this]
  simp only [Matrix.mulVec, dotProduct, Matrix.transpose_apply]
  exact Finset.sum_congr rfl fun i _ => by ring

/-- `GammahatUDD` is the connection of flat space: contracted with the derivatives of a Cartesian coordinate it gives the
second derivatives of that coordinate. -/
theorem C63_flat {P : CoordParams} (hb : P.b ≠ 0) {name : Str} {c : Coords} (h : choose P name = .sys c) (x : Vec)
    (hs : ∀ i, c.scale x i ≠ 0) (k l a : Fin 3) :
    ∑ i, GammahatUDD c.scale i k l x * pd i (fun y => c.toCart y a) x = pd k (pd l fun y => c.toCart y a) x :=
  flat_of_metric (smooth_toCart hb h) (fun x i j => C60_flat hb h x i j) x hs k l a

/-- The hypotheses are met: in spherical coordinates away from the axis. -/
example : ∃ c, choose demo (c% "Spherical") = .sys c ∧ ∀ i, c.scale ![1, π / 2, 0] i ≠ 0 := by
  refine ⟨_, rfl, ?_⟩
  intro i
  fin_cases i <;> simp [spherical, sphericalLike]

/-! ### The arrays of derivatives -/

open Filter Topology in
theorem pd_congr {f g : Vec → ℝ} {x : Vec} (h : f =ᶠ[𝓝 x] g) (k : Fin 3) : pd k f x = pd k g x := by
  unfold pd
  apply Filter.EventuallyEq.deriv_eq
  have hc : ContinuousAt (Function.update x k) (x k) := (hasDerivAt_update x k (x k)).continuousAt
  have hx : Function.update x k (x k) = x := Function.update_eq_self k x
  have : Tendsto (Function.update x k) (𝓝 (x k)) (𝓝 x) := by
    have := hc.tendsto
    rwa [hx] at this
  exact this.eventually h

theorem pd_mul_at {f g : Vec → ℝ} {x : Vec} (hf : DifferentiableAt ℝ f x) (hg : DifferentiableAt ℝ g x) (k : Fin 3) :
    pd k (fun y => f y * g y) x = pd k f x * g x + f x * pd k g x := by
  rw [pd_eq (hf.fun_mul hg), pd_eq hf, pd_eq hg, fderiv_fun_mul hf hg]
  simp
  ring

theorem pd_contDiffAt {f : Vec → ℝ} {x : Vec} (hf : ContDiffAt ℝ 2 f x) (k : Fin 3) : DifferentiableAt ℝ (pd k f) x := by
  have h1 : ContDiffAt ℝ 1 (fun y => fderiv ℝ f y (Pi.single k 1)) x :=
    (hf.fderiv_right (m := 1) (by norm_num)).clm_apply contDiffAt_const
  have h2 : pd k f =ᶠ[nhds x] fun y => fderiv ℝ f y (Pi.single k 1) := by
    filter_upwards [hf.eventually (by simp)] with y hy
    exact pd_eq (hy.differentiableAt (by norm_num)) k
  exact (h1.differentiableAt (by norm_num)).congr_of_eventuallyEq h2

theorem pd_pd_mul {f g : Vec → ℝ} {x : Vec} (hf : ContDiffAt ℝ 2 f x) (hg : ContDiffAt ℝ 2 g x) (k l : Fin 3) :
    pd l (pd k fun y => f y * g y) x =
      pd l (pd k f) x * g x + pd k f x * pd l g x + pd l f x * pd k g x + f x * pd l (pd k g) x := by
  have h1 : pd k (fun y => f y * g y) =ᶠ[nhds x] fun y => pd k f y * g y + f y * pd k g y := by
    filter_upwards [hf.eventually (by simp), hg.eventually (by simp)] with y hy hz
    exact pd_mul_at (hy.differentiableAt (by norm_num)) (hz.differentiableAt (by norm_num)) k
  have df := hf.differentiableAt (by norm_num)
  have dg := hg.differentiableAt (by norm_num)
  have d1 := (pd_contDiffAt hf k).fun_mul dg
  have d2 := df.fun_mul (pd_contDiffAt hg k)
  rw [pd_congr h1, pd_eq (d1.fun_add d2), fderiv_fun_add d1 d2, ContinuousLinearMap.add_apply, ← pd_eq d1, ← pd_eq d2,
    pd_mul_at (pd_contDiffAt hf k) dg, pd_mul_at df (pd_contDiffAt hg k)]
  ring

/-- The arrays of derivatives are those of the product rule: they give the first and second derivatives of a rescaled
field from those of the field, for vectors (upper and lower index) and tensors. -/
theorem C63_derivatives (s : Vec → Vec) (x : Vec) (hs : ∀ i, ContDiffAt ℝ 2 (fun y => s y i) x) (h : ∀ i, s x i ≠ 0)
    (f : Vec → ℝ) (hf : ContDiffAt ℝ 2 f x) (i j k l : Fin 3) :
    pd k (fun y => f y * (1 / s y i)) x = pd k f x * ReU s i x + f x * ReUdD s i k x ∧
    pd k (fun y => f y * s y i) x = pd k f x * ReD s i x + f x * ReDdD s i k x ∧
    pd k (fun y => f y * (s y i * s y j)) x = pd k f x * ReDD s i j x + f x * ReDDdD s i j k x ∧
    pd l (pd k fun y => f y * (1 / s y i)) x =
      pd l (pd k f) x * ReU s i x + pd k f x * ReUdD s i l x + pd l f x * ReUdD s i k x + f x * ReUdDD s i k l x ∧
    pd l (pd k fun y => f y * s y i) x =
      pd l (pd k f) x * ReD s i x + pd k f x * ReDdD s i l x + pd l f x * ReDdD s i k x + f x * ReDdDD s i k l x ∧
    pd l (pd k fun y => f y * (s y i * s y j)) x =
      pd l (pd k f) x * ReDD s i j x + pd k f x * ReDDdD s i j l x + pd l f x * ReDDdD s i j k x +
        f x * ReDDdDD s i j k l x := by
  have df := hf.differentiableAt (by norm_num)
  have hU : ContDiffAt ℝ 2 (fun y => 1 / s y i) x := contDiffAt_const.div (hs i) (h i)
  have hDD : ContDiffAt ℝ 2 (fun y => s y i * s y j) x := (hs i).mul (hs j)
  exact ⟨pd_mul_at df (hU.differentiableAt (by norm_num)) k, pd_mul_at df ((hs i).differentiableAt (by norm_num)) k,
    pd_mul_at df (hDD.differentiableAt (by norm_num)) k, pd_pd_mul hf hU k l, pd_pd_mul hf (hs i) k l,
    pd_pd_mul hf hDD k l⟩

theorem pd_comm_at {f : Vec → ℝ} {x : Vec} (hf : ContDiffAt ℝ 2 f x) (k l : Fin 3) :
    pd k (pd l f) x = pd l (pd k f) x := by
  have h2 : ∀ k l, pd k (pd l f) x = fderiv ℝ (fderiv ℝ f) x (Pi.single k 1) (Pi.single l 1) := by
    intro k l
    have he : pd l f =ᶠ[nhds x] fun y => fderiv ℝ f y (Pi.single l 1) := by
      filter_upwards [hf.eventually (by simp)] with y hy
      exact pd_eq (hy.differentiableAt (by norm_num)) l
    have h1 : DifferentiableAt ℝ (fderiv ℝ f) x :=
      (hf.fderiv_right (m := 1) (by norm_num)).differentiableAt (by norm_num)
    rw [pd_congr he, pd_eq (h1.clm_apply (differentiableAt_const _)),
      fderiv_clm_apply h1 (differentiableAt_const _)]
    simp
  rw [h2, h2]
  exact (hf.isSymmSndFDerivAt (by simp)) _ _

/-- Derivatives of the determinant: Jacobi's formula, and second derivatives of the product of the squared scale
factors, in either order. -/
theorem C63_determinant (s : Vec → Vec) (x : Vec) (hs : ∀ i, ContDiffAt ℝ 2 (fun y => s y i) x) (h : ∀ i, s x i ≠ 0)
    (k l : Fin 3) :
    detgammahatdD s k x = detgammahat s x * ∑ i, ∑ j, ghatUU s i j x * ghatDDdD s i j k x ∧
    detgammahatdDD s k l x = pd k (pd l fun y => (s y 0 * s y 1 * s y 2) ^ 2) x := by
  have hdet : detgammahat s = fun y => (s y 0 * s y 1 * s y 2) ^ 2 := funext (det_ghat s)
  have hP : ContDiffAt ℝ 2 (fun y => (s y 0 * s y 1 * s y 2) ^ 2) x := (((hs 0).mul (hs 1)).mul (hs 2)).pow 2
  have ds : ∀ i, DifferentiableAt ℝ (fun y => s y i) x := fun i => (hs i).differentiableAt (by norm_num)
  constructor
  · have hpow : ∀ i, pd k (fun y => s y i ^ 2) x = 2 * s x i * pd k (fun y => s y i) x := by
      intro i
      have : (fun y => s y i ^ 2) = fun y => s y i * s y i := by funext y; ring
      rw [this, pd_mul_at (ds i) (ds i)]
      ring
    have hg : ∀ i j, ghatDDdD s i j k x = if i = j then 2 * s x i * pd k (fun y => s y i) x else 0 := by
      intro i j
      unfold ghatDDdD
      by_cases e : i = j
      · subst e
        rw [if_pos rfl, ← hpow i]
        congr 1
        funext y
        simp [ghatDD]
      · rw [if_neg e, show ghatDD s i j = fun _ => (0 : ℝ) by funext y; simp [ghatDD, e]]
        rw [pd_eq (differentiableAt_const _)]
        simp
    have hL : detgammahatdD s k x = pd k (fun y => (s y 0 * s y 1 * s y 2) ^ 2) x := by
      unfold detgammahatdD; rw [hdet]
    have hexp : (fun y => (s y 0 * s y 1 * s y 2) ^ 2) = fun y => (s y 0 ^ 2 * s y 1 ^ 2) * s y 2 ^ 2 := by
      funext y; ring
    have dp : ∀ i, DifferentiableAt ℝ (fun y => s y i ^ 2) x := fun i => (ds i).fun_pow 2
    rw [hL, hexp, pd_mul_at ((dp 0).fun_mul (dp 1)) (dp 2), pd_mul_at (dp 0) (dp 1), hpow, hpow, hpow]
    simp_rw [hg]
    simp only [mul_ite, mul_zero, Finset.sum_ite_eq, Finset.mem_univ, if_true, Fin.sum_univ_three]
    have hdx := det_ghat s x
    have hU : ∀ i, ghatUU s i i x * s x i ^ 2 = 1 := by
      intro i
      have e := congrFun (congrFun (C63_inverse s x h).1 i) i
      rw [Matrix.mul_apply, Matrix.one_apply] at e
      simpa [ghatDD] using e
    have e0 := hU 0
    have e1 := hU 1
    have e2 := hU 2
    have hU' : ∀ i, ghatUU s i i x = 1 / s x i ^ 2 := fun i => by
      have := h i
      rw [eq_div_iff (by positivity)]; exact hU i
    rw [hdx, hU' 0, hU' 1, hU' 2]
    have h0 := h 0
    have h1 := h 1
    have h2 := h 2
    field_simp
  · unfold detgammahatdDD detgammahatdD
    rw [hdet]
    exact pd_comm_at hP l k

/-- The hypotheses on the scale factors are met. -/
example : ∃ c, choose demo (c% "Spherical") = .sys c ∧ (∀ i, c.scale ![1, π / 2, 0] i ≠ 0) ∧
    ∀ i, ContDiffAt ℝ 2 (fun y => c.scale y i) ![1, π / 2, 0] := by
  refine ⟨_, rfl, ?_, ?_⟩
  · intro i
    fin_cases i <;> simp [spherical, sphericalLike]
  · intro i
    fin_cases i
    · simp [spherical, sphericalLike]
      exact contDiffAt_const
    · exact (smooth_coord 0).contDiffAt
    · exact ((smooth_coord 0).mul (contDiff_sin.comp (smooth_coord 1))).contDiffAt

end Verif.RefMetric
