import Verif.BSSN.Ricci
import Mathlib.Analysis.SpecialFunctions.ExpDeriv

/-!
# Conformal change of a metric: connection, curvature, divergence
-/
namespace Verif.BSSN
open Verif.RefMetric Real
open scoped ContDiff

theorem Sm.exp {Ω : Dom} {f : Scal} (hf : Sm Ω f) : Sm Ω fun y => Real.exp (f y) := ContDiffOn.exp hf

theorem dpd_exp {Ω : Dom} {f : Scal} {x : Vec} (hx : x ∈ Ω) (k : Fin 3) (hf : Sm Ω f) :
    pd k (fun y => Real.exp (f y)) x = Real.exp (f x) * pd k f x := by
  rw [pd_eq (hf.exp.diff hx), pd_eq (hf.diff hx)]
  rw [((hf.diff hx).hasFDerivAt.exp).fderiv]
  simp

/-- `∂_l g^{ij}` through the connection. -/
theorem IsMetric.pd_inverse' {Ω : Dom} {g : T2} (hg : IsMetric Ω g) {x : Vec} (hx : x ∈ Ω) (i j l : Fin 3) :
    pd l (inverse g i j) x = -∑ m, (christoffel g i l m x * inverse g m j x + christoffel g j l m x * inverse g i m x) := by
  have h := cov_inverse (Γ := fun i j k => christoffel g i j k x) (dg := fun i j k => pd k (g i j) x)
    (hg.inverse_symm hx) (hg.inverse_mul hx) i j l fun a b => hg.symm a b x hx
  have h0 : ∀ c d, covDD (fun i j k => christoffel g i j k x) (fun i j => g i j x) (fun i j k => pd k (g i j) x) c d l = 0 :=
    fun c d => by
      simp only [covDD, hg.compat hx c d l, hg.christoffel_symm hx _ l]
      simp only [Fin.sum_univ_three, hg.symm _ d x hx]
      ring
  simp only [h0, mul_zero, Finset.sum_const_zero, neg_zero] at h
  rw [hg.pd_inverse hx]
  linarith

section Alg
variable {g U : A2} {f v : A1}

/-- The difference of the connections of `e^{4φ} g` and `g`, for `f = dφ`, `v` its gradient. -/
def confA (g : A2) (f v : A1) : A3 := fun i j k =>
  2 * ((if i = j then f k else 0) + (if i = k then f j else 0) - g j k * v i)

theorem confA_quad (hg : ∀ i j, g i j = g j i) (hv : ∀ j, f j = ∑ k, g j k * v k) (j l : Fin 3) :
    ∑ k, ∑ m, (confA g f v k k m * confA g f v m l j - confA g f v k l m * confA g f v m k j) =
      4 * f j * f l - 4 * g j l * ∑ k, f k * v k := by
  obtain rfl : f = fun j => ∑ k, g j k * v k := funext hv
  clear hv
  fin_cases j <;> fin_cases l <;> simp [confA, Fin.sum_univ_three, hg 1 0, hg 2 0, hg 2 1] <;> ring

theorem confA_cov {P V : A2} (hg : ∀ i j, g i j = g j i) (hP : ∀ i j, P i j = P j i)
    (hV : ∀ j l, P j l = ∑ k, g j k * V k l) (j l : Fin 3) :
    ∑ k, (2 * ((if k = l then P j k else 0) + (if k = j then P l k else 0) - g l j * V k k) -
      2 * ((if k = k then P j l else 0) + (if k = j then P k l else 0) - g k j * V k l)) =
      -2 * P j l - 2 * g j l * ∑ k, V k k := by
  have h := hV j l
  simp only [Fin.sum_univ_three] at h
  simp only [Finset.sum_sub_distrib, ← Finset.mul_sum, Finset.sum_add_distrib, Finset.sum_ite_eq', Finset.mem_univ, if_true,
    Fin.sum_univ_three, hg l j, hg _ j, hP l j]
  linear_combination -2 * h

end Alg

section Conf
variable {Ω : Dom} {g γ : T2} {φ : Scal} (hg : IsMetric Ω g) (hφ : Sm Ω φ)
  (hγ : ∀ y ∈ Ω, ∀ i j, γ i j y = Real.exp (4 * φ y) * g i j y)
include hg hφ hγ

omit hg hφ in
theorem conf_matrix {x : Vec} (hx : x ∈ Ω) : (Matrix.of fun a b => γ a b x) = Real.exp (4 * φ x) • Matrix.of fun a b => g a b x := by
  ext a b
  exact hγ x hx a b

theorem conf_metric : IsMetric Ω γ where
  smooth i j := (((Sm.const 4).mul hφ).exp.mul (hg.smooth i j)).congr fun y hy => hγ y hy i j
  symm i j x hx := by rw [hγ x hx, hγ x hx, hg.symm i j x hx]
  det x hx := by
    rw [conf_matrix hγ hx, Matrix.det_smul]
    exact mul_ne_zero (pow_ne_zero _ (Real.exp_pos _).ne') (hg.det x hx)

omit hφ in
theorem conf_inverse {x : Vec} (hx : x ∈ Ω) (i j : Fin 3) : inverse γ i j x = Real.exp (-4 * φ x) * inverse g i j x := by
  unfold inverse
  have hu : IsUnit (Matrix.of fun a b => g a b x).det := isUnit_iff_ne_zero.2 (hg.det x hx)
  have h : (Matrix.of fun a b => γ a b x) * (Real.exp (-4 * φ x) • (Matrix.of fun a b => g a b x)⁻¹) = 1 := by
    rw [conf_matrix hγ hx, Matrix.smul_mul, Matrix.mul_smul, smul_smul, ← Real.exp_add, Matrix.mul_nonsing_inv _ hu]
    ring_nf
    simp
  rw [Matrix.inv_eq_right_inv h]
  rfl

theorem conf_pd {x : Vec} (hx : x ∈ Ω) (i j k : Fin 3) :
    pd k (γ i j) x = Real.exp (4 * φ x) * (4 * pd k φ x * g i j x + pd k (g i j) x) := by
  rw [pd_congr_on (fun y hy => hγ y hy i j) hx k, dpd_mul hx k ((Sm.const 4).mul hφ).exp (hg.smooth i j),
    dpd_exp hx k ((Sm.const 4).mul hφ), dpd_cmul hx k 4 hφ]
  ring

omit hγ hφ in
/-- The gradient `g^{il} φ_{,l}`. -/
theorem lower_grad {x : Vec} (hx : x ∈ Ω) (w : A1) (j : Fin 3) : w j = ∑ k, g j k x * ∑ l, inverse g k l x * w l := by
  have : ∑ k, g j k x * ∑ l, inverse g k l x * w l = ∑ l, (∑ k, g j k x * inverse g k l x) * w l := by
    simp only [Fin.sum_univ_three]; ring
  rw [this]
  simp [hg.mul_inverse hx]

theorem conf_christoffel {x : Vec} (hx : x ∈ Ω) (i j k : Fin 3) : christoffel γ i j k x = christoffel g i j k x +
    confA (fun a b => g a b x) (fun a => pd a φ x) (fun a => ∑ l, inverse g a l x * pd l φ x) i j k := by
  have h1 : christoffel γ i j k x = ∑ m, 1 / 2 * inverse g i m x * (4 * pd j φ x * g m k x + pd j (g m k) x +
      (4 * pd k φ x * g m j x + pd k (g m j) x) - (4 * pd m φ x * g j k x + pd m (g j k) x)) := by
    unfold christoffel
    refine Finset.sum_congr rfl fun m _ => ?_
    rw [conf_inverse hg hγ hx, conf_pd hg hφ hγ hx, conf_pd hg hφ hγ hx, conf_pd hg hφ hγ hx]
    have : Real.exp (-4 * φ x) * Real.exp (4 * φ x) = 1 := by rw [← Real.exp_add]; simp
    linear_combination (1 / 2 * inverse g i m x * (4 * pd j φ x * g m k x + pd j (g m k) x +
      (4 * pd k φ x * g m j x + pd k (g m j) x) - (4 * pd m φ x * g j k x + pd m (g j k) x))) * this
  have h2 := hg.inverse_mul hx i j
  have h3 := hg.inverse_mul hx i k
  rw [h1]
  simp only [christoffel, confA, ← ite_and]
  have e1 : (if i = j then pd k φ x else 0) = (∑ m, inverse g i m x * g m j x) * pd k φ x := by rw [h2]; split_ifs <;> simp
  have e2 : (if i = k then pd j φ x else 0) = (∑ m, inverse g i m x * g m k x) * pd j φ x := by rw [h3]; split_ifs <;> simp
  rw [e1, e2]
  simp only [Fin.sum_univ_three]
  ring

/-- `D_i D_j f` for the two metrics. -/
theorem conf_hessian {x : Vec} (hx : x ∈ Ω) (f : Scal) (i j : Fin 3) : hessian γ f i j x = hessian g f i j x -
    2 * (pd i f x * pd j φ x + pd i φ x * pd j f x - g i j x * ∑ k, ∑ l, inverse g k l x * pd l φ x * pd k f x) := by
  have h : ∀ k, christoffel γ k i j x * pd k f x = christoffel g k i j x * pd k f x + 2 * ((if k = i then pd j φ x * pd k f x else 0) +
      (if k = j then pd i φ x * pd k f x else 0) - g i j x * ∑ l, inverse g k l x * pd l φ x * pd k f x) := fun k => by
    rw [conf_christoffel hg hφ hγ hx, confA, ← Finset.sum_mul]
    split_ifs <;> ring
  simp only [hessian, h, Finset.sum_add_distrib, ← Finset.mul_sum, Finset.sum_sub_distrib, Finset.sum_ite_eq', Finset.mem_univ, if_true]
  ring

/-- The Ricci tensor under a conformal change. -/
theorem conf_ricci {x : Vec} (hx : x ∈ Ω) (j l : Fin 3) : ricci γ j l x = ricci g j l x - 2 * hessian g φ j l x +
    4 * pd j φ x * pd l φ x - 2 * g j l x * ∑ a, ∑ b, inverse g a b x * hessian g φ a b x -
    4 * g j l x * ∑ a, ∑ b, inverse g a b x * pd a φ x * pd b φ x := by
  set f : A1 := fun a => pd a φ x with hf
  set v : A1 := fun a => ∑ l, inverse g a l x * pd l φ x with hvd
  set m : A2 := fun a b => g a b x with hm
  set Γ : A3 := fun a b c => christoffel g a b c x with hΓ
  set dΓ : A4 := fun a b c d => pd d (christoffel g a b c) x with hdΓ
  set P : A2 := fun a b => hessian g φ a b x with hP
  set V : A2 := fun a b => ∑ c, inverse g a c x * P c b with hV
  have msym : ∀ a b, m a b = m b a := fun a b => hg.symm a b x hx
  have Γsym : ∀ a b c, Γ a b c = Γ a c b := hg.christoffel_symm hx
  have Psym : ∀ a b, P a b = P b a := fun a b => by
    show pd a (pd b φ) x - _ = pd b (pd a φ) x - _
    rw [dpd_comm hx a hφ b]
    simp only [hg.christoffel_symm hx _ a b]
  have PV : ∀ a b, P a b = ∑ c, m a c * V c b := fun a b => lower_grad hg hx (fun c => P c b) a
  have hv : ∀ a, f a = ∑ k, m a k * v k := lower_grad hg hx f
  let C : T3 := fun a b c y => confA (fun a b => g a b y) (fun a => pd a φ y) (fun a => ∑ l, inverse g a l y * pd l φ y) a b c
  have sδ : ∀ (p : Prop) [Decidable p] (h : Scal), Sm Ω h → Sm Ω fun y => if p then h y else 0 := fun p _ h hh => by
    by_cases hp : p
    · simpa [hp] using hh
    · simpa [hp] using Sm.const 0
  have sv : ∀ a, Sm Ω fun y => ∑ l, inverse g a l y * pd l φ y := fun a => Sm.sum fun l => (hg.inverse_smooth a l).mul (hφ.pd l)
  have hC : ∀ a b c, Sm Ω (C a b c) := fun a b c =>
    (Sm.const 2).mul (((sδ _ _ (hφ.pd c)).add (sδ _ _ (hφ.pd b))).sub ((hg.smooth b c).mul (sv a)))
  set dC : A4 := fun a b c d => pd d (C a b c) x with hdC
  have eCx : ∀ a b c, C a b c x = confA m f v a b c := fun _ _ _ => rfl
  -- derivative of the difference tensor
  have pδ : ∀ (p : Prop) [Decidable p] (h : Scal) (d : Fin 3), pd d (fun y => if p then h y else 0) x = if p then pd d h x else 0 :=
    fun p _ h d => by
      by_cases hp : p
      · simp [hp]
      · simp only [hp, if_false]; exact dpd_const d 0
  have dCe : ∀ a b c d, dC a b c d = 2 * ((if a = b then pd d (pd c φ) x else 0) + (if a = c then pd d (pd b φ) x else 0) -
      (pd d (g b c) x * v a + m b c * ∑ n, (pd d (inverse g a n) x * f n + inverse g a n x * pd d (pd n φ) x))) := fun a b c d => by
    show pd d (fun y => 2 * (((if a = b then pd c φ y else 0) + (if a = c then pd b φ y else 0)) -
      g b c y * ∑ l, inverse g a l y * pd l φ y)) x = _
    rw [dpd_cmul hx d 2 (((sδ _ _ (hφ.pd c)).add (sδ _ _ (hφ.pd b))).sub ((hg.smooth b c).mul (sv a))),
      dpd_sub hx d ((sδ _ _ (hφ.pd c)).add (sδ _ _ (hφ.pd b))) ((hg.smooth b c).mul (sv a)),
      dpd_add hx d (sδ _ _ (hφ.pd c)) (sδ _ _ (hφ.pd b)), dpd_mul hx d (hg.smooth b c) (sv a), pδ, pδ,
      dpd_dot hx d (fun l => hg.inverse_smooth a l) (fun l => hφ.pd l)]
  have hess : ∀ a b, pd a (pd b φ) x = P a b + ∑ n, Γ n a b * f n := fun a b => by simp [hP, hessian, hΓ, hf]
  have cov : ∀ a b c d, covUDD Γ (confA m f v) dC a b c d =
      2 * ((if a = b then P c d else 0) + (if a = c then P b d else 0) - m b c * V a d) := fun a b c d => by
    have e1 : ∑ n, (Γ a d n * confA m f v n b c - Γ n d b * confA m f v a n c - Γ n d c * confA m f v a b n) =
        2 * ((Γ a d b * f c + Γ a d c * f b - m b c * ∑ n, Γ a d n * v n) -
          (Γ a d b * f c + (if a = c then ∑ n, Γ n d b * f n else 0) - (∑ n, Γ n d b * m n c) * v a) -
          ((if a = b then ∑ n, Γ n d c * f n else 0) + Γ a d c * f b - (∑ n, Γ n d c * m b n) * v a)) := by
      have t1 : ∑ n, Γ a d n * confA m f v n b c = 2 * (Γ a d b * f c + Γ a d c * f b - m b c * ∑ n, Γ a d n * v n) := by
        have : ∀ n, Γ a d n * confA m f v n b c = 2 * ((if n = b then Γ a d n * f c else 0) + (if n = c then Γ a d n * f b else 0) -
            m b c * (Γ a d n * v n)) := fun n => by unfold confA; split_ifs <;> ring
        simp only [this, ← Finset.mul_sum, Finset.sum_sub_distrib, Finset.sum_add_distrib, Finset.sum_ite_eq', Finset.mem_univ, if_true]
      have t2 : ∑ n, Γ n d b * confA m f v a n c =
          2 * (Γ a d b * f c + (if a = c then ∑ n, Γ n d b * f n else 0) - (∑ n, Γ n d b * m n c) * v a) := by
        have : ∀ n, Γ n d b * confA m f v a n c = 2 * ((if a = n then Γ n d b * f c else 0) + (if a = c then Γ n d b * f n else 0) -
            (Γ n d b * m n c) * v a) := fun n => by unfold confA; split_ifs <;> ring
        simp only [this, ← Finset.mul_sum, ← Finset.sum_mul, Finset.sum_sub_distrib, Finset.sum_add_distrib, Finset.sum_ite_eq,
          Finset.mem_univ, if_true]
        split_ifs <;> simp
      have t3 : ∑ n, Γ n d c * confA m f v a b n =
          2 * ((if a = b then ∑ n, Γ n d c * f n else 0) + Γ a d c * f b - (∑ n, Γ n d c * m b n) * v a) := by
        have : ∀ n, Γ n d c * confA m f v a b n = 2 * ((if a = b then Γ n d c * f n else 0) + (if a = n then Γ n d c * f b else 0) -
            (Γ n d c * m b n) * v a) := fun n => by unfold confA; split_ifs <;> ring
        simp only [this, ← Finset.mul_sum, ← Finset.sum_mul, Finset.sum_sub_distrib, Finset.sum_add_distrib, Finset.sum_ite_eq,
          Finset.mem_univ, if_true]
        split_ifs <;> simp
      rw [Finset.sum_sub_distrib, Finset.sum_sub_distrib, t1, t2, t3]
      ring
    rw [covUDD, e1, dCe]
    simp only [hess, hg.pd_inverse' hx, hg.compat hx b c d]
    have e2 : ∑ n, (-∑ q, (christoffel g a d q x * inverse g q n x + christoffel g n d q x * inverse g a q x) * f n +
        inverse g a n x * (P d n + ∑ q, Γ q d n * f q)) = V a d - ∑ n, Γ a d n * v n := by
      simp only [hV, hvd, hΓ, hf, Fin.sum_univ_three, Psym d]
      ring
    have e3 : ∑ n, ((-∑ q, (christoffel g a d q x * inverse g q n x + christoffel g n d q x * inverse g a q x)) * f n +
        inverse g a n x * (P d n + ∑ q, Γ q d n * f q)) = V a d - ∑ n, Γ a d n * v n := by
      rw [← e2]
      refine Finset.sum_congr rfl fun n _ => ?_
      rw [neg_mul, Finset.sum_mul]
    rw [e3]
    have e4 : ∑ q, g c q x * christoffel g q b d x = ∑ n, Γ n d b * m n c := Finset.sum_congr rfl fun n _ => by
      rw [hg.christoffel_symm hx n b d, hg.symm c n x hx, mul_comm]
    have e5 : ∑ q, g b q x * christoffel g q c d x = ∑ n, Γ n d c * m b n := Finset.sum_congr rfl fun n _ => by
      rw [hg.christoffel_symm hx n c d, mul_comm]
    rw [e4, e5, Psym d c, Psym d b]
    split_ifs <;> ring
  -- assemble
  have e0 : ricci γ j l x = ric (fun i j k => Γ i j k + confA m f v i j k) (fun i j k l => dΓ i j k l + dC i j k l) j l := by
    have e1 : ∀ a b c, christoffel γ a b c x = Γ a b c + confA m f v a b c := fun a b c => conf_christoffel hg hφ hγ hx a b c
    have e2 : ∀ a b c d, pd d (christoffel γ a b c) x = dΓ a b c d + dC a b c d := fun a b c d => by
      rw [pd_congr_on (g := fun y => christoffel g a b c y + C a b c y) (fun y hy => conf_christoffel hg hφ hγ hy a b c) hx,
        dpd_add hx d (hg.christoffel_smooth a b c) (hC a b c)]
    simp only [ricci, ricciOf, riemannOf, ric, e1, e2]
  have e1 : ric Γ dΓ j l = ricci g j l x := rfl
  rw [e0, ric_add Γ _ dΓ _ Γsym, e1, confA_quad msym hv]
  have e8 : ∑ k, (covUDD Γ (confA m f v) dC k l j k - covUDD Γ (confA m f v) dC k k j l) =
      -2 * P j l - 2 * m j l * ∑ k, V k k := by
    rw [← confA_cov msym Psym PV j l]
    exact Finset.sum_congr rfl fun k _ => by rw [cov, cov]
  rw [e8]
  have e6 : ∑ k, V k k = ∑ a, ∑ b, inverse g a b x * hessian g φ a b x := by
    simp only [hV, hP]
    refine Finset.sum_congr rfl fun a _ => Finset.sum_congr rfl fun b _ => ?_
    rw [show hessian g φ b a x = hessian g φ a b x from Psym b a]
  have e7 : ∑ k, f k * v k = ∑ a, ∑ b, inverse g a b x * pd a φ x * pd b φ x := by
    simp only [hv, hvd, hf, Fin.sum_univ_three]
    ring
  rw [e6, show ∑ k, f k * v k = ∑ a, ∑ b, inverse g a b x * pd a φ x * pd b φ x from by
    simp only [hvd, hf, Fin.sum_univ_three]; ring]
  ring

/-- The scalar curvature under a conformal change. -/
theorem conf_scalar {x : Vec} (hx : x ∈ Ω) : scalarCurvature γ x = Real.exp (-4 * φ x) * (scalarCurvature g x -
    8 * ∑ a, ∑ b, inverse g a b x * hessian g φ a b x - 8 * ∑ a, ∑ b, inverse g a b x * pd a φ x * pd b φ x) := by
  have h3 : ∑ i, ∑ j, inverse g i j x * g i j x = 3 := by
    have : ∀ i, ∑ j, inverse g i j x * g i j x = 1 := fun i => by
      have := hg.inverse_mul hx i i
      simp only [if_true] at this
      rw [← this]
      exact Finset.sum_congr rfl fun j _ => by rw [hg.symm i j x hx]
    simp [this]
  set p := ∑ a, ∑ b, inverse g a b x * hessian g φ a b x with hp
  set q := ∑ a, ∑ b, inverse g a b x * pd a φ x * pd b φ x with hq
  have e : scalarCurvature γ x = Real.exp (-4 * φ x) * (∑ i, ∑ j, inverse g i j x * ricci g i j x - 2 * p + 4 * q -
      2 * (∑ i, ∑ j, inverse g i j x * g i j x) * p - 4 * (∑ i, ∑ j, inverse g i j x * g i j x) * q) := by
    simp only [scalarCurvature, conf_inverse hg hγ hx, conf_ricci hg hφ hγ hx, ← hp, ← hq]
    rw [hp, hq]
    simp only [Fin.sum_univ_three]
    ring
  rw [e, h3, scalarCurvature]
  ring

/-- The divergence of a symmetric tensor `e^{-4φ} T^{ij}`. -/
theorem conf_divergence {S T : T2} (hT : ∀ i j, Sm Ω (T i j)) (hTs : ∀ y ∈ Ω, ∀ i j, T i j y = T j i y)
    (hS : ∀ y ∈ Ω, ∀ i j, S i j y = Real.exp (-4 * φ y) * T i j y) {x : Vec} (hx : x ∈ Ω) (i : Fin 3) :
    divergence γ S i x = Real.exp (-4 * φ x) * (divergence g T i x + 6 * ∑ j, T i j x * pd j φ x -
      2 * (∑ j, ∑ m, g j m x * T j m x) * ∑ l, inverse g i l x * pd l φ x) := by
  have hpd : ∀ j, pd j (S i j) x = Real.exp (-4 * φ x) * (-4 * pd j φ x * T i j x + pd j (T i j) x) := fun j => by
    rw [pd_congr_on (fun y hy => hS y hy i j) hx j, dpd_mul hx j ((Sm.const (-4)).mul hφ).exp (hT i j),
      dpd_exp hx j ((Sm.const (-4)).mul hφ), dpd_cmul hx j (-4) hφ]
    ring
  set f : A1 := fun a => pd a φ x with hf
  set v : A1 := fun a => ∑ l, inverse g a l x * pd l φ x with hvd
  set m : A2 := fun a b => g a b x with hm
  have hv : ∀ a, f a = ∑ k, m a k * v k := lower_grad hg hx f
  have msym : ∀ a b, m a b = m b a := fun a b => hg.symm a b x hx
  have h1 : ∀ n, ∑ j, confA m f v j j n = 6 * f n := fun n => by
    have := hv n
    simp only [Fin.sum_univ_three] at this
    simp only [confA, ← Finset.mul_sum, Finset.sum_add_distrib, Finset.sum_sub_distrib, Finset.sum_ite_eq', Finset.mem_univ, if_true]
    simp only [Fin.sum_univ_three, msym _ n]
    linear_combination 2 * this
  have h2 : ∑ j, ∑ n, confA m f v i j n * T n j x = 4 * ∑ j, T i j x * f j - 2 * (∑ j, ∑ n, m j n * T j n x) * v i := by
    have t : ∀ j n, confA m f v i j n * T n j x = 2 * ((if i = j then f n * T n j x else 0) + (if i = n then f j * T n j x else 0) -
        m j n * T j n x * v i) := fun j n => by
      unfold confA
      rw [hTs x hx j n]
      split_ifs <;> ring
    simp only [t, ← Finset.mul_sum, ← Finset.sum_mul, Finset.sum_add_distrib, Finset.sum_sub_distrib, Finset.sum_ite_eq, Finset.mem_univ, if_true]
    have t2 : ∑ j, ∑ n, (if i = j then f n * T n j x else 0) = ∑ j, T i j x * f j := by
      rw [Finset.sum_comm]
      simp only [Finset.sum_ite_eq, Finset.mem_univ, if_true]
      exact Finset.sum_congr rfl fun n _ => by rw [hTs x hx n i, mul_comm]
    have t3 : ∑ j, f j * T i j x = ∑ j, T i j x * f j := Finset.sum_congr rfl fun n _ => mul_comm _ _
    rw [t2, t3]
    ring
  have e : divergence γ S i x = Real.exp (-4 * φ x) * (divergence g T i x - 4 * ∑ j, T i j x * f j +
      ∑ j, ∑ n, confA m f v i j n * T n j x + ∑ n, (∑ j, confA m f v j j n) * T i n x) := by
    simp only [divergence, hpd, conf_christoffel hg hφ hγ hx, hS x hx, ← hf, ← hvd, ← hm]
    simp only [Fin.sum_univ_three]
    ring
  rw [e, h2]
  simp only [h1]
  have e8 : ∑ n, 6 * f n * T i n x = 6 * ∑ j, T i j x * f j := by
    rw [Finset.mul_sum]
    exact Finset.sum_congr rfl fun n _ => by ring
  rw [e8]
  ring

end Conf

end Verif.BSSN
