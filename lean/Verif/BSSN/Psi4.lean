import Verif.BSSN.Psi4Model
import Verif.BSSN.Claims
import Mathlib.Data.Complex.Basic
import Mathlib.Data.Complex.BigOperators

/-!
# C85: psi4
-/
namespace Verif.BSSN
open Verif.RefMetric Verif.IndexedExp

/-! ## Specification -/

abbrev W4 := Fin 4 → Fin 4 → Fin 4 → Fin 4 → ℝ

/-- `R_{ijkl} = g_{im} R^m_{jkl}`. -/
noncomputable def riemannLow (g : T2) (i j k l : Fin 3) : Scal := fun x => ∑ m, g i m x * riemannOf (christoffel g) m j k l x

/-- The covariant derivative `D_k T_{ij}`. -/
noncomputable def covDeriv (g T : T2) (k i j : Fin 3) : Scal := fun x =>
  pd k (T i j) x - ∑ m, (christoffel g m k i x * T m j x + christoffel g m k j x * T i m x)

/-- `Riem` are the components, in the basis `n, ∂_1, ∂_2, ∂_3` made of the unit normal of the slice and the coordinate vectors, of the
curvature of a spacetime in which `γ_ij` and `K_ij` are the metric and the extrinsic curvature of a slice: the symmetries of a curvature
tensor, and the equations of Gauss and Codazzi; `vacuum` is the part of Einstein's equations tangent to the slice, `R_{jl} = 0`. -/
structure VacuumCurvature (γ K : T2) (x : Vec) (Riem : W4) : Prop where
  anti1 : ∀ a b c d, Riem b a c d = -Riem a b c d
  anti2 : ∀ a b c d, Riem a b d c = -Riem a b c d
  pair : ∀ a b c d, Riem c d a b = Riem a b c d
  gauss : ∀ i j k l : Fin 3, Riem i.succ j.succ k.succ l.succ = riemannLow γ i j k l x + K i k x * K j l x - K i l x * K j k x
  codazzi : ∀ j k l : Fin 3, Riem 0 j.succ k.succ l.succ = covDeriv γ K k l j x - covDeriv γ K l k j x
  vacuum : ∀ j l : Fin 3, -Riem 0 j.succ 0 l.succ + ∑ i : Fin 3, ∑ m : Fin 3, inverse γ i m x * Riem i.succ j.succ m.succ l.succ = 0

/-- `Ψ₄ = R_{abcd} n^a m̄^b n^c m̄^d`. -/
noncomputable def psi4 (Riem : W4) (n : W1) (m : Fin 4 → ℂ) : ℂ :=
  ∑ a, ∑ b, ∑ c, ∑ d, Riem a b c d * n a * (starRingEnd ℂ) (m b) * n c * (starRingEnd ℂ) (m d)

/-! ## The Riemann tensor -/

section
variable {Ω : Dom} {g : T2}

theorem riemann_aux {g : A2} (hg : ∀ a b, g a b = g b a) (L M : A2) (i k : Fin 3) :
    -(∑ n, (∑ p, g n p * L p i + ∑ p, g i p * L p n) * M n k) + (∑ n, (∑ p, g n p * M p i + ∑ p, g i p * M p n) * L n k) +
      ∑ n, ∑ p, g i n * (L n p * M p k - M n p * L p k) = ∑ n, ∑ p, g n p * (L n k * M p i - M n k * L p i) := by
  simp only [Fin.sum_univ_three]
  rw [hg 1 0, hg 2 0, hg 2 1]
  ring

theorem IsMetric.riemannLow_eq (hg : IsMetric Ω g) {x : Vec} (hx : x ∈ Ω) (i k l m : Fin 3) : riemannLow g i k l m x =
    1 / 2 * (pd l (pd k (g i m)) x + pd m (pd i (g k l)) x - pd m (pd k (g i l)) x - pd l (pd i (g k m)) x) +
    ∑ n, ∑ p, g n p x * (christoffel g n k l x * christoffel g p i m x - christoffel g n k m x * christoffel g p i l x) := by
  have key : ∀ l m : Fin 3, ∑ n, g i n x * pd l (christoffel g n m k) x =
      1 / 2 * (pd l (pd m (g i k)) x + pd l (pd k (g i m)) x - pd l (pd i (g m k)) x) - ∑ n, pd l (g i n) x * christoffel g n m k x := by
    intro l m
    have h1 := dpd_dot (k := l) hx (fun n => hg.smooth i n) (fun n => hg.christoffel_smooth n m k)
    have h2 : pd l (fun y => ∑ n, g i n y * christoffel g n m k y) x =
        pd l (fun y => 1 / 2 * (pd m (g i k) y + pd k (g i m) y - pd i (g m k) y)) x :=
      pd_congr_on (fun y hy => hg.lower_christoffel hy i m k) hx l
    have s1 := (hg.smooth i k).pd m
    have s2 := (hg.smooth i m).pd k
    have s3 := (hg.smooth m k).pd i
    rw [dpd_cmul hx l _ ((s1.add s2).sub s3), dpd_sub hx l (s1.add s2) s3, dpd_add hx l s1 s2] at h2
    rw [← h2, h1, Finset.sum_add_distrib]
    ring
  have e : riemannLow g i k l m x = ∑ n, g i n x * pd l (christoffel g n m k) x - ∑ n, g i n x * pd m (christoffel g n l k) x +
      ∑ n, ∑ p, g i n x * (christoffel g n l p x * christoffel g p m k x - christoffel g n m p x * christoffel g p l k x) := by
    unfold riemannLow riemannOf
    rw [← Finset.sum_sub_distrib, ← Finset.sum_add_distrib]
    refine Finset.sum_congr rfl fun n _ => ?_
    rw [← Finset.mul_sum]
    ring
  rw [e, key, key, dpd_comm hx (k := m) (l := l) (hg.smooth i k)]
  have hs : ∀ a b, christoffel g a l b x = christoffel g a b l x := fun a b => hg.christoffel_symm hx a l b
  have hs' : ∀ a b, christoffel g a m b x = christoffel g a b m x := fun a b => hg.christoffel_symm hx a m b
  have q1 : pd l (pd i (g k m)) x = pd l (pd i (g m k)) x :=
    pd_congr_on (fun y hy => hg.pd_symm hy k m i) hx l
  have q2 : pd m (pd i (g k l)) x = pd m (pd i (g l k)) x :=
    pd_congr_on (fun y hy => hg.pd_symm hy k l i) hx m
  have h := riemann_aux (fun a b => hg.symm a b x hx) (fun a b => christoffel g a b l x) (fun a b => christoffel g a b m x) i k
  have c1 : ∑ n, pd l (g i n) x * christoffel g n m k x = ∑ n, (∑ p, g n p x * christoffel g p i l x +
      ∑ p, g i p x * christoffel g p n l x) * christoffel g n k m x :=
    Finset.sum_congr rfl fun n _ => by rw [hg.compat hx, hs']
  have c2 : ∑ n, pd m (g i n) x * christoffel g n l k x = ∑ n, (∑ p, g n p x * christoffel g p i m x +
      ∑ p, g i p x * christoffel g p n m x) * christoffel g n k l x :=
    Finset.sum_congr rfl fun n _ => by rw [hg.compat hx, hs]
  have c3 : ∑ n, ∑ p, g i n x * (christoffel g n l p x * christoffel g p m k x - christoffel g n m p x * christoffel g p l k x) =
      ∑ n, ∑ p, g i n x * (christoffel g n p l x * christoffel g p k m x - christoffel g n p m x * christoffel g p k l x) :=
    Finset.sum_congr rfl fun n _ => Finset.sum_congr rfl fun p _ => by rw [hs n p, hs' p k, hs' n p, hs p k]
  rw [c1, c2, c3, q1, q2]
  linear_combination h
end

/-! ## The contraction -/

/-- The contraction of a curvature tensor with `n^a p^b n^c q^d`, in terms of the components that are independent. -/
theorem contraction {Riem : W4} (a1 : ∀ a b c d, Riem b a c d = -Riem a b c d) (a2 : ∀ a b c d, Riem a b d c = -Riem a b c d)
    (pr : ∀ a b c d, Riem c d a b = Riem a b c d) (T : W4) :
    ∑ a, ∑ b, ∑ c, ∑ d, Riem a b c d * T a b c d =
      (∑ i : Fin 3, ∑ j : Fin 3, ∑ k : Fin 3, ∑ l : Fin 3, Riem i.succ j.succ k.succ l.succ * T i.succ j.succ k.succ l.succ) +
      (∑ j : Fin 3, ∑ k : Fin 3, ∑ l : Fin 3, Riem 0 j.succ k.succ l.succ *
        (T 0 j.succ k.succ l.succ - T j.succ 0 k.succ l.succ + T k.succ l.succ 0 j.succ - T k.succ l.succ j.succ 0)) +
      ∑ j : Fin 3, ∑ l : Fin 3, Riem 0 j.succ 0 l.succ *
        (T 0 j.succ 0 l.succ - T j.succ 0 0 l.succ - T 0 j.succ l.succ 0 + T j.succ 0 l.succ 0) := by
  have z1 : ∀ c d, Riem 0 0 c d = 0 := fun c d => by linarith [a1 0 0 c d]
  have z2 : ∀ a b, Riem a b 0 0 = 0 := fun a b => by linarith [a2 a b 0 0]
  have e1 : ∀ (i : Fin 3) c d, Riem i.succ 0 c d = -Riem 0 i.succ c d := fun i c d => a1 0 i.succ c d
  have e2 : ∀ (i : Fin 3) a b, Riem a b i.succ 0 = -Riem a b 0 i.succ := fun i a b => a2 a b 0 i.succ
  have e3 : ∀ i j k : Fin 3, Riem i.succ j.succ 0 k.succ = Riem 0 k.succ i.succ j.succ := fun i j k => pr 0 k.succ i.succ j.succ
  simp only [Fin.sum_univ_succ (n := 3), z1, z2, e1, e2, e3]
  simp only [Fin.sum_univ_three]
  ring

/-! ## The code -/

section
variable {P : CoordParams} {name : Py.Str} {C : Coords} {Ω : Dom} {F : Fields} {c : CF}

theorem Setting.metric (S : Setting P name C Ω F c) : IsMetric Ω (gammaF C.scale F c) := gammaF_metric S.rfm S.smooth S.conformal S.det

theorem Setting.K_symm (S : Setting P name C Ω F c) {y : Vec} (hy : y ∈ Ω) (i j : Fin 3) :
    KF C.scale F c i j y = KF C.scale F c j i y := by
  rw [KF_eq S.rfm S.smooth S.conformal y hy, KF_eq S.rfm S.smooth S.conformal y hy, congrFun (AbarF_symm S.rfm S.smooth i j) y, congrFun (gammabarF_symm S.rfm S.smooth i j) y]

theorem Setting.K_smooth (S : Setting P name C Ω F c) (i j : Fin 3) : Sm Ω (KF C.scale F c i j) :=
  Sm.congr (((Sm.const 4).mul (phiF_smooth S.smooth S.conformal)).exp.mul ((AbarF_smooth S.rfm S.smooth i j).add
    (((Sm.const (1 / 3)).mul (gammabarF_smooth S.rfm S.smooth i j)).mul S.smooth.trK))) fun y hy =>
      KF_eq S.rfm S.smooth S.conformal y hy i j

/-- What the symbols of psi4.py stand for. -/
structure Psi4In.Is (I : Psi4In) (γ K : T2) (x : Vec) : Prop where
  gammaDD : ∀ i j, I.gammaDD i j = γ i j x
  gammaUU : ∀ i j, I.gammaUU i j = inverse γ i j x
  KDD : ∀ i j, I.KDD i j = K i j x
  gammaDDdDD : ∀ i j k l, I.gammaDDdDD i j k l = pd l (pd k (γ i j)) x
  GammaUDD : ∀ i j k, I.GammaUDD i j k = christoffel γ i j k x
  KDDdD : ∀ i j k, I.KDDdD i j k = pd k (K i j) x

theorem sorted {f : Fin 3 → Fin 3 → ℝ} (hf : ∀ i j, f i j = f j i) (i j : Fin 3) : f (min i j) (max i j) = f i j := by
  rcases le_total i j with h | h
  · rw [min_eq_left h, max_eq_right h]
  · rw [min_eq_right h, max_eq_left h, hf]

theorem psi4In_is (S : Setting P name C Ω F c) {x : Vec} (hx : x ∈ Ω) :
    (psi4In (rfmAt C.scale x) (gfsAt F x) c).Is (gammaF C.scale F c) (KF C.scale F c) x where
  gammaDD _ _ := rfl
  gammaUU i j := (C71_connections S hx i j 0).2.1
  KDD _ _ := rfl
  gammaDDdDD i j k l := by
    have h := fun i j k l => (C71_derivatives S hx i j k l).2.2.2.2.2.2.2.2.2.2.2.2.2.2.1
    show gammaDDdDD _ _ c (min i j) (max i j) (min k l) (max k l) = _
    rw [h, ← h]
    rw [sorted (f := fun k l => gammaDDdDD (rfmAt C.scale x) (gfsAt F x) c (min i j) (max i j) k l) (fun a b => by
      rw [h, h, dpd_comm hx _ (S.metric.smooth _ _)]) k l]
    rw [sorted (f := fun i j => gammaDDdDD (rfmAt C.scale x) (gfsAt F x) c i j k l) (fun a b => by
      rw [h, h]
      exact pd_congr_on (fun y hy => S.metric.pd_symm hy a b k) hx l) i j, h]
  GammaUDD i j k := by
    have h := fun i j k => (C71_connections S hx i j k).2.2.2.1
    show GammaUDD _ _ c i (min j k) (max j k) = _
    rw [sorted (f := fun j k => GammaUDD (rfmAt C.scale x) (gfsAt F x) c i j k) (fun a b => by
      rw [h, h, S.metric.christoffel_symm hx]) j k, h]
  KDDdD i j k := by
    have h := fun i j k => (C71_derivatives S hx i j k 0).2.2.2.2.2.2.2.2.2.2.2.2.2.2.2
    show KDDdD _ _ c (min i j) (max i j) k = _
    rw [sorted (f := fun i j => KDDdD (rfmAt C.scale x) (gfsAt F x) c i j k) (fun a b => by
      rw [h, h]
      exact pd_congr_on (fun y hy => S.K_symm hy a b) hx k) i j, h]
end

section
variable {Ω : Dom} {γ K : T2} (hγ : IsMetric Ω γ) (hK : ∀ i j, ∀ y ∈ Ω, K i j y = K j i y) {x : Vec} (hx : x ∈ Ω) {I : Psi4In} (hI : I.Is γ K x)
include hγ hx hI

theorem RDDDD_eq (i j k l : Fin 3) : I.RDDDD i j k l = riemannLow γ i j k l x := by
  rw [hγ.riemannLow_eq hx, Psi4In.RDDDD]
  simp only [hI.gammaDD, hI.gammaDDdDD, hI.GammaUDD]

include hK

theorem rank4_eq (i j k l : Fin 3) : I.rank4term1DDDD i j k l = riemannLow γ i j k l x + K i k x * K j l x - K i l x * K j k x := by
  rw [Psi4In.rank4term1DDDD, RDDDD_eq hγ hx hI]
  simp only [hI.KDD]
  rw [hK l j x hx, hK k j x hx]

theorem rank3_eq (j k l : Fin 3) : I.rank3term2DDD j k l = 4 * (covDeriv γ K k l j x - covDeriv γ K l k j x) := by
  unfold Psi4In.rank3term2DDD covDeriv
  simp only [hI.KDD, hI.KDDdD, hI.GammaUDD, Fin.sum_univ_three]
  have s := fun a b => hK a b x hx
  have d : ∀ a b c, pd c (K a b) x = pd c (K b a) x := fun a b c => pd_congr_on (fun y hy => hK a b y hy) hx c
  have g := fun a b c => hγ.christoffel_symm hx a b c
  rw [d l j k, d k j l, g 0 k l, g 1 k l, g 2 k l, g 0 k j, g 1 k j, g 2 k j, g 0 l j, g 1 l j, g 2 l j]
  ring

omit hK in
theorem rank2_eq (j l : Fin 3) : I.rank2term3DD j l =
    4 * ∑ i, ∑ m, inverse γ i m x * (riemannLow γ i j m l x + K i m x * K j l x - K i l x * K j m x) := by
  unfold Psi4In.rank2term3DD Psi4In.RDD Psi4In.trK Psi4In.KUD
  simp only [hI.KDD, hI.gammaUU, RDDDD_eq hγ hx hI, Fin.sum_univ_three]
  have g := hγ.inverse_symm hx
  rw [g 1 0, g 2 0, g 2 1]
  ring

theorem pieces_eq {Riem : W4} (hR : VacuumCurvature γ K x Riem) {T : W4} (hT : ∀ a b c d, T c d a b = T a b c d) :
    I.pieces T = ∑ a, ∑ b, ∑ c, ∑ d, Riem a b c d * T a b c d := by
  rw [contraction hR.anti1 hR.anti2 hR.pair]
  unfold Psi4In.pieces
  congr 1
  · congr 1
    · exact Finset.sum_congr rfl fun i _ => Finset.sum_congr rfl fun j _ => Finset.sum_congr rfl fun k _ => Finset.sum_congr rfl fun l _ => by
        rw [rank4_eq hγ hK hx hI, hR.gauss]
    · refine Finset.sum_congr rfl fun j _ => Finset.sum_congr rfl fun k _ => Finset.sum_congr rfl fun l _ => ?_
      rw [rank3_eq hγ hK hx hI, hR.codazzi, hT 0 j.succ k.succ l.succ, hT j.succ 0 k.succ l.succ]
      ring
  · refine Finset.sum_congr rfl fun j _ => Finset.sum_congr rfl fun l _ => ?_
    have h := hR.vacuum j l
    simp only [hR.gauss] at h
    rw [rank2_eq hγ hx hI]
    linear_combination (-(T 0 j.succ 0 l.succ - T j.succ 0 0 l.succ - T 0 j.succ l.succ 0 + T j.succ 0 l.succ 0)) * -h

end

section
variable {P : CoordParams} {name : Py.Str} {C : Coords} {Ω : Dom} {F : Fields} {c : CF}

/-- **C85**: `psi4_re + i psi4_im` is the contraction `R_{abcd} n^a m̄^b n^c m̄^d` of the curvature of the spacetime, for every tetrad. -/
theorem C85_psi4 (S : Setting P name C Ω F c) {x : Vec} (hx : x ∈ Ω) {Riem : W4}
    (hR : VacuumCurvature (gammaF C.scale F c) (KF C.scale F c) x Riem) (n mre mim : W1) :
    (((psi4In (rfmAt C.scale x) (gfsAt F x) c).psi4_re n mre mim : ℝ) : ℂ) +
      ((psi4In (rfmAt C.scale x) (gfsAt F x) c).psi4_im n mre mim : ℝ) * Complex.I =
      psi4 Riem n fun a => mre a + mim a * Complex.I := by
  have hK : ∀ i j, ∀ y ∈ Ω, KF C.scale F c i j y = KF C.scale F c j i y := fun i j y hy => S.K_symm hy i j
  have hI := psi4In_is S hx
  rw [Psi4In.psi4_re, Psi4In.psi4_im, pieces_eq S.metric hK hx hI hR (T := Psi4In.tetradRe n mre mim) (fun a b c d => by
      simp only [Psi4In.tetradRe]
      ring), pieces_eq S.metric hK hx hI hR (T := Psi4In.tetradIm n mre mim) (fun a b c d => by
      simp only [Psi4In.tetradIm]
      ring)]
  unfold psi4
  push_cast
  simp only [Finset.sum_mul, ← Finset.sum_add_distrib]
  refine Finset.sum_congr rfl fun a _ => Finset.sum_congr rfl fun b _ => Finset.sum_congr rfl fun c _ => Finset.sum_congr rfl fun d _ => ?_
  simp only [map_add, map_mul, Complex.conj_ofReal, Complex.conj_I, Psi4In.tetradRe, Psi4In.tetradIm]
  push_cast
  linear_combination -(Riem a b c d : ℂ) * n a * mim b * n c * mim d * Complex.I_mul_I

end

/-! ## Such a curvature exists -/

/-- The components. -/
def assemble (G : Fin 3 → Fin 3 → Fin 3 → Fin 3 → ℝ) (D : Fin 3 → Fin 3 → Fin 3 → ℝ) (E : Fin 3 → Fin 3 → ℝ) : W4 := fun a b c d =>
  Fin.cases
    (Fin.cases 0 (fun j => Fin.cases (Fin.cases 0 (fun l => E j l) d) (fun k => Fin.cases (-E j k) (fun l => D j k l) d) c) b)
    (fun i => Fin.cases
      (Fin.cases (Fin.cases 0 (fun l => -E i l) d) (fun k => Fin.cases (E i k) (fun l => -D i k l) d) c)
      (fun j => Fin.cases (Fin.cases 0 (fun l => D l i j) d) (fun k => Fin.cases (-D k i j) (fun l => G i j k l) d) c) b) a

section
variable {G : Fin 3 → Fin 3 → Fin 3 → Fin 3 → ℝ} {D : Fin 3 → Fin 3 → Fin 3 → ℝ} {E : Fin 3 → Fin 3 → ℝ}
  (g1 : ∀ i j k l, G j i k l = -G i j k l) (g2 : ∀ i j k l, G i j l k = -G i j k l) (gp : ∀ i j k l, G k l i j = G i j k l)
  (d2 : ∀ j k l, D j l k = -D j k l) (e : ∀ j l, E l j = E j l)

include g1 d2 in
theorem assemble_anti1 (a b c d : Fin 4) : assemble G D E b a c d = -assemble G D E a b c d := by
  cases a using Fin.cases <;> cases b using Fin.cases <;> cases c using Fin.cases <;> cases d using Fin.cases <;>
    simp [assemble] <;> grind

include g2 d2 in
theorem assemble_anti2 (a b c d : Fin 4) : assemble G D E a b d c = -assemble G D E a b c d := by
  cases a using Fin.cases <;> cases b using Fin.cases <;> cases c using Fin.cases <;> cases d using Fin.cases <;>
    simp [assemble] <;> grind

include gp e d2 in
theorem assemble_pair (a b c d : Fin 4) : assemble G D E c d a b = assemble G D E a b c d := by
  cases a using Fin.cases <;> cases b using Fin.cases <;> cases c using Fin.cases <;> cases d using Fin.cases <;>
    simp [assemble] <;> grind
end

theorem IsMetric.riemannLow_anti2 {Ω : Dom} {g : T2} (i j k l : Fin 3) (x : Vec) : riemannLow g i j l k x = -riemannLow g i j k l x := by
  unfold riemannLow riemannOf
  simp only [Fin.sum_univ_three]
  ring

theorem IsMetric.riemannLow_pair {Ω : Dom} {g : T2} (hg : IsMetric Ω g) {x : Vec} (hx : x ∈ Ω) (i j k l : Fin 3) :
    riemannLow g k l i j x = riemannLow g i j k l x := by
  have s : ∀ a b c d, pd d (pd c (g a b)) x = pd d (pd c (g b a)) x := fun a b c d =>
    pd_congr_on (fun y hy => hg.pd_symm hy a b c) hx d
  have t : ∀ a b c d, pd d (pd c (g a b)) x = pd c (pd d (g a b)) x := fun a b _ _ => dpd_comm hx _ (hg.smooth a b) _
  have h : ∀ a b, g a b x = g b a x := fun a b => hg.symm a b x hx
  have γ := fun a b c => hg.christoffel_symm hx a b c
  rw [hg.riemannLow_eq hx, hg.riemannLow_eq hx, s k j, t j k, s l i, t i l, s k i, t i k, s l j, t j l]
  simp only [γ _ l i, γ _ k j, γ _ l j, γ _ k i, Fin.sum_univ_three]
  rw [h 1 0, h 2 0, h 2 1]
  ring

theorem IsMetric.riemannLow_anti1 {Ω : Dom} {g : T2} (hg : IsMetric Ω g) {x : Vec} (hx : x ∈ Ω) (i j k l : Fin 3) :
    riemannLow g j i k l x = -riemannLow g i j k l x := by
  rw [← hg.riemannLow_pair hx, IsMetric.riemannLow_anti2 (Ω := Ω), hg.riemannLow_pair hx]

theorem curvature_exists {Ω : Dom} {γ K : T2} (hγ : IsMetric Ω γ) (hK : ∀ i j, ∀ y ∈ Ω, K i j y = K j i y) {x : Vec} (hx : x ∈ Ω) :
    ∃ Riem, VacuumCurvature γ K x Riem := by
  have k := fun i j => hK i j x hx
  let G := fun i j k l : Fin 3 => riemannLow γ i j k l x + K i k x * K j l x - K i l x * K j k x
  let D := fun j k l : Fin 3 => covDeriv γ K k l j x - covDeriv γ K l k j x
  have g1 : ∀ i j k l, G j i k l = -G i j k l := fun i j k l => by
    simp only [G, hγ.riemannLow_anti1 hx i j]
    ring
  have g2 : ∀ i j k l, G i j l k = -G i j k l := fun i j k l => by
    simp only [G, IsMetric.riemannLow_anti2 (Ω := Ω) i j k l]
    ring
  have gp : ∀ i j k l, G k l i j = G i j k l := fun i j k' l => by
    simp only [G, hγ.riemannLow_pair hx i j]
    rw [k k' i, k l j, k k' j, k l i]
    ring
  have d2 : ∀ j k l, D j l k = -D j k l := fun j k l => by simp only [D]; ring
  have e : ∀ j l, (∑ i, ∑ m, inverse γ i m x * G i l m j) = ∑ i, ∑ m, inverse γ i m x * G i j m l := fun j l => by
    rw [Finset.sum_comm]
    refine Finset.sum_congr rfl fun i _ => Finset.sum_congr rfl fun m _ => ?_
    rw [hγ.inverse_symm hx, gp]
  exact ⟨assemble G D fun j l => ∑ i, ∑ m, inverse γ i m x * G i j m l, assemble_anti1 g1 d2, assemble_anti2 g2 d2, assemble_pair gp d2 e,
    fun _ _ _ _ => rfl, fun _ _ _ => rfl, fun j l => by simp [assemble]⟩

/-! ## With the constraints the curvature is that of a vacuum spacetime -/

theorem pd_trace {Ω : Dom} {γ K : T2} (hγ : IsMetric Ω γ) (sK : ∀ i j, Sm Ω (K i j)) {x : Vec} (hx : x ∈ Ω) (l : Fin 3) :
    pd l (trace γ K) x = ∑ i, ∑ m, inverse γ i m x * covDeriv γ K l i m x := by
  have e : pd l (trace γ K) x = ∑ i, ∑ j, (pd l (inverse γ i j) x * K i j x + inverse γ i j x * pd l (K i j) x) := by
    unfold trace
    rw [dpd_sum hx l fun i => Sm.sum fun j => (hγ.inverse_smooth i j).mul (sK i j)]
    refine Finset.sum_congr rfl fun i _ => ?_
    rw [dpd_sum hx l fun j => (hγ.inverse_smooth i j).mul (sK i j)]
    exact Finset.sum_congr rfl fun j _ => dpd_mul hx l (hγ.inverse_smooth i j) (sK i j)
  rw [e]
  simp only [hγ.pd_inverse' hx, covDeriv, Fin.sum_univ_three]
  ring

theorem covDeriv_symm {Ω : Dom} {γ K : T2} (hK : ∀ i j, ∀ y ∈ Ω, K i j y = K j i y) {x : Vec} (hx : x ∈ Ω) (k i j : Fin 3) :
    covDeriv γ K k i j x = covDeriv γ K k j i x := by
  unfold covDeriv
  rw [pd_congr_on (fun y hy => hK i j y hy) hx k]
  congr 1
  exact Finset.sum_congr rfl fun m _ => by rw [hK m j x hx, hK i m x hx]; ring

theorem momentum_vacuum {Ω : Dom} {γ K : T2} (hγ : IsMetric Ω γ) (sK : ∀ i j, Sm Ω (K i j)) (hK : ∀ i j, ∀ y ∈ Ω, K i j y = K j i y)
    {x : Vec} (hx : x ∈ Ω) (i : Fin 3) : momentum γ K .vacuum i x =
      ∑ l, inverse γ i l x * ∑ a, ∑ m, inverse γ a m x * (covDeriv γ K m l a x - covDeriv γ K l m a x) := by
  have h := divergence_raise hγ sK (f := trace γ K) (Sm.sum fun i => Sm.sum fun j => (hγ.inverse_smooth i j).mul (sK i j)) (-1) hx i
  have e : (fun a b y => raise2 γ K a b y + -1 * (inverse γ a b y * trace γ K y)) =
      fun a b y => raise2 γ K a b y - inverse γ a b y * trace γ K y := by
    funext a b y
    ring
  rw [e] at h
  rw [momentum, h]
  have c : ∀ k l j, covDD (fun i j k => christoffel γ i j k x) (fun i j => K i j x) (fun i j k => pd k (K i j) x) k l j =
      covDeriv γ K j k l x := fun k l j => by
    simp only [covDD, covDeriv, Fin.sum_univ_three]
  simp only [c, pd_trace hγ sK hx, Matter.vacuum]
  have s := covDeriv_symm (γ := γ) hK hx
  have g := hγ.inverse_symm hx
  simp only [Fin.sum_univ_three]
  rw [g 1 0, g 2 0, g 2 1]
  simp only [s _ 1 0, s _ 2 0, s _ 2 1]
  ring

theorem frame_ricci_flat {Ω : Dom} {γ K : T2} (hγ : IsMetric Ω γ) (sK : ∀ i j, Sm Ω (K i j)) (hK : ∀ i j, ∀ y ∈ Ω, K i j y = K j i y)
    {x : Vec} (hx : x ∈ Ω) {Riem : W4} (hR : VacuumCurvature γ K x Riem) (hH : hamiltonian γ K .vacuum x = 0)
    (hM : ∀ i, momentum γ K .vacuum i x = 0) (b d : Fin 4) :
    -Riem 0 b 0 d + ∑ i : Fin 3, ∑ m : Fin 3, inverse γ i m x * Riem i.succ b m.succ d = 0 := by
  have z1 : ∀ c d, Riem 0 0 c d = 0 := fun c d => by linarith [hR.anti1 0 0 c d]
  have z2 : ∀ a b, Riem a b 0 0 = 0 := fun a b => by linarith [hR.anti2 a b 0 0]
  have m1 : ∀ l, ∑ a, ∑ m, inverse γ a m x * (covDeriv γ K m l a x - covDeriv γ K l m a x) = 0 := by
    intro l
    have h : ∑ i, γ l i x * momentum γ K .vacuum i x = 0 := by simp [hM]
    simp only [momentum_vacuum hγ sK hK hx] at h
    generalize hv : (fun l => ∑ a, ∑ m, inverse γ a m x * (covDeriv γ K m l a x - covDeriv γ K l m a x)) = v at h
    have hv' : ∀ l, ∑ a, ∑ m, inverse γ a m x * (covDeriv γ K m l a x - covDeriv γ K l m a x) = v l := fun l => by rw [← hv]
    simp only [hv'] at h ⊢
    have q : ∀ j, ∑ i, γ l i x * inverse γ i j x = if l = j then 1 else 0 := fun j => hγ.mul_inverse hx l j
    calc v l = ∑ j, (if l = j then 1 else 0) * v j := by simp
      _ = ∑ j, (∑ i, γ l i x * inverse γ i j x) * v j := by simp only [q]
      _ = ∑ i, γ l i x * ∑ j, inverse γ i j x * v j := by simp only [Fin.sum_univ_three]; ring
      _ = 0 := h
  have s := covDeriv_symm (γ := γ) hK hx
  cases b using Fin.cases with
  | zero =>
    cases d using Fin.cases with
    | zero =>
      have h : ∀ j l : Fin 3, Riem j.succ 0 l.succ 0 = ∑ i, ∑ m, inverse γ i m x * (riemannLow γ i j m l x + K i m x * K j l x - K i l x * K j m x) := by
        intro j l
        rw [hR.anti1 0 j.succ, hR.anti2 0 j.succ 0 l.succ]
        have := hR.vacuum j l
        simp only [hR.gauss] at this
        linarith
      simp only [h, z1]
      simp only [hamiltonian, scalarCurvature, ricci, ricciOf, trace, raise2, Matter.vacuum] at hH
      have r : ∀ j l, ∑ i, ∑ m, inverse γ i m x * riemannLow γ i j m l x = ∑ k, riemannOf (christoffel γ) k j k l x := by
        intro j l
        have q : ∀ m n, ∑ i, inverse γ m i x * γ i n x = if m = n then 1 else 0 := fun m n => hγ.inverse_mul hx m n
        have g := hγ.inverse_symm hx
        calc ∑ i, ∑ m, inverse γ i m x * riemannLow γ i j m l x
            = ∑ m, ∑ n, (∑ i, inverse γ m i x * γ i n x) * riemannOf (christoffel γ) n j m l x := by
              unfold riemannLow
              simp only [Fin.sum_univ_three]
              rw [g 1 0, g 2 0, g 2 1]
              ring
          _ = _ := by simp [q]
      simp only [← r] at hH
      have k := fun i j => hK i j x hx
      have g := hγ.inverse_symm hx
      simp only [Fin.sum_univ_three] at hH ⊢
      rw [g 1 0, g 2 0, g 2 1, k 1 0, k 2 0, k 2 1] at hH ⊢
      linear_combination hH
    | succ l =>
      rw [z1]
      have h : ∀ i m : Fin 3, Riem i.succ 0 m.succ l.succ = -(covDeriv γ K m l i x - covDeriv γ K l m i x) := fun i m => by
        rw [hR.anti1 0 i.succ, hR.codazzi]
      simp only [h, mul_neg, Finset.sum_neg_distrib, m1]
      simp
  | succ j =>
    cases d using Fin.cases with
    | zero =>
      rw [z2]
      have h : ∀ i m : Fin 3, Riem i.succ j.succ m.succ 0 = -(covDeriv γ K i j m x - covDeriv γ K j i m x) := fun i m => by
        rw [hR.anti2 i.succ j.succ 0 m.succ, hR.pair 0 m.succ i.succ j.succ, hR.codazzi]
      have m1' := m1 j
      rw [Finset.sum_comm] at m1'
      simp only [h, mul_neg, Finset.sum_neg_distrib]
      have g := hγ.inverse_symm hx
      simp only [fun i m => g m i] at m1'
      simp [m1']
    | succ l => exact hR.vacuum j l

end Verif.BSSN
