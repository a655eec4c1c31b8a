import Verif.BSSN.Model
import Verif.BSSN.Calculus

/-!
# Gridfunctions as fields

The setting of the continuum theorems: the gridfunctions are smooth fields on an open set `Ω` of the coordinate space on
which no scale factor vanishes, and each derivative symbol has the value of the partial derivative it stands for (its
finite-difference error is not part of the equations).
-/
namespace Verif.BSSN
open Verif.RefMetric Verif.IndexedExp

/-- The evolved variables. -/
structure Fields where
  hDD : T2
  aDD : T2
  lambdaU : T1
  vetU : T1
  betU : T1
  trK : Scal
  cf : Scal
  alpha : Scal

/-- The symbols of the equations at the point `x`. -/
noncomputable def gfsAt (F : Fields) (x : Vec) : Gfs where
  hDD i j := F.hDD i j x
  hDD_dD i j k := pd k (F.hDD i j) x
  hDD_dupD i j k := pd k (F.hDD i j) x
  hDD_dDD i j k l := pd l (pd k (F.hDD i j)) x
  aDD i j := F.aDD i j x
  aDD_dD i j k := pd k (F.aDD i j) x
  aDD_dupD i j k := pd k (F.aDD i j) x
  lambdaU i := F.lambdaU i x
  lambdaU_dD i j := pd j (F.lambdaU i) x
  lambdaU_dupD i j := pd j (F.lambdaU i) x
  vetU i := F.vetU i x
  vetU_dD i j := pd j (F.vetU i) x
  vetU_dupD i j := pd j (F.vetU i) x
  vetU_dDD i j k := pd k (pd j (F.vetU i)) x
  betU i := F.betU i x
  betU_dupD i j := pd j (F.betU i) x
  trK := F.trK x
  trK_dD i := pd i F.trK x
  trK_dupD i := pd i F.trK x
  cf := F.cf x
  cf_dD i := pd i F.cf x
  cf_dupD i := pd i F.cf x
  cf_dDD i j := pd j (pd i F.cf) x
  alpha := F.alpha x
  alpha_dD i := pd i F.alpha x
  alpha_dupD i := pd i F.alpha x
  alpha_dDD i j := pd j (pd i F.alpha) x

/-- The fields are smooth on `Ω`; `hDD` and `aDD` are symmetric. -/
structure Fields.Smooth (Ω : Dom) (F : Fields) : Prop where
  hDD : ∀ i j, Sm Ω (F.hDD i j)
  aDD : ∀ i j, Sm Ω (F.aDD i j)
  lambdaU : ∀ i, Sm Ω (F.lambdaU i)
  vetU : ∀ i, Sm Ω (F.vetU i)
  betU : ∀ i, Sm Ω (F.betU i)
  trK : Sm Ω F.trK
  cf : Sm Ω F.cf
  alpha : Sm Ω F.alpha
  hsymm : ∀ i j, F.hDD i j = F.hDD j i
  asymm : ∀ i j, F.aDD i j = F.aDD j i

/-- The scale factors are smooth and do not vanish on `Ω`. -/
structure IsRfm (Ω : Dom) (s : Vec → Vec) : Prop where
  smooth : ∀ i, Sm Ω fun y => s y i
  ne : ∀ x ∈ Ω, ∀ i, s x i ≠ 0

/-- The values of the symbols have the declared symmetries. -/
theorem gfsAt_symm {Ω : Dom} {F : Fields} (hF : F.Smooth Ω) {x : Vec} (hx : x ∈ Ω) : (gfsAt F x).Symm where
  hDD i j := by simp [gfsAt, hF.hsymm i j]
  hDD_dD i j k := by simp [gfsAt, hF.hsymm i j]
  hDD_dupD i j k := by simp [gfsAt, hF.hsymm i j]
  hDD_dDD i j k l := ⟨by simp [gfsAt, hF.hsymm i j], dpd_comm hx l (hF.hDD i j) k⟩
  aDD i j := by simp [gfsAt, hF.asymm i j]
  aDD_dD i j k := by simp [gfsAt, hF.asymm i j]
  aDD_dupD i j k := by simp [gfsAt, hF.asymm i j]
  vetU_dDD i j k := dpd_comm hx k (hF.vetU i) j
  cf_dDD i j := dpd_comm hx j hF.cf i
  alpha_dDD i j := dpd_comm hx j hF.alpha i

/-! ### The unrescaled fields -/

section
variable (s : Vec → Vec) (F : Fields) (c : CF)

/-- `γ̄_{ij}` as a field: the value of the code's expression at every point. -/
noncomputable def gammabarF : T2 := fun i j y => gammabarDD (rfmAt s y) (gfsAt F y) i j
/-- `Ā_{ij}`. -/
noncomputable def AbarF : T2 := fun i j y => AbarDD (rfmAt s y) (gfsAt F y) i j
/-- `Λ̄^i`. -/
noncomputable def LambdabarF : T1 := fun i y => LambdabarU (rfmAt s y) (gfsAt F y) i
/-- `β^i`. -/
noncomputable def betaF : T1 := fun i y => betaU (rfmAt s y) (gfsAt F y) i
/-- `γ_{ij}`. -/
noncomputable def gammaF : T2 := fun i j y => gammaDD (rfmAt s y) (gfsAt F y) c i j
/-- `K_{ij}`. -/
noncomputable def KF : T2 := fun i j y => KDD (rfmAt s y) (gfsAt F y) c i j
/-- `φ`, from the evolved variable: `cf` itself, `W = e^{-2φ}` or `χ = e^{-4φ}`. -/
noncomputable def phiF : Scal := fun y => match c with
  | .phi => F.cf y
  | .W => -(1 / 2) * Real.log (F.cf y)
  | .chi => -(1 / 4) * Real.log (F.cf y)
/-- The reference metric `γ̂_{ij}`. -/
noncomputable def ghatF : T2 := fun i j y => RefMetric.ghatDD s i j y
end

section Deriv
variable {Ω : Dom} {s : Vec → Vec} {F : Fields} (hs : IsRfm Ω s) (hF : F.Smooth Ω)
include hs

theorem IsRfm.ReDD (i j : Fin 3) : Sm Ω (RefMetric.ReDD s i j) := (hs.smooth i).mul (hs.smooth j)
theorem IsRfm.ReU (i : Fin 3) : Sm Ω (RefMetric.ReU s i) := (Sm.const 1).div (hs.smooth i) fun x hx => hs.ne x hx i
theorem IsRfm.ghatDD (i j : Fin 3) : Sm Ω (RefMetric.ghatDD s i j) := by
  unfold RefMetric.ghatDD
  by_cases h : i = j
  · simp only [h, if_true]; exact (hs.smooth j).pow 2
  · simp only [h, if_false]; exact Sm.const 0

theorem IsRfm.isMetric : IsMetric Ω (ghatF s) where
  smooth := hs.ghatDD
  symm i j x _ := by simp only [ghatF, ghatDD_symm s i j]
  det x hx := by
    have h := (C63_inverse s x (hs.ne x hx)).2
    exact h.1 ▸ h.2.1.ne'

omit hs in
theorem inv3_eq {a : V2} (ha : ∀ i j, a i j = a j i) (i j : Fin 3) : inv3 a i j = (Matrix.of a)⁻¹ i j := by
  rw [Matrix.inv_def, Matrix.smul_apply, smul_eq_mul, Ring.inverse_eq_inv', inv3, div_eq_inv_mul]
  have hd : symmInv3Det a = (Matrix.of a).det := by
    simp only [symmInv3Det, Matrix.det_fin_three, Matrix.of_apply, ha 1 0, ha 2 0, ha 2 1]; ring
  rw [hd]
  congr 1
  fin_cases i <;> fin_cases j <;>
    simp [Matrix.adjugate_fin_three, symmInv3Num, ha 1 0, ha 2 0, ha 2 1] <;> ring

include hF

theorem gammabarF_smooth (i j : Fin 3) : Sm Ω (gammabarF s F i j) := ((hF.hDD i j).mul (hs.ReDD i j)).add (hs.ghatDD i j)
theorem AbarF_smooth (i j : Fin 3) : Sm Ω (AbarF s F i j) := (hF.aDD i j).mul (hs.ReDD i j)
theorem LambdabarF_smooth (i : Fin 3) : Sm Ω (LambdabarF s F i) := (hF.lambdaU i).mul (hs.ReU i)
theorem betaF_smooth (i : Fin 3) : Sm Ω (betaF s F i) := (hF.vetU i).mul (hs.ReU i)

variable {x : Vec} (hx : x ∈ Ω)
include hx

theorem pd_gammabarF (i j k : Fin 3) : pd k (gammabarF s F i j) x = gammabarDD_dD (rfmAt s x) (gfsAt F x) i j k := by
  show pd k (fun y => F.hDD i j y * RefMetric.ReDD s i j y + RefMetric.ghatDD s i j y) x = _
  rw [dpd_add hx k ((hF.hDD i j).mul (hs.ReDD i j)) (hs.ghatDD i j), dpd_mul hx k (hF.hDD i j) (hs.ReDD i j)]
  simp only [gammabarDD_dD, rfmAt, gfsAt, ReDDdD, ghatDDdD]
  ring

theorem pd_pd_gammabarF (i j k l : Fin 3) :
    pd l (pd k (gammabarF s F i j)) x = gammabarDD_dDD (rfmAt s x) (gfsAt F x) i j k l := by
  have e : pd l (pd k (gammabarF s F i j)) x = pd l (fun y => RefMetric.ghatDDdD s i j k y +
      (pd k (F.hDD i j) y * RefMetric.ReDD s i j y + F.hDD i j y * RefMetric.ReDDdD s i j k y)) x := by
    refine pd_congr_on (fun y hy => ?_) hx l
    rw [pd_gammabarF hs hF hy]
    simp only [gammabarDD_dD, rfmAt, gfsAt]
    ring
  have d1 := (hF.hDD i j).pd k
  have d2 : Sm Ω (RefMetric.ReDDdD s i j k) := (hs.ReDD i j).pd k
  have d3 : Sm Ω (RefMetric.ghatDDdD s i j k) := (hs.ghatDD i j).pd k
  rw [e, dpd_add hx l d3 ((d1.mul (hs.ReDD i j)).add ((hF.hDD i j).mul d2)),
    dpd_add hx l (d1.mul (hs.ReDD i j)) ((hF.hDD i j).mul d2), dpd_mul hx l d1 (hs.ReDD i j), dpd_mul hx l (hF.hDD i j) d2]
  simp only [gammabarDD_dDD, rfmAt, gfsAt, ReDDdD, ReDDdDD, ghatDDdDD]
  ring

theorem pd_AbarF (i j k : Fin 3) : pd k (AbarF s F i j) x = AbarDD_dD (rfmAt s x) (gfsAt F x) i j k := by
  show pd k (fun y => F.aDD i j y * RefMetric.ReDD s i j y) x = _
  rw [dpd_mul hx k (hF.aDD i j) (hs.ReDD i j)]
  simp only [AbarDD_dD, rfmAt, gfsAt, ReDDdD]
  ring

theorem pd_betaF (i j : Fin 3) : pd j (betaF s F i) x = betaU_dD (rfmAt s x) (gfsAt F x) i j := by
  show pd j (fun y => F.vetU i y * RefMetric.ReU s i y) x = _
  rw [dpd_mul hx j (hF.vetU i) (hs.ReU i)]
  simp only [betaU_dD, rfmAt, gfsAt, ReUdD]

theorem pd_pd_betaF (i j k : Fin 3) : pd k (pd j (betaF s F i)) x = betaU_dDD (rfmAt s x) (gfsAt F x) i j k := by
  have e : pd k (pd j (betaF s F i)) x =
      pd k (fun y => pd j (F.vetU i) y * RefMetric.ReU s i y + F.vetU i y * RefMetric.ReUdD s i j y) x :=
    pd_congr_on (fun y hy => pd_betaF hs hF hy i j) hx k
  have d1 := (hF.vetU i).pd j
  have d2 : Sm Ω (RefMetric.ReUdD s i j) := (hs.ReU i).pd j
  rw [e, dpd_add hx k (d1.mul (hs.ReU i)) ((hF.vetU i).mul d2), dpd_mul hx k d1 (hs.ReU i), dpd_mul hx k (hF.vetU i) d2]
  simp only [betaU_dDD, rfmAt, gfsAt, ReUdD, ReUdDD]
  ring

theorem pd_LambdabarF (i j : Fin 3) :
    pd j (LambdabarF s F i) x = F.lambdaU i x * RefMetric.ReUdD s i j x + pd j (F.lambdaU i) x * RefMetric.ReU s i x := by
  show pd j (fun y => F.lambdaU i y * RefMetric.ReU s i y) x = _
  rw [dpd_mul hx j (hF.lambdaU i) (hs.ReU i)]
  simp only [ReUdD]
  ring

omit hx in
theorem gammabarF_symm (i j : Fin 3) : gammabarF s F i j = gammabarF s F j i := by
  funext y
  simp only [gammabarF, gammabarDD, gfsAt, rfmAt, hF.hsymm i j, RefMetric.ReDD, ghatDD_symm s i j]
  ring

omit hx in
theorem gammabarUU_eq (y : Vec) (i j : Fin 3) : gammabarUU (rfmAt s y) (gfsAt F y) i j = inverse (gammabarF s F) i j y :=
  inv3_eq (fun a b => congrFun (gammabarF_symm hs hF a b) y) i j

theorem GammabarUDD_eq (i j k : Fin 3) :
    GammabarUDD (rfmAt s x) (gfsAt F x) i j k = christoffel (gammabarF s F) i j k x := by
  unfold GammabarUDD christoffel
  refine Finset.sum_congr rfl fun m _ => ?_
  rw [gammabarUU_eq hs hF, pd_gammabarF hs hF hx, pd_gammabarF hs hF hx, pd_gammabarF hs hF hx]
  ring

end Deriv

end Verif.BSSN
