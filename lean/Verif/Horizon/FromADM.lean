import Verif.Horizon.Claims
import Verif.Initial.SphCalc
import Mathlib.Analysis.SpecialFunctions.Pow.Deriv

/-!
# The evolved variables that hold a given metric and extrinsic curvature
-/
namespace Verif.Horizon
open Verif.RefMetric Verif.IndexedExp Verif.BSSN Verif.Initial Real
open scoped ContDiff

/-- The physical metric and extrinsic curvature at a point, with zero shift. -/
def admAt (γ K : T2) (y : Vec) : Adm := ⟨fun i j => γ i j y, fun i j => K i j y, fun _ => 0, fun _ => 0⟩

/-- The evolved variables `ADM_to_BSSN` makes of the metric and the extrinsic curvature, point by point, with `cf = W`; the variables the
expansion does not depend on are set to constants. -/
noncomputable def bssnOf (s : Vec → Vec) (γ K : T2) : Fields where
  hDD i j y := FromADM.hDD (rfmAt s y) (admAt γ K y) i j
  aDD i j y := FromADM.aDD (rfmAt s y) (admAt γ K y) i j
  lambdaU _ _ := 0
  vetU i y := FromADM.vetU (rfmAt s y) (admAt γ K y) i
  betU i y := FromADM.betU (rfmAt s y) (admAt γ K y) i
  trK y := FromADM.trK (admAt γ K y)
  cf y := FromADM.cf (rfmAt s y) (admAt γ K y) .W
  alpha _ := 1

section
variable {Ω : Dom} {s : Vec → Vec} {γ K : T2} (hs : IsRfm Ω s) (hγ : ∀ i j, Sm Ω (γ i j)) (hK : ∀ i j, Sm Ω (K i j))
  (hγs : ∀ i j, γ i j = γ j i) (hKs : ∀ i j, K i j = K j i) (hd : ∀ y ∈ Ω, 0 < (Matrix.of fun i j => γ i j y).det)

theorem Sm.rpow {f : Scal} (hf : Sm Ω f) (h0 : ∀ y ∈ Ω, f y ≠ 0) (p : ℝ) : Sm Ω fun y => f y ^ p :=
  ContDiffOn.rpow_const_of_ne hf h0

theorem symmInv3Det_smooth {a : T2} (ha : ∀ i j, Sm Ω (a i j)) : Sm Ω fun y => symmInv3Det fun i j => a i j y := by
  have e : (fun y => symmInv3Det fun i j => a i j y) = fun y => (a 0 0 y * a 1 1 y * a 2 2 y) - (a 0 0 y * a 1 2 y ^ 2) - (a 0 1 y ^ 2 * a 2 2 y) +
      (2 * (a 0 1 y * a 0 2 y * a 1 2 y)) - (a 0 2 y ^ 2 * a 1 1 y) := by
    funext y; simp only [symmInv3Det]; ring
  rw [e]
  exact ((((((ha 0 0).mul (ha 1 1)).mul (ha 2 2)).sub ((ha 0 0).mul ((ha 1 2).pow 2))).sub (((ha 0 1).pow 2).mul (ha 2 2))).add
    ((Sm.const 2).mul (((ha 0 1).mul (ha 0 2)).mul (ha 1 2)))).sub (((ha 0 2).pow 2).mul (ha 1 1))

theorem symmInv3Num_smooth {a : T2} (ha : ∀ i j, Sm Ω (a i j)) (i j : Fin 3) : Sm Ω fun y => symmInv3Num (fun i j => a i j y) i j := by
  fin_cases i <;> fin_cases j <;> simp [symmInv3Num] <;>
    first | exact ((ha _ _).mul (ha _ _)).sub ((ha _ _).pow 2) | exact ((ha _ _).mul (ha _ _)).sub ((ha _ _).mul (ha _ _)) |
      exact (((ha _ _).mul (ha _ _)).neg).add ((ha _ _).mul (ha _ _)) | exact ((ha _ _).pow 2).neg.add ((ha _ _).mul (ha _ _))

include hs hγ hK hγs hKs hd

omit hs hK hKs in
theorem adm_det_pos {y : Vec} (hy : y ∈ Ω) : 0 < symmInv3Det fun i j => γ i j y := by
  rw [det_eq fun i j => congrFun (hγs i j) y]; exact hd y hy

omit hs hγ hK in
theorem adm_valid {y : Vec} (hy : y ∈ Ω) : (admAt γ K y).Valid :=
  ⟨fun i j => congrFun (hγs i j) y, fun i j => congrFun (hKs i j) y, hd y hy⟩

omit hγ hK in
theorem bssnOf_trip {y : Vec} (hy : y ∈ Ω) :
    (∀ i j, gammaF s (bssnOf s γ K) .W i j y = γ i j y) ∧ (∀ i j, KF s (bssnOf s γ K) .W i j y = K i j y) ∧
    (Matrix.of fun i j => gammabarF s (bssnOf s γ K) i j y).det = (rfmAt s y).detgammahat ∧ trAbar (rfmAt s y) (gfsAt (bssnOf s γ K) y) = 0 := by
  have h := C70_round_trip (rfmAt_regular (hs.ne y hy)) (adm_valid (K := K) hγs hKs hd hy) .W (G := gfsAt (bssnOf s γ K) y)
    ⟨rfl, rfl, rfl, rfl, rfl, rfl⟩
  exact ⟨fun i j => congrFun (congrFun h.1 i) j, fun i j => congrFun (congrFun h.2.1 i) j, h.2.2.2.2.1, h.2.2.2.2.2.1⟩

theorem bssnOf_smooth : (bssnOf s γ K).Smooth Ω := by
  have hD := symmInv3Det_smooth hγ
  have hD0 : ∀ y ∈ Ω, (symmInv3Det fun i j => γ i j y) ≠ 0 := fun y hy => (adm_det_pos hγ hγs hd hy).ne'
  have hg := fun i j => hs.ghatDD i j
  have hh : Sm Ω fun y => (rfmAt s y).detgammahat := symmInv3Det_smooth hg
  have hh0 : ∀ y ∈ Ω, (rfmAt s y).detgammahat ≠ 0 := fun y hy => (rfmAt_regular (hs.ne y hy)).det.ne'
  have hR : ∀ i j, ∀ y ∈ Ω, RefMetric.ReDD s i j y ≠ 0 := fun i j y hy => (rfmAt_regular (hs.ne y hy)).ReDD i j
  have hl : Sm Ω fun y => ((rfmAt s y).detgammahat / symmInv3Det fun i j => γ i j y) ^ (1 / 3 : ℝ) :=
    Sm.rpow (hh.div hD hD0) (fun y hy => div_ne_zero (hh0 y hy) (hD0 y hy)) _
  have hb : ∀ i j, Sm Ω fun y => FromADM.gammabarDD (rfmAt s y) (admAt γ K y) i j := fun i j => hl.mul (hγ i j)
  have hb0 : ∀ y ∈ Ω, FromADM.gammabarDET (rfmAt s y) (admAt γ K y) ≠ 0 := fun y hy => by
    obtain ⟨l, -, -, -, e, -⟩ := BSSN.conformal (rfmAt_regular (hs.ne y hy)) (adm_valid (K := K) hγs hKs hd hy)
    rw [e]; exact hh0 y hy
  have ht : Sm Ω fun y => FromADM.trK (admAt γ K y) :=
    Sm.sum fun i => Sm.sum fun j => ((symmInv3Num_smooth hγ i j).div hD hD0).mul (hK i j)
  refine ⟨fun i j => ((hb i j).sub (hg i j)).div (hs.ReDD i j) (hR i j),
    fun i j => (hl.mul ((hK i j).sub (((Sm.const (1 / 3)).mul (hγ i j)).mul ht))).div (hs.ReDD i j) (hR i j),
    fun i => Sm.const 0, fun i => (Sm.const 0).div (hs.ReU i) fun y hy => (rfmAt_regular (hs.ne y hy)).ReU i,
    fun i => (Sm.const 0).div (hs.ReU i) fun y hy => (rfmAt_regular (hs.ne y hy)).ReU i, ht,
    Sm.rpow (hD.div (symmInv3Det_smooth hb) hb0) (fun y hy => div_ne_zero (hD0 y hy) (hb0 y hy)) _, Sm.const 1, fun i j => ?_, fun i j => ?_⟩
  · funext y
    show FromADM.hDD _ _ i j = FromADM.hDD _ _ j i
    simp only [FromADM.hDD, FromADM.gammabarDD, admAt, rfmAt, hγs i j, RefMetric.ReDD, mul_comm (s y i), ghatDD_symm s i j]
  · funext y
    show FromADM.aDD _ _ i j = FromADM.aDD _ _ j i
    simp only [FromADM.aDD, FromADM.AbarDD, admAt, rfmAt, hγs i j, hKs i j, RefMetric.ReDD, mul_comm (s y i)]

/-- They meet the hypotheses of the theorems on evolved variables. -/
theorem bssnOf_setting {P : CoordParams} {name : Py.Str} {C : Coords} (hC : s = C.scale) (hP : P.b ≠ 0) (hn : choose P name = .sys C) :
    Setting P name C Ω (bssnOf s γ K) .W ∧ Traceless s (bssnOf s γ K) Ω := by
  subst hC
  have hF := bssnOf_smooth hs hγ hK hγs hKs hd
  refine ⟨⟨hP, hn, hs.ne, hF, fun y hy => ?_, fun y hy => ?_⟩, fun y hy => ?_⟩
  · obtain ⟨l, hl, e1, hp, e, -⟩ := BSSN.conformal (rfmAt_regular (hs.ne y hy)) (adm_valid (K := K) hγs hKs hd hy)
    show 0 < FromADM.cf _ _ .W
    rw [FromADM.cf, e]
    exact rpow_pos_of_pos (div_pos hp (rfmAt_regular (hs.ne y hy)).det) _
  · rw [(bssnOf_trip hs hγs hKs hd hy).2.2.1]
    exact (rfmAt_regular (hs.ne y hy)).det.ne'
  · rw [← trAbar_eq hs hF]
    exact (bssnOf_trip hs hγs hKs hd hy).2.2.2

end

end Verif.Horizon
