import Verif.SIMD.Header
import Mathlib.Tactic.FinCases

/-!
# C54: every instruction set computes the same functions
-/
namespace Verif.SIMD
open Verif.Py Verif.Sympy Verif.Sympy.Expr

/-- The one branch of the header whose `NegFusedMulSubSIMD` is wrong. -/
def Isa.Buggy (i : Isa) : Prop := ∃ s, i = .sse2 true s

/-- **C54** (fused operations): in every lane of every instruction set the fused operations are `ab+c`,
`ab-c`, `c-ab` and `-ab-c`.  Missing: `NegFusedMulSubSIMD` of SSE2 with FMA, see
`C54_negFusedMulSub`. -/
theorem C54_fused_partial (i : Isa) (a b c : i.Vec) (k : Fin i.width) :
    i.fma a b c k = a k * b k + c k ∧ i.fms a b c k = a k * b k - c k ∧
    i.nfma a b c k = c k - a k * b k ∧
    (¬ i.Buggy → i.nfms a b c k = -(a k * b k) - c k) := by
  rcases i with _ | f | ⟨f, s⟩ | _ | _ | _
  case avx =>
    cases f <;> refine ⟨?_, ?_, ?_, fun _ => ?_⟩ <;>
      simp only [Isa.fma, Isa.fms, Isa.nfma, Isa.nfms, mmFmadd, mmFmsub, mmFnmadd, mmFnmsub, mmAdd, mmMul,
        mmSub] <;> ring
  case sse2 =>
    cases f
    · refine ⟨?_, ?_, ?_, fun _ => ?_⟩ <;>
      simp only [Isa.fma, Isa.fms, Isa.nfma, Isa.nfms, mmFmadd, mmFmsub, mmFnmadd, mmFnmsub, mmAdd, mmMul,
        mmSub] <;> ring
    · refine ⟨?_, ?_, ?_, fun h => absurd ⟨s, rfl⟩ h⟩ <;>
      simp only [Isa.fma, Isa.fms, Isa.nfma, Isa.nfms, mmFmadd, mmFmsub, mmFnmadd, mmFnmsub, mmAdd, mmMul,
        mmSub]
  all_goals
    refine ⟨?_, ?_, ?_, fun _ => ?_⟩ <;>
      simp only [Isa.fma, Isa.fms, Isa.nfma, Isa.nfms, mmFmadd, mmFmsub, mmFnmadd, mmFnmsub, mmAdd, mmMul,
        mmSub, mmNeg, mmSet1] <;> ring

/-- **C54 is violated** on SSE2 with FMA: `NegFusedMulSubSIMD(a, b, c)` is `ab - c` instead of `-ab - c`;
for `a = b = 1` and `c = 0` it is 1 instead of -1. -/
theorem C54_negFusedMulSub (s : Bool) :
    (∀ (a b c : (Isa.sse2 true s).Vec) k, (Isa.sse2 true s).nfms a b c k = a k * b k - c k) ∧
    ∃ a b c : (Isa.sse2 true s).Vec, ∀ k, (Isa.sse2 true s).nfms a b c k = 1 ∧ -(a k * b k) - c k = -1 := by
  constructor
  · intro a b c k
    simp only [Isa.nfms, mmSub, mmMul]; ring
  · refine ⟨fun _ => 1, fun _ => 1, fun _ => 0, fun k => ?_⟩
    simp [Isa.nfms, mmSub, mmMul]

/-- **C54** (horizontal sum): the sum of the lanes. -/
theorem C54_horizAdd (i : Isa) (v : i.Vec) : i.horizAdd v = ∑ k, v k := by
  rcases i with _ | f | ⟨f, s⟩ | _ | _ | _
  · refine Eq.trans ?_ (Fin.sum_univ_eight (M := ℝ) v).symm
    show v (6 : Fin 8) + v (2 : Fin 8) + (v (4 : Fin 8) + v (0 : Fin 8)) + (v (7 : Fin 8) + v (3 : Fin 8)
      + (v (5 : Fin 8) + v (1 : Fin 8))) = _
    ring
  · refine Eq.trans ?_ (Fin.sum_univ_four (M := ℝ) v).symm
    show v (0 : Fin 4) + v (2 : Fin 4) + (v (1 : Fin 4) + v (3 : Fin 4)) = _
    ring
  · refine Eq.trans ?_ (Fin.sum_univ_two (M := ℝ) v).symm
    cases s <;> rfl
  all_goals exact (Fin.sum_univ_one (M := ℝ) v).symm

/-- Sign and magnitude of a double; `mag` is whatever the other 63 bits mean. -/
noncomputable def ofBits (mag : BitVec 63 → ℝ) (b : BitVec 64) : ℝ :=
  if b.getLsbD 63 then -(mag (b.setWidth 63)) else mag (b.setWidth 63)

theorem absBits_eq (i : Isa) (b : BitVec 64) : i.absBits b = b &&& 0x7FFFFFFFFFFFFFFF#64 := by
  have h : ~~~0x8000000000000000#64 = 0x7FFFFFFFFFFFFFFF#64 := by decide
  cases i <;> simp only [Isa.absBits, h, BitVec.and_comm]

/-- **C54** (absolute value): the bit mask of every instruction set yields the absolute value. -/
theorem C54_abs (i : Isa) (mag : BitVec 63 → ℝ) (hm : ∀ m, 0 ≤ mag m) (b : BitVec 64) :
    ofBits mag (i.absBits b) = |ofBits mag b| := by
  have h1 : (i.absBits b).getLsbD 63 = false := by
    rw [absBits_eq, BitVec.getLsbD_and]
    have : (0x7FFFFFFFFFFFFFFF#64).getLsbD 63 = false := by decide
    rw [this, Bool.and_false]
  have h2 : (i.absBits b).setWidth 63 = b.setWidth 63 := by
    rw [absBits_eq]
    apply BitVec.eq_of_getLsbD_eq
    intro k hk
    have : ∀ k < 63, (0x7FFFFFFFFFFFFFFF#64).getLsbD k = true := by decide
    rw [BitVec.getLsbD_setWidth, BitVec.getLsbD_setWidth, BitVec.getLsbD_and, this k hk, Bool.and_true]
  unfold ofBits
  rw [h1, h2, if_neg (by simp)]
  by_cases h : b.getLsbD 63 = true
  · rw [if_pos h, abs_neg, abs_of_nonneg (hm _)]
  · rw [if_neg h, abs_of_nonneg (hm _)]

/-- **C54** (upwinding): with `upwind_Integer_0 = 0.0` and `upwind_Integer_1 = 1.0` every instruction set
yields the double 1.0 in the lanes that are positive and 0.0 in the others. -/
theorem C54_upwind (i : Isa) (gt : Bool) :
    i.upwindBits gt 0#64 0x3FF0000000000000#64 = if gt then 0x3FF0000000000000#64 else 0#64 := by
  cases i <;> cases gt <;> rfl

/-- Non-vacuity: AVX without FMA has four lanes and is not the branch with the error. -/
example : ¬ (Isa.avx false).Buggy ∧ (Isa.avx false).width = 4 := ⟨(by rintro ⟨s, h⟩; cases h), rfl⟩

example : (Isa.avx false).nfms (fun _ => 2) (fun k => k.1) (fun _ => 5) ⟨3, by decide⟩ = -11 := by
  have := (C54_fused_partial (.avx false) (fun _ => 2) (fun k => k.1) (fun _ => 5) ⟨3, by decide⟩).2.2.2
    (by rintro ⟨s, h⟩; cases h)
  rw [this]; norm_num

end Verif.SIMD
