import Verif.Wave.Radial

/-!
# Polynomials in the components of `x - c` and `1/|x - c|`
-/
namespace Verif.Initial
open Verif.RefMetric Verif.BSSN Verif.Wave Real
open scoped ContDiff

/-- Polynomials in `y_i = x_i - c_i` and `q = 1/|x - c|`. -/
inductive QE where
  | k (a : ℝ)
  | y (i : Fin 3)
  | q
  | add (a b : QE)
  | mul (a b : QE)

namespace QE

noncomputable def eval (c : Vec) : QE → Scal
  | k a => fun _ => a
  | y i => fun x => x i - c i
  | q => invDist c
  | add a b => fun x => a.eval c x + b.eval c x
  | mul a b => fun x => a.eval c x * b.eval c x

/-- The partial derivative. -/
def der (n : Fin 3) : QE → QE
  | k _ => k 0
  | y i => k (if i = n then 1 else 0)
  | q => mul (k (-1)) (mul (y n) (mul q (mul q q)))
  | add a b => add (a.der n) (b.der n)
  | mul a b => add (mul (a.der n) b) (mul a (b.der n))

theorem smooth (c : Vec) (e : QE) : Sm (away c) (e.eval c) := by
  induction e with
  | k a => exact Sm.const a
  | y i => exact sm_coord c i
  | q => exact sm_invDist c
  | add a b ha hb => exact ha.add hb
  | mul a b ha hb => exact ha.mul hb

theorem pd_eval {c x : Vec} (hx : x ≠ c) (n : Fin 3) (e : QE) : pd n (e.eval c) x = (e.der n).eval c x := by
  have hx' : x ∈ away c := hx
  induction e with
  | k a => exact dpd_const n a
  | y i => exact pd_coord c x n i
  | q =>
    show pd n (invDist c) x = _
    rw [pd_invDist hx]
    simp only [der, eval]
    ring
  | add a b ha hb => exact (dpd_add hx' n (smooth c a) (smooth c b)).trans (by rw [ha, hb]; rfl)
  | mul a b ha hb => exact (dpd_mul hx' n (smooth c a) (smooth c b)).trans (by rw [ha, hb]; rfl)

end QE

end Verif.Initial
