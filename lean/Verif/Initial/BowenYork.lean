import Verif.Initial.Poly
import Verif.Initial.ConfFlat
import Verif.Initial.Model
import Verif.IndexedExp.LeviCivitaProps

/-!
# The Bowen–York vector
-/
namespace Verif.Initial
open Verif.RefMetric Verif.BSSN Verif.Wave Verif.IndexedExp Real
open scoped ContDiff

/-- The positions of the punctures. -/
def punc0 (p : Punctures) : Vec := ![0, 0, p.zPunc]
@[inherit_doc punc0]
def punc1 (p : Punctures) : Vec := ![0, 0, -p.zPunc]

/-- Everywhere but at the punctures. -/
def offPunc (p : Punctures) : Dom := away (punc0 p) ⊓ away (punc1 p)

theorem mem_offPunc {p : Punctures} {x : Vec} : x ∈ offPunc p ↔ x ≠ punc0 p ∧ x ≠ punc1 p := Iff.rfl

theorem x0U_eq (p : Punctures) (x : Vec) : x0U p x = fun i => x i - punc0 p i := by
  funext i
  fin_cases i <;> simp [x0U, punc0]

theorem x1U_eq (p : Punctures) (x : Vec) : x1U p x = fun i => x i - punc1 p i := by
  funext i
  fin_cases i <;> simp [x1U, punc1]

theorem norm3_eq (c x : Vec) : norm3 (fun i => x i - c i) = dist3 c x := by
  simp [norm3, dist3, Fin.sum_univ_three]

namespace QE

/-- `x·P`, where `x` is the position relative to the puncture. -/
def dotE (P : Vec) : QE := .add (.add (.mul (.k (P 0)) (.y 0)) (.mul (.k (P 1)) (.y 1))) (.mul (.k (P 2)) (.y 2))

/-- `x × S`. -/
def crossE (S : Vec) (i : Fin 3) : QE :=
  ![.add (.mul (.k (S 2)) (.y 1)) (.mul (.k (-S 1)) (.y 2)),
    .add (.mul (.k (S 0)) (.y 2)) (.mul (.k (-S 2)) (.y 0)),
    .add (.mul (.k (S 1)) (.y 0)) (.mul (.k (-S 0)) (.y 1))] i

/-- The vector of one puncture. -/
noncomputable def VE (P S : Vec) (i : Fin 3) : QE :=
  .add (.add (.mul (.k (-7 / 4 * P i)) .q) (.mul (.mul (.k (-1 / 4)) (.mul (dotE P) (.y i))) (.mul .q (.mul .q .q))))
    (.mul (crossE S i) (.mul .q (.mul .q .q)))

theorem VE_eval (c x P S : Vec) (i : Fin 3) : (VE P S i).eval c x = VU_single (fun i => x i - c i) P S i := by
  have e : ∀ j, cross (fun i => x i - c i) S j = (crossE S j).eval c x := by
    intro j
    simp only [cross, leviCivita_table, Fin.sum_univ_three]
    fin_cases j <;> simp [crossE, eval] <;> ring
  unfold VU_single
  rw [norm3_eq, e]
  simp only [VE, eval, dotE, dot, invDist, Fin.sum_univ_three]
  ring

/-- The divergence of the vector. -/
theorem VE_div {c x : Vec} (hx : x ≠ c) (P S : Vec) :
    ∑ i, ((VE P S i).der i).eval c x = 3 / 2 * dot P (fun i => x i - c i) * invDist c x ^ 3 := by
  have h := invDist_sq hx
  simp only [VE, eval, der, dotE, crossE, dot, Fin.sum_univ_three]
  simp only [Matrix.cons_val_zero, Matrix.cons_val_one, Matrix.cons_val, eval, der]
  simp only [Fin.isValue, reduceIte, Fin.reduceEq]
  set q := invDist c x
  set y0 := x 0 - c 0
  set y1 := x 1 - c 1
  set y2 := x 2 - c 2
  clear_value q y0 y1 y2
  linear_combination (3 / 4) * q ^ 3 * (P 0 * y0 + P 1 * y1 + P 2 * y2) * h

set_option maxHeartbeats 4000000 in
/-- The vector solves the equation `∂_j (∂_j V_i + ∂_i V_j - ⅔ δ_{ij} ∂_k V_k) = 0`. -/
theorem VE_longitudinal {c x : Vec} (hx : x ≠ c) (P S : Vec) (i : Fin 3) :
    ∑ j, ((((VE P S i).der j).der j).eval c x + (((VE P S j).der i).der j).eval c x -
      2 / 3 * (((VE P S j).der j).der i).eval c x) = 0 := by
  have h := invDist_sq hx
  set q := invDist c x with hq
  set y0 := x 0 - c 0 with h0
  set y1 := x 1 - c 1 with h1
  set y2 := x 2 - c 2 with h2
  fin_cases i
  all_goals
    simp only [VE, eval, der, dotE, crossE, Fin.sum_univ_three, Fin.zero_eta, Fin.mk_one, Fin.reduceFinMk]
    simp only [Matrix.cons_val_zero, Matrix.cons_val_one, Matrix.cons_val, eval, der]
    simp only [Fin.isValue, reduceIte, Fin.reduceEq, ← hq, ← h0, ← h1, ← h2]
    clear_value q y0 y1 y2
    grind

end QE

end Verif.Initial
