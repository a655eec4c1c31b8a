import Mathlib.Data.Rat.Defs
import Mathlib.Algebra.Field.Basic
import Mathlib.Tactic.NormNum

/-!
# Levi-Civita symbol and tensors (`nrpy/indexedexp.py`, lines 1208-1307)
-/
namespace Verif.IndexedExp

/-- `LeviCivitaSymbol_dim3_rank3()[i][j][k]` (indexedexp.py:1210-1237). -/
def leviCivita (i j k : Fin 3) : ℚ :=
  ((i.val : ℚ) - j.val) * ((j.val : ℚ) - k.val) * ((k.val : ℚ) - i.val) * (1 / 2)

variable {K : Type*} [Field K]

/-- `LeviCivitaTensorUUU_dim3_rank3(s)[i][j][k]` (indexedexp.py:1241-1272). Sympy expressions are read in
a field. -/
def leviCivitaUUU (s : K) (i j k : Fin 3) : K := (leviCivita i j k : K) / s

/-- `LeviCivitaTensorDDD_dim3_rank3(s)[i][j][k]` (indexedexp.py:1276-1307). -/
def leviCivitaDDD (s : K) (i j k : Fin 3) : K := (leviCivita i j k : K) * s

end Verif.IndexedExp
