import Verif.RefMetric.Coords
import Verif.IndexedExp.Inverters

/-!
# Model of the hatted quantities of reference_metric.py

Functions of the coordinates, built from the scale factors `s` of the coordinate system.  With
`enable_rfm_precompute=True` the same formulas are applied to the named form of the scale factors (lines 263-274); the
replacement of named functions by precomputed symbols (lines 383-629) is left out.
-/
namespace Verif.RefMetric
open Verif.IndexedExp

/-- `sp.diff(f, xx[k])`. -/
noncomputable def pd (k : Fin 3) (f : Vec → ℝ) : Vec → ℝ := fun x => deriv (fun t => f (Function.update x k t)) (x k)

/-- `ghatDD` (lines 251-255, 267). -/
noncomputable def ghatDD (s : Vec → Vec) (i j : Fin 3) : Vec → ℝ := fun x => if i = j then s x i ^ 2 else 0

/-- `ReU` (line 256). -/
noncomputable def ReU (s : Vec → Vec) (i : Fin 3) : Vec → ℝ := fun x => 1 / s x i

/-- `ReD` (line 257). -/
noncomputable def ReD (s : Vec → Vec) (i : Fin 3) : Vec → ℝ := fun x => s x i

/-- `ReDD` (lines 258-261). -/
noncomputable def ReDD (s : Vec → Vec) (i j : Fin 3) : Vec → ℝ := fun x => s x i * s x j

/-- `ghatUU` (line 277).  The test for a vanishing determinant is left out: SymPy expressions are not numbers here. -/
noncomputable def ghatUU (s : Vec → Vec) (i j : Fin 3) : Vec → ℝ :=
  fun x => symmInv3Num (fun a b => ghatDD s a b x) i j / symmInv3Det (fun a b => ghatDD s a b x)

/-- `detgammahat` (line 277). -/
noncomputable def detgammahat (s : Vec → Vec) : Vec → ℝ := fun x => symmInv3Det (fun a b => ghatDD s a b x)

/-- `detgammahatdD`, `detgammahatdDD` (lines 297-302). -/
noncomputable def detgammahatdD (s : Vec → Vec) (i : Fin 3) : Vec → ℝ := pd i (detgammahat s)
@[inherit_doc detgammahatdD]
noncomputable def detgammahatdDD (s : Vec → Vec) (i j : Fin 3) : Vec → ℝ := pd j (detgammahatdD s i)

/-- `ReUdD`, `ReUdDD`, `ReDdD`, `ReDdDD` (lines 306-316). -/
noncomputable def ReUdD (s : Vec → Vec) (i j : Fin 3) : Vec → ℝ := pd j (ReU s i)
@[inherit_doc ReUdD]
noncomputable def ReUdDD (s : Vec → Vec) (i j k : Fin 3) : Vec → ℝ := pd k (ReUdD s i j)
@[inherit_doc ReUdD]
noncomputable def ReDdD (s : Vec → Vec) (i j : Fin 3) : Vec → ℝ := pd j (ReD s i)
@[inherit_doc ReUdD]
noncomputable def ReDdDD (s : Vec → Vec) (i j k : Fin 3) : Vec → ℝ := pd k (ReDdD s i j)

/-- `ReDDdD`, `ReDDdDD` (lines 319-329). -/
noncomputable def ReDDdD (s : Vec → Vec) (i j k : Fin 3) : Vec → ℝ := pd k (ReDD s i j)
@[inherit_doc ReDDdD]
noncomputable def ReDDdDD (s : Vec → Vec) (i j k l : Fin 3) : Vec → ℝ := pd l (ReDDdD s i j k)

/-- `ghatDDdD`, `ghatDDdDD` (lines 332-349); simplification keeps the value. -/
noncomputable def ghatDDdD (s : Vec → Vec) (i j k : Fin 3) : Vec → ℝ := pd k (ghatDD s i j)
@[inherit_doc ghatDDdD]
noncomputable def ghatDDdDD (s : Vec → Vec) (i j k l : Fin 3) : Vec → ℝ := pd l (ghatDDdD s i j k)

/-- `GammahatUDD` (lines 352-366). -/
noncomputable def GammahatUDD (s : Vec → Vec) (i k l : Fin 3) : Vec → ℝ := fun x =>
  ∑ m, 1 / 2 * ghatUU s i m x * (ghatDDdD s m k l x + ghatDDdD s m l k x - ghatDDdD s k l m x)

/-- `GammahatUDDdD` (lines 369-376). -/
noncomputable def GammahatUDDdD (s : Vec → Vec) (i j k l : Fin 3) : Vec → ℝ := pd l (GammahatUDD s i j k)

end Verif.RefMetric
