import Mathlib.Data.Real.Basic

/-!
# Model of equations/grhd/Min_Max_and_Piecewise_Expressions.py

Expressions are modelled by the real number they evaluate to, with a rounding function `r` applied after each
operation.  `r = id` is exact arithmetic.  `none`: division by zero.  Operations are rounded in the order in
which the source writes them; SymPy may print sums in another order (see `C49_printed_order`).
-/
namespace Verif.Equations

/-- An argument of `min_noif`: its value, and whether the comparison `== sp.sympify(0)` succeeds for it. -/
structure NoifArg where
  val : ℝ
  isZero : Bool
  sound : isZero = true → val = 0

/-- An argument for which the comparison fails, whatever its value. -/
def NoifArg.of (x : ℝ) : NoifArg := ⟨x, false, by simp⟩

/-- The literal `0.0`.  Whether it compares equal to `sp.sympify(0)` depends on the SymPy version. -/
def NoifArg.zero (z : Bool) : NoifArg := ⟨0, z, fun _ => rfl⟩

/-- `min_noif` (Min_Max_and_Piecewise_Expressions.py:21-34). -/
noncomputable def minNoif (r : ℝ → ℝ) (a b : NoifArg) : ℝ :=
  if a.isZero then r (1 / 2 * r (b.val - |b.val|))
  else if b.isZero then r (1 / 2 * r (a.val - |a.val|))
  else r (1 / 2 * r (r (a.val + b.val) - |r (a.val - b.val)|))

/-- `max_noif` (Min_Max_and_Piecewise_Expressions.py:37-50). -/
noncomputable def maxNoif (r : ℝ → ℝ) (a b : NoifArg) : ℝ :=
  if a.isZero then r (1 / 2 * r (b.val + |b.val|))
  else if b.isZero then r (1 / 2 * r (a.val + |a.val|))
  else r (1 / 2 * r (r (a.val + b.val) + |r (a.val - b.val)|))

/-- Division. -/
noncomputable def divR (r : ℝ → ℝ) (a b : ℝ) : Option ℝ := open Classical in if b = 0 then none else some (r (a / b))

/-- `coord_leq_bound` (Min_Max_and_Piecewise_Expressions.py:53-62); `T` is TINYDOUBLE. -/
noncomputable def coordLeq (r : ℝ → ℝ) (T : ℝ) (z : Bool) (x xs : ℝ) : Option ℝ :=
  divR r (minNoif r (.of (r (r (x - xs) - T))) (.zero z)) (r (r (x - xs) - T))

/-- `coord_geq_bound` (Min_Max_and_Piecewise_Expressions.py:65-74). -/
noncomputable def coordGeq (r : ℝ → ℝ) (T : ℝ) (z : Bool) (x xs : ℝ) : Option ℝ :=
  divR r (maxNoif r (.of (r (r (x - xs) + T))) (.zero z)) (r (r (x - xs) + T))

/-- `coord_less_bound` (Min_Max_and_Piecewise_Expressions.py:77-86). -/
noncomputable def coordLess (r : ℝ → ℝ) (T : ℝ) (z : Bool) (x xs : ℝ) : Option ℝ :=
  divR r (minNoif r (.of (r (x - xs))) (.zero z)) (r (r (x - xs) - T))

/-- `coord_greater_bound` (Min_Max_and_Piecewise_Expressions.py:89-98). -/
noncomputable def coordGreater (r : ℝ → ℝ) (T : ℝ) (z : Bool) (x xs : ℝ) : Option ℝ :=
  divR r (maxNoif r (.of (r (x - xs))) (.zero z)) (r (r (x - xs) + T))

end Verif.Equations
