import Mathlib.RingTheory.Binomial
import Mathlib.Analysis.SpecialFunctions.Complex.Log
import Mathlib.Analysis.SpecialFunctions.Trigonometric.Basic

/-!
# Model of equations/special_functions/spin_weighted_spherical_harmonics.py

SymPy expressions become functions of the values of their symbols.  `cached_simplify` is taken to keep the value.
-/
namespace Verif.SWSH
open Complex

/-- `sp.binomial` for integers: zero for negative `k`, and the generalized binomial coefficient otherwise. -/
noncomputable def binomial (n k : ℤ) : ℤ := if k < 0 then 0 else Ring.choose n k.toNat

/-- `sp.factorial` of an integer that is not negative. -/
def factorial (n : ℤ) : ℕ := n.toNat.factorial

/-- The reciprocal of `sp.factorial`; the factorial of a negative integer is `zoo`, and dividing by it gives zero. -/
noncomputable def invFactorial (n : ℤ) : ℝ := if n < 0 then 0 else 1 / factorial n

/-- The loop over `r` (spin_weighted_spherical_harmonics.py:55-77); `cot` is the value of `GenerateMathematicaCode`. -/
noncomputable def Sum (cot : Bool) (s l m : ℤ) (th ph : ℝ) : ℂ :=
  ∑ r ∈ Finset.range (l - s + 1).toNat,
    if cot then
      binomial (l - s) r * binomial (l + s) (r + s - m) * (-1 : ℂ) ^ (l - r - s) * exp (I * m * ph) * (Real.cot (th / 2) : ℂ) ^ (2 * r + s - m)
    else
      binomial (l - s) r * binomial (l + s) (r + s - m) * (-1 : ℂ) ^ (l - r - s) * exp (I * m * ph) / (Real.tan (th / 2) : ℂ) ^ (2 * r + s - m)

/-- `Y` (spin_weighted_spherical_harmonics.py:32-87), for `|m| ≤ l`; `cot` is the value of `GenerateMathematicaCode`. -/
noncomputable def Yof (cot : Bool) (s l m : ℤ) (th ph : ℝ) : ℂ :=
  Real.sqrt (factorial (l + m) * factorial (l - m) * (2 * l + 1) * (1 / (4 * Real.pi)) * invFactorial (l + s) * invFactorial (l - s)) *
    ((-1 : ℂ) ^ m * (Real.sin (th / 2) : ℂ) ^ (2 * l) * Sum cot s l m th ph)

/-- `Y` with the default `GenerateMathematicaCode=False` (spin_weighted_spherical_harmonics.py:38). -/
noncomputable def Y (s l m : ℤ) (th ph : ℝ) : ℂ := Yof false s l m th ph

/-- The outer switch of the C function, from a label on: the inner switch of a label returns for the orders it has a case for; otherwise
control goes on with the next label, as there is no `break` between them, and behind the last one to the error message and `exit(1)`
(BHaH/special_functions/spin_weight_minus2_spherical_harmonics.py:65-86).  `c_codegen` of the real and imaginary part is taken to keep the
values. -/
noncomputable def runCases (m : ℤ) (th ph : ℝ) : List ℕ → Except String (ℝ × ℝ)
  | [] => .error "exit(1)"
  | c :: cs => if -(c : ℤ) ≤ m ∧ m < c + 1 then .ok ((Y (-2) c m th ph).re, (Y (-2) c m th ph).im) else runCases m th ph cs

/-- The C function `spin_weight_minus2_sph_harmonics` (BHaH/special_functions/spin_weight_minus2_spherical_harmonics.py:31-96), for the
value `maxl` of `swm2sh_maximum_l_mode_generated`: the labels are `range(maxl + 1)`, and `switch(l)` jumps to the label `l` if there is
one. -/
noncomputable def swm2 (maxl l m : ℤ) (th ph : ℝ) : Except String (ℝ × ℝ) :=
  runCases m th ph ((List.range (maxl + 1).toNat).dropWhile fun c => (c : ℤ) ≠ l)

end Verif.SWSH
