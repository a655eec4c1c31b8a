import Mathlib.Data.Rat.Defs
import Mathlib.Algebra.Order.Ring.Rat
import Mathlib.Data.Nat.Factorial.Basic

/-!
# Adams–Bashforth coefficients
(nrpy/infrastructures/BHaH/MoLtimestepping/RK_Butcher_Table_Dictionary.py:290-337)

SymPy polynomials in `x` with rational coefficients are coefficient lists, lowest degree first.
`sp.prod`, `sp.integrate(·, (x, 0, 1))`, `sp.factorial` are taken to be exact.
-/

namespace Verif.MoL.AB

/-- `p + q` on coefficient lists. -/
def addP : List ℚ → List ℚ → List ℚ
  | [], q => q
  | p, [] => p
  | a :: p, b :: q => (a + b) :: addP p q

/-- `(x + i) * p` on coefficient lists. -/
def mulLin (i : Nat) (p : List ℚ) : List ℚ := addP (p.map fun c => (i : ℚ) * c) (0 :: p)

/-- `x * sp.prod(x + i for i in range(n) if i != j) / x`; SymPy cancels the `x`
(RK_Butcher_Table_Dictionary.py:312). -/
def lagrangeExpr (n j : Nat) : List ℚ :=
  ((List.range n).filter fun i => i != j).foldl (fun p i => mulLin i p) [1]

/-- `Σ_k c_k / (k + m + 1)`. -/
def integFrom (m : Nat) : List ℚ → ℚ
  | [] => 0
  | c :: p => c / ((m : ℚ) + 1) + integFrom (m + 1) p

/-- `sp.integrate(expr, (x, 0, 1))` (RK_Butcher_Table_Dictionary.py:315). -/
def integ (p : List ℚ) : ℚ := integFrom 0 p

/-- `expr2` after multiplication by the combinatorial factor
(RK_Butcher_Table_Dictionary.py:309-320). -/
def coeff (n j : Nat) : ℚ :=
  integ (lagrangeExpr n j) * ((-1) ^ j / ((j.factorial : ℚ) * ((n - j - 1).factorial : ℚ)))

/-- Body of the inner loop: enlarge the matrix if needed, then append or replace
(RK_Butcher_Table_Dictionary.py:322-331).  `pythonButcher[n-1]` always exists at this point. -/
def store (n : Nat) (T : List (List ℚ)) (j : Nat) : List (List ℚ) :=
  let T := if T.length < n then T ++ [List.replicate n 0] else T
  T.modify (n - 1) fun row =>
    if row.length < j + 1 then row ++ [coeff n j] else row.set j (coeff n j)

/-- `for n in range(1, order + 1): for j in range(n): …` starting from `[[0, 0], [0, 0]]`, then
`pythonButcher[0] = [1]` (RK_Butcher_Table_Dictionary.py:298-337). -/
def table (order : Nat) : List (List ℚ) :=
  (((List.range order).map (· + 1)).foldl
    (fun T n => (List.range n).foldl (store n) T) [[0, 0], [0, 0]]).set 0 [1]

end Verif.MoL.AB
