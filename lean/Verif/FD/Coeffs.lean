import Verif.Py.Str
import Mathlib.Data.Rat.Defs
import Mathlib.LinearAlgebra.Matrix.NonsingularInverse

/-!
# Finite-difference coefficients and stencils (`nrpy/finite_difference.py`, lines 93-328)

Sympy rationals are `ℚ`. `setup_FD_matrix__return_inverse_lowlevel` computes the inverse of the matrix
as `U⁻¹ L⁻¹` from sympy's `L, U, perm = M.LUdecomposition()` and drops `perm`. The model takes
`minv = M⁻¹`; `Verif.FD.C16_lu_inverse` (in `CoeffsProps`) shows that no row exchange can be needed and
that for every factorization `M = L U` the product `U⁻¹ L⁻¹` is that inverse. The dictionary
`FD_Matrix_dict` (lines 134-199) only caches this function.
-/
namespace Verif.FD
open Verif.Py

/-- `dist_from_xeq0_col` (finite_difference.py:119-121). -/
def node (w : Nat) (shift : Int) (j : Nat) : ℚ := (j : ℚ) - ((w : ℚ) - 1) / 2 + shift

/-- The matrix `M` (finite_difference.py:111-125). -/
def fdMatrix (w : Nat) (shift : Int) : Matrix (Fin w) (Fin w) ℚ := fun i j =>
  if i.val = 0 then 1
  else if node w shift j.val = 0 then 0
  else node w shift j.val ^ i.val

/-- `setup_FD_matrix__return_inverse` (finite_difference.py:93-199), see the module comment. -/
noncomputable def minv (w : Nat) (shift : Int) : Matrix (Fin w) (Fin w) ℚ := (fdMatrix w shift)⁻¹

inductive FDErr
  | orderTooHigh
  | indexError
  | valueError
  | notModelled
  deriving DecidableEq, Repr

inductive DerivType
  | first | second | mixed | kreissOliger
  deriving DecidableEq, Repr

/-- `fd_order`, possibly raised by two for Kreiss-Oliger (finite_difference.py:225-226). -/
def effOrder (s : Str) (order : Nat) : Nat := if containsSub (c% "dKOD") s then order + 2 else order

/-- `UPDOWNWIND_stencil_shift` (finite_difference.py:229-239), as a function of the effective order. -/
def shiftOf (s : Str) (order : Nat) : Int :=
  if containsSub (c% "dupD") s then 1
  else if containsSub (c% "ddnD") s then -1
  else if containsSub (c% "dfullupD") s then ((order / 2 : Nat) : Int)
  else if containsSub (c% "dfulldnD") s then -((order / 2 : Nat) : Int)
  else 0

/-- The `n`-th character from the end, `derivstring[len(derivstring) - n]` with `n >= 1`. A negative
index that is still in range cannot occur, since the callers test for `DD` first. -/
def fromEnd (s : Str) (n : Nat) : Except FDErr Char :=
  match s.reverse[n - 1]? with
  | some c => .ok c
  | none => .error .indexError

/-- `int(c)` for one character. Simplification: only ASCII digits are accepted. -/
def digitVal (c : Char) : Except FDErr Nat :=
  if '0' ≤ c ∧ c ≤ '9' then .ok (c.toNat - '0'.toNat) else .error .valueError

/-- `derivtype` and `matrixrow` (finite_difference.py:249-270), with `w` the stencil width. -/
def derivKind (s : Str) (w : Nat) : Except FDErr (DerivType × Nat) :=
  if containsSub (c% "DDD") s then .error .orderTooHigh
  else if containsSub (c% "DD") s then
    match fromEnd s 1, fromEnd s 2 with
    | .ok a, .ok b => if a = b then .ok (.second, 2) else .ok (.mixed, 1)
    | .error e, _ => .error e
    | _, .error e => .error e
  else if containsSub (c% "dKOD") s then .ok (.kreissOliger, w - 1)
  else .ok (.first, 1)

/-- `Minv[(i, row)]`; out of range is an `IndexError`. -/
noncomputable def minvEntry (w : Nat) (shift : Int) (i row : Nat) : Except FDErr ℚ :=
  if h : i < w ∧ row < w then .ok (minv w shift ⟨i, h.1⟩ ⟨row, h.2⟩) else .error .indexError

/-- `idx3[d] = v` on a list of three. -/
def setIdx (idx3 : List Int) (d : Nat) (v : Int) : Except FDErr (List Int) :=
  if d < idx3.length then .ok (idx3.set d v) else .error .indexError

/-- `fdcoeffs[i] *= f` with Python's `IndexError`. -/
def mulAt (l : List ℚ) (i : Nat) (f : ℚ) : Except FDErr (List ℚ) :=
  if h : i < l.length then .ok (l.set i (l[i] * f)) else .error .indexError

/-- One pass of the loop for unmixed derivatives (finite_difference.py:279-300). For Kreiss-Oliger the
factor is `(-1) ** Rational(w+1, 2) / 2**row`; a half-integer exponent (odd order) is not modelled. -/
noncomputable def step (s : Str) (w : Nat) (shift : Int) (ty : DerivType) (row : Nat)
    (st : List ℚ × List (List Int)) (i : Nat) : Except FDErr (List ℚ × List (List Int)) := do
  let m ← minvEntry w shift i row
  let c : ℚ := (Nat.factorial row : ℚ) * m
  if c ≠ 0 then
    let cs := st.1 ++ [c]
    let cs ← if ty = .kreissOliger then
        (if (w + 1) % 2 = 0 then mulAt cs i ((-1) ^ ((w + 1) / 2) / 2 ^ row) else .error .notModelled)
      else .ok cs
    let posn : Int := (i : Int) - (((w - 1) / 2 : Nat) : Int) + shift
    let idx3 ← if posn ≠ 0 then do
        let ch ← fromEnd s 1
        let d ← digitVal ch
        setIdx [0, 0, 0] d posn
      else .ok [0, 0, 0]
    .ok (cs, st.2 ++ [idx3])
  else .ok st

/-- One pass of the double loop for mixed second derivatives (finite_difference.py:305-327). -/
noncomputable def stepMixed (s : Str) (w : Nat) (shift : Int)
    (st : List ℚ × List (List Int)) (ij : Nat × Nat) : Except FDErr (List ℚ × List (List Int)) := do
  let m1 ← minvEntry w shift ij.1 1
  let m2 ← minvEntry w shift ij.2 1
  let c : ℚ := (Nat.factorial 1 * m1) * (Nat.factorial 1 * m2)
  if c ≠ 0 then
    let posn1 : Int := (ij.1 : Int) - (((w - 1) / 2 : Nat) : Int)
    let posn2 : Int := (ij.2 : Int) - (((w - 1) / 2 : Nat) : Int)
    let c1 ← fromEnd s 1
    let d1 ← digitVal c1
    let c2 ← fromEnd s 2
    let d2 ← digitVal c2
    let idx ← setIdx [0, 0, 0] d1 posn1
    let idx ← setIdx idx d2 posn2
    .ok (st.1 ++ [c], st.2 ++ [idx])
  else .ok st

/-- `compute_fdcoeffs_fdstencl(derivstring, fd_order)` (finite_difference.py:202-328). -/
noncomputable def fdcoeffs (s : Str) (order : Nat) : Except FDErr (List ℚ × List (List Int)) := do
  let o := effOrder s order
  let w := o + 1
  let shift := shiftOf s o
  let (ty, row) ← derivKind s w
  if ty ≠ .mixed then
    (List.range w).foldlM (step s w shift ty row) ([], [])
  else
    ((List.range w).flatMap fun i => (List.range w).map fun j => (i, j)).foldlM
      (stepMixed s w shift) ([], [])

end Verif.FD
