import Mathlib.Data.Matrix.Basic
import Mathlib.Data.Fin.VecNotation
import Mathlib.LinearAlgebra.Matrix.Notation
import Mathlib.Algebra.Field.Defs

/-!
# Matrix inverters (`nrpy/indexedexp.py`, lines 668-1206)

Matrix entries are elements of an arbitrary field; `none` stands for `NonInvertibleMatrixError`.
Simplification: the code tests `outDET == 0` on SymPy expressions structurally; the model tests the
value. Numerators are transcribed mechanically from the source; `/ outDET` is applied to every entry as
in the source (either in the assignment or in the final loop).
-/
namespace Verif.IndexedExp

variable {K : Type} [Field K]

/-- Determinant computed by `symm_matrix_inverter2x2` (nrpy/indexedexp.py:668-699). -/
def symmInv2Det (a : Fin 2 → Fin 2 → K) : K :=
  a 0 0 * a 1 1 - a 0 1 ^ 2

/-- Numerators of the inverse computed by `symm_matrix_inverter2x2` (nrpy/indexedexp.py:668-699). -/
def symmInv2Num (a : Fin 2 → Fin 2 → K) : Fin 2 → Fin 2 → K :=
  ![
    ![a 1 1,
      -a 0 1],
    ![-a 0 1,
      a 0 0]]

/-- `symm_matrix_inverter2x2` (nrpy/indexedexp.py:668-699). -/
def symmInv2 [DecidableEq K] (a : Fin 2 → Fin 2 → K) : Option ((Fin 2 → Fin 2 → K) × K) :=
  if symmInv2Det a = 0 then none
  else some (fun i j => symmInv2Num a i j / symmInv2Det a, symmInv2Det a)

/-- Determinant computed by `symm_matrix_inverter3x3` (nrpy/indexedexp.py:702-745). -/
def symmInv3Det (a : Fin 3 → Fin 3 → K) : K :=
  (-a 0 2 ^ 2 * a 1 1 + 2 * a 0 1 * a 0 2 * a 1 2 - a 0 0 * a 1 2 ^ 2 - a 0 1 ^ 2 * a 2 2 +
    a 0 0 * a 1 1 * a 2 2)

/-- Numerators of the inverse computed by `symm_matrix_inverter3x3` (nrpy/indexedexp.py:702-745). -/
def symmInv3Num (a : Fin 3 → Fin 3 → K) : Fin 3 → Fin 3 → K :=
  ![
    ![(-a 1 2 ^ 2 + a 1 1 * a 2 2),
      (a 0 2 * a 1 2 - a 0 1 * a 2 2),
      (-a 0 2 * a 1 1 + a 0 1 * a 1 2)],
    ![(a 0 2 * a 1 2 - a 0 1 * a 2 2),
      (-a 0 2 ^ 2 + a 0 0 * a 2 2),
      (a 0 1 * a 0 2 - a 0 0 * a 1 2)],
    ![(-a 0 2 * a 1 1 + a 0 1 * a 1 2),
      (a 0 1 * a 0 2 - a 0 0 * a 1 2),
      (-a 0 1 ^ 2 + a 0 0 * a 1 1)]]

/-- `symm_matrix_inverter3x3` (nrpy/indexedexp.py:702-745). -/
def symmInv3 [DecidableEq K] (a : Fin 3 → Fin 3 → K) : Option ((Fin 3 → Fin 3 → K) × K) :=
  if symmInv3Det a = 0 then none
  else some (fun i j => symmInv3Num a i j / symmInv3Det a, symmInv3Det a)

/-- Determinant computed by `symm_matrix_inverter4x4` (nrpy/indexedexp.py:773-925). -/
def symmInv4Det (a : Fin 4 → Fin 4 → K) : K :=
  (a 0 2 * a 0 2 * a 1 3 * a 1 3 + a 0 3 * a 0 3 * a 1 2 * a 1 2 + a 0 1 * a 0 1 * a 2 3 *
    a 2 3 - a 0 0 * a 1 3 * a 1 3 * a 2 2 - a 0 3 * a 0 3 * a 1 1 * a 2 2 - a 0 0 * a 1 1 * a
    2 3 * a 2 3 - 2 * (a 0 1 * a 0 2 * a 1 3 * a 2 3 - a 0 0 * a 1 2 * a 1 3 * a 2 3 - a 0 3
    * (-a 0 2 * a 1 2 * a 1 3 + a 0 1 * a 1 3 * a 2 2 + a 0 2 * a 1 1 * a 2 3 - a 0 1 * a 1 2
    * a 2 3)) - a 3 3 * (a 0 2 * a 0 2 * a 1 1 - a 0 1 * a 0 2 * a 1 2 - a 0 1 * a 0 2 * a 1
    2 + a 0 0 * a 1 2 * a 1 2 + a 0 1 * a 0 1 * a 2 2 - a 0 0 * a 1 1 * a 2 2))

/-- Numerators of the inverse computed by `symm_matrix_inverter4x4` (nrpy/indexedexp.py:773-925). -/
def symmInv4Num (a : Fin 4 → Fin 4 → K) : Fin 4 → Fin 4 → K :=
  ![
    ![(-a 1 3 * a 1 3 * a 2 2 + 2 * a 1 2 * a 1 3 * a 2 3 - a 1 1 * a 2 3 * a 2 3 - a 1 2 * a 1
        2 * a 3 3 + a 1 1 * a 2 2 * a 3 3),
      (a 0 3 * a 1 3 * a 2 2 - a 0 3 * a 1 2 * a 2 3 - a 0 2 * a 1 3 * a 2 3 + a 0 1 * a 2 3 *
        a 2 3 + a 0 2 * a 1 2 * a 3 3 - a 0 1 * a 2 2 * a 3 3),
      (-a 0 3 * a 1 2 * a 1 3 + a 0 2 * a 1 3 * a 1 3 + a 0 3 * a 1 1 * a 2 3 - a 0 1 * a 1 3 *
        a 2 3 - a 0 2 * a 1 1 * a 3 3 + a 0 1 * a 1 2 * a 3 3),
      (-a 0 2 * a 1 2 * a 1 3 + a 0 1 * a 1 3 * a 2 2 + a 0 3 * a 1 2 * a 1 2 - a 0 3 * a 1 1 *
        a 2 2 + a 0 2 * a 1 1 * a 2 3 - a 0 1 * a 1 2 * a 2 3)],
    ![(a 0 3 * a 1 3 * a 2 2 - a 0 3 * a 1 2 * a 2 3 - a 0 2 * a 1 3 * a 2 3 + a 0 1 * a 2 3 *
        a 2 3 + a 0 2 * a 1 2 * a 3 3 - a 0 1 * a 2 2 * a 3 3),
      (-a 0 3 * a 0 3 * a 2 2 + 2 * a 0 2 * a 0 3 * a 2 3 - a 0 0 * a 2 3 * a 2 3 - a 0 2 * a 0
        2 * a 3 3 + a 0 0 * a 2 2 * a 3 3),
      (a 0 3 * a 0 3 * a 1 2 + a 0 0 * a 1 3 * a 2 3 - a 0 3 * a 0 2 * a 1 3 - a 0 3 * a 0 1 *
        a 2 3 + a 0 1 * a 0 2 * a 3 3 - a 0 0 * a 1 2 * a 3 3),
      (a 0 2 * a 0 2 * a 1 3 + a 0 1 * a 0 3 * a 2 2 - a 0 0 * a 1 3 * a 2 2 + a 0 0 * a 1 2 *
        a 2 3 - a 0 2 * a 0 3 * a 1 2 - a 0 2 * a 0 1 * a 2 3)],
    ![(-a 0 3 * a 1 2 * a 1 3 + a 0 2 * a 1 3 * a 1 3 + a 0 3 * a 1 1 * a 2 3 - a 0 1 * a 1 3 *
        a 2 3 - a 0 2 * a 1 1 * a 3 3 + a 0 1 * a 1 2 * a 3 3),
      (a 0 3 * a 0 3 * a 1 2 + a 0 0 * a 1 3 * a 2 3 - a 0 3 * a 0 2 * a 1 3 - a 0 3 * a 0 1 *
        a 2 3 + a 0 1 * a 0 2 * a 3 3 - a 0 0 * a 1 2 * a 3 3),
      (-a 0 3 * a 0 3 * a 1 1 + 2 * a 0 1 * a 0 3 * a 1 3 - a 0 0 * a 1 3 * a 1 3 - a 0 1 * a 0
        1 * a 3 3 + a 0 0 * a 1 1 * a 3 3),
      (a 0 2 * a 0 3 * a 1 1 - a 0 1 * a 0 3 * a 1 2 - a 0 1 * a 0 2 * a 1 3 + a 0 0 * a 1 2 *
        a 1 3 + a 0 1 * a 0 1 * a 2 3 - a 0 0 * a 1 1 * a 2 3)],
    ![(-a 0 2 * a 1 2 * a 1 3 + a 0 1 * a 1 3 * a 2 2 + a 0 3 * a 1 2 * a 1 2 - a 0 3 * a 1 1 *
        a 2 2 + a 0 2 * a 1 1 * a 2 3 - a 0 1 * a 1 2 * a 2 3),
      (a 0 2 * a 0 2 * a 1 3 + a 0 1 * a 0 3 * a 2 2 - a 0 0 * a 1 3 * a 2 2 + a 0 0 * a 1 2 *
        a 2 3 - a 0 2 * a 0 3 * a 1 2 - a 0 2 * a 0 1 * a 2 3),
      (a 0 2 * a 0 3 * a 1 1 - a 0 1 * a 0 3 * a 1 2 - a 0 1 * a 0 2 * a 1 3 + a 0 0 * a 1 2 *
        a 1 3 + a 0 1 * a 0 1 * a 2 3 - a 0 0 * a 1 1 * a 2 3),
      (-a 0 2 * a 0 2 * a 1 1 + 2 * a 0 1 * a 0 2 * a 1 2 - a 0 0 * a 1 2 * a 1 2 - a 0 1 * a 0
        1 * a 2 2 + a 0 0 * a 1 1 * a 2 2)]]

/-- `symm_matrix_inverter4x4` (nrpy/indexedexp.py:773-925). -/
def symmInv4 [DecidableEq K] (a : Fin 4 → Fin 4 → K) : Option ((Fin 4 → Fin 4 → K) × K) :=
  if symmInv4Det a = 0 then none
  else some (fun i j => symmInv4Num a i j / symmInv4Det a, symmInv4Det a)

/-- Determinant computed by `generic_matrix_inverter2x2` (nrpy/indexedexp.py:930-957). -/
def genInv2Det (a : Fin 2 → Fin 2 → K) : K :=
  a 0 0 * a 1 1 - a 0 1 * a 1 0

/-- Numerators of the inverse computed by `generic_matrix_inverter2x2` (nrpy/indexedexp.py:930-957). -/
def genInv2Num (a : Fin 2 → Fin 2 → K) : Fin 2 → Fin 2 → K :=
  ![
    ![a 1 1,
      -a 0 1],
    ![-a 1 0,
      a 0 0]]

/-- `generic_matrix_inverter2x2` (nrpy/indexedexp.py:930-957). -/
def genInv2 [DecidableEq K] (a : Fin 2 → Fin 2 → K) : Option ((Fin 2 → Fin 2 → K) × K) :=
  if genInv2Det a = 0 then none
  else some (fun i j => genInv2Num a i j / genInv2Det a, genInv2Det a)

/-- Determinant computed by `generic_matrix_inverter3x3` (nrpy/indexedexp.py:960-1004). -/
def genInv3Det (a : Fin 3 → Fin 3 → K) : K :=
  (-a 0 2 * a 1 1 * a 2 0 + a 0 1 * a 1 2 * a 2 0 + a 0 2 * a 1 0 * a 2 1 - a 0 0 * a 1 2 *
    a 2 1 - a 0 1 * a 1 0 * a 2 2 + a 0 0 * a 1 1 * a 2 2)

/-- Numerators of the inverse computed by `generic_matrix_inverter3x3` (nrpy/indexedexp.py:960-1004). -/
def genInv3Num (a : Fin 3 → Fin 3 → K) : Fin 3 → Fin 3 → K :=
  ![
    ![-a 1 2 * a 2 1 + a 1 1 * a 2 2,
      a 0 2 * a 2 1 - a 0 1 * a 2 2,
      -a 0 2 * a 1 1 + a 0 1 * a 1 2],
    ![a 1 2 * a 2 0 - a 1 0 * a 2 2,
      -a 0 2 * a 2 0 + a 0 0 * a 2 2,
      a 0 2 * a 1 0 - a 0 0 * a 1 2],
    ![-a 1 1 * a 2 0 + a 1 0 * a 2 1,
      a 0 1 * a 2 0 - a 0 0 * a 2 1,
      -a 0 1 * a 1 0 + a 0 0 * a 1 1]]

/-- `generic_matrix_inverter3x3` (nrpy/indexedexp.py:960-1004). -/
def genInv3 [DecidableEq K] (a : Fin 3 → Fin 3 → K) : Option ((Fin 3 → Fin 3 → K) × K) :=
  if genInv3Det a = 0 then none
  else some (fun i j => genInv3Num a i j / genInv3Det a, genInv3Det a)

/-- Determinant computed by `generic_matrix_inverter4x4` (nrpy/indexedexp.py:1007-1206). -/
def genInv4Det (a : Fin 4 → Fin 4 → K) : K :=
  (a 0 1 * a 1 3 * a 2 2 * a 3 0 - a 0 1 * a 1 2 * a 2 3 * a 3 0 - a 0 0 * a 1 3 * a 2 2 *
    a 3 1 + a 0 0 * a 1 2 * a 2 3 * a 3 1 - a 0 1 * a 1 3 * a 2 0 * a 3 2 + a 0 0 * a 1 3 * a
    2 1 * a 3 2 + a 0 1 * a 1 0 * a 2 3 * a 3 2 - a 0 0 * a 1 1 * a 2 3 * a 3 2 + a 0 3 * (a
    1 2 * a 2 1 * a 3 0 - a 1 1 * a 2 2 * a 3 0 - a 1 2 * a 2 0 * a 3 1 + a 1 0 * a 2 2 * a 3
    1 + a 1 1 * a 2 0 * a 3 2 - a 1 0 * a 2 1 * a 3 2) + (a 0 1 * a 1 2 * a 2 0 - a 0 0 * a 1
    2 * a 2 1 - a 0 1 * a 1 0 * a 2 2 + a 0 0 * a 1 1 * a 2 2) * a 3 3 + a 0 2 * (-(a 1 3 * a
    2 1 * a 3 0) + a 1 1 * a 2 3 * a 3 0 + a 1 3 * a 2 0 * a 3 1 - a 1 0 * a 2 3 * a 3 1 - a
    1 1 * a 2 0 * a 3 3 + a 1 0 * a 2 1 * a 3 3))

/-- Numerators of the inverse computed by `generic_matrix_inverter4x4` (nrpy/indexedexp.py:1007-1206). -/
def genInv4Num (a : Fin 4 → Fin 4 → K) : Fin 4 → Fin 4 → K :=
  ![
    ![(-a 1 3 * a 2 2 * a 3 1 + a 1 2 * a 2 3 * a 3 1 + a 1 3 * a 2 1 * a 3 2 - a 1 1 * a 2 3 *
        a 3 2 - a 1 2 * a 2 1 * a 3 3 + a 1 1 * a 2 2 * a 3 3),
      (a 0 3 * a 2 2 * a 3 1 - a 0 2 * a 2 3 * a 3 1 - a 0 3 * a 2 1 * a 3 2 + a 0 1 * a 2 3 *
        a 3 2 + a 0 2 * a 2 1 * a 3 3 - a 0 1 * a 2 2 * a 3 3),
      (-a 0 3 * a 1 2 * a 3 1 + a 0 2 * a 1 3 * a 3 1 + a 0 3 * a 1 1 * a 3 2 - a 0 1 * a 1 3 *
        a 3 2 - a 0 2 * a 1 1 * a 3 3 + a 0 1 * a 1 2 * a 3 3),
      (a 0 3 * a 1 2 * a 2 1 - a 0 2 * a 1 3 * a 2 1 - a 0 3 * a 1 1 * a 2 2 + a 0 1 * a 1 3 *
        a 2 2 + a 0 2 * a 1 1 * a 2 3 - a 0 1 * a 1 2 * a 2 3)],
    ![(a 1 3 * a 2 2 * a 3 0 - a 1 2 * a 2 3 * a 3 0 - a 1 3 * a 2 0 * a 3 2 + a 1 0 * a 2 3 *
        a 3 2 + a 1 2 * a 2 0 * a 3 3 - a 1 0 * a 2 2 * a 3 3),
      (-a 0 3 * a 2 2 * a 3 0 + a 0 2 * a 2 3 * a 3 0 + a 0 3 * a 2 0 * a 3 2 - a 0 0 * a 2 3 *
        a 3 2 - a 0 2 * a 2 0 * a 3 3 + a 0 0 * a 2 2 * a 3 3),
      (a 0 3 * a 1 2 * a 3 0 - a 0 2 * a 1 3 * a 3 0 - a 0 3 * a 1 0 * a 3 2 + a 0 0 * a 1 3 *
        a 3 2 + a 0 2 * a 1 0 * a 3 3 - a 0 0 * a 1 2 * a 3 3),
      (-a 0 3 * a 1 2 * a 2 0 + a 0 2 * a 1 3 * a 2 0 + a 0 3 * a 1 0 * a 2 2 - a 0 0 * a 1 3 *
        a 2 2 - a 0 2 * a 1 0 * a 2 3 + a 0 0 * a 1 2 * a 2 3)],
    ![(-a 1 3 * a 2 1 * a 3 0 + a 1 1 * a 2 3 * a 3 0 + a 1 3 * a 2 0 * a 3 1 - a 1 0 * a 2 3 *
        a 3 1 - a 1 1 * a 2 0 * a 3 3 + a 1 0 * a 2 1 * a 3 3),
      (a 0 3 * a 2 1 * a 3 0 - a 0 1 * a 2 3 * a 3 0 - a 0 3 * a 2 0 * a 3 1 + a 0 0 * a 2 3 *
        a 3 1 + a 0 1 * a 2 0 * a 3 3 - a 0 0 * a 2 1 * a 3 3),
      (-a 0 3 * a 1 1 * a 3 0 + a 0 1 * a 1 3 * a 3 0 + a 0 3 * a 1 0 * a 3 1 - a 0 0 * a 1 3 *
        a 3 1 - a 0 1 * a 1 0 * a 3 3 + a 0 0 * a 1 1 * a 3 3),
      (a 0 3 * a 1 1 * a 2 0 - a 0 1 * a 1 3 * a 2 0 - a 0 3 * a 1 0 * a 2 1 + a 0 0 * a 1 3 *
        a 2 1 + a 0 1 * a 1 0 * a 2 3 - a 0 0 * a 1 1 * a 2 3)],
    ![(a 1 2 * a 2 1 * a 3 0 - a 1 1 * a 2 2 * a 3 0 - a 1 2 * a 2 0 * a 3 1 + a 1 0 * a 2 2 *
        a 3 1 + a 1 1 * a 2 0 * a 3 2 - a 1 0 * a 2 1 * a 3 2),
      (-a 0 2 * a 2 1 * a 3 0 + a 0 1 * a 2 2 * a 3 0 + a 0 2 * a 2 0 * a 3 1 - a 0 0 * a 2 2 *
        a 3 1 - a 0 1 * a 2 0 * a 3 2 + a 0 0 * a 2 1 * a 3 2),
      (a 0 2 * a 1 1 * a 3 0 - a 0 1 * a 1 2 * a 3 0 - a 0 2 * a 1 0 * a 3 1 + a 0 0 * a 1 2 *
        a 3 1 + a 0 1 * a 1 0 * a 3 2 - a 0 0 * a 1 1 * a 3 2),
      (-a 0 2 * a 1 1 * a 2 0 + a 0 1 * a 1 2 * a 2 0 + a 0 2 * a 1 0 * a 2 1 - a 0 0 * a 1 2 *
        a 2 1 - a 0 1 * a 1 0 * a 2 2 + a 0 0 * a 1 1 * a 2 2)]]

/-- `generic_matrix_inverter4x4` (nrpy/indexedexp.py:1007-1206). -/
def genInv4 [DecidableEq K] (a : Fin 4 → Fin 4 → K) : Option ((Fin 4 → Fin 4 → K) × K) :=
  if genInv4Det a = 0 then none
  else some (fun i j => genInv4Num a i j / genInv4Det a, genInv4Det a)

end Verif.IndexedExp
