import Verif.SuperB.Inner
import Mathlib.Data.List.Basic
import Mathlib.Data.List.Perm.Basic
import Mathlib.Data.List.Perm.Lattice

/-!
# Model of the diagnostics files written by all chares together

superB/output_0d_1d_2d_nearest_gridpoint_slices.py:160-562 and superB/timestepping_chare.py:176-222.  Simplifications: the quantities at a point
are numbers in decimal scientific notation (the rounding of a double to 16 digits is that of `printf`); positions in a file are natural numbers.
-/
namespace Verif.SuperB.Records
open Verif.SuperB.Inner (Own)

/-- A double as `printf` sees it. -/
inductive Val where
  /-- sign, 16 digits, exponent (below 1000 in absolute value) with its sign -/
  | finite (neg : Bool) (digits : Fin 16 → Fin 10) (eneg : Bool) (exp : Fin 1000)
  | nan
  | inf (neg : Bool)

def digit (n : ℕ) : Char := Char.ofNat (48 + n)

/-- `% .15e` (lines 198, 202, 284, 287): a blank or a minus sign, sixteen digits, at least two digits of the exponent. -/
def Val.text : Val → List Char
  | .finite neg d eneg e =>
    [if neg then '-' else ' ', digit (d 0), '.'] ++ ((List.finRange 16).tail.map fun i => digit (d i)) ++ ['e', if eneg then '-' else '+'] ++
      (if e.val < 100 then [digit (e.val / 10), digit (e.val % 10)] else [digit (e.val / 100), digit (e.val / 10 % 10), digit (e.val % 10)])
  | .nan => [' ', 'n', 'a', 'n']
  | .inf neg => [if neg then '-' else ' ', 'i', 'n', 'f']

/-- The line of a point (lines 198-209, 284-298): fields with a blank in between, a newline. -/
def line (vs : List Val) : List Char := (List.intersperse [' '] (vs.map Val.text)).flatten ++ ['\n']

/-- The loop that counts the points of a chare (lines 394-403, 499-506). -/
def count (O : Own) (this : ℕ) (pts : List ℕ) : ℕ := pts.foldl (fun n p => if O.chare p = this then n + 1 else n) 0

/-- The loop that fills the arrays of a chare with local indices and offsets (lines 412-423, 518-534); `g` is `which_diagnostic_global`. -/
def fill (O : Own) (this size : ℕ) : ℕ → List ℕ → List (ℕ × ℕ)
  | _, [] => []
  | g, p :: ps => if O.chare p = this then (O.loc p, g * size) :: fill O this size (g + 1) ps else fill O this size (g + 1) ps

/-- `char out[sizeinbytes+1]; snprintf(out, sizeof(out), ...)` (lines 194-197, 280-283); `junk` is what the memory held. -/
def buffer (size : ℕ) (text : List Char) (junk : ℕ → Char) (i : ℕ) : Char :=
  if i < min text.length size then text[i]?.getD ' ' else if i = min text.length size then '\x00' else junk i

/-- A call of `Ck::IO::write`: offset and bytes. -/
structure Write where
  off : ℕ
  bytes : ℕ → Char

/-- The calls made by a chare (lines 186-213, 273-302); `vals c l` are the values in the memory of chare `c` at local index `l`, coordinates first. -/
def writes (O : Own) (size : ℕ) (pts : List ℕ) (vals : ℕ → ℕ → List Val) (junk : ℕ → ℕ → Char) (this : ℕ) : List Write :=
  (fill O this size 0 pts).map fun lo => ⟨lo.2, buffer size (line (vals this lo.1)) (junk lo.2)⟩

/-- The effect of a call on the file. -/
def put (size : ℕ) (file : ℕ → Option Char) (w : Write) : ℕ → Option Char :=
  fun i => if w.off ≤ i ∧ i < w.off + size then some (w.bytes (i - w.off)) else file i

/-- `sizeinbytes` with the number of fields (coordinates and quantities) (lines 194, 280, 408, 513). -/
def recSize (fields : ℕ) : ℕ := 23 * fields

/-- `totsizeinbytes` (timestepping_chare.py:195-197). -/
def sessionSize (fields tot : ℕ) : ℕ := 23 * fields * tot

end Verif.SuperB.Records
