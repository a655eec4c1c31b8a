import Verif.Py.Str

/-!
# Model of `ConditionalFileUpdater` (nrpy/helpers/conditional_file_updater.py)

A file is missing or holds text.  Encodings are left out: reading and writing text never fails.  `clang_format` is a
parameter that may fail (`None`).  The messages printed are left out.
-/
namespace Verif.Helpers
open Verif.Py

/-- Characters removed by `str.strip()`. -/
def pySpace (c : Char) : Bool :=
  let n := c.toNat
  (9 ≤ n && n ≤ 13) || (28 ≤ n && n ≤ 32) || n == 133 || n == 160 || n == 0x1680 || (0x2000 ≤ n && n ≤ 0x200a) ||
    n == 0x2028 || n == 0x2029 || n == 0x202f || n == 0x205f || n == 0x3000

/-- `str.strip()`. -/
def pyStrip (s : Str) : Str := ((s.dropWhile pySpace).reverse.dropWhile pySpace).reverse

/-- Reading in text mode: `\r\n` and `\r` become `\n`. -/
def universalNewlines : Str → Str
  | [] => []
  | [c] => [if c = '\r' then '\n' else c]
  | c :: d :: s =>
    if c = '\r' then
      if d = '\n' then '\n' :: universalNewlines s else '\n' :: universalNewlines (d :: s)
    else c :: universalNewlines (d :: s)

/-- Settings: `nochange` (line 18) and, for `do_format=True`, the formatter (lines 82-83). -/
structure UpdCfg where
  nochange : Bool
  format : Option (Str → Option Str)

/-- New content (lines 81-83); `none`: formatting raised an exception. -/
def UpdCfg.newContent (c : UpdCfg) (buf : Str) : Option Str :=
  match c.format with
  | some f => f buf
  | none => some buf

/-- Content of the file as read (lines 86-89). -/
def oldContent : Option Str → Str
  | some f => universalNewlines f
  | none => []

/-- `__exit__` (lines 70-110) with what was written to the buffer; the exception information is not looked at.
Result: the file, and whether it was written; `none`: an exception from the formatter. -/
def updExit (c : UpdCfg) (buf : Str) (_exception : Bool) (file : Option Str) : Option (Option Str × Bool) :=
  match c.newContent buf with
  | none => none
  | some new =>
    if pyStrip new ≠ pyStrip (oldContent file) then
      if c.nochange then some (file, false) else some (some new, true)
    else some (file, false)

/-- A `with` block that writes the given pieces; an exception may be raised after some of them (lines 59-68). -/
def withUpdater (c : UpdCfg) (pieces : List Str) (raised : Option Nat) (file : Option Str) :
    Option (Option Str × Bool) :=
  match raised with
  | none => updExit c pieces.flatten false file
  | some k => updExit c (pieces.take k).flatten true file

end Verif.Helpers
