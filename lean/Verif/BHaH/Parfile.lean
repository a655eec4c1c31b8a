import Verif.Py.Str
import Verif.Py.Num

/-!
# Model of the generated parameter-file parser (nrpy/infrastructures/BHaH/cmdline_input_and_parfiles.py:44-660)

Text is a list of bytes (characters); a C string is the text up to the first NUL.  Every write into a fixed-size buffer is
checked: a write past the end gives `Fault.overflow`, `exit(1)` gives `Fault.exit`.  Floating-point numbers are a
parameter with their `strtod`.  Messages are left out.  Conversion of out-of-range numbers to `int` wraps (as with gcc).
-/
namespace Verif.BHaH.Parfile
open Verif.Py

inductive Fault
  | exit
  | overflow
  deriving DecidableEq

abbrev CM := Except Fault

/-- Write `n` bytes from the start of a buffer of `cap` bytes. -/
def write (cap n : Nat) : CM Unit := if n ≤ cap then .ok () else .error .overflow

/-- `LINE_SIZE`, `PARAM_SIZE`, `MAX_ARRAY_SIZE` (lines 47-48, 134). -/
def lineSize : Nat := 1024
def paramSize : Nat := 128
def maxArraySize : Nat := 100

/-- C `isspace` and `isalnum` in the C locale. -/
def cSpace (c : Char) : Bool := c.toNat == 32 || (9 ≤ c.toNat && c.toNat ≤ 13)
def cAlnum (c : Char) : Bool := c.isDigit || c.isUpper || c.isLower

/-- `trim_space` (lines 59-77). -/
def trimSpace (s : Str) : Str := ((s.dropWhile cSpace).reverse.dropWhile cSpace).reverse

/-- `safe_copy` (lines 91-111) into a buffer of `cap` bytes: `strncpy` pads up to `size - 1`, then the last byte is
written. -/
def safeCopy (cap : Nat) (src : Str) (size : Nat) : CM Str :=
  if size = 0 then .error .exit
  else if size ≤ src.length then .error .exit
  else (write cap size).map fun _ => src

/-- Tokens of `strtok` for one separator: the parts that are not empty. -/
def tokens (d : Char) (s : Str) : List Str := (split1 d s).filter fun p => !p.isEmpty

/-- Leading digits as a number, and the rest. -/
def digitsValue (s : Str) : Nat := (s.takeWhile Char.isDigit).foldl (fun n c => 10 * n + (c.toNat - '0'.toNat)) 0

/-- Sign of a number. -/
def signOf : Str → Bool × Str
  | '-' :: s => (true, s)
  | '+' :: s => (false, s)
  | s => (false, s)

def longMax : Int := 9223372036854775807

/-- Number with the given sign, see `strtol`. -/
def strtolDigits (neg : Bool) (t : Str) : Option (Int × Str × Bool) :=
  if (t.takeWhile Char.isDigit).isEmpty then none
  else
    let v : Int := if neg then -(digitsValue t : Int) else (digitsValue t : Int)
    some (v, t.dropWhile Char.isDigit, decide (v < -longMax - 1 ∨ longMax < v))

/-- `strtol(s, &endptr, 10)`: value, characters left, and whether the value is out of range; `none`: no conversion. -/
def strtol (s : Str) : Option (Int × Str × Bool) :=
  strtolDigits (signOf (s.dropWhile cSpace)).1 (signOf (s.dropWhile cSpace)).2

/-- Conversion of a `long` to `int`. -/
def toInt32 (v : Int) : Int := (v + 2147483648) % 4294967296 - 2147483648

/-- `atoi`. -/
def atoi (s : Str) : Int :=
  match strtol s with
  | none => 0
  | some (v, _, _) => toInt32 v

/-- Kinds of parameters (line 137) with array or buffer sizes. -/
inductive PKind
  | real
  | int
  | chars (n : Nat)
  | reals (n : Nat)
  | ints (n : Nat)
  deriving DecidableEq

/-- Parameter values in `commondata`. -/
inductive CVal (F : Type)
  | real (x : F)
  | int (n : Int)
  | chars (s : Str)
  | reals (l : List F)
  | ints (l : List Int)
  deriving DecidableEq

/-- Entry of `param_table` (lines 140-149); the index is the position in the table. -/
structure Desc where
  name : Str
  kind : PKind

/-- `parse_param` (lines 247-273): name and array size.  Buffers: `param_name[PARAM_SIZE]`, `size_str[16]`. -/
def parseParam (param : Str) : CM (Str × Int) :=
  let name := param.takeWhile (· ≠ '[')
  match param.dropWhile (· ≠ '[') with
  | [] => (safeCopy paramSize param paramSize).map fun n => (n, 0)
  | _ :: inner =>
    (write paramSize (name.length + 1)).bind fun _ =>
      if ']' ∈ inner then
        let size := inner.takeWhile (· ≠ ']')
        (write 16 (size.length + 1)).bind fun _ =>
          if atoi size ≤ 0 then .error .exit else .ok (name, atoi size)
      else .error .exit

/-- The loop of `parse_value` over the tokens (lines 292-301), with the number of values so far. -/
def copyValues : List Str → Nat → CM (List Str)
  | [], _ => .ok []
  | t :: ts, count =>
    if count < maxArraySize then
      (safeCopy paramSize (trimSpace t) paramSize).bind fun v =>
        if maxArraySize < count + 1 then .error .exit
        else (copyValues ts (count + 1)).map fun vs => v :: vs
    else .error .overflow

/-- `parse_value` (lines 276-312). -/
def parseValue (value : Str) : CM (List Str) :=
  match value with
  | '{' :: rest =>
    if value.getLast? ≠ some '}' then .error .exit
    else
      (safeCopy lineSize rest lineSize).bind fun copy =>
        (write lineSize (value.length - 2 + 1)).bind fun _ =>
          copyValues (tokens ',' (copy.take (value.length - 2))) 0
  | _ =>
    (safeCopy paramSize value paramSize).bind fun v =>
      (safeCopy paramSize (trimSpace v) paramSize).map fun w => [w]

section
variable {F : Type} (strtod : Str → Option (F × Str × Bool))

/-- `read_integer` (lines 318-329). -/
def readInteger (value : Str) : CM Int :=
  match strtol value with
  | some (v, [], false) => .ok (toInt32 v)
  | _ => .error .exit

/-- `read_REAL` (lines 335-346). -/
def readReal (value : Str) : CM F :=
  match strtod value with
  | some (x, [], false) => .ok x
  | _ => .error .exit

/-- Lines 353-364: the value without surrounding quotes, in `trimmed_value[PARAM_SIZE]`.  For the text `"` alone `len - 2`
wraps to a huge number, which is at least `size`. -/
def unquote (value : Str) (size : Nat) : CM Str :=
  if value.head? = some '"' ∧ value.getLast? = some '"' then
    if value.length < 2 ∨ size ≤ value.length - 2 then .error .exit
    else
      (write paramSize (value.length - 2 + 1)).map fun _ => (value.drop 1).take (value.length - 2)
  else safeCopy paramSize value paramSize

/-- `read_chararray` (lines 352-371) into a field of `size` bytes. -/
def readChars (value : Str) (size : Nat) : CM Str :=
  (unquote value size).bind fun t =>
    if size ≤ t.length then .error .exit else safeCopy size t size

/-- Values of an array (lines 578-593). -/
def readMany {α : Type} (read : Str → CM α) : List Str → CM (List α)
  | [] => .ok []
  | v :: vs => (read v).bind fun x => (readMany read vs).map fun xs => x :: xs

/-- Checks of array size and number of values (lines 519-541). -/
def checkSizes (k : PKind) (arraySize : Int) (count : Nat) : CM Unit :=
  let declared : Nat := match k with
    | .reals n => n
    | .ints n => n
    | _ => 0
  if 0 < declared then
    if arraySize ≠ declared ∨ count ≠ declared then .error .exit else .ok ()
  else if 0 < arraySize ∨ count ≠ 1 then .error .exit else .ok ()

/-- Assignment of the parsed values (lines 543-594). -/
def assignValues (k : PKind) (values : List Str) : CM (CVal F) :=
  match k, values with
  | .reals n, _ => (readMany (readReal strtod) (values.take n)).map .reals
  | .ints n, _ => (readMany readInteger (values.take n)).map .ints
  | .real, v :: _ => (readReal strtod v).map .real
  | .int, v :: _ => (readInteger v).map .int
  | .chars n, v :: _ => (readChars v n).map .chars
  | _, _ => .error .exit

def readKind (k : PKind) (arraySize : Int) (values : List Str) : CM (CVal F) :=
  (checkSizes k arraySize values.length).bind fun _ => assignValues strtod k values

/-- State of the parser: `commondata` and `params_set`. -/
structure PState (F : Type) where
  data : Str → Option (CVal F)
  set : List Str

def PState.assign {F : Type} (st : PState F) (name : Str) (v : CVal F) : PState F :=
  { st with data := fun n => if n = name then some v else st.data n }

/-- `find_param_descriptor` (lines 226-233). -/
def findDesc (table : List Desc) (name : Str) : Option Desc := table.find? fun d => d.name = name

/-- A recognised parameter (lines 512-594); `numParams` is the size of `params_set`. -/
def setParam (numParams : Nat) (table : List Desc) (d : Desc) (arraySize : Int) (values : List Str) (st : PState F) :
    CM (PState F) :=
  if numParams ≤ table.findIdx (fun e => e.name = d.name) then .error .overflow
  else if d.name ∈ st.set then .error .exit
  else (readKind strtod d.kind arraySize values).map fun v => { st.assign d.name v with set := d.name :: st.set }

/-- The rest of the body of the loop, lines 484-594: `none`: `continue` after an unrecognised parameter. -/
def nameValue (numParams : Nat) (table : List Desc) (p q : Str) (st : PState F) : CM (Option (PState F)) :=
  (safeCopy paramSize (trimSpace q) paramSize).bind fun value =>
    (parseParam (trimSpace p)).bind fun (name, arraySize) =>
      if name.all (fun c => cAlnum c || c == '_') then
        (parseValue value).bind fun values =>
          match findDesc table name with
          | none => .ok none
          | some d => (setParam strtod numParams table d arraySize values st).map some
      else .error .exit

/-- One line without its comment (lines 474-600): `none`: `continue`. -/
def parseLine (numParams : Nat) (table : List Desc) (line : Str) (st : PState F) : CM (Option (PState F)) :=
  match tokens '=' (line.takeWhile (· ≠ '#')) with
  | [] => .ok (some st)
  | p :: rest =>
    (safeCopy paramSize (trimSpace p) paramSize).bind fun _ =>
      match rest with
      | [] => .ok (some st)
      | q :: _ => nameValue strtod numParams table p q st

/-- Steerable parameters given on the command line (lines 602-626): name, kind and argument.  Boolean ones are left out:
the code generated for them calls `read_boolean`, which is never emitted, since `found_boolean` is never set. -/
def applySteerable : List (Desc × Str) → PState F → CM (PState F)
  | [], st => .ok st
  | (d, arg) :: l, st =>
    match d.kind with
    | .chars n => (readChars arg n).bind fun s => applySteerable l (st.assign d.name (.chars s))
    | .int => (readInteger arg).bind fun n => applySteerable l (st.assign d.name (.int n))
    | .real => (readReal strtod arg).bind fun x => applySteerable l (st.assign d.name (.real x))
    | _ => applySteerable l st

/-- The loop over the lines (lines 473-627).  The steerable parameters are applied inside the loop. -/
def parseLines (numParams : Nat) (table : List Desc) (steerable : List (Desc × Str)) :
    List Str → PState F → CM (PState F)
  | [], st => .ok st
  | line :: lines, st =>
    (parseLine strtod numParams table line st).bind fun r =>
      match r with
      | none => parseLines numParams table steerable lines st
      | some st' => (applySteerable strtod steerable st').bind (parseLines numParams table steerable lines)

end

/-- `fgets` with a buffer of `LINE_SIZE`: lines, those that are too long in pieces.  `room` is what is left of the buffer.
The first argument is the piece read so far. -/
def fgetsAux : Str → Nat → Str → List Str
  | [], _, [] => []
  | cur, _, [] => [cur]
  | cur, room, c :: s =>
    if c = '\n' ∨ room ≤ 1 then (cur ++ [c]) :: fgetsAux [] (lineSize - 1) s
    else fgetsAux (cur ++ [c]) (room - 1) s

def fgetsAll (text : Str) : List Str := fgetsAux [] (lineSize - 1) text

/-- A C string: up to the first NUL. -/
def cStr (s : Str) : Str := s.takeWhile (· ≠ '\x00')

/-- The parser for a given file and given steerable arguments (lines 463-628). -/
def parseFile {F : Type} (strtod : Str → Option (F × Str × Bool)) (numParams : Nat) (table : List Desc)
    (steerable : List (Desc × Str)) (text : Str) (data : Str → Option (CVal F)) : CM (Str → Option (CVal F)) :=
  (parseLines strtod numParams table steerable ((fgetsAll text).map cStr) ⟨data, []⟩).map (·.data)

/-- What the command line asks for (lines 413-459): parameter file and steerable arguments. -/
structure Usage where
  file : Str
  steerable : List Str
  deriving DecidableEq

/-- Lines 413-466, with `n` steerable parameters; `canOpen` tells which files can be opened; `args` is `argv` without the
program name.  `none`: usage is printed and the program exits. -/
def usage (defaultFile : Str) (n : Nat) (canOpen : Str → Bool) (args : List Str) : Option Usage :=
  let u : Option Usage :=
    match args with
    | [] => some ⟨defaultFile, []⟩
    | [a] =>
      if a = (c% "-h") ∨ a = (c% "--help") then none
      else if canOpen a then some ⟨a, []⟩
      else if n = 1 then some ⟨defaultFile, args⟩
      else none
    | a :: rest =>
      if args.length = n then some ⟨defaultFile, args⟩
      else if args.length = n + 1 then
        if canOpen a then some ⟨a, rest⟩ else none
      else none
  u.bind fun u => if canOpen u.file then some u else none

/-- The generated function for a command line and files: steerable parameters are applied for options 3 and 4. -/
def program {F : Type} (strtod : Str → Option (F × Str × Bool)) (defaultFile : Str) (numParams : Nat)
    (table : List Desc) (steer : List Desc) (files : Str → Option Str) (args : List Str)
    (data : Str → Option (CVal F)) : CM (Str → Option (CVal F)) :=
  match usage defaultFile steer.length (fun f => (files f).isSome) args with
  | none => .error .exit
  | some u =>
    match files u.file with
    | none => .error .exit
    | some text => parseFile strtod numParams table (steer.zip u.steerable) text data

end Verif.BHaH.Parfile
