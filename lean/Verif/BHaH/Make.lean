import Verif.Py.Str
import Verif.Grid.Model

/-!
# Writing a project, its Makefile, and compiling it (`nrpy/infrastructures/BHaH/Makefile_helpers.py`)

Files are named by their path relative to the directory of the project. Each file has its bytes and the time of its last change; the clock grows with
each written file. The compiler and the linker are arbitrary functions which may fail. Simplifications: subdirectories are given in the form that
`str(Path(...))` prints (empty for none); all headers together are one text; static libraries, the targets `valgrind` and `clean` and the built-in
rules of `make` are left out; `make -j` runs the compilations in the order of the list (they read and write different files).
-/
namespace Verif.BHaH.Make
open Verif.Py

/-- An entry of `CFunction_dict`: its key, its subdirectory, the name the C code uses now, and the C code for a name
(`c_function.py`, `generate_full_function`). -/
structure Func where
  key : Str
  sub : Str
  cname : Str
  full : Str → Str

/-- A file. -/
structure File where
  bytes : Str
  time : Nat
  deriving DecidableEq

/-- The directory of the project, the text of all headers, and the clock. -/
structure Dir where
  files : Str → Option File
  headers : Str
  now : Nat

/-- Write a file. -/
def Dir.write (d : Dir) (p b : Str) : Dir :=
  { d with files := Function.update d.files p (some ⟨b, d.now + 1⟩), now := d.now + 1 }

/-- The programs of the machine: `cc compiler flags headers source`, `ld compiler flags libraries objects`; `none` is a failure. -/
structure Tools where
  cc : Str → Str → Str → Str → Option Str
  ld : Str → Str → Str → List Str → Option Str
  /-- `shutil.which` finds the program. -/
  which : Str → Bool
  /-- The environment variable `CC`. -/
  envCC : Option Str
  /-- The compiler accepts `-fopenmp`. -/
  openmp : Bool

/-- The arguments of `output_CFunctions_function_prototypes_and_construct_Makefile` (`Makefile_helpers.py` 21-35) without those for static
libraries and include directories. -/
structure Opts where
  project : Str
  exe : Str
  opt : Str
  addl : List Str
  libs : List Str
  CC : Str
  createLib : Bool
  pre : Str
  ext : Str
  /-- `platform.system()`. -/
  os : Str

/-- Exceptions. -/
inductive Err
  | value | notFound | key | called | runtime
  deriving DecidableEq, Repr

/-- `Makefile_helpers.py` 85-86, 89-95: the name of what is built. -/
def target (o : Opts) : Str :=
  let n := if o.exe = [] then o.project else o.exe
  if o.createLib then
    let e := if o.os = c% "Linux" then c% ".so" else c% ".dylib"
    if e <:+ n then n else n ++ e
  else n

/-- `Makefile_helpers.py` 97-103: flags for shared libraries. -/
def addlFlags (o : Opts) : List Str :=
  if o.createLib then [c% "-fPIC", c% "-shared"].foldl (fun l f => if f ∈ l then l else l ++ [f]) o.addl else o.addl

/-- `Makefile_helpers.py` 110-118: the function as it is written; a prefix changes its name in the dictionary for good. -/
def rename (pre : Str) (f : Func) : Func := if pre = [] then f else { f with cname := pre ++ f.key }

/-- `Makefile_helpers.py` 118, 122: the name of the file. -/
def fileName (pre : Str) (f : Func) : Str := if pre = [] then f.key else pre ++ f.key

/-- `Makefile_helpers.py` 120-125: the path without the extension. -/
def stem (pre : Str) (f : Func) : Str :=
  if f.sub = [] then fileName pre f else f.sub ++ (c% "/") ++ fileName pre f

/-- `Makefile_helpers.py` 122, 125: the path of the source file. -/
def source (o : Opts) (f : Func) : Str := stem o.pre f ++ '.' :: o.ext

/-- `Makefile_helpers.py` 109-125: all source files are written. -/
def writeSources (o : Opts) (fs : List Func) (d : Dir) : Dir :=
  fs.foldl (fun d f => d.write (source o f) (f.full (rename o.pre f).cname)) d

/-- `Makefile_helpers.py` 138-139: the compiler. -/
def compiler (o : Opts) : Str :=
  if o.CC = c% "autodetect" then (if o.os = c% "Darwin" then c% "clang" else c% "gcc") else o.CC

/-- `Makefile_helpers.py` 144-149: the flags of an option; here only the names of the options and their order matter, `nvcc` is abridged. -/
def baseFlags (opt : Str) : Option Str :=
  if opt = c% "default" then some (c% "-std=gnu99 -O2 -march=native -g -Wall")
  else if opt = c% "fast" then some (c% "-std=gnu99 -O3 -funroll-loops -march=native -g -Wall")
  else if opt = c% "debug" then some (c% "-std=gnu99 -O2 -g -Wall -Wno-unknown-pragmas")
  else if opt = c% "nvcc" then some (c% "-Xcompiler -fopenmp")
  else none

/-- `Makefile_helpers.py` 150-154: the flags in the Makefile; an unknown option is a `KeyError`. -/
def cflags (o : Opts) : Option Str :=
  (baseFlags o.opt).map fun b => if addlFlags o = [] then b else b ++ (c% " ") ++ joinWith ' ' (addlFlags o)

/-- `Makefile_helpers.py` 157-160: the object files. -/
def objects (o : Opts) (fs : List Func) : List Str :=
  (Grid.sortLower (fs.map (source o))).map (replaceAll ('.' :: o.ext) (c% ".o"))

/-- `Makefile_helpers.py` 163-168. -/
def ldflags (o : Opts) : Str := (if o.libs = [] then [] else (c% " ") ++ joinWith ' ' o.libs) ++ (c% " -lm")

/-- What the Makefile says. -/
structure Makefile where
  CC : Str
  cflags : Str
  ldflags : Str
  objs : List Str
  target : Str
  ext : Str

/-- `output_CFunctions_function_prototypes_and_construct_Makefile` (`Makefile_helpers.py` 71-252): the Makefile, the dictionary and the directory
afterwards. -/
def generate (t : Tools) (o : Opts) (fs : List Func) (d : Dir) : Except Err (Makefile × List Func × Dir) :=
  if o.createLib = false ∧ (c% "main") ∉ fs.map Func.key then .error .value
  else if o.createLib = false ∧ o.os ≠ (c% "Linux") ∧ o.os ≠ (c% "Darwin") then .error .value
  else if t.which (compiler o) = false then .error .notFound
  else match cflags o with
    | none => .error .key
    | some fl => .ok (⟨compiler o, fl, ldflags o, objects o fs, target o, o.ext⟩, fs.map (rename o.pre), writeSources o fs d)

/-! ### `make` -/

/-- The value of `$(CC)`: `CC = nvcc` (`Makefile_helpers.py` 202-206) is an assignment, but `CC ?= ...` leaves a variable that has a value, and `make`
gives `CC` the value `cc` before it reads the Makefile, or the value in the environment. -/
def usedCC (t : Tools) (m : Makefile) : Str := if m.CC = c% "nvcc" then m.CC else t.envCC.getD (c% "cc")

/-- `Makefile_helpers.py` 213-229: `-fopenmp` is added where it is known. -/
def usedFlags (t : Tools) (m : Makefile) : Str :=
  if m.CC = (c% "nvcc") ∨ t.openmp = true then m.cflags ++ (c% " -fopenmp") else m.cflags

/-- The same for the libraries. -/
def usedLibs (t : Tools) (m : Makefile) : Str :=
  if m.CC = (c% "nvcc") ∨ t.openmp = true then m.ldflags ++ (c% " -fopenmp") else m.ldflags

/-- The prerequisite of an object file in the rule `%.o: %.ext` (`Makefile_helpers.py` 235). -/
def prerequisite (ext obj : Str) : Str := obj.take (obj.length - 2) ++ '.' :: ext

/-- A file has to be made if it does not exist or is older than its prerequisite. -/
def outdated (x : Option File) (s : File) : Bool := match x with
  | none => true
  | some f => decide (f.time < s.time)

/-- `make` updates one object file (`Makefile_helpers.py` 235-236). Without a source an existing file is taken as it is. -/
def makeObj (t : Tools) (m : Makefile) (d : Dir) (obj : Str) : Except Err Dir :=
  match d.files (prerequisite m.ext obj) with
  | none => if d.files obj = none then .error .called else .ok d
  | some s =>
    if outdated (d.files obj) s = true then
      match t.cc (usedCC t m) (usedFlags t m) d.headers s.bytes with
      | none => .error .called
      | some b => .ok (d.write obj b)
    else .ok d

/-- The object files that exist, in order. -/
def present (m : Makefile) (d : Dir) : List File := m.objs.filterMap d.files

/-- `make` links (`Makefile_helpers.py` 185-193). -/
def link (t : Tools) (m : Makefile) (d : Dir) : Except Err Dir :=
  if (present m d).any (outdated (d.files m.target)) = true then
    match t.ld (usedCC t m) (usedFlags t m) (usedLibs t m) ((present m d).map File.bytes) with
    | none => .error .called
    | some b => .ok (d.write m.target b)
  else .ok d

/-- `make`: the first target is `all`, which needs the executable, which needs the object files (`Makefile_helpers.py` 231-238). -/
def make (t : Tools) (m : Makefile) (d : Dir) : Except Err Dir := do
  let d ← m.objs.foldlM (makeObj t m) d
  link t m d

/-! ### `compile_Makefile` -/

/-- What a call leaves behind: the exception or none, whether the working directory is that of the caller, and the directory of the project. -/
structure Out where
  err : Option Err
  home : Bool
  dir : Dir

/-- The executable is a file: with an empty name the path is the directory of the project. -/
def isFile (name : Str) (d : Dir) : Bool := name ≠ [] && (d.files name).isSome

/-- `Makefile_helpers.py` 331-333: object files of the directory of the project itself are removed. -/
def unlinkObjs (d : Dir) : Dir := { d with files := fun p => if (c% ".o") <:+ p ∧ '/' ∉ p then none else d.files p }

/-- `compile_Makefile` (`Makefile_helpers.py` 290-348) for a second attempt. -/
def attempt2 (t : Tools) (o : Opts) (fs : List Func) (d : Dir) : Out :=
  if t.which (compiler o) = false ∨ t.which (c% "make") = false then ⟨some .notFound, true, d⟩
  else match generate t o fs d with
    | .error e => ⟨some e, true, d⟩
    | .ok (m, _, d) => match make t m d with
      | .error e => ⟨some e, false, d⟩
      | .ok d => if isFile o.exe d = false then ⟨some .runtime, true, d⟩ else ⟨none, true, d⟩

/-- `compile_Makefile` (`Makefile_helpers.py` 290-348). A failure of `make` raises an exception before the working directory is set back; the
second attempt follows only if `make` succeeded without writing the file. -/
def compile (t : Tools) (o : Opts) (fs : List Func) (d : Dir) : Out :=
  if t.which (compiler o) = false ∨ t.which (c% "make") = false then ⟨some .notFound, true, d⟩
  else match generate t o fs d with
    | .error e => ⟨some e, true, d⟩
    | .ok (m, _, d) => match make t m d with
      | .error e => ⟨some e, false, d⟩
      | .ok d => if isFile o.exe d = false then attempt2 t { o with opt := c% "debug", CC := compiler o } fs (unlinkObjs d)
        else ⟨none, true, d⟩

end Verif.BHaH.Make
