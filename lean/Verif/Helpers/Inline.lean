import Verif.Helpers.FileUpdater

/-!
# Model of bin/nrpyinline.py

Executing a script is a parameter: it changes the namespace and may raise an exception.  The model records the scripts
that were executed, in order.  Decoding of the file is left out.
-/
namespace Verif.Helpers
open Verif.Py

def pyLStrip (s : Str) : Str := s.dropWhile pySpace
def pyRStrip (s : Str) : Str := (s.reverse.dropWhile pySpace).reverse

/-- Lines 32-37: remove a leading comment marker. -/
def stripLeading (s : Str) : Str :=
  if (c% "//").isPrefixOf s then pyLStrip (s.drop 2)
  else if (c% "/*").isPrefixOf s then pyLStrip (s.drop 2)
  else if (c% "*").isPrefixOf s then pyLStrip (s.drop 1)
  else s

/-- Lines 40-41: remove a trailing comment marker. -/
def stripTrailing (s : Str) : Str :=
  if (c% "*/").isSuffixOf (pyRStrip s) then pyRStrip ((pyRStrip s).take ((pyRStrip s).length - 2)) else s

/-- `strip_comment_markers` (lines 20-44). -/
def stripMarkers (line : Str) : Str :=
  line.take (line.length - (pyLStrip line).length) ++ stripTrailing (stripLeading (pyLStrip line))

/-- Spaces and tabs, the only white space `textwrap.dedent` looks at. -/
def isBlank (c : Char) : Bool := c == ' ' || c == '\t'

/-- Longest common prefix (the loop over the indents in `textwrap.dedent`). -/
def commonPrefix : Str → Str → Str
  | a :: s, b :: t => if a = b then a :: commonPrefix s t else []
  | _, _ => []

/-- Indent of a line with a character that is not blank. -/
def indentOf (line : Str) : Option Str :=
  if line.all isBlank then none else some (line.takeWhile isBlank)

/-- The margin: the common prefix of all indents. -/
def margin : List Str → Option Str
  | [] => none
  | l :: ls =>
    match indentOf l, margin ls with
    | some i, some m => some (commonPrefix i m)
    | some i, none => some i
    | none, m => m

/-- Remove the margin from a line. -/
def cutMargin (m : Str) (line : Str) : Str := if m.isPrefixOf line then line.drop m.length else line

/-- `textwrap.dedent` of the Python library, on the lines of the text. -/
def dedentLines (ls : List Str) : List Str :=
  let ls := ls.map fun l => if l.all isBlank then [] else l
  ls.map (cutMargin ((margin ls).getD []))

/-- `textwrap.dedent`. -/
def dedent (s : Str) : Str := joinWith '\n' (dedentLines (split1 '\n' s))

/-- Lines of a text, with their line ends. -/
def fileLines : Str → List Str
  | [] => []
  | c :: s =>
    if c = '\n' then [c] :: fileLines s
    else match fileLines s with
      | [] => [[c]]
      | l :: ls => (c :: l) :: ls

inductive Outcome
  | done
  /-- `ValueError`: start marker inside a block. -/
  | nested
  /-- `ValueError`: end marker outside a block. -/
  | unmatched
  /-- `ValueError`: the file ends inside a block. -/
  | unterminated
  /-- An exception raised by a script. -/
  | scriptError
  deriving DecidableEq

def isStart (line : Str) : Bool := pyStrip (stripMarkers line) = (c% "NRPYSTART")
def isEnd (line : Str) : Bool := pyStrip (stripMarkers line) = (c% "NRPYEND")

/-- What a run leaves behind: scripts executed, namespace, outcome. -/
structure RunResult (σ : Type) where
  scripts : List Str
  ns : σ
  outcome : Outcome

def RunResult.after {σ : Type} (code : Str) (r : RunResult σ) : RunResult σ := { r with scripts := code :: r.scripts }

/-- The loop over the lines (lines 150-196); `captured`: the lines captured so far if capturing. -/
def runLines {σ : Type} (exec : σ → Str → σ × Bool) : List Str → Option (List Str) → σ → RunResult σ
  | [], captured, ns => ⟨[], ns, if captured.isSome then .unterminated else .done⟩
  | line :: lines, captured, ns =>
    if isStart line then
      if captured.isSome then ⟨[], ns, .nested⟩ else runLines exec lines (some []) ns
    else if isEnd line then
      match captured with
      | none => ⟨[], ns, .unmatched⟩
      | some ls =>
        if (exec ns (dedent ls.flatten)).2 then
          (runLines exec lines none (exec ns (dedent ls.flatten)).1).after (dedent ls.flatten)
        else ⟨[dedent ls.flatten], (exec ns (dedent ls.flatten)).1, .scriptError⟩
    else
      match captured with
      | none => runLines exec lines none ns
      | some ls => runLines exec lines (some (ls ++ [stripMarkers line])) ns

/-- `run_script_from_file` (lines 47-196). -/
def runFile {σ : Type} (exec : σ → Str → σ × Bool) (text : Str) (ns : σ) : RunResult σ :=
  runLines exec (fileLines (universalNewlines text)) none ns

end Verif.Helpers
