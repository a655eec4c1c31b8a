import Verif.Helpers.FileUpdater
import Mathlib.Logic.Basic

/-!
# C32: conditional file updates
-/
namespace Verif.Helpers
open Verif.Py

theorem universalNewlines_id : ∀ s : Str, '\r' ∉ s → universalNewlines s = s
  | [], _ => rfl
  | [c], h => by
    have : c ≠ '\r' := fun e => h (by simp [e])
    simp [universalNewlines, this]
  | c :: d :: s, h => by
    have h1 : c ≠ '\r' := fun e => h (by simp [e])
    have h2 : '\r' ∉ d :: s := fun e => h (List.mem_cons_of_mem _ e)
    rw [universalNewlines, if_neg h1, universalNewlines_id _ h2]

/-- The content asked for: what was written to the buffer, formatted if a formatter is given. -/
def AskedFor (c : UpdCfg) (buf new : Str) : Prop :=
  (c.format = none ∧ new = buf) ∨ ∃ f, c.format = some f ∧ f buf = some new

theorem newContent_of {c : UpdCfg} {buf new : Str} (h : AskedFor c buf new) : c.newContent buf = some new := by
  rcases h with ⟨h, rfl⟩ | ⟨f, h, h'⟩
  · simp [UpdCfg.newContent, h]
  · simp [UpdCfg.newContent, h, h']

/-- **C32** (content): after the block the file, read back, holds the new content up to surrounding white space; if it
was written it holds exactly the new content, and it is written exactly when the old content differs from the new one by
more than surrounding white space. -/
theorem C32_content_partial (c : UpdCfg) (hn : c.nochange = false) (pieces : List Str) (new : Str) (file : Option Str)
    (hf : AskedFor c pieces.flatten new) (hr : '\r' ∉ new) :
    ∃ file' written, withUpdater c pieces none file = some (file', written) ∧
      pyStrip (oldContent file') = pyStrip new ∧
      (written = true → file' = some new) ∧
      (written = false → file' = file) ∧
      (written = true ↔ pyStrip new ≠ pyStrip (oldContent file)) := by
  simp only [withUpdater, updExit, newContent_of hf, hn]
  split
  · next h => exact ⟨_, _, rfl, by rw [oldContent, universalNewlines_id _ hr], fun _ => rfl, by simp, by simp [h]⟩
  · next h =>
    have h := not_not.1 h
    exact ⟨_, _, rfl, h.symm, by simp, fun _ => rfl, by simp [h]⟩

/-- **C32** (idempotence): a second identical update writes nothing and leaves the file as it is. -/
theorem C32_again (c : UpdCfg) (hn : c.nochange = false) (pieces : List Str) (new : Str) (file : Option Str)
    (hf : AskedFor c pieces.flatten new) (hr : '\r' ∉ new) (file' : Option Str) (written : Bool)
    (h : withUpdater c pieces none file = some (file', written)) :
    withUpdater c pieces none file' = some (file', false) := by
  obtain ⟨f, w, h1, h2, -⟩ := C32_content_partial c hn pieces new file hf hr
  rw [h] at h1
  cases h1
  simp only [withUpdater, updExit, newContent_of hf]
  rw [if_neg (not_not.2 h2.symm)]

/-- **C32** (no-change mode): the file is never written, with or without an exception in the block. -/
theorem C32_nochange (c : UpdCfg) (hn : c.nochange = true) (pieces : List Str) (raised : Option Nat)
    (file file' : Option Str) (written : Bool) (h : withUpdater c pieces raised file = some (file', written)) :
    file' = file ∧ written = false := by
  have key : ∀ buf e, updExit c buf e file = some (file', written) → file' = file ∧ written = false := by
    intro buf e h
    unfold updExit at h
    rw [hn] at h
    split at h
    · cases h
    split at h <;> (cases h; exact ⟨rfl, rfl⟩)
  unfold withUpdater at h
  split at h <;> exact key _ _ h

/-- `withUpdater` succeeds whenever formatting does. -/
theorem C32_succeeds (c : UpdCfg) (pieces : List Str) (file : Option Str) (h : c.format = none) (raised : Option Nat) :
    ∃ r, withUpdater c pieces raised file = some r := by
  have key : ∀ buf e, ∃ r, updExit c buf e file = some r := by
    intro buf e
    simp only [updExit, UpdCfg.newContent, h]
    split
    · split <;> exact ⟨_, rfl⟩
    · exact ⟨_, rfl⟩
  unfold withUpdater
  split <;> exact key _ _

/-- Hypotheses met: a file whose only difference is trailing white space is not touched, a changed one is written. -/
example : withUpdater ⟨false, none⟩ [(c% "int "), (c% "x;\n")] none (some (c% "int x;\n\n\n")) =
      some (some (c% "int x;\n\n\n"), false) ∧
    withUpdater ⟨false, none⟩ [(c% "int "), (c% "x;\n")] none (some (c% "int y;\n")) =
      some (some (c% "int x;\n"), true) ∧
    withUpdater ⟨false, none⟩ [(c% "int "), (c% "x;\n")] none none = some (some (c% "int x;\n"), true) := by
  decide

/-- Violation: after an exception in the block the file holds the part written so far, whenever that part differs from
the old content. -/
theorem C32_exception (pieces : List Str) (k : Nat) (file : Option Str)
    (h : pyStrip (pieces.take k).flatten ≠ pyStrip (oldContent file)) :
    withUpdater ⟨false, none⟩ pieces (some k) file = some (some (pieces.take k).flatten, true) := by
  simp [withUpdater, updExit, UpdCfg.newContent, h]

/-- An exception before anything was written empties the file. -/
example : withUpdater ⟨false, none⟩ [(c% "int x;\n")] (some 0) (some (c% "int y;\n")) = some (some [], true) := by
  decide

/-- Violation: a missing file is not created if the new content is white space. -/
theorem C32_not_created (pieces : List Str) (h : pyStrip pieces.flatten = []) :
    withUpdater ⟨false, none⟩ pieces none none = some (none, false) := by
  have h0 : pyStrip [] = [] := rfl
  simp [withUpdater, updExit, UpdCfg.newContent, oldContent, h, h0]

example : pyStrip [(c% "\n"), (c% " ")].flatten = [] := by decide

/-- Violation: content with a carriage return inside is written again by every update, because reading translates it. -/
theorem C32_carriage_return :
    withUpdater ⟨false, none⟩ [(c% "a\x0db")] none (some (c% "a\x0db")) = some (some (c% "a\x0db"), true) := by
  decide

theorem universalNewlines_crlf : ∀ s : Str, '\r' ∉ s →
    universalNewlines (s.flatMap fun c => if c = '\n' then ['\r', '\n'] else [c]) = s
  | [], _ => rfl
  | c :: s, h => by
    have h1 : c ≠ '\r' := fun e => h (by simp [e])
    have ih := universalNewlines_crlf s fun e => h (List.mem_cons_of_mem _ e)
    by_cases hc : c = '\n'
    · subst hc
      simpa [universalNewlines] using ih
    · simp only [List.flatMap_cons, if_neg hc, List.cons_append, List.nil_append]
      generalize hl : s.flatMap (fun c => if c = '\n' then ['\r', '\n'] else [c]) = l at ih
      cases l with
      | nil => simp [universalNewlines, h1] at ih ⊢; exact ih
      | cons d l => rw [universalNewlines, if_neg h1, ih]

/-- A file that differs from the new content only in having Windows line ends is left alone. -/
theorem C32_line_ends (c : UpdCfg) (pieces : List Str) (new : Str) (hf : AskedFor c pieces.flatten new)
    (hr : '\r' ∉ new) :
    withUpdater c pieces none (some (new.flatMap fun c => if c = '\n' then ['\r', '\n'] else [c])) =
      some (some (new.flatMap fun c => if c = '\n' then ['\r', '\n'] else [c]), false) := by
  simp only [withUpdater, updExit, newContent_of hf, oldContent, universalNewlines_crlf new hr]
  simp

/-- With a formatter, the formatted text is written. -/
example : withUpdater ⟨false, some fun s => some (s ++ (c% "\n"))⟩ [(c% "int "), (c% "x;")] none none =
    some (some (c% "int x;\n"), true) := by decide

end Verif.Helpers
