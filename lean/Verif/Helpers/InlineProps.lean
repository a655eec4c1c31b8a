import Verif.Helpers.Inline
import Mathlib.Logic.Basic
import Mathlib.Data.List.TakeWhile

/-!
# C35: inline code blocks
-/
namespace Verif.Helpers
open Verif.Py

/-! ## Specification -/

/-- White space only. -/
def Ws (s : Str) : Prop := ∀ c ∈ s, pySpace c = true

/-- A line that is the word `name` inside optional comment marks: white space, optionally `//`, `/*` or `*`, white space,
the word, white space, optionally `*/`, white space. -/
def IsMark (name line : Str) : Prop :=
  ∃ w1 m w2 w3 t w4, Ws w1 ∧ Ws w2 ∧ Ws w3 ∧ Ws w4 ∧ m ∈ [[], (c% "//"), (c% "/*"), (c% "*")] ∧ t ∈ [[], (c% "*/")] ∧
    line = w1 ++ m ++ w2 ++ name ++ w3 ++ t ++ w4

def IsStart (line : Str) : Prop := IsMark (c% "NRPYSTART") line
def IsEnd (line : Str) : Prop := IsMark (c% "NRPYEND") line
def Plain (lines : List Str) : Prop := ∀ l ∈ lines, ¬ IsStart l ∧ ¬ IsEnd l

/-- A complete block with the text before it. -/
structure Block where
  before : List Str
  start : Str
  body : List Str
  stop : Str

def Block.Ok (b : Block) : Prop := Plain b.before ∧ IsStart b.start ∧ Plain b.body ∧ IsEnd b.stop
def Block.lines (b : Block) : List Str := b.before ++ b.start :: b.body ++ [b.stop]

/-- The script of a block: its lines without comment marks and without the common indentation. -/
def Block.script (b : Block) : Str := dedent (b.body.map stripMarkers).flatten

/-- What follows the last complete block, and how the run ends there. -/
inductive Tail : List Str → Outcome → Prop
  | done {l} (h : Plain l) : Tail l .done
  | unmatched {l e r} (h : Plain l) (he : IsEnd e) : Tail (l ++ e :: r) .unmatched
  | unterminated {l s b} (h : Plain l) (hs : IsStart s) (hb : Plain b) : Tail (l ++ s :: b) .unterminated
  | nested {l s b s' r} (h : Plain l) (hs : IsStart s) (hb : Plain b) (hs' : IsStart s') :
      Tail (l ++ s :: (b ++ s' :: r)) .nested

/-- Execute scripts in order up to the first exception. -/
def execAll {σ : Type} (exec : σ → Str → σ × Bool) : List Str → Outcome → σ → RunResult σ
  | [], o, ns => ⟨[], ns, o⟩
  | c :: cs, o, ns =>
    if (exec ns c).2 then
      ⟨c :: (execAll exec cs o (exec ns c).1).scripts, (execAll exec cs o (exec ns c).1).ns,
        (execAll exec cs o (exec ns c).1).outcome⟩
    else ⟨[c], (exec ns c).1, .scriptError⟩

/-! ## White space -/

theorem lstrip_append {w s : Str} (h : Ws w) : pyLStrip (w ++ s) = pyLStrip s := by
  unfold pyLStrip
  induction w with
  | nil => rfl
  | cons c w ih =>
    rw [List.cons_append, List.dropWhile_cons, if_pos (h c List.mem_cons_self)]
    exact ih fun c hc => h c (List.mem_cons_of_mem _ hc)

theorem lstrip_cons {c : Char} {s : Str} (h : pySpace c = false) : pyLStrip (c :: s) = c :: s := by
  rw [pyLStrip, List.dropWhile_cons, if_neg (by simp [h])]

theorem lstrip_ws {w : Str} (h : Ws w) : pyLStrip w = [] := by
  have := lstrip_append (s := []) h
  rwa [List.append_nil] at this

theorem Ws.reverse {w : Str} (h : Ws w) : Ws w.reverse := fun c hc => h c (List.mem_reverse.1 hc)

theorem rstrip_append {w s : Str} (h : Ws w) : pyRStrip (s ++ w) = pyRStrip s := by
  have := lstrip_append (s := s.reverse) h.reverse
  unfold pyLStrip at this
  rw [pyRStrip, List.reverse_append, this, pyRStrip]

theorem rstrip_concat {c : Char} {s : Str} (h : pySpace c = false) : pyRStrip (s ++ [c]) = s ++ [c] := by
  have := lstrip_cons (s := s.reverse) h
  unfold pyLStrip at this
  rw [pyRStrip, List.reverse_append, List.reverse_singleton, List.singleton_append, this]
  simp

theorem strip_eq (s : Str) : pyStrip s = pyRStrip (pyLStrip s) := rfl

theorem lstrip_split (s : Str) : ∃ w, Ws w ∧ s = w ++ pyLStrip s := by
  refine ⟨s.takeWhile pySpace, fun c hc => List.mem_takeWhile_imp hc, ?_⟩
  exact (List.takeWhile_append_dropWhile).symm

theorem rstrip_split (s : Str) : ∃ w, Ws w ∧ s = pyRStrip s ++ w := by
  obtain ⟨w, hw, h⟩ := lstrip_split s.reverse
  refine ⟨w.reverse, hw.reverse, ?_⟩
  have := congrArg List.reverse h
  rw [List.reverse_reverse, List.reverse_append] at this
  exact this

theorem strip_split (s : Str) : ∃ a b, Ws a ∧ Ws b ∧ s = a ++ pyStrip s ++ b := by
  obtain ⟨a, ha, h1⟩ := lstrip_split s
  obtain ⟨b, hb, h2⟩ := rstrip_split (pyLStrip s)
  exact ⟨a, b, ha, hb, by rw [strip_eq, List.append_assoc, ← h2, ← h1]⟩

theorem lead_eq (w s : Str) : (w ++ s).take ((w ++ s).length - s.length) = w := by
  rw [List.length_append, Nat.add_sub_cancel, List.take_left']
  rfl

/-- A word: neither its first nor its last character is white space, and it is not empty. -/
structure Word (s : Str) : Prop where
  first : ∃ c t, s = c :: t ∧ pySpace c = false
  last : ∃ t c, s = t ++ [c] ∧ pySpace c = false

theorem Word.lstrip {s : Str} (h : Word s) (t : Str) : pyLStrip (s ++ t) = s ++ t := by
  obtain ⟨c, r, rfl, hc⟩ := h.first
  exact lstrip_cons hc

theorem Word.rstrip {s : Str} (h : Word s) (t : Str) : pyRStrip (t ++ s) = t ++ s := by
  obtain ⟨r, c, rfl, hc⟩ := h.last
  rw [← List.append_assoc]
  exact rstrip_concat hc

theorem Word.strip {s a b : Str} (h : Word s) (ha : Ws a) (hb : Ws b) : pyStrip (a ++ s ++ b) = s := by
  rw [strip_eq, List.append_assoc, lstrip_append ha, h.lstrip, rstrip_append hb]
  exact h.rstrip []

/-! ## Marker lines -/

/-- The line without its leading mark. -/
theorem stripMarkers_lead (w : Str) (hw : Ws w) (s : Str) (hs : pyLStrip s = s) :
    stripMarkers (w ++ s) = w ++ stripTrailing (stripLeading s) := by
  rw [stripMarkers, lstrip_append hw, hs, lead_eq]

theorem stripLeading_split (s : Str) : ∃ m w, m ∈ [[], (c% "//"), (c% "/*"), (c% "*")] ∧ Ws w ∧
    s = m ++ w ++ stripLeading s := by
  have key : ∀ m : Str, m.isPrefixOf s = true → ∃ w, Ws w ∧ s = m ++ w ++ pyLStrip (s.drop m.length) := by
    intro m hm
    obtain ⟨t, rfl⟩ := List.isPrefixOf_iff_prefix.1 hm
    rw [List.drop_left]
    obtain ⟨w, hw, h⟩ := lstrip_split t
    exact ⟨w, hw, by rw [List.append_assoc, ← h]⟩
  unfold stripLeading
  split
  · next h => obtain ⟨w, hw, h⟩ := key _ h; exact ⟨_, w, by simp, hw, h⟩
  split
  · next h => obtain ⟨w, hw, h⟩ := key _ h; exact ⟨_, w, by simp, hw, h⟩
  split
  · next h => obtain ⟨w, hw, h⟩ := key _ h; exact ⟨_, w, by simp, hw, h⟩
  · exact ⟨[], [], by simp, by simp [Ws], rfl⟩

theorem stripTrailing_split (s : Str) : ∃ w t w', t ∈ [[], (c% "*/")] ∧ Ws w ∧ Ws w' ∧
    s = stripTrailing s ++ w ++ t ++ w' := by
  unfold stripTrailing
  split
  · next h =>
    obtain ⟨x, hx⟩ := List.isSuffixOf_iff_suffix.1 h
    obtain ⟨w', hw', h1⟩ := rstrip_split s
    have h2 : (pyRStrip s).take ((pyRStrip s).length - 2) = x := by
      rw [← hx]
      simp
    rw [h2]
    obtain ⟨w, hw, h3⟩ := rstrip_split x
    refine ⟨w, (c% "*/"), w', by simp, hw, hw', ?_⟩
    rw [← h3, hx, ← h1]
  · exact ⟨[], [], [], by simp, by simp [Ws], by simp [Ws], by simp⟩

/-- A line is recognised as a marker exactly if it is the word inside optional comment marks. -/
theorem mark_iff (name : Str) (hn : Word name) (h1 : ¬ (c% "//") <+: name) (h2 : ¬ (c% "/*") <+: name)
    (h3 : ¬ (c% "*") <+: name) (h4 : ¬ (c% "*/") <:+ name) (hl : 2 ≤ name.length) (line : Str) :
    pyStrip (stripMarkers line) = name ↔ IsMark name line := by
  constructor
  · intro h
    obtain ⟨w1, hw1, e1⟩ := lstrip_split line
    obtain ⟨m, w2, hm, hw2, e2⟩ := stripLeading_split (pyLStrip line)
    obtain ⟨w3, t, w4, ht, hw3, hw4, e3⟩ := stripTrailing_split (stripLeading (pyLStrip line))
    have hs : stripMarkers line = w1 ++ stripTrailing (stripLeading (pyLStrip line)) := by
      have := lead_eq w1 (pyLStrip line)
      rw [← e1] at this
      rw [stripMarkers, this]
    rw [hs] at h
    have h' : pyStrip (stripTrailing (stripLeading (pyLStrip line))) = name := by
      rw [strip_eq] at h ⊢
      rwa [lstrip_append hw1] at h
    obtain ⟨a, b, ha, hb, e4⟩ := strip_split (stripTrailing (stripLeading (pyLStrip line)))
    rw [h'] at e4
    refine ⟨w1, m, w2 ++ a, b ++ w3, t, w4, hw1, ?_, ?_, hw4, hm, ht, ?_⟩
    · intro c hc
      rcases List.mem_append.1 hc with hc | hc
      · exact hw2 c hc
      · exact ha c hc
    · intro c hc
      rcases List.mem_append.1 hc with hc | hc
      · exact hb c hc
      · exact hw3 c hc
    · rw [e4] at e3
      rw [e3] at e2
      rw [e2] at e1
      rw [e1]
      simp [List.append_assoc]
  · rintro ⟨w1, m, w2, w3, t, w4, hw1, hw2, hw3, hw4, hm, ht, rfl⟩
    have htr : ∀ t ∈ [[], (c% "*/")], stripTrailing (name ++ w3 ++ t ++ w4) = name ++ w3 ++ w4 ∧ t = [] ∨
        stripTrailing (name ++ w3 ++ t ++ w4) = name := by
      intro t ht
      have hr : pyRStrip (name ++ w3) = name := by
        rw [rstrip_append hw3]; exact hn.rstrip []
      simp only [List.mem_cons, List.not_mem_nil, or_false] at ht
      rcases ht with rfl | rfl
      · left
        refine ⟨?_, rfl⟩
        rw [List.append_nil, stripTrailing, rstrip_append hw4, hr, if_neg]
        intro h
        exact h4 (List.isSuffixOf_iff_suffix.1 h)
      · right
        have hr2 : pyRStrip (name ++ w3 ++ (c% "*/") ++ w4) = name ++ w3 ++ (c% "*/") := by
          rw [rstrip_append hw4]
          have : name ++ w3 ++ (c% "*/") = (name ++ w3 ++ ['*']) ++ ['/'] := by simp
          rw [this]
          exact rstrip_concat rfl
        rw [stripTrailing, hr2, if_pos (List.isSuffixOf_iff_suffix.2 ⟨_, rfl⟩)]
        have : (name ++ w3 ++ (c% "*/")).take ((name ++ w3 ++ (c% "*/")).length - 2) = name ++ w3 := by
          rw [List.length_append (as := name ++ w3), Nat.add_sub_assoc (by simp)]
          exact List.take_left' rfl
        rw [this, hr]
    have fin : ∀ w, Ws w → pyStrip (w ++ stripTrailing (name ++ w3 ++ t ++ w4)) = name := by
      intro w hw
      rcases htr t ht with ⟨h, -⟩ | h
      · rw [h]
        have : Ws (w3 ++ w4) := by
          intro c hc
          rcases List.mem_append.1 hc with hc | hc
          · exact hw3 c hc
          · exact hw4 c hc
        have := hn.strip hw this
        simpa [List.append_assoc] using this
      · rw [h]
        have := hn.strip hw (b := []) (by simp [Ws])
        simpa using this
    simp only [List.mem_cons, List.not_mem_nil, or_false] at hm
    obtain ⟨c, r, hcr, hc⟩ := hn.first
    have hpre : ∀ (p : Str) (x : Str), p.length ≤ 2 → p <+: name ++ x → p <+: name := by
      intro p x hp h
      exact List.prefix_of_prefix_length_le h (List.prefix_append _ _) (by omega)
    rcases hm with rfl | rfl | rfl | rfl
    · have e : w1 ++ [] ++ w2 ++ name ++ w3 ++ t ++ w4 = (w1 ++ w2) ++ (name ++ (w3 ++ t ++ w4)) := by
        simp [List.append_assoc]
      have hw : Ws (w1 ++ w2) := by
        intro c hc
        rcases List.mem_append.1 hc with hc | hc
        · exact hw1 c hc
        · exact hw2 c hc
      rw [e, stripMarkers_lead _ hw _ (hn.lstrip _)]
      have : stripLeading (name ++ (w3 ++ t ++ w4)) = name ++ w3 ++ t ++ w4 := by
        unfold stripLeading
        rw [if_neg (fun h => h1 (hpre _ _ (by simp) (List.isPrefixOf_iff_prefix.1 h))),
          if_neg (fun h => h2 (hpre _ _ (by simp) (List.isPrefixOf_iff_prefix.1 h))),
          if_neg (fun h => h3 (hpre _ _ (by simp) (List.isPrefixOf_iff_prefix.1 h)))]
        simp [List.append_assoc]
      rw [this]
      exact fin _ hw
    all_goals
      simp only [List.append_assoc]
      rw [stripMarkers_lead _ hw1 _ (by rw [List.cons_append]; exact lstrip_cons rfl)]
    · have : stripLeading ((c% "//") ++ (w2 ++ (name ++ (w3 ++ (t ++ w4))))) = name ++ w3 ++ t ++ w4 := by
        unfold stripLeading
        rw [if_pos (List.isPrefixOf_iff_prefix.2 (List.prefix_append _ _))]
        show pyLStrip (w2 ++ _) = _
        rw [lstrip_append hw2, hn.lstrip]
        simp [List.append_assoc]
      rw [this]
      exact fin _ hw1
    · have : stripLeading ((c% "/*") ++ (w2 ++ (name ++ (w3 ++ (t ++ w4))))) = name ++ w3 ++ t ++ w4 := by
        unfold stripLeading
        rw [if_neg (by simp [List.isPrefixOf]), if_pos (List.isPrefixOf_iff_prefix.2 (List.prefix_append _ _))]
        show pyLStrip (w2 ++ _) = _
        rw [lstrip_append hw2, hn.lstrip]
        simp [List.append_assoc]
      rw [this]
      exact fin _ hw1
    · have : stripLeading ((c% "*") ++ (w2 ++ (name ++ (w3 ++ (t ++ w4))))) = name ++ w3 ++ t ++ w4 := by
        unfold stripLeading
        rw [if_neg (by simp [List.isPrefixOf]), if_neg (by simp [List.isPrefixOf]),
          if_pos (List.isPrefixOf_iff_prefix.2 (List.prefix_append _ _))]
        show pyLStrip (w2 ++ _) = _
        rw [lstrip_append hw2, hn.lstrip]
        simp [List.append_assoc]
      rw [this]
      exact fin _ hw1

theorem isStart_iff (line : Str) : isStart line = true ↔ IsStart line := by
  rw [isStart, decide_eq_true_eq]
  exact mark_iff _ ⟨⟨_, _, rfl, rfl⟩, ⟨(c% "NRPYSTAR"), _, rfl, rfl⟩⟩ (by decide) (by decide) (by decide) (by decide)
    (by decide) line

theorem isEnd_iff (line : Str) : isEnd line = true ↔ IsEnd line := by
  rw [isEnd, decide_eq_true_eq]
  exact mark_iff _ ⟨⟨_, _, rfl, rfl⟩, ⟨(c% "NRPYEN"), _, rfl, rfl⟩⟩ (by decide) (by decide) (by decide) (by decide)
    (by decide) line

theorem not_both {line : Str} (h : IsStart line) : ¬ IsEnd line := by
  intro h'
  have h1 := (isStart_iff line).2 h
  have h2 := (isEnd_iff line).2 h'
  rw [isStart, decide_eq_true_eq] at h1
  rw [isEnd, decide_eq_true_eq, h1] at h2
  exact absurd h2 (by decide)

/-! ## The run -/

section
variable {σ : Type} (exec : σ → Str → σ × Bool)

theorem run_plain_out {l : List Str} (h : Plain l) (r : List Str) (ns : σ) :
    runLines exec (l ++ r) none ns = runLines exec r none ns := by
  induction l with
  | nil => rfl
  | cons x l ih =>
    have hx := h x List.mem_cons_self
    rw [← isStart_iff, ← isEnd_iff] at hx
    rw [List.cons_append, runLines, if_neg hx.1, if_neg hx.2]
    exact ih fun y hy => h y (List.mem_cons_of_mem _ hy)

theorem run_plain_in {l : List Str} (h : Plain l) (r ls : List Str) (ns : σ) :
    runLines exec (l ++ r) (some ls) ns = runLines exec r (some (ls ++ l.map stripMarkers)) ns := by
  induction l generalizing ls with
  | nil => simp
  | cons x l ih =>
    have hx := h x List.mem_cons_self
    rw [← isStart_iff, ← isEnd_iff] at hx
    rw [List.cons_append, runLines, if_neg hx.1, if_neg hx.2]
    rw [ih (fun y hy => h y (List.mem_cons_of_mem _ hy))]
    simp

theorem run_start {s : Str} (h : IsStart s) (r : List Str) (ns : σ) :
    runLines exec (s :: r) none ns = runLines exec r (some []) ns := by
  rw [runLines, if_pos ((isStart_iff s).2 h)]
  rfl

theorem run_tail {l : List Str} {o : Outcome} (h : Tail l o) (ns : σ) : runLines exec l none ns = ⟨[], ns, o⟩ := by
  cases h with
  | done h =>
    have := run_plain_out exec h [] ns
    rwa [List.append_nil] at this
  | unmatched h he =>
    rw [run_plain_out exec h, runLines, if_neg (fun hs => not_both ((isStart_iff _).1 hs) he),
      if_pos ((isEnd_iff _).2 he)]
  | unterminated h hs hb =>
    rw [run_plain_out exec h, run_start exec hs]
    have := run_plain_in exec hb [] [] ns
    rw [List.append_nil] at this
    rw [this]
    rfl
  | nested h hs hb hs' =>
    rw [run_plain_out exec h, run_start exec hs, run_plain_in exec hb, runLines, if_pos ((isStart_iff _).2 hs')]
    rfl

/-- **C35** (execution): in a file made of complete blocks and a tail, the scripts of the blocks are executed in order,
up to the first one that raises an exception; if none does, the run ends as the tail says, after all blocks were
executed.  No line outside a complete block is executed. -/
theorem C35_run (blocks : List Block) (hb : ∀ b ∈ blocks, b.Ok) (tail : List Str) (o : Outcome) (ht : Tail tail o)
    (ns : σ) :
    runLines exec (blocks.flatMap Block.lines ++ tail) none ns = execAll exec (blocks.map Block.script) o ns := by
  induction blocks generalizing ns with
  | nil => exact run_tail exec ht ns
  | cons b bs ih =>
    obtain ⟨h1, h2, h3, h4⟩ := hb b List.mem_cons_self
    have e : (b :: bs).flatMap Block.lines ++ tail =
        b.before ++ b.start :: (b.body ++ b.stop :: (bs.flatMap Block.lines ++ tail)) := by
      simp [Block.lines, List.append_assoc]
    rw [e, run_plain_out exec h1, run_start exec h2, run_plain_in exec h3, List.nil_append, runLines,
      if_neg (fun hs => not_both ((isStart_iff _).1 hs) h4), if_pos ((isEnd_iff _).2 h4)]
    have hsc : dedent (b.body.map stripMarkers).flatten = b.script := rfl
    simp only [List.map_cons, execAll, hsc]
    split
    · rw [ih (fun b hb' => hb b (List.mem_cons_of_mem _ hb'))]
      rfl
    · rfl

/-- **C35** (every file): every list of lines is made of complete blocks and a tail. -/
theorem C35_shapes (lines : List Str) : ∃ (blocks : List Block) (tail : List Str) (o : Outcome), (∀ b ∈ blocks, b.Ok) ∧ Tail tail o ∧
    lines = blocks.flatMap Block.lines ++ tail := by
  have key : ∀ (lines : List Str),
      (∃ (blocks : List Block) (tail : List Str) (o : Outcome), (∀ b ∈ blocks, b.Ok) ∧ Tail tail o ∧ lines = blocks.flatMap Block.lines ++ tail) ∧
      (∀ before start, Plain before → IsStart start → ∀ body, Plain body →
        ∃ (blocks : List Block) (tail : List Str) (o : Outcome), (∀ b ∈ blocks, b.Ok) ∧ Tail tail o ∧
        before ++ start :: (body ++ lines) = blocks.flatMap Block.lines ++ tail) := by
    intro lines
    induction lines with
    | nil =>
      refine ⟨⟨[], [], .done, by simp, .done (by simp [Plain]), rfl⟩, fun before start h1 h2 body h3 => ?_⟩
      exact ⟨[], _, .unterminated, by simp, .unterminated h1 h2 h3, by simp⟩
    | cons x lines ih =>
      constructor
      · by_cases hs : IsStart x
        · obtain ⟨bl, t, o, h1, h2, h3⟩ := ih.2 [] x (by simp [Plain]) hs [] (by simp [Plain])
          exact ⟨bl, t, o, h1, h2, by simpa using h3⟩
        by_cases he : IsEnd x
        · exact ⟨[], _, .unmatched, by simp, .unmatched (l := []) (by simp [Plain]) he, rfl⟩
        · obtain ⟨bl, t, o, h1, h2, h3⟩ := ih.1
          have hx : ∀ {l : List Str}, Plain l → Plain (x :: l) := by
            intro l hl y hy
            rcases List.mem_cons.1 hy with rfl | hy
            · exact ⟨hs, he⟩
            · exact hl y hy
          cases bl with
          | nil =>
            simp only [List.flatMap_nil, List.nil_append] at h3
            cases h2 with
            | done h => exact ⟨[], x :: t, .done, by simp, .done (hx h), by simp [h3]⟩
            | unmatched h he' =>
              exact ⟨[], _, .unmatched, by simp, .unmatched (hx h) he', by rw [h3]; rfl⟩
            | unterminated h hs' hb => exact ⟨[], _, .unterminated, by simp, .unterminated (hx h) hs' hb, by rw [h3]; rfl⟩
            | nested h hs' hb hs'' => exact ⟨[], _, .nested, by simp, .nested (hx h) hs' hb hs'', by rw [h3]; rfl⟩
          | cons b bl =>
            refine ⟨{ b with before := x :: b.before } :: bl, t, o, ?_, h2, ?_⟩
            · intro b' hb'
              rcases List.mem_cons.1 hb' with rfl | hb'
              · have := h1 b List.mem_cons_self
                exact ⟨hx this.1, this.2⟩
              · exact h1 b' (List.mem_cons_of_mem _ hb')
            · rw [h3]
              simp [Block.lines]
      · intro before start hb hs body hbody
        by_cases hs' : IsStart x
        · exact ⟨[], _, .nested, by simp, .nested hb hs hbody hs', rfl⟩
        by_cases he : IsEnd x
        · obtain ⟨bl, t, o, h1, h2, h3⟩ := ih.1
          refine ⟨⟨before, start, body, x⟩ :: bl, t, o, ?_, h2, ?_⟩
          · intro b' hb'
            rcases List.mem_cons.1 hb' with rfl | hb'
            · exact ⟨hb, hs, hbody, he⟩
            · exact h1 b' hb'
          · rw [h3]
            simp [Block.lines, List.append_assoc]
        · have hbody' : Plain (body ++ [x]) := by
            intro y hy
            rcases List.mem_append.1 hy with hy | hy
            · exact hbody y hy
            · rw [List.mem_singleton] at hy
              subst hy
              exact ⟨hs', he⟩
          obtain ⟨bl, t, o, h1, h2, h3⟩ := ih.2 before start hb hs (body ++ [x]) hbody'
          exact ⟨bl, t, o, h1, h2, by rw [← h3]; simp [List.append_assoc]⟩
  exact (key lines).1

end

/-! ## Recovering the lines -/

/-- A line of Python code without indentation: it starts and ends with a character that is not white space, has no line
end inside, and does not look like a comment mark at either end. -/
structure CodeLine (s : Str) : Prop where
  word : Word s
  newline : '\n' ∉ s
  slashes : ¬ (c% "//") <+: s
  open' : ¬ (c% "/*") <+: s
  star : ¬ (c% "*") <+: s
  close : ¬ (c% "*/") <:+ s

/-- Spaces and tabs only. -/
def Blank (s : Str) : Prop := ∀ c ∈ s, isBlank c = true

theorem Blank.ws {s : Str} (h : Blank s) : Ws s := by
  intro c hc
  have := h c hc
  simp only [isBlank, Bool.or_eq_true, beq_iff_eq] at this
  rcases this with rfl | rfl <;> rfl

theorem prefix_newline {p s : Str} (hp : '\n' ∉ p) (h : p <+: s ++ ['\n']) : p <+: s := by
  rcases List.prefix_concat_iff.1 h with h | h
  · exact absurd (h ▸ by simp) hp
  · exact h

theorem stripTrailing_code {s : Str} (h : CodeLine s) : stripTrailing (s ++ ['\n']) = s ++ ['\n'] := by
  have hr : pyRStrip (s ++ ['\n']) = s := by
    rw [rstrip_append (by intro c hc; rw [List.mem_singleton] at hc; subst hc; rfl)]
    exact h.word.rstrip []
  rw [stripTrailing, hr, if_neg]
  intro hs
  exact h.close (List.isSuffixOf_iff_suffix.1 hs)

theorem stripLeading_code {s : Str} (h : CodeLine s) : stripLeading (s ++ ['\n']) = s ++ ['\n'] := by
  unfold stripLeading
  rw [if_neg (fun hp => h.slashes (prefix_newline (by decide) (List.isPrefixOf_iff_prefix.1 hp))),
    if_neg (fun hp => h.open' (prefix_newline (by decide) (List.isPrefixOf_iff_prefix.1 hp))),
    if_neg (fun hp => h.star (prefix_newline (by decide) (List.isPrefixOf_iff_prefix.1 hp)))]

/-- A line of code without comment marks is kept as it is, with its indentation. -/
theorem stripMarkers_code {w s : Str} (hw : Ws w) (h : CodeLine s) :
    stripMarkers (w ++ (s ++ ['\n'])) = w ++ (s ++ ['\n']) := by
  rw [stripMarkers_lead w hw _ (h.word.lstrip _), stripLeading_code h, stripTrailing_code h]

/-- A blank line is kept as it is. -/
theorem stripMarkers_blank {w : Str} (hw : Ws w) : stripMarkers w = w := by
  rw [stripMarkers, lstrip_ws hw]
  have h1 : stripLeading [] = [] := rfl
  have h2 : stripTrailing [] = [] := rfl
  rw [h1, h2, List.length_nil, Nat.sub_zero, List.take_length, List.append_nil]

/-- A line of code after a comment mark loses the mark and the white space after it. -/
theorem stripMarkers_marked {w w2 s : Str} (hw : Ws w) (hw2 : Ws w2) (m : Str) (hm : m ∈ [(c% "//"), (c% "/*"), (c% "*")])
    (h : CodeLine s) : stripMarkers (w ++ (m ++ (w2 ++ (s ++ ['\n'])))) = w ++ (s ++ ['\n']) := by
  simp only [List.mem_cons, List.not_mem_nil, or_false] at hm
  have hl : pyLStrip (w2 ++ (s ++ ['\n'])) = s ++ ['\n'] := by rw [lstrip_append hw2, h.word.lstrip]
  have key : stripLeading (m ++ (w2 ++ (s ++ ['\n']))) = s ++ ['\n'] := by
    unfold stripLeading
    rcases hm with rfl | rfl | rfl
    · rw [if_pos (List.isPrefixOf_iff_prefix.2 (List.prefix_append _ _))]
      exact hl
    · rw [if_neg (by simp [List.isPrefixOf]), if_pos (List.isPrefixOf_iff_prefix.2 (List.prefix_append _ _))]
      exact hl
    · rw [if_neg (by simp [List.isPrefixOf]), if_neg (by simp [List.isPrefixOf]),
        if_pos (List.isPrefixOf_iff_prefix.2 (List.prefix_append _ _))]
      exact hl
  have hc : pyLStrip (m ++ (w2 ++ (s ++ ['\n']))) = m ++ (w2 ++ (s ++ ['\n'])) := by
    rcases hm with rfl | rfl | rfl <;> (rw [List.cons_append]; exact lstrip_cons rfl)
  rw [stripMarkers_lead w hw _ hc, key, stripTrailing_code h]

/-! ### Removing the common indentation -/

theorem commonPrefix_self_append : ∀ (w a : Str), commonPrefix (w ++ a) w = w
  | [], [] => rfl
  | [], _ :: _ => rfl
  | c :: w, a => by
    rw [List.cons_append, commonPrefix, if_pos rfl, commonPrefix_self_append w a]

theorem commonPrefix_append : ∀ (w a b : Str), commonPrefix (w ++ a) (w ++ b) = w ++ commonPrefix a b
  | [], _, _ => rfl
  | c :: w, a, b => by
    rw [List.cons_append, List.cons_append, commonPrefix, if_pos rfl, commonPrefix_append w a b, List.cons_append]

theorem commonPrefix_nil (a : Str) : commonPrefix a [] = [] := by cases a <;> rfl
theorem nil_commonPrefix (a : Str) : commonPrefix [] a = [] := rfl

/-- A line of a script: blank, or code with some indentation. -/
inductive ScriptLine : Str → Prop
  | blank : ScriptLine []
  | code {i s : Str} (hi : Blank i) (h : CodeLine s) : ScriptLine (i ++ s)

theorem code_not_blank {s : Str} (h : CodeLine s) : ∃ c t, s = c :: t ∧ isBlank c = false := by
  obtain ⟨c, t, rfl, hc⟩ := h.word.first
  refine ⟨c, t, rfl, ?_⟩
  cases hb : isBlank c with
  | false => rfl
  | true =>
    have := Blank.ws (s := [c]) (by simpa [Blank] using hb) c (by simp)
    rw [this] at hc
    cases hc

theorem all_blank_iff (s : Str) : s.all isBlank = true ↔ Blank s := by simp [Blank]

theorem indent_code {i s : Str} (hi : Blank i) (h : CodeLine s) : indentOf (i ++ s) = some i := by
  obtain ⟨c, t, rfl, hc⟩ := code_not_blank h
  rw [indentOf, if_neg]
  · have : (i ++ c :: t).takeWhile isBlank = i := by
      rw [List.takeWhile_append_of_pos (fun a ha => hi a ha), List.takeWhile_cons, if_neg (by simp [hc])]
      simp
    rw [this]
  · rw [all_blank_iff]
    intro hb
    have := hb c (by simp)
    rw [hc] at this
    cases this

theorem indent_nil : indentOf [] = none := rfl

/-- The margin of lines that all start with `w`, seen from the lines without it. -/
theorem margin_prefix (w : Str) (hw : Blank w) : ∀ ls : List Str, (∀ l ∈ ls, ScriptLine l) →
    margin (ls.map fun l => if l = [] then [] else w ++ l) = (margin ls).map (w ++ ·)
  | [], _ => rfl
  | l :: ls, h => by
    have ih := margin_prefix w hw ls fun l hl => h l (List.mem_cons_of_mem _ hl)
    rw [List.map_cons, margin, margin, ih]
    cases h l List.mem_cons_self with
    | blank => rw [if_pos rfl, indent_nil]
    | @code i s hi hs =>
      have hne : i ++ s ≠ [] := by
        obtain ⟨c, t, rfl, -⟩ := code_not_blank hs
        simp
      have hwi : Blank (w ++ i) := by
        intro c hc
        rcases List.mem_append.1 hc with hc | hc
        · exact hw c hc
        · exact hi c hc
      rw [if_neg hne, ← List.append_assoc, indent_code hwi hs, indent_code hi hs]
      cases margin ls with
      | none => rfl
      | some m => simp [commonPrefix_append]

theorem margin_nil_of_mem : ∀ ls : List Str, (∀ l ∈ ls, ScriptLine l) → (∃ s ∈ ls, CodeLine s) →
    margin ls = some []
  | [], _, h => by simp at h
  | l :: ls, hl, ⟨s, hs, hc⟩ => by
    rw [margin]
    rcases List.mem_cons.1 hs with rfl | hs
    · rw [show indentOf s = some [] from indent_code (i := []) (by simp [Blank]) hc]
      cases margin ls <;> rfl
    · rw [margin_nil_of_mem ls (fun l h => hl l (List.mem_cons_of_mem _ h)) ⟨s, hs, hc⟩]
      cases indentOf l with
      | none => rfl
      | some i => simp [commonPrefix_nil]

/-- Remove the blanks of lines that are blank. -/
theorem normal_script {l : Str} (h : ScriptLine l) : (if l.all isBlank then [] else l) = l := by
  cases h with
  | blank => rfl
  | @code i s hi hs =>
    rw [if_neg]
    obtain ⟨c, t, rfl, hc⟩ := code_not_blank hs
    rw [all_blank_iff]
    intro hb
    have := hb c (by simp)
    rw [hc] at this
    cases this

theorem ScriptLine.newline {l : Str} (h : ScriptLine l) : '\n' ∉ l := by
  cases h with
  | blank => simp
  | @code i s hi hs =>
    intro hm
    rcases List.mem_append.1 hm with hm | hm
    · exact absurd (hi _ hm) (by decide)
    · exact hs.newline hm

/-- The source of a script: each line behind the common indentation `w`, blank lines with any blanks. -/
theorem dedentLines_indent (w : Str) (hw : Blank w) (ls : List Str) (h : ∀ l ∈ ls, ScriptLine l)
    (h0 : ∃ s ∈ ls, CodeLine s) (src : List Str)
    (hsrc : src = ls.map fun l => if l = [] then w else w ++ l) :
    dedentLines src = ls := by
  subst hsrc
  have h1 : (ls.map fun l => if l = [] then w else w ++ l).map (fun l => if l.all isBlank then [] else l) =
      ls.map fun l => if l = [] then [] else w ++ l := by
    rw [List.map_map]
    apply List.map_congr_left
    intro l hl
    have hl := h l hl
    simp only [Function.comp]
    by_cases he : l = []
    · rw [if_pos he, if_pos he, if_pos ((all_blank_iff w).2 hw)]
    · rw [if_neg he, if_neg he, if_neg]
      cases hl with
      | blank => exact absurd rfl he
      | @code i s hi hs =>
        obtain ⟨c, t, rfl, hc⟩ := code_not_blank hs
        rw [all_blank_iff]
        intro hb
        have := hb c (by simp)
        rw [hc] at this
        cases this
  have h2 : margin (ls.map fun l => if l = [] then [] else w ++ l) = some w := by
    rw [margin_prefix w hw ls h, margin_nil_of_mem ls h h0]
    simp
  unfold dedentLines
  simp only [h1, h2, Option.getD_some, List.map_map]
  refine Eq.trans (List.map_congr_left (g := id) ?_) (List.map_id ls)
  intro l hl
  simp only [Function.comp, id]
  by_cases he : l = []
  · subst he
    rw [if_pos rfl, cutMargin]
    split <;> simp
  · rw [if_neg he, cutMargin, if_pos (List.isPrefixOf_iff_prefix.2 (List.prefix_append _ _)), List.drop_left]

theorem flatten_lines (ls : List Str) : (ls.map (· ++ ['\n'])).flatten = joinWith '\n' (ls ++ [[]]) := by
  induction ls with
  | nil => rfl
  | cons l ls ih =>
    rw [List.map_cons, List.flatten_cons, ih, List.cons_append]
    cases ls with
    | nil => simp [joinWith]
    | cons l' ls => simp [joinWith]

theorem dedentLines_concat_nil (ls : List Str) : dedentLines (ls ++ [[]]) = dedentLines ls ++ [[]] := by
  have hm : ∀ ls : List Str, margin (ls ++ [[]]) = margin ls := by
    intro ls
    induction ls with
    | nil => rfl
    | cons l ls ih => rw [List.cons_append, margin, margin, ih]
  unfold dedentLines
  simp only [List.map_append, List.map_cons, List.map_nil]
  have : (if ([] : Str).all isBlank = true then [] else []) = ([] : Str) := rfl
  rw [this, hm]
  congr 1
  rw [cutMargin]
  split <;> simp

theorem dedent_lines (ls src : List Str) (hn : ∀ l ∈ src, '\n' ∉ l) (h : dedentLines src = ls) :
    dedent (src.map (· ++ ['\n'])).flatten = (ls.map (· ++ ['\n'])).flatten := by
  rw [flatten_lines, flatten_lines, dedent, split1_joinWith _ _ (by simp), dedentLines_concat_nil, h]
  intro p hp
  rcases List.mem_append.1 hp with hp | hp
  · exact hn p hp
  · rw [List.mem_singleton] at hp
    subst hp
    simp

/-- **C35** (lines of an open comment): if the lines of a block are the lines of a script behind a common indentation,
without comment marks, then the script executed is exactly that script, with all its own indentation. -/
theorem C35_plain (w : Str) (hw : Blank w) (b : Block) (ls : List Str) (h : ∀ l ∈ ls, ScriptLine l)
    (h0 : ∃ s ∈ ls, CodeLine s) (hb : b.body = ls.map fun l => w ++ l ++ ['\n']) :
    b.script = (ls.map (· ++ ['\n'])).flatten := by
  have h1 : b.body.map stripMarkers = (ls.map fun l => if l = [] then w else w ++ l).map (· ++ ['\n']) := by
    rw [hb, List.map_map, List.map_map]
    apply List.map_congr_left
    intro l hl
    simp only [Function.comp]
    cases h l hl with
    | blank =>
      rw [if_pos rfl, List.append_nil]
      apply stripMarkers_blank
      intro c hc
      rcases List.mem_append.1 hc with hc | hc
      · exact hw.ws c hc
      · rw [List.mem_singleton] at hc; subst hc; rfl
    | @code i s hi hs =>
      have hne : i ++ s ≠ [] := by
        obtain ⟨c, t, rfl, -⟩ := code_not_blank hs
        simp
      rw [if_neg hne]
      have := stripMarkers_code (w := w ++ i) (s := s) (by
        intro c hc
        rcases List.mem_append.1 hc with hc | hc
        · exact hw.ws c hc
        · exact hi.ws c hc) hs
      simpa [List.append_assoc] using this
  rw [Block.script, h1]
  refine dedent_lines _ _ ?_ (dedentLines_indent w hw ls h h0 _ rfl)
  intro l hl
  obtain ⟨x, hx, rfl⟩ := List.mem_map.1 hl
  have hwn : '\n' ∉ w := fun hm => absurd (hw _ hm) (by decide)
  split
  · exact hwn
  · intro hm
    rcases List.mem_append.1 hm with hm | hm
    · exact hwn hm
    · exact (h x hx).newline hm

/-- **C35** (partial: commented lines): if the lines of a block are lines of code without own indentation, each behind
`//`, `/*` or `*` and any white space, then the script executed is exactly those lines.  The full statement, for lines
with indentation, blank lines and lines closed by `*/`, fails, see `C35_indentation`, `C35_blank_comment` and
`C35_close_joins`. -/
theorem C35_commented_partial (w : Str) (hw : Blank w) (b : Block) (ls : List (Str × Str × Str)) (hne : ls ≠ [])
    (h : ∀ l ∈ ls, l.1 ∈ [(c% "//"), (c% "/*"), (c% "*")] ∧ Blank l.2.1 ∧ CodeLine l.2.2)
    (hb : b.body = ls.map fun l => w ++ l.1 ++ l.2.1 ++ l.2.2 ++ ['\n']) :
    b.script = (ls.map fun l => l.2.2 ++ ['\n']).flatten := by
  have h1 : b.body.map stripMarkers =
      ((ls.map (·.2.2)).map fun l => if l = [] then w else w ++ l).map (· ++ ['\n']) := by
    rw [hb, List.map_map, List.map_map, List.map_map]
    apply List.map_congr_left
    intro l hl
    obtain ⟨h1, h2, h3⟩ := h l hl
    have hne : l.2.2 ≠ [] := by
      obtain ⟨c, t, e, -⟩ := code_not_blank h3
      rw [e]
      simp
    simp only [Function.comp, if_neg hne]
    have := stripMarkers_marked hw.ws h2.ws l.1 h1 h3
    simpa [List.append_assoc] using this
  have hs : ∀ l ∈ ls.map (·.2.2), ScriptLine l := by
    intro l hl
    obtain ⟨x, hx, rfl⟩ := List.mem_map.1 hl
    exact .code (i := []) (by simp [Blank]) (h x hx).2.2
  have h0 : ∃ s ∈ ls.map (·.2.2), CodeLine s := by
    cases ls with
    | nil => exact absurd rfl hne
    | cons x ls => exact ⟨x.2.2, by simp, (h x List.mem_cons_self).2.2⟩
  rw [Block.script, h1]
  have := dedent_lines _ _ ?_ (dedentLines_indent w hw _ hs h0 _ rfl)
  · rw [this, List.map_map]
    rfl
  intro l hl
  obtain ⟨x, hx, rfl⟩ := List.mem_map.1 hl
  have hwn : '\n' ∉ w := fun hm => absurd (hw _ hm) (by decide)
  split
  · exact hwn
  · intro hm
    rcases List.mem_append.1 hm with hm | hm
    · exact hwn hm
    · exact (hs x hx).newline hm

/-! ## Examples and violations -/

/-- A file with two blocks. -/
example : (runFile (fun (n : Nat) _ => (n + 1, true))
    (c% "x\n/* NRPYSTART\n  if a:\n    b()\n\n  c()\nNRPYEND */\ny\n// NRPYSTART\n// d()\n// NRPYEND\n") 0).scripts =
    [(c% "if a:\n  b()\n\nc()\n"), (c% "d()\n")] := by decide +kernel

theorem codeLine_of (s : Str) (c : Char) (t : Str) (d : Char) (u : Str) (h1 : s = c :: t) (h2 : s = u ++ [d])
    (h3 : pySpace c = false) (h4 : pySpace d = false) (h5 : '\n' ∉ s) (h6 : c ≠ '/') (h7 : c ≠ '*') (h8 : d ≠ '/') :
    CodeLine s where
  word := ⟨⟨c, t, h1, h3⟩, ⟨u, d, h2, h4⟩⟩
  newline := h5
  slashes := by subst h1; simp [List.cons_prefix_cons, Ne.symm h6]
  open' := by subst h1; simp [List.cons_prefix_cons, Ne.symm h6]
  star := by subst h1; simp [List.cons_prefix_cons, Ne.symm h7]
  close := by
    rw [h2]
    intro h
    have : (c% "*/") = (c% "*") ++ ['/'] := rfl
    rw [this, List.suffix_concat_iff] at h
    rcases h with h | ⟨v, h, -⟩
    · simp at h
    · have := List.append_inj_right' h rfl
      simp at this
      exact h8 this.symm

/-- The hypotheses of `C35_plain` are met by a script with an indented line and a blank line. -/
example : (⟨[], (c% "NRPYSTART\n"), [(c% "  if a:\n"), (c% "    b()\n"), (c% "  \n")], (c% "NRPYEND\n")⟩ : Block).script =
    (c% "if a:\n  b()\n\n") := by
  have h1 : CodeLine (c% "if a:") := codeLine_of _ _ _ ':' (c% "if a") rfl rfl rfl rfl (by decide) (by decide) (by decide)
    (by decide)
  have h2 : CodeLine (c% "b()") := codeLine_of _ _ _ ')' (c% "b(") rfl rfl rfl rfl (by decide) (by decide) (by decide)
    (by decide)
  refine C35_plain (c% "  ") (by unfold Blank; decide) _ [(c% "if a:"), (c% "  b()"), []] ?_ ⟨_, by simp, h1⟩ rfl
  intro l hl
  simp only [List.mem_cons, List.not_mem_nil, or_false] at hl
  rcases hl with rfl | rfl | rfl
  · exact .code (i := []) (by simp [Blank]) h1
  · exact .code (i := (c% "  ")) (by unfold Blank; decide) h2
  · exact .blank

/-- Violation: the indentation of commented lines is lost, so that a commented `if` statement is no longer one. -/
theorem C35_indentation :
    (⟨[], (c% "// NRPYSTART\n"), [(c% "// if a:\n"), (c% "//   b()\n")], (c% "// NRPYEND\n")⟩ : Block).script =
      (c% "if a:\nb()\n") := by decide +kernel

/-- Violation: a commented blank line loses its line end, so that the next line gets the indentation of two lines. -/
theorem C35_blank_comment :
    (⟨[], (c% "  // NRPYSTART\n"), [(c% "  // a()\n"), (c% "  //\n"), (c% "  // b()\n")], (c% "  // NRPYEND\n")⟩ :
      Block).script = (c% "a()\n  b()\n") := by decide +kernel

/-- Violation: a line closed by `*/` loses its line end and is joined with the next one. -/
theorem C35_close_joins :
    (⟨[], (c% "/* NRPYSTART */\n"), [(c% "/* a() */\n"), (c% "/* b() */\n")], (c% "/* NRPYEND */\n")⟩ :
      Block).script = (c% "a()b()") := by decide +kernel

end Verif.Helpers
