import Verif.BHaH.Parfile
import Mathlib.Logic.Basic
import Mathlib.Data.List.Infix
import Mathlib.Data.List.TakeWhile

/-!
# C41 and C42: buffers of the parameter-file parser, command-line overrides
-/
namespace Verif.BHaH.Parfile
open Verif.Py

/-! ## Computations without overflow -/

def Safe {α : Type} (x : CM α) : Prop := x ≠ .error .overflow

theorem Safe.ok {α : Type} (a : α) : Safe (.ok a : CM α) := by simp [Safe]
theorem Safe.exit {α : Type} : Safe (.error .exit : CM α) := by simp [Safe]

theorem Safe.bind {α β : Type} {x : CM α} {f : α → CM β} (hx : Safe x) (hf : ∀ a, x = .ok a → Safe (f a)) :
    Safe (x.bind f) := by
  cases x with
  | error e => cases e with
    | exit => exact Safe.exit
    | overflow => exact absurd rfl hx
  | ok a => exact hf a rfl

theorem Safe.map {α β : Type} {x : CM α} {f : α → β} (hx : Safe x) : Safe (x.map f) := by
  cases x with
  | error e => cases e with
    | exit => exact Safe.exit
    | overflow => exact absurd rfl hx
  | ok a => exact Safe.ok _

theorem map_ok {α β : Type} {x : CM α} {f : α → β} {b : β} (h : x.map f = .ok b) : ∃ a, x = .ok a ∧ f a = b := by
  cases x with
  | error e => cases h
  | ok a => exact ⟨a, rfl, by cases h; rfl⟩

theorem bind_ok {α β : Type} {x : CM α} {f : α → CM β} {b : β} (h : x.bind f = .ok b) : ∃ a, x = .ok a ∧ f a = .ok b := by
  cases x with
  | error e => cases h
  | ok a => exact ⟨a, rfl, h⟩

theorem Safe.write {cap n : Nat} (h : n ≤ cap) : Safe (Parfile.write cap n) := by
  rw [Parfile.write, if_pos h]
  exact Safe.ok _

theorem Safe.safeCopy {cap size : Nat} (h : size ≤ cap) (src : Str) : Safe (safeCopy cap src size) := by
  unfold Parfile.safeCopy
  split
  · exact Safe.exit
  split
  · exact Safe.exit
  · exact (Safe.write h).map

theorem safeCopy_ok {cap size : Nat} {src r : Str} (h : safeCopy cap src size = .ok r) : r = src ∧ src.length < size := by
  unfold safeCopy at h
  split at h
  · cases h
  split at h
  · cases h
  · next h2 =>
    obtain ⟨a, -, rfl⟩ := map_ok h
    exact ⟨rfl, by omega⟩

theorem length_takeWhile_le {α : Type} (p : α → Bool) (l : List α) : (l.takeWhile p).length ≤ l.length :=
  (List.takeWhile_sublist p).length_le

/-! ## Tokens -/

theorem tokens_count (d : Char) (s : Str) : 2 * (tokens d s).length ≤ s.length + 1 ∧
    (∀ t, split1 d s = [] :: t → 2 * (tokens d s).length ≤ s.length) := by
  induction s with
  | nil => simp [tokens, split1]
  | cons c s ih =>
    unfold tokens at *
    rw [split1]
    split
    · simp only [List.filter_cons, List.isEmpty_nil, Bool.not_true, Bool.false_eq_true, if_false, List.length_cons]
      exact ⟨by omega, fun _ _ => ih.1⟩
    · cases hs : split1 d s with
      | nil => exact absurd hs (split1_ne_nil d s)
      | cons h t =>
        rw [hs] at ih
        simp only [List.filter_cons, List.isEmpty_cons, Bool.not_false, if_true, List.length_cons] at ih ⊢
        refine ⟨?_, fun t' ht' => by cases ht'⟩
        cases h with
        | nil =>
          have := ih.2 t rfl
          simp only [List.isEmpty_nil, Bool.not_true, Bool.false_eq_true, if_false] at this
          omega
        | cons x h =>
          have := ih.1
          simp only [List.isEmpty_cons, Bool.not_false, if_true, List.length_cons] at this
          omega

theorem split1_infix (d : Char) (s : Str) : (∀ h t, split1 d s = h :: t → h <+: s) ∧ ∀ p ∈ split1 d s, p <:+: s := by
  induction s with
  | nil => simp [split1]
  | cons c s ih =>
    rw [split1]
    split
    · refine ⟨fun h t e => by cases e; exact List.nil_prefix, fun p hp => ?_⟩
      rcases List.mem_cons.1 hp with rfl | hp
      · exact List.nil_infix
      · exact (ih.2 p hp).trans (List.suffix_cons c s).isInfix
    · cases hs : split1 d s with
      | nil => exact absurd hs (split1_ne_nil d s)
      | cons h t =>
        rw [hs] at ih
        have hp : (c :: h) <+: (c :: s) := by
          obtain ⟨u, hu⟩ := ih.1 h t rfl
          exact ⟨u, by rw [List.cons_append, hu]⟩
        refine ⟨fun h' t' e => by cases e; exact hp, fun p hp' => ?_⟩
        rcases List.mem_cons.1 hp' with rfl | hp'
        · exact hp.isInfix
        · exact (ih.2 p (List.mem_cons_of_mem _ hp')).trans (List.suffix_cons c s).isInfix

theorem token_infix {d : Char} {s p : Str} (h : p ∈ tokens d s) : p <:+: s :=
  (split1_infix d s).2 p (List.mem_filter.1 h).1

theorem trimSpace_infix (s : Str) : trimSpace s <:+: s := by
  unfold trimSpace
  have h1 : s.dropWhile cSpace <:+ s := List.dropWhile_suffix _
  have h2 : ((s.dropWhile cSpace).reverse.dropWhile cSpace).reverse <+: s.dropWhile cSpace := by
    rw [← List.reverse_suffix, List.reverse_reverse]
    exact List.dropWhile_suffix _
  exact h2.isInfix.trans h1.isInfix

/-! ## C41 -/

/-- Every pair of brackets encloses at most 15 characters. -/
def ShortBrackets (line : Str) : Prop :=
  ∀ a b c, line = a ++ '[' :: (b ++ ']' :: c) → ']' ∉ b → b.length ≤ 15

theorem ShortBrackets.infix {s t : Str} (h : ShortBrackets t) (hs : s <:+: t) : ShortBrackets s := by
  intro a b c e hb
  obtain ⟨x, y, rfl⟩ := hs
  exact h (x ++ a) b (c ++ y) (by simp [e]) hb

theorem takeWhile_ne_split (d : Char) (s : Str) (h : d ∈ s) :
    s = s.takeWhile (· ≠ d) ++ d :: (s.dropWhile (· ≠ d)).tail ∧ d ∉ s.takeWhile (· ≠ d) := by
  constructor
  · have h1 : s.dropWhile (· ≠ d) ≠ [] := by
      intro e
      rw [List.dropWhile_eq_nil_iff] at e
      have := e d h
      simp at this
    have h2 := List.head_dropWhile_not (fun x => decide (x ≠ d)) h1
    have h3 : (s.dropWhile (· ≠ d)).head h1 = d := by
      simpa using h2
    conv_lhs => rw [← List.takeWhile_append_dropWhile (p := fun x => decide (x ≠ d)) (l := s),
      ← List.cons_head_tail h1, h3]
  · intro hm
    have := List.mem_takeWhile_imp hm
    simp at this

theorem parseParam_safe {param : Str} (hl : param.length < paramSize) (hb : ShortBrackets param) :
    Safe (parseParam param) := by
  unfold parseParam
  cases hd : param.dropWhile (· ≠ '[') with
  | nil => exact (Safe.safeCopy (Nat.le_refl _) _).map
  | cons x inner =>
    have hn := length_takeWhile_le (· ≠ '[') param
    refine (Safe.write (by simp only [paramSize] at *; omega)).bind fun _ _ => ?_
    split
    · next hm =>
      have hx : '[' ∈ param := by
        by_contra hx
        have : param.dropWhile (· ≠ '[') = [] := by
          rw [List.dropWhile_eq_nil_iff]
          intro c hc
          simp only [ne_eq, decide_not, Bool.not_eq_eq_eq_not, Bool.not_true, decide_eq_false_iff_not]
          exact fun e => hx (e ▸ hc)
        rw [this] at hd
        cases hd
      have h1 := (takeWhile_ne_split '[' param hx).1
      rw [hd, List.tail_cons] at h1
      have h2 := takeWhile_ne_split ']' inner hm
      have h3 := hb _ _ _ (by rw [← h2.1]; exact h1) h2.2
      refine (Safe.write (by omega)).bind fun _ _ => ?_
      split
      · exact Safe.exit
      · exact Safe.ok _
    · exact Safe.exit

theorem copyValues_safe : ∀ (ts : List Str) (count : Nat), count + ts.length ≤ maxArraySize → Safe (copyValues ts count)
  | [], _, _ => Safe.ok _
  | t :: ts, count, h => by
    rw [List.length_cons] at h
    rw [copyValues, if_pos (by omega)]
    refine (Safe.safeCopy (Nat.le_refl _) _).bind fun v _ => ?_
    split
    · exact Safe.exit
    · exact (copyValues_safe ts (count + 1) (by omega)).map

theorem parseValue_safe {value : Str} (hl : value.length < paramSize) : Safe (parseValue value) := by
  unfold parseValue
  split
  · next rest =>
    split
    · exact Safe.exit
    · refine (Safe.safeCopy (Nat.le_refl _) _).bind fun copy hc => ?_
      refine (Safe.write (by simp only [paramSize, lineSize] at *; omega)).bind fun _ _ => ?_
      apply copyValues_safe
      have h1 := (tokens_count ',' (copy.take (('{' :: rest).length - 2))).1
      rw [List.length_take] at h1
      simp only [paramSize, maxArraySize] at *
      omega
  · refine (Safe.safeCopy (Nat.le_refl _) _).bind fun v _ => ?_
    exact (Safe.safeCopy (Nat.le_refl _) _).map

section
variable {F : Type} (strtod : Str → Option (F × Str × Bool))

theorem readInteger_safe (v : Str) : Safe (readInteger v) := by
  unfold readInteger
  split
  · exact Safe.ok _
  · exact Safe.exit

theorem readReal_safe (v : Str) : Safe (readReal strtod v) := by
  unfold readReal
  split
  · exact Safe.ok _
  · exact Safe.exit

theorem readChars_safe (v : Str) (n : Nat) (h : v.length ≤ paramSize + 1 ∨ n ≤ paramSize) : Safe (readChars v n) := by
  unfold readChars
  refine Safe.bind ?_ fun t ht => ?_
  · unfold unquote
    split
    · split
      · exact Safe.exit
      · next hn =>
        refine (Safe.write ?_).map
        simp only [paramSize] at *
        omega
    · exact Safe.safeCopy (Nat.le_refl _) _
  · split
    · exact Safe.exit
    · exact Safe.safeCopy (Nat.le_refl _) _

theorem readMany_safe {α : Type} (read : Str → CM α) (h : ∀ v, Safe (read v)) : ∀ vs, Safe (readMany read vs)
  | [] => Safe.ok _
  | v :: vs => (h v).bind fun _ _ => (readMany_safe read h vs).map

/-- The values handed to the readers are short. -/
theorem copyValues_length : ∀ (ts : List Str) (count : Nat) (vs : List Str), copyValues ts count = .ok vs →
    ∀ v ∈ vs, v.length < paramSize
  | [], _, vs, h => by cases h; simp
  | t :: ts, count, vs, h => by
    rw [copyValues] at h
    split at h
    · obtain ⟨v, hv, h⟩ := bind_ok h
      split at h
      · cases h
      · obtain ⟨ws, hw, rfl⟩ := map_ok h
        obtain ⟨rfl, hl⟩ := safeCopy_ok hv
        intro x hx
        rcases List.mem_cons.1 hx with rfl | hx
        · exact hl
        · exact copyValues_length ts _ ws hw x hx
    · cases h

theorem parseValue_length {value : Str} {vs : List Str} (h : parseValue value = .ok vs) : ∀ v ∈ vs, v.length < paramSize := by
  unfold parseValue at h
  split at h
  · split at h
    · cases h
    · obtain ⟨_, _, h⟩ := bind_ok h
      obtain ⟨_, _, h⟩ := bind_ok h
      exact copyValues_length _ _ _ h
  · obtain ⟨_, _, h⟩ := bind_ok h
    obtain ⟨w, hw, rfl⟩ := map_ok h
    obtain ⟨rfl, hl⟩ := safeCopy_ok hw
    simpa using hl

theorem readKind_safe (k : PKind) (n : Int) (vs : List Str) (h : ∀ v ∈ vs, v.length < paramSize) :
    Safe (readKind strtod k n vs) := by
  unfold readKind
  refine Safe.bind ?_ fun _ _ => ?_
  · unfold checkSizes
    have key : ∀ m : Nat, Safe (if 0 < m then
        if n ≠ m ∨ vs.length ≠ m then (.error .exit : CM Unit) else .ok ()
        else if 0 < n ∨ vs.length ≠ 1 then .error .exit else .ok ()) := by
      intro m
      split <;> split <;> first | exact Safe.exit | exact Safe.ok _
    exact key _
  · unfold assignValues
    split
    · exact (readMany_safe _ (readReal_safe strtod) _).map
    · exact (readMany_safe _ readInteger_safe _).map
    · exact (readReal_safe strtod _).map
    · exact (readInteger_safe _).map
    · exact (readChars_safe _ _ (Or.inl (by have := h _ List.mem_cons_self; omega))).map
    · exact Safe.exit

theorem findDesc_mem {table : List Desc} {name : Str} {d : Desc} (h : findDesc table name = some d) :
    d ∈ table ∧ d.name = name := by
  unfold findDesc at h
  exact ⟨List.mem_of_find?_eq_some h, by simpa using List.find?_some h⟩

theorem setParam_safe (numParams : Nat) (table : List Desc) (hn : table.length ≤ numParams) (d : Desc) (hd : d ∈ table)
    (n : Int) (vs : List Str) (st : PState F) (h : ∀ v ∈ vs, v.length < paramSize) :
    Safe (setParam strtod numParams table d n vs st) := by
  unfold setParam
  have : table.findIdx (fun e => e.name = d.name) < table.length :=
    List.findIdx_lt_length_of_exists ⟨d, hd, by simp⟩
  rw [if_neg (by omega)]
  split
  · exact Safe.exit
  · exact (readKind_safe strtod _ _ _ h).map

theorem parseLine_safe (numParams : Nat) (table : List Desc) (hn : table.length ≤ numParams) (line : Str)
    (hl : ShortBrackets line) (st : PState F) : Safe (parseLine strtod numParams table line st) := by
  unfold parseLine
  have hpre : line.takeWhile (· ≠ '#') <+: line := List.takeWhile_prefix _
  cases ht : tokens '=' (line.takeWhile (· ≠ '#')) with
  | nil => exact Safe.ok _
  | cons p rest =>
    have hp : trimSpace p <:+: line :=
      ((trimSpace_infix p).trans (token_infix (by rw [ht]; exact List.mem_cons_self))).trans hpre.isInfix
    refine (Safe.safeCopy (Nat.le_refl _) _).bind fun r hr => ?_
    obtain ⟨-, hlen⟩ := safeCopy_ok hr
    cases rest with
    | nil => exact Safe.ok _
    | cons q rest =>
      dsimp only
      unfold nameValue
      refine (Safe.safeCopy (Nat.le_refl _) _).bind fun value hv => ?_
      obtain ⟨rfl, hvl⟩ := safeCopy_ok hv
      refine (parseParam_safe hlen (hl.infix hp)).bind fun na _ => ?_
      obtain ⟨name, arraySize⟩ := na
      dsimp only
      split
      · refine (parseValue_safe hvl).bind fun vs hvs => ?_
        split
        · exact Safe.ok _
        · next d hd =>
          exact (setParam_safe strtod _ _ hn _ (findDesc_mem hd).1 _ _ _ (parseValue_length hvs)).map
      · exact Safe.exit

theorem applySteerable_safe : ∀ (l : List (Desc × Str)), (∀ p ∈ l, ∀ n, p.1.kind = .chars n → n ≤ paramSize) →
    ∀ st : PState F, Safe (applySteerable strtod l st)
  | [], _, _ => Safe.ok _
  | (d, arg) :: l, h, st => by
    have ih := applySteerable_safe l fun p hp => h p (List.mem_cons_of_mem _ hp)
    have hd := h (d, arg) List.mem_cons_self
    unfold applySteerable
    cases hk : d.kind with
    | chars n => exact (readChars_safe _ _ (Or.inr (hd n hk))).bind fun _ _ => ih _
    | int => exact (readInteger_safe _).bind fun _ _ => ih _
    | real => exact (readReal_safe strtod _).bind fun _ _ => ih _
    | reals n => exact ih _
    | ints n => exact ih _

theorem parseLines_safe (numParams : Nat) (table : List Desc) (hn : table.length ≤ numParams)
    (steer : List (Desc × Str)) (hs : ∀ p ∈ steer, ∀ n, p.1.kind = .chars n → n ≤ paramSize) :
    ∀ (lines : List Str), (∀ l ∈ lines, ShortBrackets l) → ∀ st : PState F,
      Safe (parseLines strtod numParams table steer lines st)
  | [], _, _ => Safe.ok _
  | line :: lines, h, st => by
    have ih := parseLines_safe numParams table hn steer hs lines fun l hl => h l (List.mem_cons_of_mem _ hl)
    rw [parseLines]
    refine (parseLine_safe strtod _ _ hn _ (h line List.mem_cons_self) st).bind fun r _ => ?_
    cases r with
    | none => exact ih _
    | some st' => exact (applySteerable_safe strtod steer hs st').bind fun st'' _ => ih _

/-- Lines as `fgets` reads them are made of consecutive characters of the file. -/
theorem fgetsAux_infix : ∀ (s cur : Str) (room : Nat), ∀ l ∈ fgetsAux cur room s, l <:+: cur ++ s
  | [], cur, room => by
    cases cur with
    | nil => simp [fgetsAux]
    | cons c cur => simp [fgetsAux]
  | c :: s, cur, room => by
    intro l hl
    rw [fgetsAux] at hl
    split at hl
    · rcases List.mem_cons.1 hl with rfl | hl
      · exact ⟨[], s, by simp⟩
      · have := fgetsAux_infix s [] _ l hl
        rw [List.nil_append] at this
        exact this.trans ⟨cur ++ [c], [], by simp⟩
    · have := fgetsAux_infix s (cur ++ [c]) _ l hl
      simpa using this

/-- **C41** (partial): for every file in which each pair of brackets encloses at most 15 characters, every command line
and every set of files, the program never writes outside its buffers, provided `char` parameters that can be steered
have at most 128 bytes.  Without the two provisos it does, see `C41_size_overflow` and `C41_quoted_overflow`. -/
theorem C41_safe_partial (defaultFile : Str) (numParams : Nat) (table : List Desc) (hn : table.length ≤ numParams)
    (steer : List Desc) (hs : ∀ d ∈ steer, ∀ n, d.kind = .chars n → n ≤ 128) (files : Str → Option Str)
    (hf : ∀ f text, files f = some text → ShortBrackets text) (args : List Str) (data : Str → Option (CVal F)) :
    program strtod defaultFile numParams table steer files args data ≠ .error .overflow := by
  show Safe _
  unfold program
  split
  · exact Safe.exit
  · split
    · exact Safe.exit
    · next text ht =>
      unfold parseFile
      refine (parseLines_safe strtod _ _ hn _ ?_ _ ?_ _).map
      · intro p hp n hk
        exact hs p.1 (List.of_mem_zip hp).1 n hk
      · intro l hl
        obtain ⟨x, hx, rfl⟩ := List.mem_map.1 hl
        have h1 := fgetsAux_infix text [] _ x hx
        rw [List.nil_append] at h1
        exact (hf _ _ ht).infix ((List.takeWhile_prefix _).isInfix.trans h1)

/-- Violation: a name followed by brackets with 16 characters or more overflows `size_str`. -/
theorem C41_size_overflow (name size rest : Str) (hname : '[' ∉ name) (hl : name.length < 128) (hsize : ']' ∉ size)
    (h : 16 ≤ size.length) : parseParam (name ++ '[' :: (size ++ ']' :: rest)) = .error .overflow := by
  have h1 : ∀ (d : Char) (a b : Str), d ∉ a → (a ++ d :: b).takeWhile (· ≠ d) = a ∧
      (a ++ d :: b).dropWhile (· ≠ d) = d :: b := by
    intro d a b hd
    have hp : ∀ x ∈ a, (decide (x ≠ d)) = true := by
      intro x hx
      simp only [ne_eq, decide_not, Bool.not_eq_eq_eq_not, Bool.not_true, decide_eq_false_iff_not]
      exact fun e => hd (e ▸ hx)
    rw [List.takeWhile_append_of_pos hp, List.dropWhile_append_of_pos hp]
    simp
  unfold parseParam
  rw [(h1 '[' name _ hname).1, (h1 '[' name _ hname).2]
  dsimp only
  rw [write, if_pos (by simp only [paramSize]; omega)]
  show (if ']' ∈ size ++ ']' :: rest then _ else _) = _
  rw [if_pos (by simp), (h1 ']' size rest hsize).1, write, if_neg (by omega)]
  rfl

/-- Violation: a quoted argument of more than 129 characters overflows `trimmed_value` if the field has more room. -/
theorem C41_quoted_overflow (s : Str) (n : Nat) (h : 128 ≤ s.length) (hn : s.length < n) :
    readChars ('"' :: s ++ ['"']) n = .error .overflow := by
  unfold readChars unquote
  rw [if_pos ⟨by simp, by rw [List.getLast?_append]; rfl⟩, if_neg (by simp; omega), write, if_neg (by simp [paramSize]; omega)]
  rfl

/-! ## C42 -/

/-- The value a steerable parameter gets from an argument. -/
def Given (d : Desc) (arg : Str) (v : CVal F) : Prop :=
  match d.kind with
  | .real => ∃ x, readReal strtod arg = .ok x ∧ v = .real x
  | .int => ∃ n, readInteger arg = .ok n ∧ v = .int n
  | .chars k => ∃ s, readChars arg k = .ok s ∧ v = .chars s
  | _ => False

/-- A line that sets something, but not a parameter of the table: text before and after an equals sign, with the name
not in the table. -/
def Unrecognised (table : List Desc) (line : Str) : Prop :=
  ∃ p q rest, tokens '=' (line.takeWhile (· ≠ '#')) = p :: q :: rest ∧
    ∀ d ∈ table, d.name ≠ (trimSpace p).takeWhile (· ≠ '[')

/-- All steerable parameters have the values given. -/
def Steered (steer : List (Desc × Str)) (data : Str → Option (CVal F)) : Prop :=
  ∀ p ∈ steer, ∃ v, data p.1.name = some v ∧ Given strtod p.1 p.2 v

def Scalar (k : PKind) : Prop :=
  match k with
  | .real | .int | .chars _ => True
  | _ => False

theorem applySteerable_keeps : ∀ (l : List (Desc × Str)) (st st' : PState F) (name : Str),
    applySteerable strtod l st = .ok st' → name ∉ l.map (·.1.name) → st'.data name = st.data name
  | [], st, st', name, h, _ => by cases h; rfl
  | (d, arg) :: l, st, st', name, h, hn => by
    simp only [List.map_cons, List.mem_cons, not_or] at hn
    unfold applySteerable at h
    have key : ∀ v, applySteerable strtod l (st.assign d.name v) = .ok st' → st'.data name = st.data name := by
      intro v h
      rw [applySteerable_keeps l _ st' name h hn.2]
      simp [PState.assign, hn.1]
    split at h
    · obtain ⟨_, _, h⟩ := bind_ok h; exact key _ h
    · obtain ⟨_, _, h⟩ := bind_ok h; exact key _ h
    · obtain ⟨_, _, h⟩ := bind_ok h; exact key _ h
    · exact applySteerable_keeps l _ st' name h hn.2

theorem applySteerable_steered : ∀ (l : List (Desc × Str)), (l.map (·.1.name)).Nodup → (∀ p ∈ l, Scalar p.1.kind) →
    ∀ st st' : PState F, applySteerable strtod l st = .ok st' → Steered strtod l st'.data
  | [], _, _, _, _, _ => by simp [Steered]
  | (d, arg) :: l, hnd, hk, st, st', h => by
    simp only [List.map_cons, List.nodup_cons] at hnd
    have hkd := hk (d, arg) List.mem_cons_self
    have key : ∀ v, Given strtod d arg v → applySteerable strtod l (st.assign d.name v) = .ok st' →
        Steered strtod ((d, arg) :: l) st'.data := by
      intro v hv h p hp
      rcases List.mem_cons.1 hp with rfl | hp
      · refine ⟨v, ?_, hv⟩
        rw [applySteerable_keeps strtod l _ st' _ h hnd.1]
        simp [PState.assign]
      · exact applySteerable_steered l hnd.2 (fun p hp => hk p (List.mem_cons_of_mem _ hp)) _ _ h p hp
    unfold applySteerable at h
    cases hkk : d.kind with
    | chars n =>
      rw [hkk] at h
      obtain ⟨s, hs, h⟩ := bind_ok h
      exact key _ (by simp only [Given, hkk]; exact ⟨s, hs, rfl⟩) h
    | int =>
      rw [hkk] at h
      obtain ⟨s, hs, h⟩ := bind_ok h
      exact key _ (by simp only [Given, hkk]; exact ⟨s, hs, rfl⟩) h
    | real =>
      rw [hkk] at h
      obtain ⟨s, hs, h⟩ := bind_ok h
      exact key _ (by simp only [Given, hkk]; exact ⟨s, hs, rfl⟩) h
    | reals n => simp [hkk, Scalar] at hkd
    | ints n => simp [hkk, Scalar] at hkd

theorem parseParam_name {param : Str} {n : Str} {k : Int} (h : parseParam param = .ok (n, k)) :
    n = param.takeWhile (· ≠ '[') := by
  unfold parseParam at h
  split at h
  · next hd =>
    obtain ⟨a, ha, e⟩ := map_ok h
    obtain ⟨h1, -⟩ := safeCopy_ok ha
    cases e
    rw [h1]
    have := List.takeWhile_append_dropWhile (p := fun x => decide (x ≠ '[')) (l := param)
    rw [hd, List.append_nil] at this
    exact this.symm
  · obtain ⟨_, _, h⟩ := bind_ok h
    split at h
    · obtain ⟨_, _, h⟩ := bind_ok h
      split at h
      · cases h
      · cases h; rfl
    · cases h

/-- The `continue` of the loop is taken exactly for unrecognised lines. -/
theorem parseLine_none {numParams : Nat} {table : List Desc} {line : Str} {st : PState F} {r : Option (PState F)}
    (h : parseLine strtod numParams table line st = .ok r) : r = none ↔ Unrecognised table line := by
  unfold parseLine at h
  unfold Unrecognised
  cases ht : tokens '=' (line.takeWhile (· ≠ '#')) with
  | nil => rw [ht] at h; cases h; simp
  | cons p rest =>
    rw [ht] at h
    obtain ⟨_, _, h⟩ := bind_ok h
    cases rest with
    | nil => cases h; simp
    | cons q rest =>
      dsimp only at h
      unfold nameValue at h
      obtain ⟨value, _, h⟩ := bind_ok h
      obtain ⟨⟨name, k⟩, hna, h⟩ := bind_ok h
      have hname := parseParam_name hna
      dsimp only at h
      split at h
      · obtain ⟨vs, _, h⟩ := bind_ok h
        split at h
        · next hf =>
          cases h
          refine ⟨fun _ => ⟨p, q, rest, rfl, fun d hd e => ?_⟩, fun _ => rfl⟩
          rw [← hname] at e
          unfold findDesc at hf
          rw [List.find?_eq_none] at hf
          exact hf d hd (by simpa using e)
        · next d hf =>
          obtain ⟨st', _, rfl⟩ := map_ok h
          constructor
          · intro e; cases e
          · rintro ⟨p', q', rest', e, hne⟩
            cases e
            have := findDesc_mem hf
            exact absurd (this.2.trans hname) (hne d this.1)
      · cases h

theorem parseLines_steered {numParams : Nat} {table : List Desc} {steer : List (Desc × Str)}
    (hnd : (steer.map (·.1.name)).Nodup) (hk : ∀ p ∈ steer, Scalar p.1.kind) :
    ∀ (lines : List Str) (st st' : PState F), parseLines strtod numParams table steer lines st = .ok st' →
      (Steered strtod steer st.data ∨ ∃ l ∈ lines, ¬ Unrecognised table l) → Steered strtod steer st'.data
  | [], st, st', h, hs => by
    cases h
    rcases hs with hs | ⟨l, hl, -⟩
    · exact hs
    · cases hl
  | line :: lines, st, st', h, hs => by
    rw [parseLines] at h
    obtain ⟨r, hr, h⟩ := bind_ok h
    have hnone := parseLine_none strtod hr
    cases r with
    | none =>
      refine parseLines_steered hnd hk lines st st' h ?_
      rcases hs with hs | ⟨l, hl, hu⟩
      · exact Or.inl hs
      · rcases List.mem_cons.1 hl with rfl | hl
        · exact absurd (hnone.1 rfl) hu
        · exact Or.inr ⟨l, hl, hu⟩
    | some st1 =>
      obtain ⟨st2, h2, h⟩ := bind_ok h
      exact parseLines_steered hnd hk lines st2 st' h (Or.inl (applySteerable_steered strtod steer hnd hk _ _ h2))

/-- **C42** (partial): if the program accepts its input and the parameter file has at least one line that does not set an
unknown parameter (an empty line or a comment is enough), then every steerable parameter given on the command line ends
up with the value given there, whatever the file says.  For other files it does not, see `C42_ignored`. -/
theorem C42_override_partial (numParams : Nat) (table : List Desc) (steer : List Desc)
    (hnd : (steer.map (·.name)).Nodup) (hk : ∀ d ∈ steer, Scalar d.kind) (args : List Str) (text : Str)
    (data data' : Str → Option (CVal F))
    (h : parseFile strtod numParams table (steer.zip args) text data = .ok data')
    (hline : ∃ l ∈ fgetsAll text, ¬ Unrecognised table (cStr l)) :
    ∀ d arg, (d, arg) ∈ steer.zip args → ∃ v, data' d.name = some v ∧ Given strtod d arg v := by
  unfold parseFile at h
  obtain ⟨st', h1, rfl⟩ := map_ok h
  have := parseLines_steered strtod (steer := steer.zip args) ?_ ?_ _ _ _ h1 ?_
  · exact fun d arg hd => this (d, arg) hd
  · have hsub : ((steer.zip args).map (·.1.name)).Sublist (steer.map (·.name)) := by
      have he : (steer.zip args).map (·.1.name) = ((steer.zip args).map Prod.fst).map (·.name) := by
        rw [List.map_map]; rfl
      rw [he]
      apply List.Sublist.map
      clear h h1 he hnd hk hline
      induction steer generalizing args with
      | nil => simp
      | cons d steer ih =>
        cases args with
        | nil => simp
        | cons a args =>
          simp only [List.zip_cons_cons, List.map_cons]
          exact (ih args).cons_cons d
    exact hsub.nodup hnd
  · intro p hp
    exact hk p.1 (List.of_mem_zip hp).1
  · obtain ⟨l, hl, hu⟩ := hline
    exact Or.inr ⟨cStr l, List.mem_map_of_mem hl, hu⟩

/-- Violation: if every line of the file sets an unknown parameter, in particular if the file is empty, the arguments are
ignored. -/
theorem C42_ignored (numParams : Nat) (table : List Desc) (steer : List (Desc × Str)) (text : Str)
    (data data' : Str → Option (CVal F)) (h : parseFile strtod numParams table steer text data = .ok data')
    (hline : ∀ l ∈ fgetsAll text, Unrecognised table (cStr l)) : data' = data := by
  have key : ∀ (lines : List Str) (st st' : PState F), (∀ l ∈ lines, Unrecognised table l) →
      parseLines strtod numParams table steer lines st = .ok st' → st' = st := by
    intro lines
    induction lines with
    | nil => intro st st' _ h; cases h; rfl
    | cons l lines ih =>
      intro st st' hu h
      rw [parseLines] at h
      obtain ⟨r, hr, h⟩ := bind_ok h
      have := (parseLine_none strtod hr).2 (hu l List.mem_cons_self)
      subst this
      exact ih st st' (fun l hl => hu l (List.mem_cons_of_mem _ hl)) h
  unfold parseFile at h
  obtain ⟨st', h1, rfl⟩ := map_ok h
  rw [key _ _ _ ?_ h1]
  intro l hl
  obtain ⟨x, hx, rfl⟩ := List.mem_map.1 hl
  exact hline x hx

/-- An empty file. -/
theorem C42_empty (numParams : Nat) (table : List Desc) (steer : List (Desc × Str)) (data : Str → Option (CVal F)) :
    parseFile strtod numParams table steer [] data = .ok data := rfl

end

/-- **C42** (command line): with `n ≥ 2` steerable parameters, `n` arguments are taken as their values and the default
file is read; `n + 1` arguments are taken as a file and the values. -/
theorem C42_usage (defaultFile : Str) (n : Nat) (hn : 2 ≤ n) (canOpen : Str → Bool) (args : List Str) (f : Str)
    (hl : args.length = n) (hd : canOpen defaultFile = true) (hf : canOpen f = true) :
    usage defaultFile n canOpen args = some ⟨defaultFile, args⟩ ∧
    usage defaultFile n canOpen (f :: args) = some ⟨f, args⟩ := by
  match args, hl with
  | a :: b :: r, hl =>
    refine ⟨?_, ?_⟩
    · simp [usage, ← hl, hd]
    · simp [usage, ← hl, hf]
  | [a], hl => simp at hl; omega
  | [], hl => simp at hl; omega

/-- Violation: with one steerable parameter, a value that is the name of a file that can be opened is taken as the
parameter file, and the parameter is not set. -/
theorem C42_file_name (defaultFile : Str) (canOpen : Str → Bool) (a : Str) (h : canOpen a = true)
    (h1 : a ≠ (c% "-h")) (h2 : a ≠ (c% "--help")) : usage defaultFile 1 canOpen [a] = some ⟨a, []⟩ := by
  simp [usage, h, h1, h2]

/-! ## Examples -/

/-- Numbers without fraction, for the examples. -/
def demoStrtod (s : Str) : Option (Int × Str × Bool) := strtol s

def demoTable : List Desc := [⟨(c% "a"), .real⟩, ⟨(c% "b"), .ints 2⟩, ⟨(c% "s"), .chars 10⟩]

/-- A file with a comment, an array, a text and an unknown parameter; one steerable parameter. -/
example : (parseFile demoStrtod 3 demoTable [(⟨(c% "a"), .real⟩, (c% "7"))]
    (c% "# x\na = 5 # five\nb[2] = { 1, -2 }\ns = \"hi there\"\nzz = 3\n") (fun _ => none)).toOption.map
      (fun d => (d (c% "a"), d (c% "b"), d (c% "s"))) =
    some (some (.real 7), some (.ints [1, -2]), some (.chars (c% "hi there"))) := by decide +kernel

/-- The hypotheses of `C41_safe_partial` and `C42_override_partial` hold for a file with brackets. -/
example : ∃ l ∈ fgetsAll (c% "b[2] = { 1, 2 }\n"), ¬ Unrecognised demoTable (cStr l) := by
  refine ⟨(c% "b[2] = { 1, 2 }\n"), by decide +kernel, ?_⟩
  rintro ⟨p, q, rest, h, hu⟩
  have : tokens '=' ((cStr (c% "b[2] = { 1, 2 }\n")).takeWhile (· ≠ '#')) = [(c% "b[2] "), (c% " { 1, 2 }\n")] := by
    decide +kernel
  rw [this] at h
  cases h
  exact hu ⟨(c% "b"), .ints 2⟩ (by simp [demoTable]) (by decide +kernel)

example : ShortBrackets (c% "b[2]=1") := by
  intro a b c e _
  have := congrArg List.length e
  simp at this
  omega

/-- A line that overflows. -/
example : parseFile demoStrtod 3 demoTable [] (c% "b[0000000000000002] = { 1, 2 }\n") (fun _ => none) =
    .error .overflow := by rfl

end Verif.BHaH.Parfile
