import Verif.BHaH.ParfileGen
import Verif.BHaH.ParfileProps
import Verif.Helpers.InlineProps
import Mathlib.Data.List.Perm.Basic
import Mathlib.Data.List.Forall2

/-!
# C40: the default parameter file gives the default values back
-/
namespace Verif.BHaH.Parfile
open Verif.Py Verif.Helpers

/-! ## Specification -/

def Int32 (n : Int) : Prop := -2147483648 ≤ n ∧ n ≤ 2147483647

/-- Text of a number: characters of Python's floating-point and integer numbers. -/
def NumText (s : Str) : Prop := s ≠ [] ∧ ∀ c ∈ s, c.isDigit = true ∨ c ∈ (c% "+-.einfa")

/-- A type, a default value of that type, and the value the C program should have.  Numbers must survive printing and
`strtod`; texts must fit and must not have the characters that mean something in a parameter file. -/
inductive Typed {F : Type} (py : PyNum F) (strtod : Str → Option (F × Str × Bool)) :
    Str → PyVal F → PKind → CVal F → Prop
  | real (v : PyVal F) (x : F) (h1 : py.toFloat v = some x) (h2 : strtod (v.show py) = some (x, [], false))
      (h3 : NumText (v.show py)) : Typed py strtod (c% "REAL") v .real (.real x)
  | int (n : Int) (h : Int32 n) : Typed py strtod (c% "int") (.int n) .int (.int n)
  | chars (n : Nat) (s : Str) (h1 : s.length < n) (h2 : ∀ c ∈ s, c ∉ ['#', '=', '"', '\n', '\x00']) :
      Typed py strtod ((c% "char") ++ '[' :: (dec n ++ [']'])) (.str s) (.chars n) (.chars s)
  | reals (n : Nat) (v : PyVal F) (x : F) (h1 : py.toFloat v = some x) (h2 : strtod (py.repr x) = some (x, [], false))
      (h3 : NumText (py.repr x)) (h4 : 0 < n) :
      Typed py strtod ((c% "REAL") ++ '[' :: (dec n ++ [']'])) v (.reals n) (.reals (List.replicate n x))
  | ints (n : Nat) (v : PyVal F) (i : Int) (h1 : py.toInt v = some i) (h2 : Int32 i) (h3 : 0 < n) :
      Typed py strtod ((c% "int") ++ '[' :: (dec n ++ [']'])) v (.ints n) (.ints (List.replicate n i))

/-- What stands before the equals sign. -/
def nameText (name : Str) : PKind → Str
  | .reals n => name ++ '[' :: (dec n ++ [']'])
  | .ints n => name ++ '[' :: (dec n ++ [']'])
  | _ => name

/-- What stands after the equals sign. -/
def valueText {F : Type} (py : PyNum F) (v : PyVal F) : PKind → Str
  | .reals n => (c% "{ ") ++ joinComma (List.replicate n ((py.toFloat v).elim [] py.repr)) ++ (c% " }")
  | .ints n => (c% "{ ") ++ joinComma (List.replicate n ((py.toInt v).elim [] intStr)) ++ (c% " }")
  | .chars _ => '"' :: v.show py ++ ['"']
  | _ => v.show py

/-- A parameter that can be written to the file and read back as `cv`. -/
structure Good {F : Type} (py : PyNum F) (strtod : Str → Option (F × Str × Bool)) (name : Str) (p : CodeParam F)
    (k : PKind) (cv : CVal F) : Prop where
  name_ne : name ≠ []
  name_ok : ∀ c ∈ name, cAlnum c = true ∨ c = '_'
  typed : Typed py strtod p.ctype p.default k cv
  name_short : (nameText name k).length ≤ 127
  value_short : (valueText py p.default k).length ≤ 127
  description_line : '\n' ∉ p.description
  module_line : '\n' ∉ p.module

/-- Parameters that appear in the file. -/
def Listed {F : Type} (params : Dict Str (CodeParam F)) (name : Str) (p : CodeParam F) : Prop :=
  (name, p) ∈ params ∧ p.commondata = true ∧ p.addToParfile = true

/-! ## Numbers -/

theorem dropWhile_digits {s : Str} (h : ∀ c ∈ s, c.isDigit = true) : s.dropWhile Char.isDigit = [] ∧
    s.takeWhile Char.isDigit = s :=
  ⟨List.dropWhile_eq_nil_iff.2 h, List.takeWhile_eq_self_iff.2 h⟩

theorem intStr_nat (n : Nat) : intStr (n : Int) = dec n := by
  rw [intStr, if_neg (by omega), Int.natAbs_natCast]

theorem not_space_of_digit {c : Char} (h : c.isDigit = true) : cSpace c = false := by
  cases hs : cSpace c
  · rfl
  · exfalso
    unfold cSpace at hs
    unfold Char.isDigit at h
    simp only [Bool.and_eq_true, decide_eq_true_eq, Bool.or_eq_true, beq_iff_eq] at h hs
    have h1 : 48 ≤ c.toNat := h.1
    omega

theorem strtol_intStr (i : Int) : strtol (intStr i) = some (i, [], decide (i < -longMax - 1 ∨ longMax < i)) := by
  have hd : ∀ c ∈ dec i.natAbs, c.isDigit = true := fun c hc => isDigit_of_mem_dec hc
  have hv : digitsValue (dec i.natAbs) = i.natAbs := by
    unfold digitsValue
    rw [(dropWhile_digits hd).2]
    exact Nat.ofDigitChars_ten_toDigits
  have hne := dec_ne_nil i.natAbs
  unfold strtol intStr
  split
  · next hi =>
    have : ('-' :: dec i.natAbs).dropWhile cSpace = '-' :: dec i.natAbs := by
      rw [List.dropWhile_cons_of_neg (by decide)]
    rw [this]
    show strtolDigits true (dec i.natAbs) = _
    unfold strtolDigits
    dsimp only
    rw [if_neg (by rw [(dropWhile_digits hd).2]; simpa using hne), hv, (dropWhile_digits hd).1, if_pos rfl]
    have : -((i.natAbs : Nat) : Int) = i := by omega
    rw [this]
  · next hi =>
    cases hs : dec i.natAbs with
    | nil => exact absurd hs hne
    | cons c s =>
      have hc : c.isDigit = true := hd c (by rw [hs]; exact List.mem_cons_self)
      have h1 : (c :: s).dropWhile cSpace = c :: s :=
        List.dropWhile_cons_of_neg (by rw [not_space_of_digit hc]; decide)
      have h2 : signOf (c :: s) = (false, c :: s) := by
        unfold signOf
        split
        · next h => cases h; exact absurd hc (by decide)
        · next h => cases h; exact absurd hc (by decide)
        · rfl
      rw [h1, h2]
      show strtolDigits false (c :: s) = _
      unfold strtolDigits
      dsimp only
      rw [← hs, if_neg (by rw [(dropWhile_digits hd).2]; simpa using hne), hv, (dropWhile_digits hd).1,
        if_neg (by decide)]
      have : ((i.natAbs : Nat) : Int) = i := by omega
      rw [this]

theorem readInteger_intStr {i : Int} (h : Int32 i) : readInteger (intStr i) = .ok i := by
  have h1 : decide (i < -longMax - 1 ∨ longMax < i) = false := decide_eq_false (by
    unfold Int32 at h
    unfold longMax
    omega)
  unfold readInteger
  rw [strtol_intStr, h1]
  dsimp only
  congr 1
  unfold toInt32
  unfold Int32 at h
  omega

theorem atoi_dec {n : Nat} (h : n ≤ 127) : atoi (dec n) = n := by
  unfold atoi
  rw [← intStr_nat, strtol_intStr]
  dsimp only
  unfold toInt32
  omega

theorem dec_short {n : Nat} (h : n ≤ 127) : (dec n).length ≤ 15 := by
  have : ∀ n < 128, (dec n).length ≤ 15 := by decide +kernel
  exact this n (by omega)

theorem numText_intStr (i : Int) : NumText (intStr i) := by
  constructor
  · unfold intStr
    split
    · simp
    · exact dec_ne_nil _
  · intro c hc
    unfold intStr at hc
    split at hc
    · rcases List.mem_cons.1 hc with rfl | hc
      · right; decide
      · exact Or.inl (isDigit_of_mem_dec hc)
    · exact Or.inl (isDigit_of_mem_dec hc)

/-! ## Texts without blanks at the ends -/

/-- Not empty, no C blank at either end. -/
def Trim (s : Str) : Prop := ∃ c d t u, s = c :: t ∧ s = u ++ [d] ∧ cSpace c = false ∧ cSpace d = false

theorem Trim.trim {s : Str} (h : Trim s) (a b : Nat) : trimSpace (List.replicate a ' ' ++ s ++ List.replicate b ' ') = s := by
  obtain ⟨c, d, t, u, h1, h2, hc, hd⟩ := h
  have hsp : ∀ (n : Nat) (r : Str), (List.replicate n ' ' ++ r).dropWhile cSpace = r.dropWhile cSpace := by
    intro n r
    rw [List.dropWhile_append_of_pos]
    intro x hx
    rw [(List.mem_replicate.1 hx).2]
    decide
  unfold trimSpace
  rw [List.append_assoc, hsp]
  have e1 : (s ++ List.replicate b ' ').dropWhile cSpace = s ++ List.replicate b ' ' := by
    rw [h1, List.cons_append, List.dropWhile_cons_of_neg (by rw [hc]; decide)]
  rw [e1, List.reverse_append, List.reverse_replicate, hsp]
  have e2 : s.reverse.dropWhile cSpace = s.reverse := by
    rw [h2, List.reverse_append, List.reverse_singleton, List.singleton_append,
      List.dropWhile_cons_of_neg (by rw [hd]; decide)]
  rw [e2, List.reverse_reverse]

theorem trim_of_chars {s : Str} (hne : s ≠ []) (h : ∀ c ∈ s, cSpace c = false) : Trim s := by
  cases s with
  | nil => exact absurd rfl hne
  | cons c t =>
    refine ⟨c, (c :: t).getLast (by simp), t, (c :: t).dropLast, rfl, ?_, h c List.mem_cons_self,
      h _ (List.getLast_mem _)⟩
    exact (List.dropLast_append_getLast _).symm

theorem NumText.char {s : Str} (h : NumText s) {c : Char} (hc : c ∈ s) (p : Char → Prop)
    (h1 : ∀ c : Char, c.isDigit = true → p c) (h2 : ∀ c ∈ (c% "+-.einfa"), p c) : p c :=
  (h.2 c hc).elim (h1 c) (h2 c)

theorem NumText.trim {s : Str} (h : NumText s) : Trim s :=
  trim_of_chars h.1 fun c hc => h.char hc (fun c => cSpace c = false) (fun _ hd => not_space_of_digit hd) (by decide)

theorem NumText.not_mem {s : Str} (h : NumText s) {c : Char} (h1 : c.isDigit = false) (h2 : c ∉ (c% "+-.einfa")) : c ∉ s :=
  fun hc => by
    rcases h.2 c hc with h3 | h3
    · rw [h3] at h1; cases h1
    · exact h2 h3

/-! ## Values -/

theorem parseValue_plain {v : Str} (ht : Trim v) (hb : '{' ∉ v) (hl : v.length ≤ 127) : parseValue v = .ok [v] := by
  have hc : ∀ r : Str, r.length ≤ 127 → safeCopy paramSize r paramSize = .ok r := by
    intro r hr
    rw [safeCopy, if_neg (by decide), if_neg (by simp only [paramSize]; omega), write, if_pos (Nat.le_refl _)]
    rfl
  unfold parseValue
  split
  · next rest => exact absurd List.mem_cons_self hb
  · rw [hc v hl]
    show (safeCopy paramSize (trimSpace v) paramSize).map _ = _
    have := ht.trim 0 0
    simp only [List.replicate_zero, List.nil_append, List.append_nil] at this
    rw [this, hc v hl]
    rfl

theorem copyValues_ok : ∀ (ts : List Str) (count : Nat), count + ts.length ≤ maxArraySize →
    (∀ t ∈ ts, (trimSpace t).length ≤ 127) → copyValues ts count = .ok (ts.map trimSpace)
  | [], _, _, _ => rfl
  | t :: ts, count, h, hl => by
    rw [List.length_cons] at h
    rw [copyValues, if_pos (by omega), safeCopy, if_neg (by decide),
      if_neg (by have := hl t List.mem_cons_self; simp only [paramSize]; omega), write, if_pos (Nat.le_refl _)]
    show (if maxArraySize < count + 1 then _ else _) = _
    rw [if_neg (by omega), copyValues_ok ts (count + 1) (by omega) fun t ht => hl t (List.mem_cons_of_mem _ ht)]
    rfl

theorem tokens_array (t : Str) (hne : t ≠ []) (hc : ',' ∉ t) : ∀ n : Nat, ∃ ts : List Str,
    tokens ',' (' ' :: joinComma (List.replicate (n + 1) t) ++ [' ']) = ts ∧
    ts.length = n + 1 ∧ ∀ x ∈ ts, ∃ b : Nat, x = List.replicate 1 ' ' ++ t ++ List.replicate b ' '
  | 0 => by
    refine ⟨_, rfl, ?_⟩
    show (tokens ',' (' ' :: t ++ [' '])).length = 1 ∧ _
    have : tokens ',' (' ' :: t ++ [' ']) = [' ' :: t ++ [' ']] := by
      unfold tokens
      rw [split1_of_not_mem _ _ (by simp [hc])]
      rfl
    show (tokens ',' (' ' :: t ++ [' '])).length = 1 ∧ ∀ x ∈ tokens ',' (' ' :: t ++ [' ']), _
    rw [this]
    refine ⟨rfl, fun x hx => ⟨1, ?_⟩⟩
    rw [List.mem_singleton.1 hx]
    rfl
  | n + 1 => by
    obtain ⟨ts, h1, h2, h3⟩ := tokens_array t hne hc n
    have e : ' ' :: joinComma (List.replicate (n + 1 + 1) t) ++ [' '] =
        (' ' :: t) ++ ',' :: (' ' :: joinComma (List.replicate (n + 1) t) ++ [' ']) := by
      simp [List.replicate_succ, joinComma]
    refine ⟨(' ' :: t) :: ts, ?_, by simp [h2], ?_⟩
    · rw [e]
      unfold tokens at h1 ⊢
      rw [split1_append_sep _ _ _ (by simp [hc]), List.filter_cons, if_pos (by rfl), h1]
    · intro x hx
      rcases List.mem_cons.1 hx with rfl | hx
      · exact ⟨0, by simp⟩
      · exact h3 x hx

theorem parseValue_array {t : Str} (n : Nat) (h0 : 0 < n) (ht : Trim t) (hc : ',' ∉ t)
    (hl : ((c% "{ ") ++ joinComma (List.replicate n t) ++ (c% " }")).length ≤ 127) :
    parseValue ((c% "{ ") ++ joinComma (List.replicate n t) ++ (c% " }")) = .ok (List.replicate n t) ∧ n ≤ 127 := by
  obtain ⟨m, rfl⟩ : ∃ m, n = m + 1 := ⟨n - 1, by omega⟩
  have hne : t ≠ [] := by
    obtain ⟨c, d, t', u, h1, _⟩ := ht
    rw [h1]; simp
  obtain ⟨ts, h1, h2, h3⟩ := tokens_array t hne hc m
  have hcount := (tokens_count ',' (' ' :: joinComma (List.replicate (m + 1) t) ++ [' '])).1
  rw [h1, h2] at hcount
  generalize hJ : joinComma (List.replicate (m + 1) t) = J at *
  have e : (c% "{ ") ++ J ++ (c% " }") = '{' :: (' ' :: J ++ [' ', '}']) := rfl
  have hlen' : J.length ≤ 123 := by simpa using hl
  simp only [List.length_append, List.length_cons, List.length_nil] at hcount
  have htrim : ∀ x ∈ ts, trimSpace x = t := by
    intro x hx
    obtain ⟨b, rfl⟩ := h3 x hx
    exact ht.trim 1 b
  have hmap : ts.map trimSpace = List.replicate (m + 1) t := by
    rw [← h2]
    exact List.eq_replicate_iff.2 ⟨by simp, fun b hb => by
      obtain ⟨x, hx, rfl⟩ := List.mem_map.1 hb
      exact htrim x hx⟩
  refine ⟨?_, by omega⟩
  rw [e, parseValue]
  rw [if_neg (by simp [List.getLast?_cons, List.getLast?_append])]
  rw [safeCopy, if_neg (by decide), if_neg (by simp [lineSize]; omega), write, if_pos (Nat.le_refl _)]
  show ((write lineSize _).bind fun _ => copyValues (tokens ',' ((' ' :: J ++ [' ', '}']).take _)) 0) = _
  rw [write, if_pos (by simp [lineSize]; omega)]
  show copyValues (tokens ',' ((' ' :: J ++ [' ', '}']).take _)) 0 = _
  have etake : (' ' :: J ++ [' ', '}']).take (('{' :: (' ' :: J ++ [' ', '}'])).length - 2) = ' ' :: J ++ [' '] := by
    have e2 : ' ' :: J ++ [' ', '}'] = (' ' :: J ++ [' ']) ++ ['}'] := by simp
    rw [e2]
    apply List.take_left'
    simp
  rw [etake, h1, copyValues_ok ts 0 (by rw [h2]; simp only [maxArraySize]; omega), hmap]
  intro x hx
  rw [htrim x hx]
  have hb : ∀ (k : Nat), t.length ≤ (joinComma (List.replicate (k + 1) t)).length := by
    intro k
    cases k with
    | zero => simp [joinComma]
    | succ k => simp [List.replicate_succ, joinComma]
  have := hb m
  rw [hJ] at this
  omega

theorem readMany_replicate {α : Type} (read : Str → CM α) (t : Str) (x : α) (h : read t = .ok x) : ∀ n : Nat,
    readMany read (List.replicate n t) = .ok (List.replicate n x)
  | 0 => rfl
  | n + 1 => by
    rw [List.replicate_succ, readMany, h]
    show (readMany read (List.replicate n t)).map _ = _
    rw [readMany_replicate read t x h n]
    rfl

/-! ## Names -/

theorem name_char {name : Str} (h : ∀ c ∈ name, cAlnum c = true ∨ c = '_') {c : Char} (h1 : cAlnum c = false) (h2 : c ≠ '_') :
    c ∉ name := fun hc => by
  rcases h c hc with h3 | h3
  · rw [h1] at h3; cases h3
  · exact h2 h3

theorem alnum_not_space {c : Char} (h : cAlnum c = true ∨ c = '_') : cSpace c = false ∧ pySpace c = false := by
  rcases h with h | rfl
  · unfold cAlnum at h
    simp only [Bool.or_eq_true] at h
    have hn : 48 ≤ c.toNat ∧ c.toNat ≤ 122 := by
      rcases h with (h | h) | h
      · unfold Char.isDigit at h
        simp only [Bool.and_eq_true, decide_eq_true_eq] at h
        exact ⟨h.1, Nat.le_trans (show c.toNat ≤ 57 from h.2) (by decide)⟩
      · unfold Char.isUpper at h
        simp only [Bool.and_eq_true, decide_eq_true_eq] at h
        exact ⟨Nat.le_trans (by decide) (show 65 ≤ c.toNat from h.1), Nat.le_trans (show c.toNat ≤ 90 from h.2) (by decide)⟩
      · unfold Char.isLower at h
        simp only [Bool.and_eq_true, decide_eq_true_eq] at h
        exact ⟨Nat.le_trans (by decide) (show 97 ≤ c.toNat from h.1), show c.toNat ≤ 122 from h.2⟩
    constructor
    · cases hs : cSpace c
      · rfl
      · unfold cSpace at hs
        simp only [Bool.or_eq_true, beq_iff_eq, Bool.and_eq_true, decide_eq_true_eq] at hs
        omega
    · cases hs : pySpace c
      · rfl
      · unfold pySpace at hs
        simp at hs
        omega
  · exact ⟨by decide, by decide⟩

theorem takeWhile_append_stop (d : Char) (a b : Str) (h : d ∉ a) : (a ++ d :: b).takeWhile (· ≠ d) = a ∧
    (a ++ d :: b).dropWhile (· ≠ d) = d :: b := by
  have hp : ∀ x ∈ a, (decide (x ≠ d)) = true := by
    intro x hx
    simp only [ne_eq, decide_not, Bool.not_eq_eq_eq_not, Bool.not_true, decide_eq_false_iff_not]
    exact fun e => h (e ▸ hx)
  rw [List.takeWhile_append_of_pos hp, List.dropWhile_append_of_pos hp]
  simp

theorem parseParam_plain {name : Str} (h : '[' ∉ name) (hl : name.length ≤ 127) : parseParam name = .ok (name, 0) := by
  unfold parseParam
  have : name.dropWhile (· ≠ '[') = [] := by
    rw [List.dropWhile_eq_nil_iff]
    intro x hx
    simp only [ne_eq, decide_not, Bool.not_eq_eq_eq_not, Bool.not_true, decide_eq_false_iff_not]
    exact fun e => h (e ▸ hx)
  rw [this]
  dsimp only
  rw [safeCopy, if_neg (by decide), if_neg (by simp only [paramSize]; omega), write, if_pos (Nat.le_refl _)]
  rfl

theorem parseParam_array {name : Str} (n : Nat) (h0 : 0 < n) (hn : n ≤ 127) (h : '[' ∉ name) (hl : name.length ≤ 127) :
    parseParam (name ++ '[' :: (dec n ++ [']'])) = .ok (name, n) := by
  unfold parseParam
  rw [(takeWhile_append_stop '[' name _ h).1, (takeWhile_append_stop '[' name _ h).2]
  dsimp only
  rw [write, if_pos (by simp only [paramSize]; omega)]
  show (if ']' ∈ dec n ++ [']'] then _ else _) = _
  rw [if_pos (by simp), (takeWhile_append_stop ']' (dec n) [] (not_mem_dec (by decide))).1, write,
    if_pos (by have := dec_short hn; omega)]
  show (if atoi (dec n) ≤ 0 then _ else _) = _
  rw [atoi_dec hn, if_neg (by omega)]

/-! ## Types -/

theorem containsSub_false {pat : Str} {c : Char} (hp : c ∈ pat) : ∀ {s : Str}, c ∉ s → containsSub pat s = false
  | [], _ => by
    unfold containsSub
    cases pat with
    | nil => cases hp
    | cons x pat => rfl
  | x :: s, hs => by
    have e : containsSub pat (x :: s) = (pat.isPrefixOf (x :: s) || containsSub pat s) := by
      rw [containsSub]
    rw [e, containsSub_false hp (s := s) fun h => hs (List.mem_cons_of_mem _ h), Bool.or_false]
    cases h : pat.isPrefixOf (x :: s) with
    | false => rfl
    | true =>
      rw [List.isPrefixOf_iff_prefix] at h
      exact absurd (h.subset hp) hs

theorem strip_type (a : Str) (n : Nat) (c : Char) (t : Str) (ha : a = c :: t) (hc : pySpace c = false) :
    pyStrip (a ++ '[' :: (dec n ++ [']'])) = a ++ '[' :: (dec n ++ [']']) := by
  rw [strip_eq]
  subst ha
  rw [List.cons_append, lstrip_cons hc]
  have : c :: (t ++ '[' :: (dec n ++ [']'])) = (c :: (t ++ '[' :: dec n)) ++ [']'] := by simp
  rw [this, rstrip_concat (by decide)]

theorem sizeIn_type (a : Str) (n : Nat) (h : '[' ∉ a) : sizeIn (a ++ '[' :: (dec n ++ [']'])) = some n := by
  unfold sizeIn
  rw [split1_append_sep _ _ _ h, split1_of_not_mem '[' (dec n ++ [']']) (by
    simp only [List.mem_append, List.mem_singleton, not_or]
    exact ⟨not_mem_dec (by decide), by decide⟩)]
  simp only [List.drop_succ_cons, List.drop_zero, List.headD_cons]
  rw [split1_append_sep _ _ _ (not_mem_dec (by decide))]
  simp only [List.headD_cons]
  rw [← intStr_nat, parseInt_intStr]
  show (if (n : Int) < 0 then none else some (n : Int).toNat) = _
  rw [if_neg (by omega)]
  rfl

theorem parseArrayType_type (a : Str) (n : Nat) (h : '[' ∉ a) (h' : ']' ∉ a) :
    parseArrayType (a ++ '[' :: (dec n ++ [']'])) = some (a, n) := by
  have hidx : ∀ (d : Char) (x y : Str), d ∉ x → (x ++ d :: y).findIdx (· == d) = x.length := by
    intro d x y hd
    induction x with
    | nil => simp [List.findIdx_cons]
    | cons z x ih =>
      simp only [List.mem_cons, not_or] at hd
      have : (z == d) = false := by simpa using Ne.symm hd.1
      rw [List.cons_append, List.findIdx_cons, ih hd.2, this]
      rfl
  have hsize : dec n = ((a ++ '[' :: (dec n ++ [']'])).drop (a.length + 1)).take ((a ++ '[' :: dec n).length - (a.length + 1)) := by
    have e : a ++ '[' :: (dec n ++ [']']) = (a ++ ['[']) ++ (dec n ++ [']']) := by simp
    rw [e, List.drop_left' (by simp)]
    rw [List.take_left' (by simp; omega)]
  unfold parseArrayType
  rw [if_pos ⟨by simp, by simp⟩]
  dsimp only
  rw [hidx '[' a _ h]
  have e : a ++ '[' :: (dec n ++ [']']) = (a ++ '[' :: dec n) ++ ']' :: [] := by simp
  have hj : (a ++ '[' :: (dec n ++ [']'])).findIdx (· == ']') = (a ++ '[' :: dec n).length := by
    rw [e]
    exact hidx ']' _ _ (by
      simp only [List.mem_append, List.mem_cons, not_or]
      exact ⟨h', by decide, not_mem_dec (by decide)⟩)
  rw [hj, ← hsize, if_pos (allDigits_dec n), split1_append_sep _ _ _ h]
  simp only [List.headD_cons]
  rw [show Nat.ofDigitChars 10 (dec n) 0 = n from Nat.ofDigitChars_ten_toDigits]

theorem not_mem_type (a : Str) (n : Nat) (c : Char) (h : c ∉ a) (hd : c.isDigit = false) (h1 : c ≠ '[') (h2 : c ≠ ']') :
    c ∉ a ++ '[' :: (dec n ++ [']']) := by
  simp only [List.mem_append, List.mem_cons, not_or, List.mem_singleton]
  exact ⟨h, h1, not_mem_dec hd, by simpa using h2⟩

theorem classify_typed {F : Type} {py : PyNum F} {strtod : Str → Option (F × Str × Bool)} {t : Str} {v : PyVal F} {k : PKind}
    {cv : CVal F} (h : Typed py strtod t v k cv) : classify t = some (some k) := by
  cases h with
  | real => decide +kernel
  | int => decide +kernel
  | chars n s =>
    unfold classify
    rw [strip_type (c% "char") n 'c' (c% "har") rfl (by decide)]
    dsimp only
    rw [containsSub_false (c := 'i') (by decide) (not_mem_type _ n 'i' (by decide) (by decide) (by decide) (by decide)),
      containsSub_false (c := 'i') (by decide) (not_mem_type _ n 'i' (by decide) (by decide) (by decide) (by decide)),
      containsSub_false (c := 'R') (by decide) (not_mem_type _ n 'R' (by decide) (by decide) (by decide) (by decide)),
      containsSub_false (c := 'R') (by decide) (not_mem_type _ n 'R' (by decide) (by decide) (by decide) (by decide)),
      if_neg (by decide), if_neg (by decide), if_neg (by simp), if_neg (by simp), if_pos, sizeIn_type _ _ (by decide)]
    · rfl
    · simp [containsSub]
  | reals n =>
    unfold classify
    rw [strip_type (c% "REAL") n 'R' (c% "EAL") rfl (by decide)]
    dsimp only
    rw [containsSub_false (c := 'i') (by decide) (not_mem_type _ n 'i' (by decide) (by decide) (by decide) (by decide)),
      containsSub_false (c := 'i') (by decide) (not_mem_type _ n 'i' (by decide) (by decide) (by decide) (by decide)),
      if_neg (by decide), if_pos, sizeIn_type _ _ (by decide)]
    · rfl
    · simp [containsSub]
  | ints n =>
    unfold classify
    rw [strip_type (c% "int") n 'i' (c% "nt") rfl (by decide)]
    dsimp only
    rw [if_pos, sizeIn_type _ _ (by decide)]
    · rfl
    · simp [containsSub]

/-! ## One line -/

theorem replace_quote {s : Str} (h : '"' ∉ s) : replaceAll (c% "\"") (c% "\\\"") s = s := by
  unfold replaceAll
  induction s with
  | nil => rfl
  | cons c s ih =>
    simp only [List.mem_cons, not_or] at h
    have : (c% "\"").isPrefixOf (c :: s) = false := by simp [List.isPrefixOf, h.1]
    rw [replaceAux, if_neg (by rw [this]; decide), ih h.2]

section
variable {F : Type} {py : PyNum F} {strtod : Str → Option (F × Str × Bool)}

/-- The line of a good parameter. -/
theorem paramLine_good {name : Str} {p : CodeParam F} {k : PKind} {cv : CVal F} (g : Good py strtod name p k cv) :
    ∃ rest, paramLine py name p =
        some (nameText name k ++ (c% " = ") ++ valueText py p.default k ++ (c% "  ") ++ '#' :: rest) ∧ '\n' ∉ rest := by
  have hsuf : '\n' ∉ suffixOf p.description := by
    unfold suffixOf
    dsimp only
    split
    · simp
    · simp only [List.mem_cons, not_or]
      refine ⟨by decide, fun h => g.description_line ?_⟩
      obtain ⟨a, b, _, _, e⟩ := strip_split p.description
      rw [e]
      simp [h]
  obtain ⟨-, -, ht, -, -, -, -⟩ := g
  unfold paramLine
  generalize hct : p.ctype = ct at ht
  generalize hdv : p.default = dv at ht
  cases ht with
  | real _ x h1 h2 h3 =>
    refine ⟨(c% " (REAL)") ++ suffixOf p.description, ?_, by simp [hsuf]⟩
    have : parseArrayType (c% "REAL") = none := by decide +kernel
    rw [this]
    dsimp only
    rw [if_neg (by decide +kernel)]
    simp [scalarLine, nameText, valueText]
  | int n h =>
    refine ⟨(c% " (int)") ++ suffixOf p.description, ?_, by simp [hsuf]⟩
    have : parseArrayType (c% "int") = none := by decide +kernel
    rw [this]
    dsimp only
    rw [if_neg (by decide +kernel)]
    simp [scalarLine, nameText, valueText]
  | chars n s h1 h2 =>
    refine ⟨(c% " (char[") ++ dec n ++ (c% "])") ++ suffixOf p.description, ?_, ?_⟩
    · rw [parseArrayType_type _ _ (by decide) (by decide)]
      dsimp only
      rw [if_neg (by decide +kernel), if_neg (by decide +kernel), if_pos (by decide +kernel), quoted,
        replace_quote fun h => by simpa using h2 _ h]
      simp [scalarLine, nameText, valueText, PyVal.show]
    · simp [hsuf, not_mem_dec (n := n) (c := '\n') (by decide)]
  | reals n _ x h1 =>
    refine ⟨(c% " (REAL)") ++ suffixOf p.description, ?_, by simp [hsuf]⟩
    rw [parseArrayType_type _ _ (by decide) (by decide)]
    dsimp only
    rw [if_pos (by decide +kernel), h1]
    simp [arrayLine, nameText, valueText, h1]
  | ints n _ i h1 =>
    refine ⟨(c% " (int)") ++ suffixOf p.description, ?_, by simp [hsuf]⟩
    rw [parseArrayType_type _ _ (by decide) (by decide)]
    dsimp only
    rw [if_neg (by decide +kernel), if_pos (by decide +kernel), h1]
    simp [arrayLine, nameText, valueText, h1]

/-- The text before the equals sign. -/
theorem nameText_good {name : Str} (hne : name ≠ []) (hok : ∀ c ∈ name, cAlnum c = true ∨ c = '_') (k : PKind) :
    Trim (nameText name k) ∧ ∀ c ∈ nameText name k, c ∉ ['#', '=', '\n', '\x00'] := by
  have h1 : Trim name := trim_of_chars hne fun c hc => (alnum_not_space (hok c hc)).1
  have h2 : ∀ c ∈ name, c ∉ ['#', '=', '\n', '\x00'] := by
    intro c hc hm
    simp only [List.mem_cons, List.not_mem_nil, or_false] at hm
    rcases hm with rfl | rfl | rfl | rfl <;> exact name_char hok (by decide) (by decide) hc
  have h3 : ∀ n : Nat, Trim (name ++ '[' :: (dec n ++ [']'])) ∧
      ∀ c ∈ name ++ '[' :: (dec n ++ [']']), c ∉ ['#', '=', '\n', '\x00'] := by
    intro n
    constructor
    · obtain ⟨c, d, t, u, e1, e2, hc, hd⟩ := h1
      exact ⟨c, ']', t ++ '[' :: (dec n ++ [']']), name ++ '[' :: dec n, by simp [e1], by simp, hc, by decide⟩
    · intro c hc hm
      have hx : c ∉ name ++ '[' :: (dec n ++ [']']) := by
        apply not_mem_type
        · exact fun h => h2 c h hm
        all_goals
          simp only [List.mem_cons, List.not_mem_nil, or_false] at hm
          rcases hm with rfl | rfl | rfl | rfl <;> decide
      exact hx hc
  cases k with
  | reals n => exact h3 n
  | ints n => exact h3 n
  | real => exact ⟨h1, h2⟩
  | int => exact ⟨h1, h2⟩
  | chars n => exact ⟨h1, h2⟩

theorem num_chars {s : Str} (h : NumText s) : ∀ c ∈ s, c ∉ ['#', '=', '\n', '\x00'] := by
  intro c hc hm
  simp only [List.mem_cons, List.not_mem_nil, or_false] at hm
  rcases hm with rfl | rfl | rfl | rfl <;> exact h.not_mem (by decide) (by decide) hc

theorem joinComma_chars {t : Str} {l : List Char} (hl : ',' ∉ l) (hs : ' ' ∉ l) (h : ∀ c ∈ t, c ∉ l) : ∀ n : Nat,
    ∀ c ∈ joinComma (List.replicate n t), c ∉ l
  | 0 => by simp [joinComma]
  | 1 => by simpa [joinComma] using h
  | n + 2 => by
    have ih := joinComma_chars hl hs h (n + 1)
    intro c hc
    rw [List.replicate_succ] at hc
    have e : joinComma (t :: List.replicate (n + 1) t) = t ++ (c% ", ") ++ joinComma (List.replicate (n + 1) t) := by
      rw [List.replicate_succ]; rfl
    rw [e] at hc
    rcases List.mem_append.1 hc with hc | hc
    · rcases List.mem_append.1 hc with hc | hc
      · exact h c hc
      · simp only [List.mem_cons, List.not_mem_nil, or_false] at hc
        rcases hc with rfl | rfl
        · exact hl
        · exact hs
    · exact ih c hc

theorem braces_chars {J : Str} (h : ∀ c ∈ J, c ∉ ['#', '=', '\n', '\x00']) :
    Trim ((c% "{ ") ++ J ++ (c% " }")) ∧ ∀ c ∈ (c% "{ ") ++ J ++ (c% " }"), c ∉ ['#', '=', '\n', '\x00'] := by
  refine ⟨⟨'{', '}', ' ' :: J ++ (c% " }"), (c% "{ ") ++ J ++ [' '], rfl, by simp, by decide, by decide⟩, ?_⟩
  intro c hc
  rcases List.mem_append.1 hc with hc | hc
  · rcases List.mem_append.1 hc with hc | hc
    · simp only [List.mem_cons, List.not_mem_nil, or_false] at hc
      rcases hc with rfl | rfl <;> decide
    · exact h c hc
  · simp only [List.mem_cons, List.not_mem_nil, or_false] at hc
    rcases hc with rfl | rfl <;> decide

/-- The text after the equals sign. -/
theorem valueText_typed {t : Str} {v : PyVal F} {k : PKind} {cv : CVal F} (h : Typed py strtod t v k cv) :
    Trim (valueText py v k) ∧ ∀ c ∈ valueText py v k, c ∉ ['#', '=', '\n', '\x00'] := by
  cases h with
  | real _ x h1 h2 h3 => exact ⟨h3.trim, num_chars h3⟩
  | int n h => exact ⟨(numText_intStr n).trim, num_chars (numText_intStr n)⟩
  | chars n s h1 h2 =>
    refine ⟨⟨'"', '"', s ++ ['"'], '"' :: s, rfl, rfl, by decide, by decide⟩, ?_⟩
    intro c hc
    have hc' : c ∈ '"' :: (s ++ ['"']) := hc
    simp only [List.mem_cons, List.mem_append, List.not_mem_nil, or_false] at hc'
    rcases hc' with rfl | hc | rfl
    · decide
    · have := h2 c hc
      simp only [List.mem_cons, not_or, List.not_mem_nil, not_false_eq_true, and_true] at this ⊢
      exact ⟨this.1, this.2.1, this.2.2.2.1, this.2.2.2.2⟩
    · decide
  | reals n _ x h1 h2 h3 h4 =>
    simp only [valueText, h1, Option.elim_some]
    exact braces_chars (joinComma_chars (by decide) (by decide) (num_chars h3) n)
  | ints n _ i h1 h2 h3 =>
    simp only [valueText, h1, Option.elim_some]
    exact braces_chars (joinComma_chars (by decide) (by decide) (num_chars (numText_intStr i)) n)

theorem readReal_ok {s : Str} {x : F} (h : strtod s = some (x, [], false)) : readReal strtod s = .ok x := by
  unfold readReal
  rw [h]

theorem readChars_quoted {s : Str} {n : Nat} (h : s.length < n) (hl : s.length ≤ 125) :
    readChars ('"' :: s ++ ['"']) n = .ok s := by
  unfold readChars unquote
  have hL : ('"' :: s ++ ['"']).length = s.length + 2 := by simp
  rw [if_pos ⟨rfl, by rw [List.getLast?_append]; rfl⟩, if_neg (by omega), write,
    if_pos (by simp only [paramSize]; omega)]
  have e : (('"' :: s ++ ['"']).drop 1).take (('"' :: s ++ ['"']).length - 2) = s := by
    show (s ++ ['"']).take _ = s
    apply List.take_left'
    simp
  show (if n ≤ ((('"' :: s ++ ['"']).drop 1).take (('"' :: s ++ ['"']).length - 2)).length then _ else _) = _
  rw [e, if_neg (show ¬ n ≤ s.length by omega), safeCopy, if_neg (by omega), if_neg (show ¬ n ≤ s.length by omega), write, if_pos (Nat.le_refl _)]
  rfl

/-- Reading name and value of a good parameter. -/
theorem read_good {name : Str} {p : CodeParam F} {k : PKind} {cv : CVal F} (g : Good py strtod name p k cv) :
    ∃ (n : Int) (vals : List Str), parseParam (nameText name k) = .ok (name, n) ∧
      parseValue (valueText py p.default k) = .ok vals ∧ readKind strtod k n vals = .ok cv := by
  obtain ⟨hne, hok, ht, hns, hvs, -, -⟩ := g
  have hb : '[' ∉ name := name_char hok (by decide) (by decide)
  have hv := (valueText_typed ht).1
  generalize hct : p.ctype = ct at ht
  generalize hdv : p.default = dv at ht hvs hv ⊢
  cases ht with
  | real _ x h1 h2 h3 =>
    refine ⟨0, [dv.show py], parseParam_plain hb hns,
      parseValue_plain hv (h3.not_mem (by decide) (by decide)) hvs, ?_⟩
    unfold readKind checkSizes assignValues
    dsimp only
    rw [readReal_ok h2]
    rfl
  | int n h =>
    refine ⟨0, [intStr n], parseParam_plain hb hns,
      parseValue_plain hv ((numText_intStr n).not_mem (by decide) (by decide)) hvs, ?_⟩
    unfold readKind checkSizes assignValues
    dsimp only
    rw [readInteger_intStr h]
    rfl
  | chars n s h1 h2 =>
    have hvs' : s.length + 2 ≤ 127 := by simpa [valueText, PyVal.show] using hvs
    refine ⟨0, ['"' :: s ++ ['"']], parseParam_plain hb hns, ?_, ?_⟩
    · -- the value starts with a quote
      have hc : ∀ r : Str, r.length ≤ 127 → safeCopy paramSize r paramSize = .ok r := by
        intro r hr
        rw [safeCopy, if_neg (by decide), if_neg (by simp only [paramSize]; omega), write, if_pos (Nat.le_refl _)]
        rfl
      show parseValue ('"' :: s ++ ['"']) = _
      have htrim := hv.trim 0 0
      simp only [List.replicate_zero, List.nil_append, List.append_nil] at htrim
      have htrim' : trimSpace ('"' :: s ++ ['"']) = '"' :: s ++ ['"'] := htrim
      have e : parseValue ('"' :: s ++ ['"']) = (safeCopy paramSize ('"' :: s ++ ['"']) paramSize).bind fun v =>
        (safeCopy paramSize (trimSpace v) paramSize).map fun w => [w] := rfl
      rw [e, hc _ (by simpa using hvs')]
      show (safeCopy paramSize (trimSpace ('"' :: s ++ ['"'])) paramSize).map _ = _
      rw [htrim', hc _ (by simpa using hvs')]
      rfl
    · unfold readKind checkSizes assignValues
      dsimp only
      rw [readChars_quoted h1 (by omega)]
      rfl
  | reals n _ x h1 h2 h3 h4 =>
    simp only [valueText, h1, Option.elim_some] at hvs hv ⊢
    obtain ⟨hp, hn⟩ := parseValue_array n h4 h3.trim (h3.not_mem (by decide) (by decide)) hvs
    have hnl : name.length ≤ 127 := by
      simp only [nameText, List.length_append, List.length_cons] at hns
      omega
    refine ⟨n, List.replicate n (py.repr x), parseParam_array n h4 hn hb hnl, hp, ?_⟩
    have hcs : checkSizes (.reals n) n (List.replicate n (py.repr x)).length = .ok () := by
      unfold checkSizes
      dsimp only
      rw [if_pos h4, if_neg (by simp)]
    rw [readKind, hcs]
    show assignValues strtod (.reals n) _ = _
    unfold assignValues
    dsimp only
    rw [List.take_of_length_le (by simp), readMany_replicate _ _ x (readReal_ok h2)]
    rfl
  | ints n _ i h1 h2 h3 =>
    simp only [valueText, h1, Option.elim_some] at hvs hv ⊢
    have hi := numText_intStr i
    obtain ⟨hp, hn⟩ := parseValue_array n h3 hi.trim (hi.not_mem (by decide) (by decide)) hvs
    have hnl : name.length ≤ 127 := by
      simp only [nameText, List.length_append, List.length_cons] at hns
      omega
    refine ⟨n, List.replicate n (intStr i), parseParam_array n h3 hn hb hnl, hp, ?_⟩
    have hcs : checkSizes (.ints n) n (List.replicate n (intStr i)).length = .ok () := by
      unfold checkSizes
      dsimp only
      rw [if_pos h3, if_neg (by simp)]
    rw [readKind, hcs]
    show assignValues strtod (.ints n) _ = _
    unfold assignValues
    dsimp only
    rw [List.take_of_length_le (by simp), readMany_replicate _ _ i (readInteger_intStr h2)]
    rfl

end

end Verif.BHaH.Parfile
