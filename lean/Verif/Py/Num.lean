import Verif.Py.Str

/-!
# Integers printed and parsed by Python
-/
namespace Verif.Py

/-- Python `str(n)` for a natural number. -/
def dec (n : Nat) : Str := Nat.toDigits 10 n

theorem dec_ne_nil (n : Nat) : dec n ≠ [] := Nat.toDigits_ne_nil

theorem dec_inj {a b : Nat} (h : dec a = dec b) : a = b := by
  have := congrArg (fun l => Nat.ofDigitChars 10 l 0) h
  simpa [dec, Nat.ofDigitChars_ten_toDigits] using this

theorem isDigit_of_mem_dec {n : Nat} {c : Char} (h : c ∈ dec n) : c.isDigit = true :=
  Nat.isDigit_of_mem_toDigits (by decide) (by decide) h

/-- Python `str(i)` for an integer. -/
def intStr (i : Int) : Str := if i < 0 then '-' :: dec i.natAbs else dec i.natAbs

/-- Digits only, at least one. -/
def allDigits (s : Str) : Bool := !s.isEmpty && s.all Char.isDigit

/-- Python `int(s)`; `none` is `ValueError`. Simplification: only an optional minus sign and ASCII
digits are accepted (no blanks, plus sign or underscores). -/
def parseInt : Str → Option Int
  | '-' :: s => if allDigits s then some (-(Nat.ofDigitChars 10 s 0 : Int)) else none
  | s => if allDigits s then some (Nat.ofDigitChars 10 s 0 : Int) else none

theorem allDigits_dec (n : Nat) : allDigits (dec n) = true := by
  unfold allDigits
  have h1 := dec_ne_nil n
  have h2 : (dec n).all Char.isDigit = true := by
    rw [List.all_eq_true]; intro c hc; exact isDigit_of_mem_dec hc
  cases h : dec n with
  | nil => exact absurd h h1
  | cons a l => rw [h] at h2; simpa using h2

theorem not_mem_dec {n : Nat} {c : Char} (h : c.isDigit = false) : c ∉ dec n := by
  intro hc; rw [isDigit_of_mem_dec hc] at h; cases h

theorem parseInt_intStr (i : Int) : parseInt (intStr i) = some i := by
  unfold intStr
  split
  · simp only [parseInt, allDigits_dec, if_true]
    rw [show Nat.ofDigitChars 10 (dec i.natAbs) 0 = i.natAbs from Nat.ofDigitChars_ten_toDigits]
    congr 1; omega
  · have : ∀ s, dec i.natAbs ≠ '-' :: s := by
      intro s hs
      exact not_mem_dec (n := i.natAbs) (c := '-') (by decide) (by rw [hs]; simp)
    unfold parseInt
    split
    · rename_i s hs; exact absurd hs (this s)
    · rw [if_pos (allDigits_dec _)]
      rw [show Nat.ofDigitChars 10 (dec i.natAbs) 0 = i.natAbs from Nat.ofDigitChars_ten_toDigits]
      congr 1; omega

theorem intStr_inj {a b : Int} (h : intStr a = intStr b) : a = b := by
  have := congrArg parseInt h
  simpa [parseInt_intStr] using this

theorem comma_not_mem_intStr (i : Int) : ',' ∉ intStr i := by
  unfold intStr
  split
  · intro h
    rcases List.mem_cons.mp h with h | h
    · exact absurd h (by decide)
    · exact not_mem_dec (by decide) h
  · exact not_mem_dec (by decide)

end Verif.Py
