import Mathlib.Data.Real.Basic
import Mathlib.Data.Nat.Factorization.Basic
import Mathlib.Algebra.BigOperators.Ring.Finset
import Mathlib.Tactic.FieldSimp
import Mathlib.Tactic.Ring
import Mathlib.Tactic.LinearCombination

/-!
# Polynomial identities by computation

Polynomials in real variables with rational coefficients, and a normal form whose correctness is proved, so that the
kernel can check a long identity by computing.
-/
namespace Verif.Initial

/-- Polynomials with rational coefficients. -/
inductive PE where
  | k (n : ℤ) (d : ℕ)
  | v (i : ℕ)
  | add (a b : PE)
  | sub (a b : PE)
  | mul (a b : PE)
  | pw (a : PE) (n : ℕ)

namespace PE

/-- The value at a point. -/
noncomputable def ev (ρ : ℕ → ℝ) : PE → ℝ
  | k n d => n / d
  | v i => ρ i
  | add a b => a.ev ρ + b.ev ρ
  | sub a b => a.ev ρ - b.ev ρ
  | mul a b => a.ev ρ * b.ev ρ
  | pw a n => a.ev ρ ^ n

/-- The derivation with the given values on the variables. -/
def der (D : ℕ → PE) : PE → PE
  | k _ _ => k 0 1
  | v i => D i
  | add a b => add (a.der D) (b.der D)
  | sub a b => sub (a.der D) (b.der D)
  | mul a b => add (mul (a.der D) b) (mul a (b.der D))
  | pw a n => mul (mul (k n 1) (pw a (n - 1))) (a.der D)

end PE

/-! ### Normal form -/

/-- A sum of monomials, each given by a product of primes and an integer. -/
abbrev Pol := List (ℕ × ℤ)

namespace Pol

/-- The value, for a multiplicative interpretation of the monomials. -/
def val (μ : ℕ → ℝ) : Pol → ℝ
  | [] => 0
  | t :: p => t.2 * μ t.1 + val μ p

/-- Put a coefficient in front, unless it is zero. -/
def put (m : ℕ) (c : ℤ) (p : Pol) : Pol :=
  match c with
  | .ofNat 0 => p
  | c => (m, c) :: p

def go (t : ℕ × ℤ) (p : Pol) (f : Pol → Pol) : Pol → Pol
  | [] => t :: p
  | u :: q => bif Nat.blt t.1 u.1 then t :: f (u :: q) else bif Nat.blt u.1 t.1 then u :: go t p f q else put t.1 (t.2 + u.2) (f q)

/-- Merge two sorted sums. -/
def add : Pol → Pol → Pol
  | [] => fun q => q
  | t :: p => go t p (add p)

def scale (m : ℕ) (c : ℤ) : Pol → Pol
  | [] => []
  | t :: p => (m * t.1, c * t.2) :: scale m c p

def mul : Pol → Pol → Pol
  | [], _ => []
  | t :: p, q => add (scale t.1 t.2 q) (mul p q)

def pow (p : Pol) : ℕ → Pol
  | 0 => [(1, 1)]
  | 1 => p
  | n + 2 => mul p (pow p (n + 1))

def isZero : Pol → Bool
  | [] => true
  | t :: p => match t.2 with
    | .ofNat 0 => isZero p
    | _ => false

variable (μ : ℕ →*₀ ℝ)

theorem val_put (m : ℕ) (c : ℤ) (p : Pol) : val μ (put m c p) = c * μ m + val μ p := by
  unfold put
  split
  · simp
  · rfl

theorem val_go (t : ℕ × ℤ) (p : Pol) (f : Pol → Pol) (hf : ∀ q, val μ (f q) = val μ p + val μ q) (q : Pol) :
    val μ (go t p f q) = val μ (t :: p) + val μ q := by
  induction q with
  | nil => simp [go, val]
  | cons u q ih =>
    rw [go]
    cases h1 : Nat.blt t.1 u.1 with
    | true => simp only [cond_true, val, hf]; ring
    | false =>
      cases h2 : Nat.blt u.1 t.1 with
      | true => simp only [cond_true, cond_false, val, ih]; ring
      | false =>
        have h : t.1 = u.1 := by
          have a1 := mt (Nat.blt_eq).mpr (by simp [h1] : ¬ Nat.blt t.1 u.1 = true)
          have a2 := mt (Nat.blt_eq).mpr (by simp [h2] : ¬ Nat.blt u.1 t.1 = true)
          omega
        simp only [cond_false, val_put, hf, val, h]
        push_cast
        ring

theorem val_add (p q : Pol) : val μ (add p q) = val μ p + val μ q := by
  induction p generalizing q with
  | nil => simp [add, val]
  | cons t p ih => exact val_go μ t p _ ih q

theorem val_scale (m : ℕ) (c : ℤ) (p : Pol) : val μ (scale m c p) = c * μ m * val μ p := by
  induction p with
  | nil => simp [scale, val]
  | cons t p ih =>
    simp only [scale, val, ih, map_mul]
    push_cast
    ring

theorem val_mul (p q : Pol) : val μ (mul p q) = val μ p * val μ q := by
  induction p with
  | nil => simp [mul, val]
  | cons t p ih =>
    simp only [mul, val_add, val_scale, ih, val]
    ring

theorem val_pow (p : Pol) : ∀ n, val μ (pow p n) = val μ p ^ n
  | 0 => by simp [pow, val]
  | 1 => by simp [pow]
  | n + 2 => by rw [pow, val_mul, val_pow p (n + 1), pow_succ _ (n + 1)]; ring

theorem val_isZero : ∀ p : Pol, isZero p = true → val μ p = 0
  | [], _ => rfl
  | (m, c) :: p, h => by
    simp only [isZero] at h
    split at h
    · simp [val, val_isZero p h]
    · cases h

end Pol

/-- The primes that stand for the variables. -/
def primes : List ℕ := [2, 3, 5, 7, 11, 13, 17, 19, 23, 29, 31, 37, 41, 43, 47, 53]

namespace PE

/-- The sum of two fractions. -/
def addD (p q : Pol × ℕ) : Pol × ℕ :=
  bif p.2 == q.2 then (Pol.add p.1 q.1, p.2) else
    (Pol.add (Pol.scale 1 (Int.ofNat (q.2 / Nat.gcd p.2 q.2)) p.1) (Pol.scale 1 (Int.ofNat (p.2 / Nat.gcd p.2 q.2)) q.1),
      p.2 / Nat.gcd p.2 q.2 * q.2)

/-- A sum of monomials and a common denominator. -/
def norm : PE → Pol × ℕ
  | k n d => bif d == 0 then ([], 1) else (Pol.put 1 n [], d)
  | v i => ([(primes.getD i 0, 1)], 1)
  | add a b => addD a.norm b.norm
  | sub a b => addD a.norm (Pol.scale 1 (-1) b.norm.1, b.norm.2)
  | mul a b => (Pol.mul a.norm.1 b.norm.1, a.norm.2 * b.norm.2)
  | pw a n => (Pol.pow a.norm.1 n, a.norm.2 ^ n)

variable (ρ : ℕ → ℝ)

/-- A monomial, read off from the prime factors. -/
noncomputable def mono : ℕ →*₀ ℝ where
  toFun m := if m = 0 then 0 else ∏ i ∈ Finset.range 16, ρ i ^ m.factorization (primes.getD i 0)
  map_zero' := by simp
  map_one' := by simp
  map_mul' a b := by
    by_cases ha : a = 0
    · simp [ha]
    by_cases hb : b = 0
    · simp [hb]
    simp only [ha, hb, mul_eq_zero, or_self, if_false, Nat.factorization_mul ha hb, Finsupp.add_apply, pow_add, Finset.prod_mul_distrib]

variable {ρ}

theorem mono_var (h : ∀ i, 16 ≤ i → ρ i = 0) (i : ℕ) : mono ρ (primes.getD i 0) = ρ i := by
  rcases Nat.lt_or_ge i 16 with hi | hi
  · have hp : ∀ i < 16, (primes.getD i 0).Prime := by decide +kernel
    have hd : ∀ i < 16, ∀ j < 16, primes.getD i 0 = primes.getD j 0 → j = i := by decide +kernel
    show (if primes.getD i 0 = 0 then 0 else _) = _
    rw [if_neg (hp i hi).ne_zero, (hp i hi).factorization, Finset.prod_eq_single i]
    · simp
    · intro j hj hne
      rw [Finsupp.single_apply, if_neg fun e => hne (hd i hi j (Finset.mem_range.1 hj) e), pow_zero]
    · simp [hi]
  · rw [show primes.getD i 0 = 0 by simp [List.getD, List.getElem?_eq_none (l := primes) (i := i) (by simpa [primes] using hi)], map_zero, h i hi]

theorem addD_ok {p q : Pol × ℕ} {x y : ℝ} (hp : (p.2 : ℝ) ≠ 0 ∧ Pol.val (mono ρ) p.1 = x * p.2)
    (hq : (q.2 : ℝ) ≠ 0 ∧ Pol.val (mono ρ) q.1 = y * q.2) :
    ((addD p q).2 : ℝ) ≠ 0 ∧ Pol.val (mono ρ) (addD p q).1 = (x + y) * (addD p q).2 := by
  unfold addD
  cases he : p.2 == q.2 with
  | true =>
    have h : p.2 = q.2 := by simpa using he
    simp only [cond_true, Pol.val_add, hp.2, hq.2]
    exact ⟨hp.1, by rw [h]; ring⟩
  | false =>
    have h1 : (p.2 : ℝ) = Nat.gcd p.2 q.2 * (p.2 / Nat.gcd p.2 q.2 : ℕ) := by
      exact_mod_cast (Nat.mul_div_cancel' (Nat.gcd_dvd_left p.2 q.2)).symm
    have h2 : (q.2 : ℝ) = Nat.gcd p.2 q.2 * (q.2 / Nat.gcd p.2 q.2 : ℕ) := by
      exact_mod_cast (Nat.mul_div_cancel' (Nat.gcd_dvd_right p.2 q.2)).symm
    simp only [cond_false, Pol.val_add, Pol.val_scale, map_one, hp.2, hq.2, Int.ofNat_eq_natCast, Int.cast_natCast, Nat.cast_mul]
    generalize (p.2 / Nat.gcd p.2 q.2 : ℕ) = u at *
    generalize (q.2 / Nat.gcd p.2 q.2 : ℕ) = w at *
    generalize ((Nat.gcd p.2 q.2 : ℕ) : ℝ) = g at *
    constructor
    · refine mul_ne_zero (fun h0 => hp.1 ?_) hq.1
      rw [h1, h0, mul_zero]
    · rw [h1, h2]
      ring

theorem norm_ok (h : ∀ i, 16 ≤ i → ρ i = 0) (e : PE) : (e.norm.2 : ℝ) ≠ 0 ∧ Pol.val (mono ρ) e.norm.1 = e.ev ρ * e.norm.2 := by
  induction e with
  | k n d =>
    simp only [norm, ev]
    cases hd : d == 0 with
    | true => simp_all [Pol.val]
    | false =>
      have : (d : ℝ) ≠ 0 := by simpa using hd
      refine ⟨this, ?_⟩
      simp only [cond_false, Pol.val_put, Pol.val, map_one]
      field_simp
      ring
  | v i =>
    refine ⟨by simp [norm], ?_⟩
    simp only [norm, Pol.val, mono_var h i, ev]
    push_cast
    ring
  | add a b ha hb => exact addD_ok ha hb
  | sub a b ha hb =>
    rw [show (sub a b).ev ρ = a.ev ρ + -b.ev ρ from sub_eq_add_neg _ _]
    refine addD_ok ha ⟨hb.1, ?_⟩
    rw [Pol.val_scale, hb.2, map_one]
    push_cast
    ring
  | mul a b ha hb =>
    simp only [norm, ev, Pol.val_mul, ha.2, hb.2]
    push_cast
    exact ⟨mul_ne_zero ha.1 hb.1, by ring⟩
  | pw a n ha =>
    simp only [norm, ev, Pol.val_pow, ha.2]
    push_cast
    exact ⟨pow_ne_zero _ ha.1, by ring⟩

/-- Whether the normal form is zero. -/
def zero? (e : PE) : Bool := Pol.isZero e.norm.1

theorem ev_zero (h : ∀ i, 16 ≤ i → ρ i = 0) {e : PE} (he : e.zero? = true) : e.ev ρ = 0 := by
  have h1 := norm_ok h e
  have h2 := h1.2
  rw [Pol.val_isZero _ _ he] at h2
  exact (mul_eq_zero.1 h2.symm).resolve_right h1.1

/-- `∑ r c` over pairs. -/
def comb : List PE → List PE → PE
  | r :: rs, c :: cs => add (mul r c) (comb rs cs)
  | _, _ => k 0 1

theorem ev_comb {rs : List PE} (hr : ∀ r ∈ rs, r.ev ρ = 0) (cs : List PE) : (comb rs cs).ev ρ = 0 := by
  induction rs generalizing cs with
  | nil => simp [comb, ev]
  | cons r rs ih =>
    cases cs with
    | nil => simp [comb, ev]
    | cons c cs => simp [comb, ev, hr r (by simp), ih (fun s hs => hr s (by simp [hs])) cs]

/-- A polynomial in the ideal of `rs`, with the coefficients that show it. -/
theorem ev_of_comb (h : ∀ i, 16 ≤ i → ρ i = 0) {rs : List PE} (hr : ∀ r ∈ rs, r.ev ρ = 0) {e : PE} (cs : List PE)
    (he : (sub e (comb rs cs)).zero? = true) : e.ev ρ = 0 := by
  have h1 := ev_zero h he
  rw [ev, ev_comb hr cs, sub_zero] at h1
  exact h1

/-- The same for a table. -/
theorem ev_of_table (h : ∀ i, 16 ≤ i → ρ i = 0) {rs : List PE} (hr : ∀ r ∈ rs, r.ev ρ = 0) {gb : List PE} {cs : List (List PE)}
    (hl : gb.length = cs.length) (hc : (gb.zip cs).all (fun p => (sub p.1 (comb rs p.2)).zero?) = true) : ∀ g ∈ gb, g.ev ρ = 0 := by
  induction gb generalizing cs with
  | nil => simp
  | cons g gb ih =>
    cases cs with
    | nil => simp at hl
    | cons c cs =>
      simp only [List.zip_cons_cons, List.all_cons, Bool.and_eq_true] at hc
      intro r hr'
      rcases List.mem_cons.1 hr' with rfl | hr'
      · exact ev_of_comb h hr c hc.1
      · exact ih (by simpa using hl) hc.2 r hr'

example : (sub (mul (add (v 0) (v 1)) (sub (v 0) (v 1))) (sub (pw (v 0) 2) (pw (v 1) 2))).zero? = true := by decide +kernel

end PE

end Verif.Initial
