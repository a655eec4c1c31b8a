import Verif.FD.CoeffsLemmas
import Mathlib.Algebra.Group.ForwardDiff
import Mathlib.Data.Nat.Choose.Sum
import Mathlib.Algebra.BigOperators.Field
import Mathlib.Analysis.SpecialFunctions.Trigonometric.Basic

/-!
# Properties C16-C19: finite-difference stencils

Specification. A grid function sampled around a point is a function of the integer offsets, `f : List Int → K`
with `K` any field of characteristic zero (for instance the reals); `applyStencil` is the sum the generated
code evaluates. Exactness is stated against Mathlib's polynomial derivative.
-/
namespace Verif.FD
open Verif.Py Polynomial

/-- `Σ coefficient * value at offset`. -/
def applyStencil {K : Type*} [Field K] (r : List ℚ × List (List Int)) (f : List Int → K) : K :=
  ((r.1.zip r.2).map fun cx => ((cx.1 : ℚ) : K) * f cx.2).sum

/-- The offset `t` along axis `d`. -/
def axisPt (d : Nat) (t : Int) : List Int := [0, 0, 0].set d t

/-- The offset `t` along axis `d` and `u` along axis `e`. -/
def planePt (d e : Nat) (t u : Int) : List Int := ([0, 0, 0].set d t).set e u

/-- The digit character of a direction. -/
def dig (d : Nat) : Char := Nat.digitChar d

/-! ## Closed form of the loops -/

theorem digitVal_dig (d : Nat) (hd : d < 3) : digitVal (dig d) = .ok d := by
  have : d = 0 ∨ d = 1 ∨ d = 2 := by omega
  rcases this with rfl | rfl | rfl <;> rfl

theorem setIdx_axis (d : Nat) (hd : d < 3) (t : Int) : setIdx [0, 0, 0] d t = .ok (axisPt d t) := by
  simp [setIdx, axisPt, hd]

theorem axisPt_zero (d : Nat) (hd : d < 3) : axisPt d 0 = [0, 0, 0] := by
  have : d = 0 ∨ d = 1 ∨ d = 2 := by omega
  rcases this with rfl | rfl | rfl <;> rfl

/-- Coefficient number `i` before the sign convention of Kreiss-Oliger. -/
noncomputable def coef (w : Nat) (shift : Int) (row i : Nat) : ℚ :=
  if h : i < w ∧ row < w then (Nat.factorial row : ℚ) * minv w shift ⟨i, h.1⟩ ⟨row, h.2⟩ else 0

/-- Offset number `i`. -/
def posn (w : Nat) (shift : Int) (i : Nat) : Int := (i : Int) - (((w - 1) / 2 : Nat) : Int) + shift

theorem step_eq (pre : Str) (d : Nat) (hd : d < 3) (w : Nat) (shift : Int) (ty : DerivType)
    (hty : ty ≠ .kreissOliger) (row : Nat) (hrow : row < w) (st : List ℚ × List (List Int)) (i : Nat)
    (hi : i < w) :
    step (pre ++ [dig d]) w shift ty row st i = .ok (if coef w shift row i ≠ 0 then
      (st.1 ++ [coef w shift row i], st.2 ++ [axisPt d (posn w shift i)]) else st) := by
  have hc : coef w shift row i = (Nat.factorial row : ℚ) * minv w shift ⟨i, hi⟩ ⟨row, hrow⟩ := by
    simp [coef, hi, hrow]
  unfold step
  simp only [minvEntry, hi, hrow, and_self, dif_pos, bind, Except.bind, ← hc]
  by_cases h0 : coef w shift row i = 0
  · simp [h0]
  · simp only [ne_eq, h0, not_false_eq_true, if_true, hty, if_false]
    by_cases hp : posn w shift i = 0
    · have : (i : Int) - (((w - 1) / 2 : Nat) : Int) + shift = 0 := hp
      simp only [this, not_true_eq_false, if_false, hp, axisPt_zero d hd]
    · have hp' : ¬ (i : Int) - (((w - 1) / 2 : Nat) : Int) + shift = 0 := hp
      simp only [hp', not_false_eq_true, if_true]
      simp only [fromEnd, List.reverse_append, List.reverse_cons, List.reverse_nil, List.nil_append,
        List.cons_append, Nat.sub_self, List.getElem?_cons_zero, digitVal_dig d hd,
        setIdx_axis d hd]
      rfl

/-- The indices whose coefficient is kept. -/
noncomputable def kept (w : Nat) (shift : Int) (row : Nat) (L : List Nat) : List Nat :=
  L.filter fun i => decide (coef w shift row i ≠ 0)

theorem loop_eq (pre : Str) (d : Nat) (hd : d < 3) (w : Nat) (shift : Int) (ty : DerivType)
    (hty : ty ≠ .kreissOliger) (row : Nat) (hrow : row < w) (L : List Nat) (hL : ∀ i ∈ L, i < w)
    (st : List ℚ × List (List Int)) :
    L.foldlM (step (pre ++ [dig d]) w shift ty row) st = .ok
      (st.1 ++ (kept w shift row L).map (coef w shift row),
       st.2 ++ (kept w shift row L).map (fun i => axisPt d (posn w shift i))) := by
  induction L generalizing st with
  | nil => simp [kept, pure, Except.pure]
  | cons i L ih =>
    rw [List.foldlM_cons, step_eq pre d hd w shift ty hty row hrow st i (hL i (by simp))]
    change (L.foldlM _ _) = _
    rw [ih (fun k hk => hL k (by simp [hk]))]
    by_cases h0 : coef w shift row i = 0
    · simp [kept, h0]
    · simp [kept, h0]

theorem sum_filter_map {K : Type*} [Field K] (L : List Nat) (c : Nat → ℚ) (g : Nat → K) :
    (((L.filter fun i => decide (c i ≠ 0)).map fun i => ((c i : ℚ) : K) * g i)).sum =
      (L.map fun i => ((c i : ℚ) : K) * g i).sum := by
  induction L with
  | nil => rfl
  | cons i L ih =>
    by_cases h0 : c i = 0
    · simp [h0] at ih ⊢; exact ih
    · simp [h0] at ih ⊢; exact ih

theorem sum_range_list {K : Type*} [AddCommMonoid K] (n : Nat) (g : Nat → K) :
    ((List.range n).map g).sum = ∑ i : Fin n, g i.val := by
  rw [← Finset.sum_range]
  induction n with
  | zero => simp
  | succ n ih => rw [List.range_succ, List.map_append, List.sum_append, ih, Finset.sum_range_succ]; simp

theorem zip_map_map {α β γ : Type*} (L : List α) (f : α → β) (g : α → γ) :
    (L.map f).zip (L.map g) = L.map fun i => (f i, g i) := by
  induction L with
  | nil => rfl
  | cons a L ih => simp [ih]

theorem node_posn (m : Nat) (shift : Int) (i : Nat) :
    node (2 * m + 1) shift i = ((posn (2 * m + 1) shift i : Int) : ℚ) := by
  unfold node posn
  have : (2 * m + 1 - 1) / 2 = m := by omega
  rw [this]; push_cast; ring

/-- Exactness for any unmixed, non-dissipative operator string that the parser resolves to `(w, shift, row)`. -/
theorem unmixed_exact {K : Type*} [Field K] [CharZero K] (pre : Str) (d : Nat) (hd : d < 3) (order m : Nat)
    (shift : Int) (ty : DerivType) (row : Nat) (hty : ty ≠ .kreissOliger) (hmix : ty ≠ .mixed)
    (heff : effOrder (pre ++ [dig d]) order = 2 * m) (hshift : shiftOf (pre ++ [dig d]) (2 * m) = shift)
    (hkind : derivKind (pre ++ [dig d]) (2 * m + 1) = .ok (ty, row)) (hrow : row < 2 * m + 1) :
    ∃ r, fdcoeffs (pre ++ [dig d]) order = .ok r ∧ r.1.length = r.2.length ∧
      r.1 = (kept (2*m+1) shift row (List.range (2*m+1))).map (coef (2*m+1) shift row) ∧
      r.2 = (kept (2*m+1) shift row (List.range (2*m+1))).map (fun i => axisPt d (posn (2*m+1) shift i)) ∧
      ∀ (f : List Int → K) (P : K[X]) (x h : K), P.natDegree ≤ 2 * m →
        (∀ t : Int, f (axisPt d t) = P.eval (x + (t : K) * h)) →
        applyStencil r f = h ^ row * ((⇑derivative)^[row] P).eval x := by
  refine ⟨((kept (2*m+1) shift row (List.range (2*m+1))).map (coef (2*m+1) shift row),
    (kept (2*m+1) shift row (List.range (2*m+1))).map (fun i => axisPt d (posn (2*m+1) shift i))),
    ?_, by simp, rfl, rfl, ?_⟩
  · unfold fdcoeffs
    simp only [heff, hshift, hkind, bind, Except.bind]
    rw [if_pos hmix]
    have := loop_eq pre d hd (2*m+1) shift ty hty row hrow (List.range (2*m+1))
      (fun i hi => List.mem_range.1 hi) ([], [])
    simpa using this
  · intro f P x h hP hf
    unfold applyStencil
    simp only
    rw [zip_map_map, List.map_map]
    have e : ((fun cx : ℚ × List Int => ((cx.1 : ℚ) : K) * f cx.2) ∘
        fun i => (coef (2*m+1) shift row i, axisPt d (posn (2*m+1) shift i))) =
        fun i => ((coef (2*m+1) shift row i : ℚ) : K) * f (axisPt d (posn (2*m+1) shift i)) := rfl
    rw [e]
    unfold kept
    rw [sum_filter_map, sum_range_list]
    have hex := exact_poly (2*m+1) shift ⟨row, hrow⟩ P (by omega) x h
    rw [← hex]
    apply Finset.sum_congr rfl
    intro j _
    have hc : coef (2*m+1) shift row j.val =
        (Nat.factorial row : ℚ) * minv (2*m+1) shift j ⟨row, hrow⟩ := by
      unfold coef; rw [dif_pos ⟨j.isLt, hrow⟩]
    rw [hc, hf, node_posn]
    simp

/-! ## Operator strings -/

/-- The operator strings of the API, as (text before the direction digit, shift for half order `m`). -/
theorem parse_first (d : Nat) (hd : d < 3) (m : Nat) :
    (effOrder ((c% "dD") ++ [dig d]) (2*m) = 2*m ∧ shiftOf ((c% "dD") ++ [dig d]) (2*m) = 0 ∧
      derivKind ((c% "dD") ++ [dig d]) (2*m+1) = .ok (.first, 1)) ∧
    (effOrder ((c% "dupD") ++ [dig d]) (2*m) = 2*m ∧ shiftOf ((c% "dupD") ++ [dig d]) (2*m) = 1 ∧
      derivKind ((c% "dupD") ++ [dig d]) (2*m+1) = .ok (.first, 1)) ∧
    (effOrder ((c% "ddnD") ++ [dig d]) (2*m) = 2*m ∧ shiftOf ((c% "ddnD") ++ [dig d]) (2*m) = -1 ∧
      derivKind ((c% "ddnD") ++ [dig d]) (2*m+1) = .ok (.first, 1)) ∧
    (effOrder ((c% "dfullupD") ++ [dig d]) (2*m) = 2*m ∧ shiftOf ((c% "dfullupD") ++ [dig d]) (2*m) = m ∧
      derivKind ((c% "dfullupD") ++ [dig d]) (2*m+1) = .ok (.first, 1)) ∧
    (effOrder ((c% "dfulldnD") ++ [dig d]) (2*m) = 2*m ∧ shiftOf ((c% "dfulldnD") ++ [dig d]) (2*m) = -m ∧
      derivKind ((c% "dfulldnD") ++ [dig d]) (2*m+1) = .ok (.first, 1)) := by
  have h2 : 2 * m / 2 = m := by omega
  have : d = 0 ∨ d = 1 ∨ d = 2 := by omega
  rcases this with rfl | rfl | rfl <;>
    simp [effOrder, shiftOf, derivKind, containsSub, dig, Nat.digitChar, h2]

theorem parse_second (d : Nat) (hd : d < 3) (m : Nat) :
    effOrder ((c% "dDD") ++ [dig d] ++ [dig d]) (2*m) = 2*m ∧
    shiftOf ((c% "dDD") ++ [dig d] ++ [dig d]) (2*m) = 0 ∧
    derivKind ((c% "dDD") ++ [dig d] ++ [dig d]) (2*m+1) = .ok (.second, 2) := by
  have : d = 0 ∨ d = 1 ∨ d = 2 := by omega
  rcases this with rfl | rfl | rfl <;>
    simp [effOrder, shiftOf, derivKind, containsSub, dig, Nat.digitChar, fromEnd]

/-! ## C16 -/

variable {K : Type*} [Field K] [CharZero K]

/-- **C16**, centred first derivative `dD<d>`: for every even order `2m` (`m ≥ 1`) the call succeeds, and
for every polynomial of degree at most the order and every spacing the stencil divided by the spacing
gives the exact derivative. -/
theorem C16_first_derivative (m : Nat) (hm : 1 ≤ m) (d : Nat) (hd : d < 3) :
    ∃ r, fdcoeffs ((c% "dD") ++ [dig d]) (2 * m) = .ok r ∧ r.1.length = r.2.length ∧
      ∀ (f : List Int → K) (P : K[X]) (x h : K), h ≠ 0 → P.natDegree ≤ 2 * m →
        (∀ t : Int, f (axisPt d t) = P.eval (x + (t : K) * h)) →
        applyStencil r f * h⁻¹ = (derivative P).eval x := by
  obtain ⟨⟨h1, h2, h3⟩, _⟩ := parse_first d hd m
  obtain ⟨r, e1, e2, _, _, e3⟩ := unmixed_exact (K := K) (c% "dD") d hd (2*m) m 0 .first 1 (by simp) (by simp)
    h1 h2 h3 (by omega)
  refine ⟨r, e1, e2, fun f P x h hh hP hf => ?_⟩
  rw [e3 f P x h hP hf]
  simp; field_simp

/-- **C16**, unmixed second derivative `dDD<d><d>`. -/
theorem C16_second_derivative (m : Nat) (hm : 1 ≤ m) (d : Nat) (hd : d < 3) :
    ∃ r, fdcoeffs ((c% "dDD") ++ [dig d, dig d]) (2 * m) = .ok r ∧ r.1.length = r.2.length ∧
      ∀ (f : List Int → K) (P : K[X]) (x h : K), h ≠ 0 → P.natDegree ≤ 2 * m →
        (∀ t : Int, f (axisPt d t) = P.eval (x + (t : K) * h)) →
        applyStencil r f * (h⁻¹ * h⁻¹) = (derivative (derivative P)).eval x := by
  obtain ⟨h1, h2, h3⟩ := parse_second d hd m
  obtain ⟨r, e1, e2, _, _, e3⟩ := unmixed_exact (K := K) ((c% "dDD") ++ [dig d]) d hd (2*m) m 0 .second 2
    (by simp) (by simp) h1 h2 h3 (by omega)
  refine ⟨r, e1, e2, fun f P x h hh hP hf => ?_⟩
  rw [e3 f P x h hP hf]
  simp; field_simp

/-- **C16**, the inverse: every leading principal minor of the matrix is nonzero, so an LU
decomposition never has to exchange rows (dropping its permutation loses nothing), and for any
factorization the product `U⁻¹ L⁻¹` is the two-sided inverse used by the model. -/
theorem C16_lu_inverse (w : Nat) (shift : Int) :
    (∀ k (hk : k ≤ w), ((fdMatrix w shift).submatrix (Fin.castLE hk) (Fin.castLE hk)).det ≠ 0) ∧
    ∀ L U : Matrix (Fin w) (Fin w) ℚ, fdMatrix w shift = L * U →
      U⁻¹ * L⁻¹ = minv w shift ∧ fdMatrix w shift * (U⁻¹ * L⁻¹) = 1 := by
  constructor
  · intro k hk
    have : (fdMatrix w shift).submatrix (Fin.castLE hk) (Fin.castLE hk) =
        (Matrix.vandermonde (fun j : Fin k => node w shift (Fin.castLE hk j).val)).transpose := by
      ext i j
      rw [Matrix.submatrix_apply, fdMatrix_apply, Matrix.transpose_apply, Matrix.vandermonde_apply]
      rfl
    rw [this, Matrix.det_transpose, Matrix.det_vandermonde_ne_zero_iff]
    intro a b h
    have := node_inj w shift (a₁ := Fin.castLE hk a) (a₂ := Fin.castLE hk b) h
    exact Fin.castLE_injective hk this
  · intro L U h
    have e : U⁻¹ * L⁻¹ = minv w shift := by rw [minv, h, Matrix.mul_inv_rev]
    exact ⟨e, by rw [e]; exact fdMatrix_mul_minv w shift⟩

/-! ## C17 -/

/-- The first-derivative operators with the extent of their stencils for half order `m`. -/
def firstOpTable (m : Nat) : List (Str × Int × Int) :=
  [((c% "dD"), -(m : Int), m), ((c% "dupD"), -(m : Int) + 1, m + 1), ((c% "ddnD"), -(m : Int) - 1, m - 1),
   ((c% "dfullupD"), 0, 2 * m), ((c% "dfulldnD"), -(2 * m : Int), 0)]

theorem firstOp_parse (m : Nat) (d : Nat) (hd : d < 3) (o : Str × Int × Int) (ho : o ∈ firstOpTable m) :
    ∃ shift : Int, effOrder (o.1 ++ [dig d]) (2*m) = 2*m ∧ shiftOf (o.1 ++ [dig d]) (2*m) = shift ∧
      derivKind (o.1 ++ [dig d]) (2*m+1) = .ok (.first, 1) ∧ o.2.1 = -(m : Int) + shift ∧
      o.2.2 = (m : Int) + shift ∧ -(m : Int) ≤ shift ∧ shift ≤ m ∨ m = 0 := by
  obtain ⟨h1, h2, h3, h4, h5⟩ := parse_first d hd m
  simp only [firstOpTable, List.mem_cons, List.not_mem_nil, or_false] at ho
  by_cases hm : m = 0
  · exact ⟨0, Or.inr hm⟩
  rcases ho with rfl | rfl | rfl | rfl | rfl
  · exact ⟨0, Or.inl ⟨h1.1, h1.2.1, h1.2.2, by simp, by simp, by omega, by omega⟩⟩
  · exact ⟨1, Or.inl ⟨h2.1, h2.2.1, h2.2.2, by simp, by simp, by omega, by omega⟩⟩
  · exact ⟨-1, Or.inl ⟨h3.1, h3.2.1, h3.2.2, by simp; omega, by simp; omega, by omega, by omega⟩⟩
  · exact ⟨m, Or.inl ⟨h4.1, h4.2.1, h4.2.2, by simp, by simp; omega, by omega, by omega⟩⟩
  · exact ⟨-m, Or.inl ⟨h5.1, h5.2.1, h5.2.2, by simp; omega, by simp, by omega, by omega⟩⟩

theorem axisPt_inj (d : Nat) (hd : d < 3) (t u : Int) (h : axisPt d t = axisPt d u) : t = u := by
  have : d = 0 ∨ d = 1 ∨ d = 2 := by omega
  rcases this with rfl | rfl | rfl <;> simpa [axisPt] using h

/-- **C17**: every first-derivative operator (centred, upwinded, downwinded and fully one-sided), for every
even order, is exact on polynomials up to the order; away from the point itself its stencil uses exactly
the offsets of its range, `-m..m` shifted by `0`, `+1`, `-1`, `+m`, `-m`; and no offset is listed twice. -/
theorem C17_one_sided (m : Nat) (hm : 1 ≤ m) (d : Nat) (hd : d < 3) (op : Str) (lo hi : Int)
    (ho : (op, lo, hi) ∈ firstOpTable m) :
    ∃ r, fdcoeffs (op ++ [dig d]) (2 * m) = .ok r ∧ r.1.length = r.2.length ∧ r.2.Nodup ∧
      (∀ t : Int, t ≠ 0 → (axisPt d t ∈ r.2 ↔ lo ≤ t ∧ t ≤ hi)) ∧
      (∀ x ∈ r.2, ∃ t : Int, x = axisPt d t ∧ lo ≤ t ∧ t ≤ hi) ∧
      ∀ (f : List Int → K) (P : K[X]) (x h : K), h ≠ 0 → P.natDegree ≤ 2 * m →
        (∀ t : Int, f (axisPt d t) = P.eval (x + (t : K) * h)) →
        applyStencil r f * h⁻¹ = (derivative P).eval x := by
  obtain ⟨shift, hs⟩ := firstOp_parse m d hd _ ho
  rcases hs with ⟨h1, h2, h3, hlo, hhi, hs1, hs2⟩ | hs
  swap
  · omega
  simp only at h1 h2 h3 hlo hhi
  obtain ⟨r, e1, e2, er1, er2, e3⟩ := unmixed_exact (K := K) op d hd (2*m) m shift .first 1 (by simp) (by simp)
    h1 h2 h3 (by omega)
  have hposn : ∀ i : Nat, posn (2*m+1) shift i = (i : Int) - m + shift := by
    intro i; unfold posn
    have : (2 * m + 1 - 1) / 2 = m := by omega
    rw [this]
  refine ⟨r, e1, e2, ?_, ?_, ?_, fun f P x h hh hP hf => ?_⟩
  · rw [er2]
    refine List.Nodup.map_on ?_ (List.Nodup.filter _ List.nodup_range)
    intro a _ b _ hab
    have := axisPt_inj d hd _ _ hab
    rw [hposn, hposn] at this; omega
  · intro t ht
    rw [er2, List.mem_map]
    constructor
    · rintro ⟨i, hi, hx⟩
      have hr := List.mem_range.1 (List.mem_of_mem_filter hi)
      have := axisPt_inj d hd _ _ hx
      rw [hposn] at this; omega
    · rintro ⟨ha, hb⟩
      have hnn : 0 ≤ t + m - shift := by omega
      obtain ⟨i, hi⟩ := Int.eq_ofNat_of_zero_le hnn
      have hiw : i < 2 * m + 1 := by omega
      have hpi : posn (2*m+1) shift i = t := by rw [hposn]; omega
      have hnn0 : (0 : Int) ≤ m - shift := by omega
      obtain ⟨i0, hi0⟩ := Int.eq_ofNat_of_zero_le hnn0
      have hi0w : i0 < 2 * m + 1 := by omega
      have hp0 : posn (2*m+1) shift i0 = 0 := by rw [hposn]; omega
      refine ⟨i, ?_, by rw [hpi]⟩
      rw [kept, List.mem_filter]
      refine ⟨List.mem_range.2 hiw, ?_⟩
      rw [decide_eq_true_iff]
      have hne := first_coeff_ne_zero (2*m+1) shift ⟨1, by omega⟩ rfl ⟨i0, hi0w⟩ ⟨i, hiw⟩
        (by rw [node_posn]; simp [hp0]) (by rw [node_posn]; simp only [hpi]; exact_mod_cast ht)
      have : coef (2*m+1) shift 1 i = minv (2*m+1) shift ⟨i, hiw⟩ ⟨1, by omega⟩ := by
        simp only [coef]; rw [dif_pos ⟨hiw, by omega⟩]; simp
      rw [this]; exact hne
  · intro x hx
    rw [er2, List.mem_map] at hx
    obtain ⟨i, hi, rfl⟩ := hx
    have hr := List.mem_range.1 (List.mem_of_mem_filter hi)
    exact ⟨_, rfl, by rw [hposn]; omega, by rw [hposn]; omega⟩
  · rw [e3 f P x h hP hf]
    simp; field_simp


theorem node_rev (w : Nat) (s : Int) (j : Fin w) : node w (-s) (Fin.rev j).val = - node w s j.val := by
  unfold node
  rw [Fin.val_rev]
  have := j.isLt
  rw [Nat.cast_sub (by omega)]
  push_cast; ring

/-- The inverse for the opposite shift is the mirror image, up to the parity of the derivative. -/
theorem minv_rev (w : Nat) (s : Int) (row j : Fin w) :
    (-1) ^ row.val * minv w (-s) (Fin.rev j) row = minv w s j row := by
  refine minv_unique w s row (fun j => (-1) ^ row.val * minv w (-s) (Fin.rev j) row) ?_ j
  intro k
  have h := moment w (-s) k row
  rw [← Equiv.sum_comp Fin.revPerm] at h
  have e : ∀ j : Fin w, node w s j.val ^ k.val * ((-1) ^ row.val * minv w (-s) (Fin.rev j) row) =
      ((-1) ^ k.val * (-1) ^ row.val) *
        (node w (-s) (Fin.revPerm j).val ^ k.val * minv w (-s) (Fin.revPerm j) row) := by
    intro j
    rw [Fin.revPerm_apply, node_rev, neg_pow]
    have : ((-1 : ℚ) ^ k.val) * ((-1) ^ k.val) = 1 := by rw [← mul_pow]; simp
    linear_combination (-(node w s j.val ^ k.val * ((-1) ^ row.val * minv w (-s) (Fin.rev j) row))) * this
  rw [Finset.sum_congr rfl (fun j _ => e j), ← Finset.mul_sum, h]
  split
  · rename_i hk; subst hk; rw [← mul_pow]; simp
  · simp

theorem coef_rev (w : Nat) (s : Int) (row i : Nat) (hrow : row < w) (hi : i < w) :
    coef w (-s) row (w - 1 - i) = (-1) ^ row * coef w s row i := by
  have h := minv_rev w s ⟨row, hrow⟩ ⟨i, hi⟩
  have h1 : coef w s row i = (Nat.factorial row : ℚ) * minv w s ⟨i, hi⟩ ⟨row, hrow⟩ := by
    unfold coef; rw [dif_pos ⟨hi, hrow⟩]
  have h2 : coef w (-s) row (w - 1 - i) =
      (Nat.factorial row : ℚ) * minv w (-s) (Fin.rev ⟨i, hi⟩) ⟨row, hrow⟩ := by
    have hlt : w - 1 - i < w := by omega
    unfold coef; rw [dif_pos ⟨hlt, hrow⟩]
    congr 2
    apply Fin.ext; simp [Fin.val_rev]; omega
  rw [h1, h2, ← h]
  have : ((-1 : ℚ) ^ row) * ((-1) ^ row) = 1 := by rw [← mul_pow]; simp
  simp only
  linear_combination (-(Nat.factorial row : ℚ) * minv w (-s) (Fin.rev ⟨i, hi⟩) ⟨row, hrow⟩) * this

theorem range_reverse_map (w : Nat) : (List.range w).reverse = (List.range w).map (fun i => w - 1 - i) := by
  apply List.ext_getElem
  · simp
  · intro i h1 h2
    simp

theorem kept_rev (w : Nat) (s : Int) (row : Nat) (hrow : row < w) :
    kept w (-s) row (List.range w) = ((kept w s row (List.range w)).map (fun i => w - 1 - i)).reverse := by
  have h1 : (kept w (-s) row (List.range w)) = (kept w (-s) row (List.range w).reverse).reverse := by
    unfold kept; rw [List.filter_reverse, List.reverse_reverse]
  rw [h1, range_reverse_map]
  congr 1
  unfold kept
  rw [List.filter_map]
  congr 1
  apply List.filter_congr
  intro i hi
  have := coef_rev w s row i hrow (List.mem_range.1 hi)
  simp only [Function.comp, this]
  congr 1
  simp

/-- **C17**, mirror images: the downwinded stencil lists the reflected points of the upwinded one with
opposite coefficients (in reverse order), for the one-point and for the full displacement. -/
theorem C17_mirror (m : Nat) (hm : 1 ≤ m) (d : Nat) (hd : d < 3) (up dn : Str)
    (h : (up, dn) ∈ [((c% "dupD"), (c% "ddnD")), ((c% "dfullupD"), (c% "dfulldnD"))]) :
    ∃ ru rd, fdcoeffs (up ++ [dig d]) (2 * m) = .ok ru ∧ fdcoeffs (dn ++ [dig d]) (2 * m) = .ok rd ∧
      rd.1 = (ru.1.map (fun c => -c)).reverse ∧ rd.2 = (ru.2.map (fun x => x.map (fun t => -t))).reverse := by
  obtain ⟨_, p1, p2, p3, p4⟩ := parse_first d hd m
  have key : ∀ (up dn : Str) (s : Int),
      (effOrder (up ++ [dig d]) (2*m) = 2*m ∧ shiftOf (up ++ [dig d]) (2*m) = s ∧
        derivKind (up ++ [dig d]) (2*m+1) = .ok (.first, 1)) →
      (effOrder (dn ++ [dig d]) (2*m) = 2*m ∧ shiftOf (dn ++ [dig d]) (2*m) = -s ∧
        derivKind (dn ++ [dig d]) (2*m+1) = .ok (.first, 1)) →
      ∃ ru rd, fdcoeffs (up ++ [dig d]) (2 * m) = .ok ru ∧ fdcoeffs (dn ++ [dig d]) (2 * m) = .ok rd ∧
      rd.1 = (ru.1.map (fun c => -c)).reverse ∧ rd.2 = (ru.2.map (fun x => x.map (fun t => -t))).reverse := by
    intro up dn s hu hdn
    obtain ⟨ru, u1, _, u2, u3, _⟩ := unmixed_exact (K := ℚ) up d hd (2*m) m s .first 1 (by simp) (by simp)
      hu.1 hu.2.1 hu.2.2 (by omega)
    obtain ⟨rd, d1, _, d2, d3, _⟩ := unmixed_exact (K := ℚ) dn d hd (2*m) m (-s) .first 1 (by simp) (by simp)
      hdn.1 hdn.2.1 hdn.2.2 (by omega)
    refine ⟨ru, rd, u1, d1, ?_, ?_⟩
    · rw [d2, u2, kept_rev _ _ _ (by omega), List.map_reverse, List.map_map, List.map_map]
      congr 1
      apply List.map_congr_left
      intro i hi
      have hr := List.mem_range.1 (List.mem_of_mem_filter hi)
      simp only [Function.comp]
      rw [coef_rev (2*m+1) s 1 i (by omega) hr]
      simp
    · rw [d3, u3, kept_rev _ _ _ (by omega), List.map_reverse, List.map_map, List.map_map]
      congr 1
      apply List.map_congr_left
      intro i hi
      have hr := List.mem_range.1 (List.mem_of_mem_filter hi)
      simp only [Function.comp]
      have hp : posn (2*m+1) (-s) (2*m+1-1-i) = - posn (2*m+1) s i := by
        unfold posn
        have : (2 * m + 1 - 1) / 2 = m := by omega
        rw [this]; omega
      rw [hp]
      have : d = 0 ∨ d = 1 ∨ d = 2 := by omega
      rcases this with rfl | rfl | rfl <;> simp [axisPt]
  simp only [List.mem_cons, Prod.mk.injEq, List.not_mem_nil, or_false] at h
  rcases h with ⟨rfl, rfl⟩ | ⟨rfl, rfl⟩
  · exact key _ _ 1 p1 p2
  · exact key _ _ m p3 p4

/-! ## C18 -/

theorem stepMixed_eq (d1 d2 : Nat) (h1 : d1 < 3) (h2 : d2 < 3) (w : Nat) (hw : 1 < w)
    (st : List ℚ × List (List Int)) (ij : Nat × Nat) (hi : ij.1 < w) (hj : ij.2 < w) :
    stepMixed ((c% "dDD") ++ [dig d1, dig d2]) w 0 st ij =
      .ok (if coef w 0 1 ij.1 * coef w 0 1 ij.2 ≠ 0 then
        (st.1 ++ [coef w 0 1 ij.1 * coef w 0 1 ij.2],
         st.2 ++ [planePt d2 d1 (posn w 0 ij.1) (posn w 0 ij.2)]) else st) := by
  have c1 : coef w 0 1 ij.1 = (Nat.factorial 1 : ℚ) * minv w 0 ⟨ij.1, hi⟩ ⟨1, hw⟩ := by
    unfold coef; rw [dif_pos ⟨hi, hw⟩]
  have c2 : coef w 0 1 ij.2 = (Nat.factorial 1 : ℚ) * minv w 0 ⟨ij.2, hj⟩ ⟨1, hw⟩ := by
    unfold coef; rw [dif_pos ⟨hj, hw⟩]
  unfold stepMixed
  simp only [minvEntry, hi, hj, hw, and_self, dif_pos, bind, Except.bind]
  rw [← c1, ← c2]
  by_cases h0 : coef w 0 1 ij.1 * coef w 0 1 ij.2 = 0
  · simp only [h0, ne_eq, not_true_eq_false, if_false]
  · simp only [ne_eq, h0, not_false_eq_true, if_true]
    have hr : ((c% "dDD") ++ [dig d1, dig d2]).reverse = dig d2 :: dig d1 :: (c% "DDd") := by simp
    simp only [fromEnd, hr, Nat.sub_self, List.getElem?_cons_zero, digitVal_dig d1 h1, digitVal_dig d2 h2]
    simp only [show 2 - 1 = 1 from rfl, List.getElem?_cons_succ, List.getElem?_cons_zero,
      digitVal_dig d1 h1, setIdx_axis d2 h2]
    simp [setIdx, axisPt, h1, planePt, posn]

theorem loopMixed_eq (d1 d2 : Nat) (h1 : d1 < 3) (h2 : d2 < 3) (w : Nat) (hw : 1 < w)
    (L : List (Nat × Nat)) (hL : ∀ ij ∈ L, ij.1 < w ∧ ij.2 < w) (st : List ℚ × List (List Int)) :
    L.foldlM (stepMixed ((c% "dDD") ++ [dig d1, dig d2]) w 0) st = .ok
      (st.1 ++ (L.filter fun ij => decide (coef w 0 1 ij.1 * coef w 0 1 ij.2 ≠ 0)).map
          (fun ij => coef w 0 1 ij.1 * coef w 0 1 ij.2),
       st.2 ++ (L.filter fun ij => decide (coef w 0 1 ij.1 * coef w 0 1 ij.2 ≠ 0)).map
          (fun ij => planePt d2 d1 (posn w 0 ij.1) (posn w 0 ij.2))) := by
  induction L generalizing st with
  | nil => simp [pure, Except.pure]
  | cons ij L ih =>
    obtain ⟨hi, hj⟩ := hL ij (by simp)
    rw [List.foldlM_cons, stepMixed_eq d1 d2 h1 h2 w hw st ij hi hj]
    change (L.foldlM _ _) = _
    rw [ih (fun k hk => hL k (by simp [hk]))]
    by_cases h0 : coef w 0 1 ij.1 * coef w 0 1 ij.2 = 0
    · simp only [h0, ne_eq, not_true_eq_false, if_false, decide_false, List.filter_cons, Bool.false_eq_true]
    · simp only [ne_eq, h0, not_false_eq_true, if_true, decide_true, List.filter_cons, List.map_cons,
        List.append_assoc, List.singleton_append]

theorem sum_filter_map' {α : Type*} (L : List α) (c : α → ℚ) (g : α → K) :
    (((L.filter fun i => decide (c i ≠ 0)).map fun i => ((c i : ℚ) : K) * g i)).sum =
      (L.map fun i => ((c i : ℚ) : K) * g i).sum := by
  induction L with
  | nil => rfl
  | cons i L ih =>
    by_cases h0 : c i = 0
    · simp [h0] at ih ⊢; exact ih
    · simp [h0] at ih ⊢; exact ih

theorem sum_flatMap_range (w : Nat) (g : Nat × Nat → K) :
    ((((List.range w).flatMap fun i => (List.range w).map fun j => (i, j)).map g)).sum =
      ∑ i : Fin w, ∑ j : Fin w, g (i.val, j.val) := by
  have key : ∀ L' : List Nat, (((L'.flatMap fun i => (List.range w).map fun j => (i, j)).map g)).sum =
      (L'.map fun i => ∑ j : Fin w, g (i, j.val)).sum := by
    intro L'
    induction L' with
    | nil => simp
    | cons i L' ih =>
      rw [List.flatMap_cons, List.map_append, List.sum_append, ih, List.map_cons, List.sum_cons,
        List.map_map, ← sum_range_list w (fun j => g (i, j))]
      rfl
  rw [key, sum_range_list w (fun i => ∑ j : Fin w, g (i, j.val))]

theorem parse_mixed (d1 d2 : Nat) (h1 : d1 < 3) (h2 : d2 < 3) (hne : d1 ≠ d2) (m : Nat) :
    effOrder ((c% "dDD") ++ [dig d1, dig d2]) (2*m) = 2*m ∧
    shiftOf ((c% "dDD") ++ [dig d1, dig d2]) (2*m) = 0 ∧
    derivKind ((c% "dDD") ++ [dig d1, dig d2]) (2*m+1) = .ok (.mixed, 1) := by
  have a : d1 = 0 ∨ d1 = 1 ∨ d1 = 2 := by omega
  have b : d2 = 0 ∨ d2 = 1 ∨ d2 = 2 := by omega
  rcases a with rfl | rfl | rfl <;> rcases b with rfl | rfl | rfl <;> first
    | exact absurd rfl hne
    | simp [effOrder, shiftOf, derivKind, containsSub, dig, Nat.digitChar, fromEnd]

/-- Monomial case: the first-derivative column applied to `(x + t h)^a`. -/
theorem coef_sum_pow (m : Nat) (hm : 1 ≤ m) (x h : K) (a : Nat) (ha : a ≤ 2 * m) :
    ∑ j : Fin (2*m+1), ((coef (2*m+1) 0 1 j.val : ℚ) : K) * (x + ((posn (2*m+1) 0 j.val : Int) : K) * h) ^ a =
      h * (a * x ^ (a - 1)) := by
  have hex := exact_poly (2*m+1) 0 ⟨1, by omega⟩ (X ^ a : K[X]) (by simp; omega) x h
  simp only [pow_one, Function.iterate_one, derivative_X_pow, eval_mul, eval_pow, eval_X, eval_C] at hex
  have e : ∀ j : Fin (2*m+1), ((coef (2*m+1) 0 1 j.val : ℚ) : K) *
      (x + ((posn (2*m+1) 0 j.val : Int) : K) * h) ^ a =
      (((Nat.factorial 1 : ℚ) * minv (2*m+1) 0 j ⟨1, by omega⟩ : ℚ) : K) *
        (x + ((node (2*m+1) 0 j.val : ℚ) : K) * h) ^ a := by
    intro j
    have hc : coef (2*m+1) 0 1 j.val = (Nat.factorial 1 : ℚ) * minv (2*m+1) 0 j ⟨1, by omega⟩ := by
      unfold coef; rw [dif_pos ⟨j.isLt, by omega⟩]
    rw [hc, node_posn]
    simp
  rw [Finset.sum_congr rfl (fun j _ => e j)]
  simpa using hex

theorem planePt_comm (d e : Nat) (hd : d < 3) (he : e < 3) (hne : d ≠ e) (t u : Int) :
    planePt d e t u = planePt e d u t := by
  have a : d = 0 ∨ d = 1 ∨ d = 2 := by omega
  have b : e = 0 ∨ e = 1 ∨ e = 2 := by omega
  rcases a with rfl | rfl | rfl <;> rcases b with rfl | rfl | rfl <;> first
    | exact absurd rfl hne
    | rfl

theorem planePt_inj (d e : Nat) (hd : d < 3) (he : e < 3) (hne : d ≠ e) (t u t' u' : Int)
    (h : planePt d e t u = planePt d e t' u') : t = t' ∧ u = u' := by
  have a : d = 0 ∨ d = 1 ∨ d = 2 := by omega
  have b : e = 0 ∨ e = 1 ∨ e = 2 := by omega
  rcases a with rfl | rfl | rfl <;> rcases b with rfl | rfl | rfl <;> first
    | exact absurd rfl hne
    | (simp [planePt] at h; omega)

/-- **C18**: the mixed second derivative `dDD<d1><d2>` with `d1 ≠ d2` is exact on every polynomial
`Σ A a b x^a y^b` of degree at most the order in each variable, for all spacings; no stencil point
occurs twice. -/
theorem C18_mixed_derivative (m : Nat) (hm : 1 ≤ m) (d1 d2 : Nat) (h1 : d1 < 3) (h2 : d2 < 3) (hne : d1 ≠ d2) :
    ∃ r, fdcoeffs ((c% "dDD") ++ [dig d1, dig d2]) (2 * m) = .ok r ∧ r.1.length = r.2.length ∧ r.2.Nodup ∧
      ∀ (f : List Int → K) (A : Nat → Nat → K) (x y hx hy : K), hx ≠ 0 → hy ≠ 0 →
        (∀ t u : Int, f (planePt d1 d2 t u) =
          ∑ a ∈ Finset.range (2*m+1), ∑ b ∈ Finset.range (2*m+1),
            A a b * (x + (t : K) * hx) ^ a * (y + (u : K) * hy) ^ b) →
        applyStencil r f * (hx⁻¹ * hy⁻¹) =
          ∑ a ∈ Finset.range (2*m+1), ∑ b ∈ Finset.range (2*m+1),
            A a b * (a * x ^ (a - 1)) * (b * y ^ (b - 1)) := by
  obtain ⟨p1, p2, p3⟩ := parse_mixed d1 d2 h1 h2 hne m
  have hL : ∀ ij ∈ (List.range (2*m+1)).flatMap fun i => (List.range (2*m+1)).map fun j => (i, j),
      ij.1 < 2*m+1 ∧ ij.2 < 2*m+1 := by
    intro ij hij
    simp only [List.mem_flatMap, List.mem_map, List.mem_range] at hij
    obtain ⟨i, hi, j, hj, rfl⟩ := hij
    exact ⟨hi, hj⟩
  have hloop := loopMixed_eq d1 d2 h1 h2 (2*m+1) (by omega)
    ((List.range (2*m+1)).flatMap fun i => (List.range (2*m+1)).map fun j => (i, j)) hL ([], [])
  refine ⟨((((List.range (2*m+1)).flatMap fun i => (List.range (2*m+1)).map fun j => (i, j)).filter
        fun ij => decide (coef (2*m+1) 0 1 ij.1 * coef (2*m+1) 0 1 ij.2 ≠ 0)).map
          (fun ij => coef (2*m+1) 0 1 ij.1 * coef (2*m+1) 0 1 ij.2),
      (((List.range (2*m+1)).flatMap fun i => (List.range (2*m+1)).map fun j => (i, j)).filter
        fun ij => decide (coef (2*m+1) 0 1 ij.1 * coef (2*m+1) 0 1 ij.2 ≠ 0)).map
          (fun ij => planePt d2 d1 (posn (2*m+1) 0 ij.1) (posn (2*m+1) 0 ij.2))), ?_, by simp, ?_, ?_⟩
  · unfold fdcoeffs
    simp only [p1, p2, p3, bind, Except.bind, ne_eq, not_true_eq_false, if_false]
    rw [hloop]; simp
  · simp only
    refine List.Nodup.map_on ?_ (List.Nodup.filter _ ?_)
    · intro a ha b hb hab
      obtain ⟨e1, e2⟩ := planePt_inj d2 d1 h2 h1 (Ne.symm hne) _ _ _ _ hab
      unfold posn at e1 e2
      exact Prod.ext (by omega) (by omega)
    · rw [List.nodup_flatMap]
      refine ⟨fun i _ => List.Nodup.map (fun a b h => by simpa using h) List.nodup_range, ?_⟩
      refine List.Pairwise.imp ?_ List.nodup_range
      intro i j hij
      simp only [Function.onFun, List.disjoint_left, List.mem_map]
      rintro ⟨a, b⟩ ⟨_, _, h⟩ ⟨_, _, h'⟩
      simp only [Prod.mk.injEq] at h h'
      exact hij (h.1.trans h'.1.symm)
  · intro f A x y hx hy hx0 hy0 hf
    unfold applyStencil
    simp only
    rw [zip_map_map, List.map_map]
    have e : ((fun cx : ℚ × List Int => ((cx.1 : ℚ) : K) * f cx.2) ∘ fun ij : Nat × Nat =>
        (coef (2*m+1) 0 1 ij.1 * coef (2*m+1) 0 1 ij.2,
          planePt d2 d1 (posn (2*m+1) 0 ij.1) (posn (2*m+1) 0 ij.2))) =
        fun ij => ((coef (2*m+1) 0 1 ij.1 * coef (2*m+1) 0 1 ij.2 : ℚ) : K) *
          f (planePt d2 d1 (posn (2*m+1) 0 ij.1) (posn (2*m+1) 0 ij.2)) := rfl
    rw [e, sum_filter_map' _ (fun ij : Nat × Nat => coef (2*m+1) 0 1 ij.1 * coef (2*m+1) 0 1 ij.2)
      (fun ij => f (planePt d2 d1 (posn (2*m+1) 0 ij.1) (posn (2*m+1) 0 ij.2))), sum_flatMap_range]
    have hterm : ∀ i j : Fin (2*m+1),
        ((coef (2*m+1) 0 1 i.val * coef (2*m+1) 0 1 j.val : ℚ) : K) *
          f (planePt d2 d1 (posn (2*m+1) 0 i.val) (posn (2*m+1) 0 j.val)) =
        ∑ a ∈ Finset.range (2*m+1), ∑ b ∈ Finset.range (2*m+1), A a b *
          (((coef (2*m+1) 0 1 j.val : ℚ) : K) * (x + ((posn (2*m+1) 0 j.val : Int) : K) * hx) ^ a) *
          (((coef (2*m+1) 0 1 i.val : ℚ) : K) * (y + ((posn (2*m+1) 0 i.val : Int) : K) * hy) ^ b) := by
      intro i j
      rw [planePt_comm d2 d1 h2 h1 (Ne.symm hne), hf, Finset.mul_sum]
      refine Finset.sum_congr rfl (fun a _ => ?_)
      rw [Finset.mul_sum]
      refine Finset.sum_congr rfl (fun b _ => ?_)
      push_cast; ring
    simp only [hterm]
    have hswap : ∑ i : Fin (2*m+1), ∑ j : Fin (2*m+1), ∑ a ∈ Finset.range (2*m+1),
        ∑ b ∈ Finset.range (2*m+1), A a b *
          (((coef (2*m+1) 0 1 j.val : ℚ) : K) * (x + ((posn (2*m+1) 0 j.val : Int) : K) * hx) ^ a) *
          (((coef (2*m+1) 0 1 i.val : ℚ) : K) * (y + ((posn (2*m+1) 0 i.val : Int) : K) * hy) ^ b) =
        ∑ a ∈ Finset.range (2*m+1), ∑ b ∈ Finset.range (2*m+1), A a b *
          (∑ j : Fin (2*m+1), ((coef (2*m+1) 0 1 j.val : ℚ) : K) *
            (x + ((posn (2*m+1) 0 j.val : Int) : K) * hx) ^ a) *
          (∑ i : Fin (2*m+1), ((coef (2*m+1) 0 1 i.val : ℚ) : K) *
            (y + ((posn (2*m+1) 0 i.val : Int) : K) * hy) ^ b) := by
      calc _ = ∑ i : Fin (2*m+1), ∑ a ∈ Finset.range (2*m+1), ∑ j : Fin (2*m+1),
            ∑ b ∈ Finset.range (2*m+1), A a b *
              (((coef (2*m+1) 0 1 j.val : ℚ) : K) * (x + ((posn (2*m+1) 0 j.val : Int) : K) * hx) ^ a) *
              (((coef (2*m+1) 0 1 i.val : ℚ) : K) * (y + ((posn (2*m+1) 0 i.val : Int) : K) * hy) ^ b) :=
            Finset.sum_congr rfl (fun i _ => Finset.sum_comm)
        _ = ∑ i : Fin (2*m+1), ∑ a ∈ Finset.range (2*m+1), ∑ b ∈ Finset.range (2*m+1),
            ∑ j : Fin (2*m+1), A a b *
              (((coef (2*m+1) 0 1 j.val : ℚ) : K) * (x + ((posn (2*m+1) 0 j.val : Int) : K) * hx) ^ a) *
              (((coef (2*m+1) 0 1 i.val : ℚ) : K) * (y + ((posn (2*m+1) 0 i.val : Int) : K) * hy) ^ b) :=
            Finset.sum_congr rfl (fun i _ => Finset.sum_congr rfl (fun a _ => Finset.sum_comm))
        _ = ∑ a ∈ Finset.range (2*m+1), ∑ i : Fin (2*m+1), ∑ b ∈ Finset.range (2*m+1),
            ∑ j : Fin (2*m+1), A a b *
              (((coef (2*m+1) 0 1 j.val : ℚ) : K) * (x + ((posn (2*m+1) 0 j.val : Int) : K) * hx) ^ a) *
              (((coef (2*m+1) 0 1 i.val : ℚ) : K) * (y + ((posn (2*m+1) 0 i.val : Int) : K) * hy) ^ b) :=
            Finset.sum_comm
        _ = _ := by
            refine Finset.sum_congr rfl (fun a _ => ?_)
            rw [Finset.sum_comm]
            refine Finset.sum_congr rfl (fun b _ => ?_)
            rw [Finset.mul_sum, Finset.mul_sum]
            refine Finset.sum_congr rfl (fun i _ => ?_)
            rw [← Finset.sum_mul]
    rw [hswap, Finset.sum_mul]
    refine Finset.sum_congr rfl (fun a ha => ?_)
    rw [Finset.sum_mul]
    refine Finset.sum_congr rfl (fun b hb => ?_)
    rw [coef_sum_pow m hm x hx a (by have := Finset.mem_range.1 ha; omega),
      coef_sum_pow m hm y hy b (by have := Finset.mem_range.1 hb; omega)]
    field_simp

/-! ## C19 -/

theorem parse_ko (d : Nat) (hd : d < 3) (m : Nat) :
    effOrder ((c% "dKOD") ++ [dig d]) (2*m) = 2*m+2 ∧ shiftOf ((c% "dKOD") ++ [dig d]) (2*m+2) = 0 ∧
      derivKind ((c% "dKOD") ++ [dig d]) (2*m+2+1) = .ok (.kreissOliger, 2*m+2) := by
  have : d = 0 ∨ d = 1 ∨ d = 2 := by omega
  rcases this with rfl | rfl | rfl <;>
    simp [effOrder, shiftOf, derivKind, containsSub, dig, Nat.digitChar]

/-- The highest derivative column for equally spaced points: alternating binomial coefficients. -/
theorem coef_top (n j : Nat) (hj : j ≤ n) :
    coef (n + 1) 0 n j = (-1) ^ (n - j) * (n.choose j : ℚ) := by
  have hfac : ((Nat.factorial n : ℕ) : ℚ) ≠ 0 := by exact_mod_cast Nat.factorial_ne_zero n
  have h := minv_unique (n + 1) 0 ⟨n, by omega⟩ (fun j => (-1) ^ (n - j.val) * (n.choose j.val : ℚ) / Nat.factorial n)
    (by
      intro k
      have hs := fwdDiff_iter_eq_sum_shift (h := (1 : ℚ)) (fun r : ℚ => r ^ k.val) n (node (n+1) 0 0)
      have hnode : ∀ j : Nat, node (n+1) 0 0 + j • (1 : ℚ) = node (n+1) 0 j := by
        intro j; simp [node]; ring
      simp only [hnode, zsmul_eq_mul] at hs
      have hgoal : ∑ j : Fin (n+1), node (n+1) 0 j.val ^ k.val *
          ((-1) ^ (n - j.val) * (n.choose j.val : ℚ) / Nat.factorial n) =
          (∑ j ∈ Finset.range (n+1), (((-1 : ℤ) ^ (n - j) * n.choose j : ℤ) : ℚ) * node (n+1) 0 j ^ k.val) /
            Nat.factorial n := by
        rw [Finset.sum_range, Finset.sum_div]
        refine Finset.sum_congr rfl (fun j _ => ?_)
        push_cast; ring
      rw [hgoal, ← hs]
      by_cases hk : k.val < n
      · rw [fwdDiff_iter_pow_eq_zero_of_lt hk, if_neg (by intro h; rw [h] at hk; simp at hk)]
        simp
      · have hkn : k.val = n := by have := k.isLt; omega
        rw [hkn, fwdDiff_iter_eq_factorial, if_pos (Fin.ext hkn)]
        simp [hfac])
    ⟨j, by omega⟩
  unfold coef
  rw [dif_pos ⟨by omega, by omega⟩, ← h]
  simp only
  field_simp

/-- The Kreiss-Oliger factor for order `2m`. -/
noncomputable def koFac (m : Nat) : ℚ := (-1) ^ (m + 2) / 2 ^ (2 * m + 2)

theorem koFac_ne (m : Nat) : koFac m ≠ 0 := by
  unfold koFac
  refine div_ne_zero (pow_ne_zero _ (by norm_num)) (pow_ne_zero _ (by norm_num))

theorem coef_top_ne (n j : Nat) (hj : j ≤ n) : coef (n + 1) 0 n j ≠ 0 := by
  rw [coef_top n j hj]
  refine mul_ne_zero (pow_ne_zero _ (by norm_num)) ?_
  exact_mod_cast (Nat.choose_pos hj).ne'

theorem ko_loop (d : Nat) (hd : d < 3) (m k : Nat) (hk : k ≤ 2*m+2+1) :
    (List.range k).foldlM (step ((c% "dKOD") ++ [dig d]) (2*m+2+1) 0 .kreissOliger (2*m+2)) ([], []) = .ok
      ((List.range k).map (fun i => coef (2*m+2+1) 0 (2*m+2) i * koFac m),
       (List.range k).map (fun i => axisPt d (posn (2*m+2+1) 0 i))) := by
  induction k with
  | zero => rfl
  | succ k ih =>
    rw [List.range_succ, List.foldlM_append, ih (by omega)]
    have hk' : k < 2*m+2+1 := by omega
    have hc : coef (2*m+2+1) 0 (2*m+2) k = (Nat.factorial (2*m+2) : ℚ) *
        minv (2*m+2+1) 0 ⟨k, hk'⟩ ⟨2*m+2, by omega⟩ := by
      unfold coef; rw [dif_pos ⟨hk', by omega⟩]
    have hne := coef_top_ne (2*m+2) k (by omega)
    have hstep : step ((c% "dKOD") ++ [dig d]) (2*m+2+1) 0 .kreissOliger (2*m+2)
        ((List.range k).map (fun i => coef (2*m+2+1) 0 (2*m+2) i * koFac m),
          (List.range k).map (fun i => axisPt d (posn (2*m+2+1) 0 i))) k = .ok
        ((List.range k).map (fun i => coef (2*m+2+1) 0 (2*m+2) i * koFac m) ++
            [coef (2*m+2+1) 0 (2*m+2) k * koFac m],
          (List.range k).map (fun i => axisPt d (posn (2*m+2+1) 0 i)) ++
            [axisPt d (posn (2*m+2+1) 0 k)]) := by
      unfold step
      have hrow : 2*m+2 < 2*m+2+1 := by omega
      simp only [minvEntry, hk', hrow, and_self, dif_pos, bind, Except.bind, ← hc, ne_eq, hne,
        not_false_eq_true, if_true]
      have hpar : (2*m+2+1+1) % 2 = 0 := by omega
      have hdiv : (2*m+2+1+1) / 2 = m + 2 := by omega
      simp only [hpar, if_true, hdiv, mulAt]
      rw [dif_pos (by simp)]
      have hset : ((List.range k).map (fun i => coef (2*m+2+1) 0 (2*m+2) i * koFac m) ++
          [coef (2*m+2+1) 0 (2*m+2) k]).set k
            (((List.range k).map (fun i => coef (2*m+2+1) 0 (2*m+2) i * koFac m) ++
              [coef (2*m+2+1) 0 (2*m+2) k])[k]'(by simp) * ((-1) ^ (m + 2) / 2 ^ (2*m+2))) =
          (List.range k).map (fun i => coef (2*m+2+1) 0 (2*m+2) i * koFac m) ++
            [coef (2*m+2+1) 0 (2*m+2) k * koFac m] := by
        rw [List.getElem_append_right (by simp)]
        rw [List.set_append_right _ _ (by simp)]
        simp [koFac]
      rw [hset]
      by_cases hp : posn (2*m+2+1) 0 k = 0
      · have : (k : Int) - (((2*m+2+1 - 1) / 2 : Nat) : Int) + 0 = 0 := hp
        simp only [this, not_true_eq_false, if_false, hp, axisPt_zero d hd]
      · have hp' : ¬ (k : Int) - (((2*m+2+1 - 1) / 2 : Nat) : Int) + 0 = 0 := hp
        simp only [hp', not_false_eq_true, if_true]
        simp only [fromEnd, List.reverse_append, List.reverse_cons, List.reverse_nil, List.nil_append,
          List.cons_append, Nat.sub_self, List.getElem?_cons_zero, digitVal_dig d hd,
          setIdx_axis d hd]
        rfl
    simp only [bind, Except.bind, List.foldlM_cons, hstep, List.foldlM_nil, pure, Except.pure]
    simp

theorem ko_posn (m i : Nat) : posn (2*m+2+1) 0 i = (i : Int) - (m + 1) := by
  unfold posn
  have : (2*m+2+1-1)/2 = m + 1 := by omega
  rw [this]; push_cast; ring

/-- **C19**: for every even order `2m` the Kreiss-Oliger operator `dKOD<d>` has all `2m+3` points
`-(m+1)..(m+1)` with nonzero coefficients, is symmetric, annihilates every polynomial of degree below
`2m+2`, and multiplies the Fourier mode `exp(iθx)` by `-sin(θ/2)^(2m+2)`: it never amplifies, it damps
every mode except the constant, and removes the shortest wavelength (`θ = π`) with factor `-1`. -/
theorem C19_kreiss_oliger (m : Nat) (d : Nat) (hd : d < 3) :
    ∃ r, fdcoeffs ((c% "dKOD") ++ [dig d]) (2 * m) = .ok r ∧
      r.1.length = 2 * m + 3 ∧ (∀ c ∈ r.1, c ≠ 0) ∧ r.1.reverse = r.1 ∧
      r.2 = (List.range (2 * m + 3)).map (fun i : Nat => axisPt d ((i : Int) - (m + 1))) ∧
      (∀ (f : List Int → K) (P : K[X]) (x h : K), P.natDegree < 2 * m + 2 →
        (∀ t : Int, f (axisPt d t) = P.eval (x + (t : K) * h)) → applyStencil r f = 0) ∧
      (∀ (θ : ℝ) (f : List Int → ℂ), (∀ t : Int, f (axisPt d t) = Complex.exp (((t : ℝ) * θ : ℝ) * Complex.I)) →
        applyStencil r f = ((-(Real.sin (θ / 2)) ^ (2 * m + 2) : ℝ) : ℂ)) := by
  obtain ⟨p1, p2, p3⟩ := parse_ko d hd m
  have hloop := ko_loop d hd m (2*m+2+1) (le_refl _)
  refine ⟨((List.range (2*m+2+1)).map (fun i => coef (2*m+2+1) 0 (2*m+2) i * koFac m),
       (List.range (2*m+2+1)).map (fun i => axisPt d (posn (2*m+2+1) 0 i))), ?_, by simp, ?_, ?_, ?_, ?_, ?_⟩
  · unfold fdcoeffs
    simp only [p1, p2, p3, bind, Except.bind]
    rw [if_pos (by simp)]
    exact hloop
  · intro c hc
    simp only [List.mem_map, List.mem_range] at hc
    obtain ⟨i, hi, rfl⟩ := hc
    exact mul_ne_zero (coef_top_ne (2*m+2) i (by omega)) (koFac_ne m)
  · simp only
    rw [← List.map_reverse, range_reverse_map, List.map_map]
    apply List.map_congr_left
    intro i hi
    have hi' := List.mem_range.1 hi
    simp only [Function.comp]
    have := coef_rev (2*m+2+1) 0 (2*m+2) i (by omega) hi'
    rw [neg_zero] at this
    rw [this, Even.neg_one_pow ⟨m+1, by ring⟩, one_mul]
  · simp only [ko_posn]
  · intro f P x h hP hf
    unfold applyStencil
    simp only
    rw [zip_map_map, List.map_map, sum_range_list]
    have hex := exact_poly (2*m+2+1) 0 ⟨2*m+2, by omega⟩ P (by omega) x h
    have hz : ((⇑derivative)^[2*m+2] P) = 0 := iterate_derivative_eq_zero (by omega)
    simp only [hz, eval_zero, mul_zero] at hex
    have e : ∀ j : Fin (2*m+2+1), ((fun cx : ℚ × List Int => ((cx.1 : ℚ) : K) * f cx.2) ∘
        fun i => (coef (2*m+2+1) 0 (2*m+2) i * koFac m, axisPt d (posn (2*m+2+1) 0 i))) j.val =
        (koFac m : K) * ((((Nat.factorial (2*m+2) : ℚ) * minv (2*m+2+1) 0 j ⟨2*m+2, by omega⟩ : ℚ) : K) *
          P.eval (x + ((node (2*m+2+1) 0 j.val : ℚ) : K) * h)) := by
      intro j
      have hc : coef (2*m+2+1) 0 (2*m+2) j.val = (Nat.factorial (2*m+2) : ℚ) *
          minv (2*m+2+1) 0 j ⟨2*m+2, by omega⟩ := by
        unfold coef; rw [dif_pos ⟨j.isLt, by omega⟩]
      simp only [Function.comp, hc, hf]
      have hn := node_posn (m+1) 0 j.val
      have : 2 * (m+1) + 1 = 2*m+2+1 := by ring
      rw [this] at hn
      rw [hn]
      push_cast; ring
    rw [Finset.sum_congr rfl (fun j _ => e j), ← Finset.mul_sum, hex, mul_zero]
  · intro θ f hf
    unfold applyStencil
    simp only
    rw [zip_map_map, List.map_map]
    set z : ℂ := Complex.exp (((θ / 2 : ℝ) : ℂ) * Complex.I) with hz
    have hz0 : z ≠ 0 := Complex.exp_ne_zero _
    have hsin : z + (- z⁻¹) = 2 * Complex.I * ((Real.sin (θ/2) : ℝ) : ℂ) := by
      rw [hz, ← Complex.exp_neg]
      rw [Complex.ofReal_sin, Complex.sin]
      have : -(((θ / 2 : ℝ) : ℂ) * Complex.I) = -((θ / 2 : ℝ) : ℂ) * Complex.I := by ring
      rw [this]
      have hI : Complex.I * Complex.I = -1 := Complex.I_mul_I
      linear_combination (Complex.exp (((θ / 2 : ℝ) : ℂ) * Complex.I) - Complex.exp (-((θ / 2 : ℝ) : ℂ) * Complex.I)) * hI
    have hbin := add_pow z (- z⁻¹) (2*m+2)
    rw [hsin] at hbin
    rw [sum_range_list, ← Finset.sum_range (fun i => ((fun cx : ℚ × List Int => ((cx.1 : ℚ) : ℂ) * f cx.2) ∘
        fun i => (coef (2*m+2+1) 0 (2*m+2) i * koFac m, axisPt d (posn (2*m+2+1) 0 i))) i)]
    have e : ∀ j ∈ Finset.range (2*m+2+1), ((fun cx : ℚ × List Int => ((cx.1 : ℚ) : ℂ) * f cx.2) ∘
        fun i => (coef (2*m+2+1) 0 (2*m+2) i * koFac m, axisPt d (posn (2*m+2+1) 0 i))) j =
        (koFac m : ℂ) * (z ^ j * (-z⁻¹) ^ (2*m+2 - j) * ((2*m+2).choose j : ℂ)) := by
      intro j hj
      have hj' : j ≤ 2*m+2 := by have := Finset.mem_range.1 hj; omega
      simp only [Function.comp, coef_top (2*m+2) j hj', hf, ko_posn]
      have hexp : Complex.exp (((((j : Int) - (m + 1) : Int) : ℝ) * θ : ℝ) * Complex.I) =
          z ^ j * (z⁻¹) ^ (2*m+2 - j) := by
        rw [hz, ← Complex.exp_neg, ← Complex.exp_nat_mul, ← Complex.exp_nat_mul, ← Complex.exp_add]
        congr 1
        rw [Nat.cast_sub hj']
        push_cast; ring
      rw [hexp, neg_pow (z⁻¹)]
      push_cast; ring
    rw [Finset.sum_congr rfl e, ← Finset.mul_sum, ← hbin]
    unfold koFac
    have hI2 : (2 * Complex.I * ((Real.sin (θ/2) : ℝ) : ℂ)) ^ (2*m+2) =
        2 ^ (2*m+2) * (-1) ^ (m+1) * ((Real.sin (θ/2) : ℝ) : ℂ) ^ (2*m+2) := by
      rw [mul_pow, mul_pow]
      have : Complex.I ^ (2*m+2) = (-1) ^ (m+1) := by
        rw [show 2*m+2 = 2*(m+1) by ring, pow_mul, Complex.I_sq]
      rw [this]
    rw [hI2]
    have hs : ((-1 : ℂ) ^ (m+2)) * (-1) ^ (m+1) = -1 := by
      rw [← pow_add]; exact Odd.neg_one_pow ⟨m+1, by ring⟩
    push_cast
    have h2 : (2 : ℂ) ^ (2*m+2) ≠ 0 := pow_ne_zero _ (by norm_num)
    field_simp
    linear_combination (Complex.sin ((θ : ℂ)/2)) ^ (2*m+2) * hs

end Verif.FD
