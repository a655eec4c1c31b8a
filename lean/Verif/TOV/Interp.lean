import Verif.TOV.Loop
import Mathlib.Data.List.GetD
import Mathlib.LinearAlgebra.Lagrange

/-!
# C93: the arrays of TOVola and the interpolation
-/
namespace Verif.TOV
open Real

/-! ## Specification -/

/-- The values with the same index. -/
structure Entry where
  r_Schw : ℝ
  rho_baryon : ℝ
  rho_energy : ℝ
  P : ℝ
  M : ℝ
  expnu : ℝ
  exp4phi : ℝ
  r_iso : ℝ

/-- The values with index `k`. -/
def Arrays.entry (A : Arrays) (k : ℕ) : Entry :=
  ⟨A.r_Schw.getD k 0, A.rho_baryon.getD k 0, A.rho_energy.getD k 0, A.P.getD k 0, A.M.getD k 0, A.expnu.getD k 0, A.exp4phi.getD k 0, A.r_iso.getD k 0⟩

/-- All arrays have `n` values. -/
def Arrays.Size (A : Arrays) (n : ℕ) : Prop :=
  A.r_Schw.length = n ∧ A.rho_baryon.length = n ∧ A.rho_energy.length = n ∧ A.P.length = n ∧ A.M.length = n ∧ A.expnu.length = n ∧
    A.exp4phi.length = n ∧ A.r_iso.length = n

/-- The state in a row. -/
def Row.state (r : Row) : State := ⟨r.P, r.nu, r.M, r.r_iso⟩

/-- The entry that belongs to a row, when `last` is the row at the surface. -/
noncomputable def Row.entry (last r : Row) : Entry :=
  let z := normalized last.r_Schw last.state r.r_Schw r.state
  ⟨r.r_Schw, r.rho_baryon, r.rho_energy, r.P, r.M, z.2.1, z.2.2, z.1⟩

/-! ## The arrays -/

/-- The extended array. -/
noncomputable def ext (p : ℝ) (arr : List ℝ) : List ℝ := (List.range buffer).map (fun i => p * arr.getD (buffer - i - 1) 0) ++ arr

theorem extend_eq (p : ℝ) {arr : List ℝ} {al : ℕ} (h : arr.length + 11 ≤ al) (h1 : 11 ≤ arr.length) : extend arr p al = .ok (ext p arr) := by
  rw [extend, if_neg (by unfold buffer; omega), if_neg (by unfold buffer; omega)]
  rfl

theorem ext_length (p : ℝ) (arr : List ℝ) : (ext p arr).length = arr.length + 11 := by
  simp [ext, buffer, Nat.add_comm]

theorem ext_high (p : ℝ) (arr : List ℝ) (k : ℕ) : (ext p arr).getD (11 + k) 0 = arr.getD k 0 := by
  rw [ext, List.getD_append_right _ _ _ _ (by simp [buffer])]
  simp [buffer]

theorem ext_low (p : ℝ) (arr : List ℝ) {i : ℕ} (h : i ≤ 10) : (ext p arr).getD (10 - i) 0 = p * arr.getD i 0 := by
  have hl : 10 - i < ((List.range buffer).map (fun i => p * arr.getD (buffer - i - 1) 0)).length := by simp [buffer]; omega
  rw [ext, List.getD_append _ _ _ _ hl, List.getD_eq_getElem _ _ hl, List.getElem_map, List.getElem_range]
  unfold buffer
  rw [show 11 - (10 - i) - 1 = i by omega]

/-- The arrays that are made of the rows. -/
noncomputable def arraysOf (rows : List Row) : Arrays :=
  let n := rows.length + 11
  let R := (ext (-1) (rows.map (·.r_Schw))).getD (n - 1) 0
  let s : State := ⟨0, (ext 1 (rows.map (·.nu))).getD (n - 1) 0, (ext 1 (rows.map (·.M))).getD (n - 1) 0, (ext (-1) (rows.map (·.r_iso))).getD (n - 1) 0⟩
  { r_Schw := ext (-1) (rows.map (·.r_Schw)), rho_baryon := ext 1 (rows.map (·.rho_baryon)), rho_energy := ext 1 (rows.map (·.rho_energy))
    P := ext 1 (rows.map (·.P)), M := ext 1 (rows.map (·.M))
    r_iso := (ext (-1) (rows.map (·.r_iso))).map fun r => r * normalize R s.M s.riso
    expnu := (ext 1 (rows.map (·.nu))).map fun x => exp (x - s.nu + log (1 - 2 * s.M / R))
    exp4phi := List.zipWith (fun r q => r / q * (r / q)) (ext (-1) (rows.map (·.r_Schw)))
      ((ext (-1) (rows.map (·.r_iso))).map fun r => r * normalize R s.M s.riso) }

theorem finish_eq {s : Solver} (h : s.rows.length + 11 ≤ s.alloced) (h1 : 11 ≤ s.rows.length) : finish s = .ok (arraysOf s.rows) := by
  have e : ∀ (f : Row → ℝ) (p : ℝ), extend (s.rows.map f) p s.alloced = .ok (ext p (s.rows.map f)) :=
    fun f p => extend_eq p (by simpa using h) (by simpa using h1)
  simp only [finish, e, bind, Except.bind, normalizeData, ext_length, List.length_map]
  rw [if_neg (by omega)]
  rfl

theorem getD_map_of_lt {f : ℝ → ℝ} {l : List ℝ} {k : ℕ} (h : k < l.length) : (l.map f).getD k 0 = f (l.getD k 0) := by
  rw [List.getD_eq_getElem _ _ (by simpa using h), List.getD_eq_getElem _ _ h, List.getElem_map]

theorem getD_zipWith_of_lt {f : ℝ → ℝ → ℝ} {l m : List ℝ} {k : ℕ} (h : k < l.length) (h' : k < m.length) :
    (List.zipWith f l m).getD k 0 = f (l.getD k 0) (m.getD k 0) := by
  rw [List.getD_eq_getElem _ _ (by simp; omega), List.getD_eq_getElem _ _ h, List.getD_eq_getElem _ _ h', List.getElem_zipWith]

theorem getD_rows (f : Row → ℝ) (rows : List Row) {k : ℕ} (h : k < rows.length) : (rows.map f).getD k 0 = f rows[k] := by
  rw [List.getD_eq_getElem _ _ (by simpa using h), List.getElem_map]

theorem arraysOf_size (rows : List Row) : (arraysOf rows).Size (rows.length + 11) := by
  simp [Arrays.Size, arraysOf, ext_length]

/-- The entry from the raw values, with index `j`. -/
theorem arraysOf_entry (rows : List Row) (h : 0 < rows.length) {j : ℕ} (hj : j < rows.length + 11) :
    let last := rows[rows.length - 1]
    (arraysOf rows).entry j = Row.entry last ⟨(ext (-1) (rows.map (·.r_Schw))).getD j 0, (ext 1 (rows.map (·.rho_energy))).getD j 0,
      (ext 1 (rows.map (·.rho_baryon))).getD j 0, (ext 1 (rows.map (·.P))).getD j 0, (ext 1 (rows.map (·.M))).getD j 0, (ext 1 (rows.map (·.nu))).getD j 0,
      (ext (-1) (rows.map (·.r_iso))).getD j 0⟩ := by
  have hn : rows.length + 11 - 1 = 11 + (rows.length - 1) := by omega
  have hl : rows.length - 1 < rows.length := by omega
  have hlen : ∀ (f : Row → ℝ) (p : ℝ), j < (ext p (rows.map f)).length := fun f p => by rw [ext_length, List.length_map]; exact hj
  simp only [Arrays.entry, arraysOf, Row.entry, normalized, Row.state]
  rw [getD_zipWith_of_lt (hlen _ _) (by rw [List.length_map]; exact hlen _ _), getD_map_of_lt (hlen _ _), getD_map_of_lt (hlen _ _)]
  simp only [hn, ext_high, getD_rows _ rows hl]

/-- With at least eleven rows and enough memory, all arrays have eleven values more than there are rows.  The values after the first eleven are those of the
rows, normalized; the first eleven are those of the first eleven rows in reverse order, both radii with the opposite sign. -/
theorem C93_arrays (s : Solver) (h : s.rows.length + 11 ≤ s.alloced) (h1 : 11 ≤ s.rows.length) : ∃ A, finish s = .ok A ∧ A.Size (s.rows.length + 11) ∧
    (∀ (k : ℕ) (hk : k < s.rows.length), A.entry (11 + k) = Row.entry s.rows[s.rows.length - 1] s.rows[k]) ∧
    ∀ i ≤ 10, A.entry (10 - i) = { A.entry (11 + i) with r_Schw := -(A.entry (11 + i)).r_Schw, r_iso := -(A.entry (11 + i)).r_iso } := by
  refine ⟨_, finish_eq h h1, arraysOf_size _, fun k hk => ?_, fun i hi => ?_⟩
  · rw [arraysOf_entry _ (by omega) (by omega)]
    simp only [ext_high, getD_rows _ _ hk]
  · rw [arraysOf_entry _ (by omega) (by omega), arraysOf_entry _ (by omega) (by omega)]
    simp only [ext_high, ext_low _ _ hi]
    simp only [Row.entry, normalized, Row.state, one_mul, neg_mul, neg_div_neg_eq]

/-- Fewer than eleven rows: the program uses values that were never set. -/
theorem C93_few_rows (s : Solver) (h : s.rows.length + 11 ≤ s.alloced) (h1 : s.rows.length < 11) : finish s = .error .indeterminate := by
  have : extend (s.rows.map (·.r_Schw)) (-1) s.alloced = .error .indeterminate := by
    rw [extend, if_neg (by simp [buffer]; omega), if_pos (by simpa [buffer] using h1)]
  simp only [finish, this, bind, Except.bind]

/-- No run of `TOVola_solve` accesses memory outside of its arrays, whatever the driver does and however many steps there are. -/
theorem C93_memory (e : Eos) (rhoC h : ℝ) (N : ℕ) (drv : Driver) (hh : 0 < h) : solve e rhoC h N drv ≠ .error .outOfBounds := by
  unfold solve
  rcases C93_loop e rhoC h N drv hh with h1 | ⟨s, h1, _, h2, _⟩
  · rw [h1]
    exact fun h => by cases h
  · rw [h1]
    show finish s ≠ _
    rcases Nat.lt_or_ge s.rows.length 11 with h3 | h3
    · rw [C93_few_rows s h2 h3]
      exact fun h => by cases h
    · rw [finish_eq h2 h3]
      exact fun h => by cases h

/-- The radii of the arrays increase if those of the rows do. -/
theorem C93_increasing (s : Solver) (h : s.rows.length + 11 ≤ s.alloced) (h1 : 11 ≤ s.rows.length) (hr : (0 :: s.rows.map (·.r_iso)).Pairwise (· < ·))
    (hR : ∀ row, s.rows.getLast? = some row → 0 < row.r_Schw ∧ 2 * row.M < row.r_Schw) : ∃ A, finish s = .ok A ∧ A.r_iso.Pairwise (· < ·) ∧
      A.r_iso.getD 0 0 < 0 ∧ A.r_iso.getD 10 0 < 0 ∧ 0 < A.r_iso.getD 11 0 := by
  refine ⟨_, finish_eq h h1, ?_⟩
  have hl : s.rows.length - 1 < s.rows.length := by omega
  set last := s.rows[s.rows.length - 1] with hlast
  obtain ⟨hR1, hR2⟩ := hR last (by rw [List.getLast?_eq_getElem?, List.getElem?_eq_getElem hl])
  rw [List.pairwise_cons] at hr
  obtain ⟨hpos, hinc⟩ := hr
  set a := s.rows.map (·.r_iso) with ha
  have halen : a.length = s.rows.length := by simp [ha]
  have apos : ∀ i, i < a.length → 0 < a.getD i 0 := fun i hi => by
    rw [List.getD_eq_getElem _ _ hi]
    exact hpos _ (List.getElem_mem hi)
  have amono : ∀ i j, i < j → j < a.length → a.getD i 0 < a.getD j 0 := fun i j hij hj => by
    rw [List.getD_eq_getElem _ _ hj, List.getD_eq_getElem _ _ (hij.trans hj)]
    exact List.pairwise_iff_getElem.1 hinc _ _ _ _ hij
  have hlast' : a.getD (s.rows.length - 1) 0 = last.r_iso := getD_rows _ _ hl
  have hn : 0 < normalize last.r_Schw last.M last.r_iso := by
    unfold normalize
    have := sqrt_nonneg (last.r_Schw * (last.r_Schw - 2 * last.M))
    exact div_pos (mul_pos (by norm_num) (by linarith)) (hlast' ▸ apos _ (by omega))
  have hext : (ext (-1) a).Pairwise (· < ·) := by
    rw [ext, List.pairwise_append]
    refine ⟨?_, hinc, ?_⟩
    · rw [List.pairwise_map]
      refine List.pairwise_lt_range.imp_of_mem fun {i j} hi hj hij => ?_
      have hi' := List.mem_range.1 hi
      have hj' := List.mem_range.1 hj
      unfold buffer at hi' hj' ⊢
      have := amono (11 - j - 1) (11 - i - 1) (by omega) (by omega)
      linarith
    · intro x hx y hy
      obtain ⟨i, hi, rfl⟩ := List.mem_map.1 hx
      have hi' := List.mem_range.1 hi
      unfold buffer at hi' ⊢
      have := apos (11 - i - 1) (by omega)
      have := hpos y hy
      linarith
  have hiso : (arraysOf s.rows).r_iso = (ext (-1) a).map fun r => r * normalize last.r_Schw last.M last.r_iso := by
    have hn' : s.rows.length + 11 - 1 = 11 + (s.rows.length - 1) := by omega
    simp only [arraysOf, hn', ext_high, getD_rows _ _ hl]
    rfl
  have hval : ∀ j, j < a.length + 11 → (arraysOf s.rows).r_iso.getD j 0 = (ext (-1) a).getD j 0 * normalize last.r_Schw last.M last.r_iso := fun j hj => by
    rw [hiso, getD_map_of_lt (by rw [ext_length]; exact hj)]
  refine ⟨?_, ?_, ?_, ?_⟩
  · rw [hiso, List.pairwise_map]
    exact hext.imp fun h => mul_lt_mul_of_pos_right h hn
  · rw [hval 0 (by omega), ext_low (-1) a (i := 10) (by omega)]
    nlinarith [apos 10 (by omega)]
  · rw [hval 10 (by omega), ext_low (-1) a (i := 0) (by omega)]
    nlinarith [apos 0 (by omega)]
  · rw [hval 11 (by omega), ext_high (-1) a 0]
    exact mul_pos (apos 0 (by omega)) hn

/-- The mass inside a radius is an odd function of it: by `dM_dr` its derivative is even.  The array of the mass is not made that way: there is no odd
function whose values at the isotropic radii are those in the array, unless there is no mass in the first row. -/
theorem C93_mass_violation (s : Solver) (A : Arrays) (h1 : 11 ≤ s.rows.length) (h : s.rows.length + 11 ≤ s.alloced) (hA : finish s = .ok A)
    (hM : (s.rows[0]).M ≠ 0) : (∀ r ρ, dM_dr (-r) ρ = dM_dr r ρ) ∧
    ¬ ∃ f : ℝ → ℝ, (∀ x, f (-x) = -f x) ∧ ∀ k < s.rows.length + 11, (A.entry k).M = f (A.entry k).r_iso := by
  refine ⟨fun r ρ => by unfold dM_dr; ring, ?_⟩
  rintro ⟨f, hf, hk⟩
  obtain ⟨A', hA', _, h2, h3⟩ := C93_arrays s h h1
  rw [hA] at hA'
  cases hA'
  have e1 := hk 11 (by omega)
  have e2 := hk 10 (by omega)
  rw [h3 0 (by omega)] at e2
  simp only [hf] at e2
  have e3 : (A.entry (11 + 0)).M = (s.rows[0]).M := by rw [h2 0 (by omega)]; rfl
  have e4 : (A.entry (11 + 0)).M = f (A.entry (11 + 0)).r_iso := e1
  apply hM
  linarith

/-! ## The interpolation -/

theorem rd_eq {arr : List ℝ} {i : ℕ} (h : i < arr.length) : rd arr (i : ℤ) = .ok (arr.getD i 0) := by
  rw [rd, if_neg (by omega), Int.toNat_natCast, List.getElem?_eq_getElem h, List.getD_eq_getElem _ _ h]

/-- The values increase with the index. -/
def Increasing (arr : List ℝ) : Prop := ∀ i j, i < j → j < arr.length → arr.getD i 0 < arr.getD j 0

theorem increasing_of_pairwise {arr : List ℝ} (h : arr.Pairwise (· < ·)) : Increasing arr := fun i j hij hj => by
  rw [List.getD_eq_getElem _ _ hj, List.getD_eq_getElem _ _ (hij.trans hj)]
  exact List.pairwise_iff_getElem.1 h _ _ _ _ hij

theorem Increasing.le {arr : List ℝ} (h : Increasing arr) {i j : ℕ} (hij : i ≤ j) (hj : j < arr.length) : arr.getD i 0 ≤ arr.getD j 0 := by
  rcases hij.eq_or_lt with rfl | hij
  · exact le_rfl
  · exact (h i j hij hj).le

/-- `i` is the index of a value nearest to `rr`. -/
def Nearest (arr : List ℝ) (rr : ℝ) (i : ℕ) : Prop := i < arr.length ∧ ∀ j < arr.length, |rr - arr.getD i 0| ≤ |rr - arr.getD j 0|

theorem nearest_of_adjacent {arr : List ℝ} (h : Increasing arr) {rr : ℝ} {x : ℕ} (hx : x + 1 < arr.length) (h1 : arr.getD x 0 ≤ rr) (h2 : rr ≤ arr.getD (x + 1) 0) :
    Nearest arr rr (if |rr - arr.getD x 0| < |rr - arr.getD (x + 1) 0| then x else x + 1) := by
  have key : ∀ j < arr.length, |rr - arr.getD x 0| ≤ |rr - arr.getD j 0| ∨ |rr - arr.getD (x + 1) 0| ≤ |rr - arr.getD j 0| := fun j hj => by
    rcases Nat.lt_or_ge x j with hxj | hxj
    · have := h.le (Nat.succ_le_of_lt hxj) hj
      right
      rw [abs_of_nonpos (by linarith), abs_of_nonpos (by linarith)]
      linarith
    · have := h.le hxj (by omega)
      left
      rw [abs_of_nonneg (by linarith), abs_of_nonneg (by linarith)]
      linarith
  split_ifs with hc
  · refine ⟨by omega, fun j hj => ?_⟩
    rcases key j hj with h | h
    · exact h
    · exact hc.le.trans h
  · refine ⟨hx, fun j hj => ?_⟩
    rcases key j hj with h | h
    · exact (not_lt.1 hc).trans h
    · exact h

theorem bisectLoop_spec {arr : List ℝ} (h : Increasing arr) {rr : ℝ} : ∀ k x1 x2 : ℕ, x1 + 2 ≤ x2 → x2 < arr.length → x2 ≤ x1 + k →
    arr.getD x1 0 ≤ rr → rr ≤ arr.getD x2 0 → ∃ i, bisectLoop arr rr k x1 x2 (rr - arr.getD x1 0) = .ok i ∧ Nearest arr rr i := by
  intro k
  induction k with
  | zero => intro x1 x2 h1 h2 h3; omega
  | succ k ih =>
    intro x1 x2 h1 h2 h3 h4 h5
    have hm : (x1 + x2) / 2 < arr.length := by omega
    have hm1 : x1 < (x1 + x2) / 2 := by omega
    have hm2 : (x1 + x2) / 2 < x2 := by omega
    rw [bisectLoop]
    have hrd : rd arr (((x1 + x2) / 2 : ℕ) : ℤ) = .ok (arr.getD ((x1 + x2) / 2) 0) := rd_eq hm
    simp only [hrd, bind, Except.bind]
    set m := (x1 + x2) / 2 with hmdef
    by_cases hc : (rr - arr.getD m 0) * (rr - arr.getD x1 0) ≤ 0
    · simp only [if_pos hc]
      have hle : rr ≤ arr.getD m 0 := by
        by_contra hlt
        push Not at hlt
        have := h x1 m hm1 hm
        nlinarith
      by_cases hd : m = x1 + 1 ∨ x1 = m + 1
      · have hmx : m = x1 + 1 := by omega
        rw [if_pos hd, rd_eq (by omega : x1 < arr.length), rd_eq hm]
        refine ⟨_, rfl, ?_⟩
        have := nearest_of_adjacent h (x := x1) (by omega) h4 (by rw [← hmx]; exact hle)
        rw [← hmx] at this
        exact this
      · rw [if_neg hd]
        exact ih x1 m (by omega) hm (by omega) h4 hle
    · simp only [if_neg hc]
      have hle : arr.getD m 0 ≤ rr := by
        by_contra hlt
        push Not at hlt
        exact hc (mul_nonpos_of_nonpos_of_nonneg (by linarith) (by linarith))
      by_cases hd : x2 = m + 1 ∨ m = x2 + 1
      · have hmx : x2 = m + 1 := by omega
        rw [if_pos hd, rd_eq h2, rd_eq hm]
        refine ⟨_, rfl, ?_⟩
        have := nearest_of_adjacent h (x := m) (by omega) hle (by rw [← hmx]; exact h5)
        rw [← hmx] at this
        exact this
      · rw [if_neg hd]
        exact ih m x2 (by omega) h2 (by omega) hle h5

/-- The index finder returns the index of a nearest value, for every increasing array of at least three values and every number in its range. -/
theorem C93_bisection (arr : List ℝ) (h : arr.Pairwise (· < ·)) (h3 : 3 ≤ arr.length) (rr : ℝ) (h1 : arr.getD 0 0 ≤ rr) (h2 : rr ≤ arr.getD (arr.length - 1) 0) :
    ∃ i, bisect arr rr = .ok i ∧ Nearest arr rr i := by
  have hr0 : rd arr 0 = .ok (arr.getD 0 0) := rd_eq (i := 0) (by omega)
  have hrn : rd arr ((arr.length : ℤ) - 1) = .ok (arr.getD (arr.length - 1) 0) := by
    have := rd_eq (arr := arr) (i := arr.length - 1) (by omega)
    rwa [Nat.cast_sub (by omega), Nat.cast_one] at this
  have hc : ¬ (rr - arr.getD 0 0) * (rr - arr.getD (arr.length - 1) 0) > 0 :=
    not_lt.2 (mul_nonpos_of_nonneg_of_nonpos (by linarith) (by linarith))
  simp only [bisect, hr0, hrn, bind, Except.bind, if_neg hc]
  exact bisectLoop_spec (increasing_of_pairwise h) _ 0 _ (by omega) (by omega) (by omega) h1 h2

/-- Outside of the range it ends the program. -/
theorem C93_bisection_outside (arr : List ℝ) (h : arr.Pairwise (· < ·)) (h0 : 0 < arr.length) (rr : ℝ)
    (h1 : rr < arr.getD 0 0 ∨ arr.getD (arr.length - 1) 0 < rr) : bisect arr rr = .error .bracketing := by
  have hr0 : rd arr 0 = .ok (arr.getD 0 0) := rd_eq (i := 0) (by omega)
  have hrn : rd arr ((arr.length : ℤ) - 1) = .ok (arr.getD (arr.length - 1) 0) := by
    have := rd_eq (arr := arr) (i := arr.length - 1) (by omega)
    rwa [Nat.cast_sub (by omega), Nat.cast_one] at this
  have hle := (increasing_of_pairwise h).le (Nat.zero_le (arr.length - 1)) (by omega)
  have hc : (rr - arr.getD 0 0) * (rr - arr.getD (arr.length - 1) 0) > 0 := by
    rcases h1 with h1 | h1
    · exact mul_pos_of_neg_of_neg (by linarith) (by linarith)
    · exact mul_pos (by linarith) (by linarith)
  simp only [bisect, hr0, hrn, bind, Except.bind, if_pos hc]
  rfl

/-- In an array of two values the first one itself is not found. -/
theorem C93_two_points_violation (a b : ℝ) : bisect [a, b] a = .error .bracketing := by
  simp [bisect, rd, bind, Except.bind, bisectLoop]

theorem mapM_ok {f : ℕ → Except Err ℝ} {g : ℕ → ℝ} : ∀ l : List ℕ, (∀ k ∈ l, f k = .ok (g k)) → l.mapM f = .ok (l.map g)
  | [], _ => rfl
  | k :: l, h => by
    rw [List.mapM_cons, h k List.mem_cons_self, mapM_ok l fun j hj => h j (List.mem_cons_of_mem _ hj)]
    rfl

theorem entries_eq {arr : List ℝ} {i s : ℕ} (h : i + s ≤ arr.length) : entries arr i s = .ok ((List.range s).map fun k => arr.getD (i + k) 0) := by
  unfold entries
  refine mapM_ok (g := fun k => arr.getD (i + k) 0) _ fun k hk => ?_
  have := List.mem_range.1 hk
  exact_mod_cast rd_eq (arr := arr) (i := i + k) (by omega)

theorem range_getD (s : ℕ) (f : ℕ → ℝ) {k : ℕ} (h : k < s) : ((List.range s).map f).getD k 0 = f k := by
  rw [List.getD_eq_getElem _ _ (by simpa using h), List.getElem_map, List.getElem_range]

/-- Interpolation of the values of a polynomial of degree less than the number of points. -/
theorem lagrange_exact (s : ℕ) (x : ℕ → ℝ) (hx : ∀ i j, i < j → j < s → x i < x j) (rr : ℝ) (p : Polynomial ℝ) (hp : p.degree < s) :
    ∑ k ∈ Finset.range s, lagrange s x rr k * p.eval (x k) = p.eval rr := by
  have hinj : Set.InjOn x (Finset.range s) := fun i hi j hj e => by
    have hi' := Finset.mem_range.1 hi
    have hj' := Finset.mem_range.1 hj
    rcases Nat.lt_trichotomy i j with h | h | h
    · exact absurd e (hx i j h hj').ne
    · exact h
    · exact absurd e (hx j i h hi').ne'
  have e := congrArg (Polynomial.eval rr) (Lagrange.eq_interpolate hinj (by rw [Finset.card_range]; exact hp))
  rw [Lagrange.interpolate_apply, Polynomial.eval_finsetSum] at e
  rw [e]
  refine Finset.sum_congr rfl fun i hi => ?_
  rw [Polynomial.eval_mul, Polynomial.eval_C, Lagrange.basis, Polynomial.eval_prod, mul_comm, lagrange, ← Finset.prod_div_distrib]
  congr 1
  refine Finset.prod_congr rfl fun j _ => ?_
  rw [Lagrange.basisDivisor, Polynomial.eval_mul, Polynomial.eval_C, Polynomial.eval_sub, Polynomial.eval_X, Polynomial.eval_C, div_eq_inv_mul]

/-- The index at which the stencil starts. -/
theorem idxmin_spec {arr : List ℝ} (h : Increasing arr) {rr : ℝ} {mid s : ℕ} (hs : s ≤ arr.length) (hm : Nearest arr rr mid) (h0 : arr.getD 0 0 ≤ rr)
    (h1 : rr ≤ arr.getD (arr.length - 1) 0) : ∃ i : ℕ, idxmin arr.length s mid = i ∧ i + s ≤ arr.length ∧
      (5 ≤ s → arr.getD i 0 ≤ rr ∧ rr ≤ arr.getD (i + s - 1) 0) := by
  obtain ⟨hm1, hm2⟩ := hm
  refine ⟨(idxmin arr.length s mid).toNat, by unfold idxmin; omega, by unfold idxmin; omega, fun h5 => ?_⟩
  have hlow : ∀ j, j < mid → arr.getD j 0 ≤ rr := fun j hj => by
    by_contra hlt
    push Not at hlt
    have a1 := hm2 j (by omega)
    have a2 := h j mid hj hm1
    rw [abs_of_nonpos (by linarith), abs_of_nonpos (by linarith)] at a1
    linarith
  have hhigh : ∀ j, mid < j → j < arr.length → rr ≤ arr.getD j 0 := fun j hj hj' => by
    by_contra hlt
    push Not at hlt
    have a1 := hm2 j hj'
    have a2 := h mid j hj hj'
    rw [abs_of_nonneg (by linarith), abs_of_nonneg (by linarith)] at a1
    linarith
  set i := (idxmin arr.length s mid).toNat with hi
  have hdef : (i : ℤ) = idxmin arr.length s mid := by rw [hi]; unfold idxmin; omega
  unfold idxmin at hdef
  constructor
  · rcases Nat.eq_zero_or_pos i with h' | h'
    · rw [h']; exact h0
    · exact hlow i (by omega)
  · by_cases h' : i + s = arr.length
    · rw [h']; exact h1
    · exact hhigh _ (by omega) (by omega)

/-- `v` is, for each quantity, the value at `rr` of the polynomial through the values with the `s` indices that start at `i`: if those are the values of
a polynomial of degree less than `s`, then `v` is its value. -/
def PolynomialThrough (A : Arrays) (i s : ℕ) (rr : ℝ) (v : Interpolated) : Prop := ∀ p : Polynomial ℝ, p.degree < s →
  ((∀ k < s, (A.entry (i + k)).rho_energy = p.eval (A.entry (i + k)).r_iso) → v.rho_energy = p.eval rr) ∧
  ((∀ k < s, (A.entry (i + k)).rho_baryon = p.eval (A.entry (i + k)).r_iso) → v.rho_baryon = p.eval rr) ∧
  ((∀ k < s, (A.entry (i + k)).P = p.eval (A.entry (i + k)).r_iso) → v.P = p.eval rr) ∧
  ((∀ k < s, (A.entry (i + k)).M = p.eval (A.entry (i + k)).r_iso) → v.M = p.eval rr) ∧
  ((∀ k < s, (A.entry (i + k)).expnu = p.eval (A.entry (i + k)).r_iso) → v.expnu = p.eval rr) ∧
  ((∀ k < s, (A.entry (i + k)).exp4phi = p.eval (A.entry (i + k)).r_iso) → v.exp4phi = p.eval rr)

/-- Inside the star: the function returns, and the values are those of the polynomial through the values at neighbouring radii, between which the point lies
if there are five or more. -/
theorem C93_interpolation (A : Arrays) (n s smax : ℕ) (hA : A.Size n) (hr : A.r_iso.Pairwise (· < ·)) (h3 : 3 ≤ n) (hs : s ≤ n) (hmax : s ≤ smax) (rr : ℝ)
    (h0 : 0 ≤ rr) (hlow : (A.entry 0).r_iso ≤ 0) (hhigh : rr < (A.entry (n - 1)).r_iso) : ∃ v i, interpolate1D A s smax rr = .ok v ∧ i + s ≤ n ∧
      (5 ≤ s → (A.entry i).r_iso ≤ rr ∧ rr ≤ (A.entry (i + s - 1)).r_iso) ∧ PolynomialThrough A i s rr v := by
  obtain ⟨a1, a2, a3, a4, a5, a6, a7, a8⟩ := hA
  have hinc := increasing_of_pairwise hr
  have hlow' : A.r_iso.getD 0 0 ≤ rr := le_trans hlow h0
  have hhigh' : rr < A.r_iso.getD (A.r_iso.length - 1) 0 := by rw [a8]; exact hhigh
  obtain ⟨mid, hb, hm⟩ := C93_bisection A.r_iso hr (by omega) rr hlow' hhigh'.le
  obtain ⟨i, hi, his, hbr⟩ := idxmin_spec hinc (s := s) (by omega) hm hlow' hhigh'.le
  have hrn : rd A.r_iso ((A.r_iso.length : ℤ) - 1) = .ok (A.r_iso.getD (A.r_iso.length - 1) 0) := by
    have := rd_eq (arr := A.r_iso) (i := A.r_iso.length - 1) (by omega)
    rwa [Nat.cast_sub (by omega), Nat.cast_one] at this
  have hMn : rd A.M ((A.r_iso.length : ℤ) - 1) = .ok (A.M.getD (A.r_iso.length - 1) 0) := by
    have := rd_eq (arr := A.M) (i := A.r_iso.length - 1) (by omega)
    rwa [Nat.cast_sub (by omega), Nat.cast_one] at this
  have hE : ∀ arr : List ℝ, arr.length = n → entries arr i s = .ok ((List.range s).map fun k => arr.getD (i + k) 0) := fun arr ha => entries_eq (by omega)
  let L := lagrange s (fun k => ((List.range s).map fun k => A.r_iso.getD (i + k) 0).getD k 0) rr
  let E : List ℝ → List ℝ := fun arr => (List.range s).map fun k => arr.getD (i + k) 0
  refine ⟨⟨combine s L (E A.rho_energy), combine s L (E A.rho_baryon), combine s L (E A.P), combine s L (E A.M), combine s L (E A.expnu),
    combine s L (E A.exp4phi)⟩, i, ?_, by omega, hbr, ?_⟩
  · simp only [interpolate1D, hrn, hMn, bind, Except.bind, if_pos hhigh', if_neg (not_lt.2 h0), hb, hi, if_neg (not_lt.2 hmax), pure, Except.pure,
      hE _ a1, hE _ a2, hE _ a3, hE _ a4, hE _ a5, hE _ a6, hE _ a7, hE _ a8]
    rfl
  · intro p hp
    have key : ∀ arr : List ℝ, (∀ k < s, arr.getD (i + k) 0 = p.eval (A.r_iso.getD (i + k) 0)) →
        combine s (lagrange s (fun k => ((List.range s).map fun k => A.r_iso.getD (i + k) 0).getD k 0) rr) ((List.range s).map fun k => arr.getD (i + k) 0) =
          p.eval rr := by
      intro arr hk
      rw [← lagrange_exact s (fun k => ((List.range s).map fun k => A.r_iso.getD (i + k) 0).getD k 0) (fun a b hab hb => by
        rw [range_getD _ _ hb, range_getD _ _ (hab.trans hb)]
        exact hinc _ _ (by omega) (by omega)) rr p hp, combine]
      refine Finset.sum_congr rfl fun k hk' => ?_
      have := Finset.mem_range.1 hk'
      simp only [range_getD _ _ this, hk k this]
    exact ⟨key _, key _, key _, key _, key _, key _⟩

/-- Outside the star the values are those of the exterior solution with the mass in the last entry. -/
theorem C93_outside (A : Arrays) (n s smax : ℕ) (hA : A.Size n) (hn : 0 < n) (rr : ℝ) (h : (A.entry (n - 1)).r_iso ≤ rr) :
    ∃ v, interpolate1D A s smax rr = .ok v ∧ v.used = exterior (A.entry (n - 1)).M rr ∧ v.M = (A.entry (n - 1)).M ∧ v.rho_baryon = 0 := by
  obtain ⟨a1, a2, a3, a4, a5, a6, a7, a8⟩ := hA
  have hrn : rd A.r_iso ((A.r_iso.length : ℤ) - 1) = .ok (A.r_iso.getD (n - 1) 0) := by
    have := rd_eq (arr := A.r_iso) (i := n - 1) (by omega)
    rw [a8]
    rwa [Nat.cast_sub (by omega), Nat.cast_one] at this
  have hMn : rd A.M ((A.r_iso.length : ℤ) - 1) = .ok (A.M.getD (n - 1) 0) := by
    have := rd_eq (arr := A.M) (i := n - 1) (by omega)
    rw [a8]
    rwa [Nat.cast_sub (by omega), Nat.cast_one] at this
  refine ⟨⟨0, 0, 0, A.M.getD (n - 1) 0, (exterior (A.M.getD (n - 1) 0) rr).expnu, (exterior (A.M.getD (n - 1) 0) rr).exp4phi⟩, ?_, rfl, rfl, rfl⟩
  · simp only [interpolate1D, hrn, hMn, bind, Except.bind, if_neg (not_lt.2 (show A.r_iso.getD (n - 1) 0 ≤ rr from h)), pure, Except.pure]
    rfl

/-- A stencil larger than the maximum ends the program. -/
theorem C93_stencil_size (A : Arrays) (n s smax : ℕ) (hA : A.Size n) (hr : A.r_iso.Pairwise (· < ·)) (h3 : 3 ≤ n) (hs : smax < s) (rr : ℝ)
    (h0 : 0 ≤ rr) (hlow : (A.entry 0).r_iso ≤ 0) (hhigh : rr < (A.entry (n - 1)).r_iso) : interpolate1D A s smax rr = .error .stencil := by
  obtain ⟨a1, a2, a3, a4, a5, a6, a7, a8⟩ := hA
  have hhigh' : rr < A.r_iso.getD (A.r_iso.length - 1) 0 := by rw [a8]; exact hhigh
  obtain ⟨mid, hb, hm⟩ := C93_bisection A.r_iso hr (by omega) rr (le_trans hlow h0) hhigh'.le
  have hrn : rd A.r_iso ((A.r_iso.length : ℤ) - 1) = .ok (A.r_iso.getD (A.r_iso.length - 1) 0) := by
    have := rd_eq (arr := A.r_iso) (i := A.r_iso.length - 1) (by omega)
    rwa [Nat.cast_sub (by omega), Nat.cast_one] at this
  have hMn : rd A.M ((A.r_iso.length : ℤ) - 1) = .ok (A.M.getD (A.r_iso.length - 1) 0) := by
    have := rd_eq (arr := A.M) (i := A.r_iso.length - 1) (by omega)
    rwa [Nat.cast_sub (by omega), Nat.cast_one] at this
  simp only [interpolate1D, hrn, hMn, bind, Except.bind, if_pos hhigh', if_neg (not_lt.2 h0), hb, if_pos hs]
  rfl

end Verif.TOV
