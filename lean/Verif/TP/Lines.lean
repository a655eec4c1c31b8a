import Verif.TP.Precond

/-! Lemmas for C100: the rows of the matrix, and one relaxation of a line. -/

namespace Verif.TP
open Real

/-! ## The elements of a row -/

theorem idx_inj {n1 n2 n3 : ℕ} {a b : ℕ × ℕ × ℕ} (ha : a ∈ loop3 n1 n2 n3) (hb : b ∈ loop3 n1 n2 n3) (h : idx n1 n2 n3 a = idx n1 n2 n3 b) : a = b :=
  index_nat_inj hb ha h

/-- The element of the matrix of the finite differences in the row of `r` and the column of `c`. -/
noncomputable def element (par : Par) (n1 n2 n3 : ℕ) (u : Derivs) (r c : ℕ × ℕ × ℕ) : ℝ :=
  JFD_times_dv par r.1 r.2.1 r.2.2 n1 n2 n3 (unitAt (idx n1 n2 n3 c)) u

theorem neighbour_row {n1 n2 n3 : ℕ} {r c : ℕ × ℕ × ℕ} (hr : r ∈ loop3 n1 n2 n3) (hc : c ∈ loop3 n1 n2 n3) {q : ℤ × ℤ × ℤ}
    (hq : q ∈ neighbours n1 n2 c.1 c.2.1 c.2.2) (h : Index 0 q.1 q.2.1 q.2.2 1 n1 n2 n3 = idx n1 n2 n3 r) :
    q.1 = r.1 ∧ q.2.1 = r.2.1 ∧ (q.2.2 = r.2.2 ∨ q.2.2 = r.2.2 + n3 ∨ q.2.2 = r.2.2 - n3) := by
  rw [mem_loop3] at hr hc
  rw [mem_neighbours hc.1 hc.2.1] at hq
  obtain ⟨q1, q2, q3, q4, q5⟩ := hq
  obtain ⟨k1, h7, h8⟩ : ∃ k1 : ℤ, (0 ≤ k1 ∧ k1 < n3) ∧ (q.2.2 = k1 ∨ q.2.2 = k1 + n3 ∨ q.2.2 = k1 - n3) := by
    by_cases h : q.2.2 < 0
    · exact ⟨q.2.2 + n3, by omega, by omega⟩
    · by_cases h' : q.2.2 ≥ n3
      · exact ⟨q.2.2 - n3, by omega, by omega⟩
      · exact ⟨q.2.2, by omega, by omega⟩
  rw [Index_wrap h7.1 h7.2 h8] at h
  obtain ⟨e1, e2, e3⟩ := Index_inj q1 q3 h7 ⟨by omega, by omega⟩ ⟨by omega, by omega⟩ ⟨by omega, by omega⟩ h
  exact ⟨e1, e2, by omega⟩

theorem neighbour_value {n1 n2 n3 : ℕ} {r c : ℕ × ℕ × ℕ} (hr : r ∈ loop3 n1 n2 n3) (hc : c ∈ loop3 n1 n2 n3) {q : ℤ × ℤ × ℤ}
    (hq : q ∈ neighbours n1 n2 c.1 c.2.1 c.2.2) (h : Index 0 q.1 q.2.1 q.2.2 1 n1 n2 n3 = idx n1 n2 n3 r) (par : Par) (x : ℤ → ℝ) (u : Derivs) :
    JFD_times_dv par q.1 q.2.1 q.2.2 n1 n2 n3 x u = JFD_times_dv par r.1 r.2.1 r.2.2 n1 n2 n3 x u := by
  obtain ⟨e1, e2, e3⟩ := neighbour_row hr hc hq h
  rw [mem_loop3] at hr
  rw [e1, e2]
  exact JFD_wrap par _ _ x u (by omega) (by omega) e3

theorem exists_stencil {par : Par} {n1 n2 n3 : ℕ} {u : Derivs} {r c : ℕ × ℕ × ℕ} (hr : r ∈ loop3 n1 n2 n3) (h : element par n1 n2 n3 u r c ≠ 0) :
    ∃ o ∈ stencil, Index 0 (r.1 + o.1) (r.2.1 + o.2.1) (r.2.2 + o.2.2) 1 n1 n2 n3 = idx n1 n2 n3 c := by
  by_contra! hn
  rw [mem_loop3] at hr
  refine h ?_
  rw [element, JFD_congr (y := fun _ => 0) u (by omega) (by omega), JFD_zero]
  intro o ho
  rw [unitAt, Function.update_of_ne (hn o ho)]

/-- A node of the stencil of `r` is a node next to `r`, and `r` is among the rows that its column visits. -/
theorem stencil_row {n1 n2 n3 : ℕ} {r c : ℕ × ℕ × ℕ} (hr : r ∈ loop3 n1 n2 n3) (hc : c ∈ loop3 n1 n2 n3) {o : ℤ × ℤ × ℤ} (ho : o ∈ stencil)
    (h : Index 0 (r.1 + o.1) (r.2.1 + o.2.1) (r.2.2 + o.2.2) 1 n1 n2 n3 = idx n1 n2 n3 c) :
    ∃ q ∈ neighbours n1 n2 c.1 c.2.1 c.2.2, Index 0 q.1 q.2.1 q.2.2 1 n1 n2 n3 = idx n1 n2 n3 r := by
  rw [mem_loop3] at hr hc
  obtain ⟨o1, o2, o3⟩ := stencil_near ho
  obtain ⟨i1, j1, k1, h1, h2, h3, h4, h5, h6, h7⟩ := Index_near (n1 := n1) (n2 := n2) (n3 := n3) (i := r.1) (j := r.2.1) (k := r.2.2) ⟨by omega, by omega⟩ ⟨by omega, by omega⟩
    ⟨by omega, by omega⟩ o1 o2 o3
  obtain ⟨e1, e2, e3⟩ := Index_inj (i' := c.1) (j' := c.2.1) (k' := c.2.2) h1 h2 h3 ⟨by omega, by omega⟩ ⟨by omega, by omega⟩ ⟨by omega, by omega⟩ (h4.symm.trans h)
  refine ⟨(r.1, r.2.1, c.2.2 - o.2.2), (mem_neighbours hc.1 hc.2.1 _).2 ⟨⟨?_, ?_⟩, ⟨?_, ?_⟩, ⟨?_, ?_⟩, ⟨?_, ?_⟩, ?_⟩, ?_⟩ <;> dsimp only <;> try omega
  exact Index_wrap (by omega) (by omega) (by omega)

theorem eq_singleton {α : Type} {l : List α} {a : α} (hn : l.Nodup) (ha : a ∈ l) (h : ∀ b ∈ l, b = a) : l = [a] := by
  match l with
  | [] => simp at ha
  | [b] => rw [h b (by simp)]
  | b :: c :: t =>
    have e := (h b (by simp)).trans (h c (by simp)).symm
    simp [e] at hn

theorem entries_eq {par : Par} {n1 n2 n3 : ℕ} (h3 : 3 ≤ n3) {u : Derivs} {r c : ℕ × ℕ × ℕ} (hr : r ∈ loop3 n1 n2 n3) (hc : c ∈ loop3 n1 n2 n3) :
    entries par n1 n2 n3 u (idx n1 n2 n3 r) c = if element par n1 n2 n3 u r c ≠ 0 then [(idx n1 n2 n3 c, element par n1 n2 n3 u r c)] else [] := by
  have hv : ∀ q ∈ neighbours n1 n2 c.1 c.2.1 c.2.2, Index 0 q.1 q.2.1 q.2.2 1 n1 n2 n3 = idx n1 n2 n3 r →
      JFD_times_dv par q.1 q.2.1 q.2.2 n1 n2 n3 (unitAt (idx n1 n2 n3 c)) u = element par n1 n2 n3 u r c :=
    fun q hq h => neighbour_value hr hc hq h par _ u
  by_cases h0 : element par n1 n2 n3 u r c = 0
  · rw [if_neg (by simpa using h0), entries, List.map_eq_nil_iff, List.filter_eq_nil_iff]
    intro q hq h
    simp only [ne_eq, decide_eq_true_eq] at h
    exact h.2 ((hv q hq h.1).trans h0)
  · rw [if_pos h0]
    obtain ⟨o, ho, h⟩ := exists_stencil hr h0
    obtain ⟨q, hq, hqr⟩ := stencil_row hr hc ho h
    have hl : ((neighbours n1 n2 c.1 c.2.1 c.2.2).filter fun q =>
        Index 0 q.1 q.2.1 q.2.2 1 n1 n2 n3 = idx n1 n2 n3 r ∧ JFD_times_dv par q.1 q.2.1 q.2.2 n1 n2 n3 (unitAt (idx n1 n2 n3 c)) u ≠ 0) = [q] := by
      refine eq_singleton ((nodup_neighbours _ _ _ _ _).filter _) (List.mem_filter.2 ⟨hq, ?_⟩) fun b hb => ?_
      · simp only [ne_eq, decide_eq_true_eq]
        exact ⟨hqr, by rwa [hv q hq hqr]⟩
      · obtain ⟨hb, hb'⟩ := List.mem_filter.1 hb
        simp only [ne_eq, decide_eq_true_eq] at hb'
        obtain ⟨a1, a2, a3⟩ := neighbour_row hr hc hb hb'.1
        obtain ⟨b1, b2, b3⟩ := neighbour_row hr hc hq hqr
        rw [mem_loop3] at hc
        obtain ⟨-, -, -, -, c1⟩ := (mem_neighbours hc.1 hc.2.1 _).1 hb
        obtain ⟨-, -, -, -, c2⟩ := (mem_neighbours hc.1 hc.2.1 _).1 hq
        exact Prod.ext (by omega) (Prod.ext (by omega) (by omega))
    rw [entries, hl, List.map_singleton, hv q hq hqr]

theorem row_eq {par : Par} {n1 n2 n3 : ℕ} (h3 : 3 ≤ n3) {u : Derivs} {r : ℕ × ℕ × ℕ} (hr : r ∈ loop3 n1 n2 n3) :
    (SetMatrix_JFD par n1 n2 n3 u).row (idx n1 n2 n3 r) =
      ((loop3 n1 n2 n3).filter fun c => element par n1 n2 n3 u r c ≠ 0).map fun c => (idx n1 n2 n3 c, element par n1 n2 n3 u r c) := by
  rw [row_SetMatrix]
  have : ∀ l : List (ℕ × ℕ × ℕ), (∀ c ∈ l, c ∈ loop3 n1 n2 n3) → l.flatMap (entries par n1 n2 n3 u (idx n1 n2 n3 r)) =
      (l.filter fun c => element par n1 n2 n3 u r c ≠ 0).map fun c => (idx n1 n2 n3 c, element par n1 n2 n3 u r c) := by
    intro l hl
    induction l with
    | nil => rfl
    | cons c l ih =>
      rw [List.flatMap_cons, entries_eq h3 hr (hl c (by simp)), ih fun c hc => hl c (by simp [hc]), List.filter_cons]
      by_cases h : element par n1 n2 n3 u r c = 0 <;> simp [h]
  exact this _ fun c hc => hc

theorem nodup_row {par : Par} {n1 n2 n3 : ℕ} (h3 : 3 ≤ n3) {u : Derivs} {r : ℕ × ℕ × ℕ} (hr : r ∈ loop3 n1 n2 n3) :
    (((SetMatrix_JFD par n1 n2 n3 u).row (idx n1 n2 n3 r)).map Prod.fst).Nodup := by
  rw [row_eq h3 hr, List.map_map]
  refine List.Nodup.map_on (fun a ha b hb h => idx_inj (List.mem_filter.1 ha).1 (List.mem_filter.1 hb).1 h) ((nodup_loop3 _ _ _).filter _)

/-- A column of a row belongs to a node next to the node of the row; for any number of planes. -/
theorem row_near {par : Par} {n1 n2 n3 : ℕ} {u : Derivs} {r : ℕ × ℕ × ℕ} (hr : r ∈ loop3 n1 n2 n3) {cv : ℤ × ℝ}
    (h : cv ∈ (SetMatrix_JFD par n1 n2 n3 u).row (idx n1 n2 n3 r)) :
    ∃ c ∈ loop3 n1 n2 n3, cv.1 = idx n1 n2 n3 c ∧ (c.1 ≤ r.1 + 1 ∧ r.1 ≤ c.1 + 1) ∧ (c.2.1 ≤ r.2.1 + 1 ∧ r.2.1 ≤ c.2.1 + 1) := by
  rw [row_SetMatrix, List.mem_flatMap] at h
  obtain ⟨c, hc, h⟩ := h
  simp only [entries, List.mem_map, List.mem_filter, ne_eq, decide_eq_true_eq] at h
  obtain ⟨q, ⟨hq, hqr, -⟩, rfl⟩ := h
  refine ⟨c, hc, rfl, ?_⟩
  obtain ⟨e1, e2, -⟩ := neighbour_row hr hc hq hqr
  rw [mem_loop3] at hc
  obtain ⟨q1, q2, q3, q4, -⟩ := (mem_neighbours hc.1 hc.2.1 _).1 hq
  omega

theorem length_row {par : Par} {n1 n2 n3 : ℕ} (h3 : 3 ≤ n3) {u : Derivs} {r : ℕ × ℕ × ℕ} (hr : r ∈ loop3 n1 n2 n3) :
    ((SetMatrix_JFD par n1 n2 n3 u).row (idx n1 n2 n3 r)).length ≤ 19 := by
  have h := (nodup_row (par := par) (u := u) h3 hr).subperm (l₂ := stencil.map fun o => Index 0 (r.1 + o.1) (r.2.1 + o.2.1) (r.2.2 + o.2.2) 1 n1 n2 n3) ?_
  · simpa [stencil] using h.length_le
  · intro x hx
    rw [row_eq h3 hr, List.map_map, List.mem_map] at hx
    obtain ⟨c, hc, rfl⟩ := hx
    obtain ⟨hc, h0⟩ := List.mem_filter.1 hc
    simp only [ne_eq, decide_eq_true_eq] at h0
    obtain ⟨o, ho, e⟩ := exists_stencil hr h0
    exact List.mem_map.2 ⟨o, ho, e⟩

/-! ## The product of the matrix with a vector -/

theorem JFD_sum (par : Par) (n1 n2 n3 : ℕ) (u : Derivs) (r : ℕ × ℕ × ℕ) (y : ℤ → ℝ) (l : List (ℕ × ℕ × ℕ)) :
    JFD_times_dv par r.1 r.2.1 r.2.2 n1 n2 n3 (fun m => (l.map fun c => y (idx n1 n2 n3 c) * unitAt (idx n1 n2 n3 c) m).sum) u =
      (l.map fun c => element par n1 n2 n3 u r c * y (idx n1 n2 n3 c)).sum := by
  induction l with
  | nil => simpa using JFD_zero par r.1 r.2.1 r.2.2 n1 n2 n3 u
  | cons c l ih =>
    have e : (fun m => ((c :: l).map fun c => y (idx n1 n2 n3 c) * unitAt (idx n1 n2 n3 c) m).sum) =
        fun m => (l.map fun c => y (idx n1 n2 n3 c) * unitAt (idx n1 n2 n3 c) m).sum + y (idx n1 n2 n3 c) * unitAt (idx n1 n2 n3 c) m := by
      funext m
      rw [List.map_cons, List.sum_cons, add_comm]
    rw [e, JFD_lin, ih, List.map_cons, List.sum_cons, element]
    ring

theorem sum_unit {n1 n2 n3 : ℕ} (y : ℤ → ℝ) {c : ℕ × ℕ × ℕ} (hc : c ∈ loop3 n1 n2 n3) :
    ((loop3 n1 n2 n3).map fun a => y (idx n1 n2 n3 a) * unitAt (idx n1 n2 n3 a) (idx n1 n2 n3 c)).sum = y (idx n1 n2 n3 c) := by
  have : ∀ l : List (ℕ × ℕ × ℕ), l.Nodup → (∀ a ∈ l, a ∈ loop3 n1 n2 n3) →
      (l.map fun a => y (idx n1 n2 n3 a) * unitAt (idx n1 n2 n3 a) (idx n1 n2 n3 c)).sum = if c ∈ l then y (idx n1 n2 n3 c) else 0 := by
    intro l hn hl
    induction l with
    | nil => simp
    | cons a l ih =>
      rw [List.nodup_cons] at hn
      rw [List.map_cons, List.sum_cons, ih hn.2 fun b hb => hl b (by simp [hb])]
      by_cases h : c = a
      · subst h
        rw [if_neg hn.1, if_pos (by simp), unitAt, Function.update_self]
        ring
      · rw [unitAt, Function.update_of_ne fun e => h (idx_inj hc (hl a (by simp)) e)]
        simp [h]
  rw [this _ (nodup_loop3 _ _ _) fun a ha => ha, if_pos hc]

theorem row_product {par : Par} {n1 n2 n3 : ℕ} (h3 : 3 ≤ n3) {u : Derivs} {r : ℕ × ℕ × ℕ} (hr : r ∈ loop3 n1 n2 n3) (y : ℤ → ℝ) :
    (((SetMatrix_JFD par n1 n2 n3 u).row (idx n1 n2 n3 r)).map fun cv => cv.2 * y cv.1).sum = JFD_times_dv par r.1 r.2.1 r.2.2 n1 n2 n3 y u := by
  have e1 : ∀ l : List (ℕ × ℕ × ℕ), (((l.filter fun c => element par n1 n2 n3 u r c ≠ 0).map fun c => (idx n1 n2 n3 c, element par n1 n2 n3 u r c)).map fun cv => cv.2 * y cv.1).sum =
      (l.map fun c => element par n1 n2 n3 u r c * y (idx n1 n2 n3 c)).sum := by
    intro l
    induction l with
    | nil => rfl
    | cons c l ih =>
      rw [List.filter_cons, List.map_cons, List.sum_cons, ← ih]
      by_cases h : element par n1 n2 n3 u r c = 0 <;> simp [h]
  rw [row_eq h3 hr, e1, ← JFD_sum]
  have hr' := mem_loop3.1 hr
  refine JFD_congr u (by omega) (by omega) fun o ho => ?_
  obtain ⟨o1, o2, o3⟩ := stencil_near ho
  obtain ⟨i1, j1, k1, h1, h2, h3, h4, -⟩ := Index_near (n1 := n1) (n2 := n2) (n3 := n3) (i := r.1) (j := r.2.1) (k := r.2.2) ⟨by omega, by omega⟩ ⟨by omega, by omega⟩
    ⟨by omega, by omega⟩ o1 o2 o3
  have hc : (i1.toNat, j1.toNat, k1.toNat) ∈ loop3 n1 n2 n3 := mem_loop3.2 ⟨by dsimp only; omega, by dsimp only; omega, by dsimp only; omega⟩
  have e : Index 0 i1 j1 k1 1 n1 n2 n3 = idx n1 n2 n3 (i1.toNat, j1.toNat, k1.toNat) := by
    rw [idx, Int.toNat_of_nonneg h1.1, Int.toNat_of_nonneg h2.1, Int.toNat_of_nonneg h3.1]
  rw [h4, e, sum_unit y hc]

end Verif.TP
