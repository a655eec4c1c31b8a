import Verif.Diag.Model
import Verif.CurviBC.EigenProps

/-!
Lemmas: the points of the loops, and the values of the indices.
-/
namespace Verif.Diag
open Verif.Py Verif.RefMetric Verif.CurviBC Real

/-! ### Arrays of indices -/

/-- The values of the array of direction `d`, in order. -/
noncomputable def vals (G : Grid) (L : Fin 3 → List Pt) (d : Fin 3) : List ℤ :=
  if L d = [] then counter G.g (G.n d - G.g) else (L d).map (Pt.eval G d)

theorem update_read {l : List (ℤ × ℤ)} (hn : (l.map (·.1)).Nodup) {k v : ℤ} (h : (k, v) ∈ l) (m : ℤ → ℤ) :
    l.foldl (fun (m : ℤ → ℤ) w => Function.update m w.1 w.2) m k = v := by
  induction l generalizing m with
  | nil => cases h
  | cons a l ih =>
    rw [List.map_cons, List.nodup_cons] at hn
    rw [List.foldl_cons]
    rcases List.mem_cons.1 h with rfl | h
    · have key : ∀ (l : List (ℤ × ℤ)) (m : ℤ → ℤ), k ∉ l.map (·.1) →
          l.foldl (fun (m : ℤ → ℤ) w => Function.update m w.1 w.2) m k = m k := by
        intro l
        induction l with
        | nil => intro m _; rfl
        | cons b l ih =>
          intro m hk
          rw [List.map_cons, List.mem_cons, not_or] at hk
          rw [List.foldl_cons, ih _ hk.2, Function.update_of_ne hk.1]
      rw [key _ _ hn.1, Function.update_self]
    · exact ih hn.2 h _

theorem ptWrites_eq {L : Fin 3 → List Pt} (hL : noPoints L = false) (G : Grid) (d : Fin 3) :
    ptWrites G L d = (vals G L d).zipIdx.map fun (e : ℤ × ℕ) => ((e.2 : ℤ), e.1) := by
  unfold ptWrites vals
  rw [hL]
  simp only [Bool.false_eq_true, if_false]
  split_ifs with h
  · rw [show G.n d - 2 * (G.g : ℤ) + G.g = G.n d - G.g by ring]
    unfold counter
    apply List.ext_getElem
    · simp
    · intro i h1 h2
      simp
  · apply List.ext_getElem
    · simp
    · intro i h1 h2
      simp

theorem numpts_eq {L : Fin 3 → List Pt} (hL : noPoints L = false) {G : Grid} (hG : ∀ d, 2 * (G.g : ℤ) < G.n d) (d : Fin 3) :
    numpts G L d = (vals G L d).length := by
  unfold numpts vals
  rw [hL]
  simp only [Bool.false_eq_true, if_false]
  split_ifs with h
  · rw [length_counter]
    have := hG d
    omega
  · simp

/-- Reading the array gives the values in order. -/
theorem ptArray_eq {L : Fin 3 → List Pt} (hL : noPoints L = false) (G : Grid) (junk : ℤ → ℤ) (d : Fin 3) {k : ℕ}
    (hk : k < (vals G L d).length) : ptArray G L junk d (k : ℤ) = (vals G L d)[k] := by
  unfold ptArray
  rw [ptWrites_eq hL]
  refine update_read ?_ ?_ junk
  · rw [List.map_map]
    have e : ((fun x : ℤ × ℤ => x.1) ∘ fun e : ℤ × ℕ => ((e.2 : ℤ), e.1)) = (fun n : ℕ => (n : ℤ)) ∘ Prod.snd := rfl
    rw [e, ← List.map_map, List.zipIdx_map_snd]
    exact List.Nodup.map (fun a b h => by simpa using h) List.nodup_range'
  · refine List.mem_map.2 ⟨((vals G L d)[k], k), ?_, rfl⟩
    rw [List.mem_zipIdx_iff_getElem?]
    simp [hk]

/-- All assignments are inside the arrays. -/
theorem ptWrites_mem {L : Fin 3 → List Pt} (hL : noPoints L = false) {G : Grid} (hG : ∀ d, 2 * (G.g : ℤ) < G.n d) (d : Fin 3)
    {w : ℤ × ℤ} (hw : w ∈ ptWrites G L d) : 0 ≤ w.1 ∧ w.1 < numpts G L d := by
  rw [ptWrites_eq hL] at hw
  obtain ⟨e, he, rfl⟩ := List.mem_map.1 hw
  rw [List.mem_zipIdx_iff_getElem?] at he
  have := (List.getElem?_eq_some_iff.1 he).1
  rw [numpts_eq hL hG]
  simp only
  omega

theorem mem_points {L : Fin 3 → List Pt} (hL : noPoints L = false) {G : Grid} (hG : ∀ d, 2 * (G.g : ℤ) < G.n d)
    (junk : ℤ → ℤ) {p : Idx} : p ∈ points G L junk ↔ ∀ d, p d ∈ vals G L d := by
  unfold points
  rw [List.mem_map]
  constructor
  · rintro ⟨k, hk, rfl⟩ d
    have h := mem_loop.1 hk d
    rw [numpts_eq hL hG] at h
    have h0 : 0 ≤ k d := by fin_cases d <;> simpa using h.1
    obtain ⟨j, hj⟩ := Int.eq_ofNat_of_zero_le h0
    have hlt : j < (vals G L d).length := by have := h.2; omega
    simp only [hj]
    rw [ptArray_eq hL G junk d hlt]
    exact List.getElem_mem _
  · intro h
    choose k hk e using fun d => List.getElem_of_mem (h d)
    refine ⟨fun d => (k d : ℤ), mem_loop.2 fun d => ?_, ?_⟩
    · rw [numpts_eq hL hG]
      have := hk d
      constructor
      · fin_cases d <;> simp
      · exact_mod_cast this
    · funext d
      rw [ptArray_eq hL G junk d (hk d), e d]

theorem nodup_points {L : Fin 3 → List Pt} (hL : noPoints L = false) {G : Grid} (hG : ∀ d, 2 * (G.g : ℤ) < G.n d)
    (junk : ℤ → ℤ) (hn : ∀ d, (vals G L d).Nodup) : (points G L junk).Nodup := by
  unfold points
  refine List.Nodup.map_on ?_ (nodup_loop _ _)
  intro k hk k' hk' e
  funext d
  have h := mem_loop.1 hk d
  have h' := mem_loop.1 hk' d
  rw [numpts_eq hL hG] at h h'
  have h0 : 0 ≤ k d := by fin_cases d <;> simpa using h.1
  have h0' : 0 ≤ k' d := by fin_cases d <;> simpa using h'.1
  obtain ⟨j, hj⟩ := Int.eq_ofNat_of_zero_le h0
  obtain ⟨j', hj'⟩ := Int.eq_ofNat_of_zero_le h0'
  have hlt : j < (vals G L d).length := by have := h.2; omega
  have hlt' : j' < (vals G L d).length := by have := h'.2; omega
  have ed := congrFun e d
  simp only [hj, hj'] at ed
  rw [ptArray_eq hL G junk d hlt, ptArray_eq hL G junk d hlt'] at ed
  have := (List.Nodup.getElem_inj_iff (hn d)).1 ed
  rw [hj, hj', this]

/-! ### Values of the indices -/

theorem truncate_div {a k : ℤ} (ha : 0 ≤ a) (hk : 0 < k) : truncate ((a : ℝ) / k) = a / k := by
  have hk' : (0 : ℝ) < k := by exact_mod_cast hk
  have ha' : (0 : ℝ) ≤ a := by exact_mod_cast ha
  unfold truncate
  rw [if_pos (by positivity), Int.floor_eq_iff]
  have h1 := Int.emod_nonneg a hk.ne'
  have h2 := Int.emod_lt_of_pos a hk
  have h3 := Int.mul_ediv_add_emod a k
  constructor
  · rw [le_div_iff₀ hk']
    have : a / k * k ≤ a := by linarith [mul_comm (a / k) k]
    exact_mod_cast this
  · rw [div_lt_iff₀ hk']
    have : a < (a / k + 1) * k := by linarith [mul_comm (a / k) k, add_mul (a / k) 1 k]
    exact_mod_cast this

theorem eval_half {G : Grid} {d : Fin 3} (h : 0 ≤ G.n d) : Pt.half.eval G d = G.n d / 2 := by
  show truncate _ = _
  rw [← truncate_div h (by norm_num)]
  congr 1
  push_cast
  ring

theorem eval_quarter {G : Grid} {d : Fin 3} (h : 2 ≤ G.n d - 2 * G.g) :
    Pt.quarter.eval G d = G.g + (G.n d - 2 * G.g - 2) / 4 := by
  show truncate _ = _
  rw [show (G.g : ℤ) + (G.n d - 2 * G.g - 2) / 4 = (4 * G.g + (G.n d - 2 * G.g - 2)) / 4 by omega,
    ← truncate_div (by omega) (by norm_num)]
  congr 1
  push_cast
  ring

theorem eval_threeQuarters {G : Grid} {d : Fin 3} (h : 2 ≤ G.n d - 2 * G.g) :
    Pt.threeQuarters.eval G d = G.g + (3 * (G.n d - 2 * G.g) - 2) / 4 := by
  show truncate _ = _
  rw [show (G.g : ℤ) + (3 * (G.n d - 2 * G.g) - 2) / 4 = (4 * G.g + (3 * (G.n d - 2 * G.g) - 2)) / 4 by omega,
    ← truncate_div (by omega) (by norm_num)]
  congr 1
  push_cast
  ring

/-! ### Coordinates -/

/-- Distance of a coordinate from the middle of its range, in half steps. -/
theorem xx_mid {G : Grid} {c : Coords} {d : Fin 3} (h : 2 * (G.g : ℤ) < G.n d) (j : ℤ) :
    xx G c d j = (c.xxmin d + c.xxmax d) / 2 + ((2 * j + 1 - G.n d : ℤ) : ℝ) * (dxx G c d / 2) := by
  have hN : ((G.n d - 2 * G.g : ℤ) : ℝ) ≠ 0 := by exact_mod_cast (by omega : G.n d - 2 * G.g ≠ 0)
  unfold xx dxx
  field_simp
  push_cast
  ring

/-- The middle index is nearest to the middle. -/
theorem half_near (n j : ℤ) : |((2 * (n / 2) + 1 - n : ℤ) : ℝ)| ≤ |((2 * j + 1 - n : ℤ) : ℝ)| := by
  have : |2 * (n / 2) + 1 - n| ≤ |2 * j + 1 - n| := by
    rcases abs_cases (2 * (n / 2) + 1 - n) with h | h <;> rcases abs_cases (2 * j + 1 - n) with h' | h' <;> omega
  exact_mod_cast this

theorem xx_half_near {G : Grid} {c : Coords} {d : Fin 3} (h : 2 * (G.g : ℤ) < G.n d) (j : ℤ) :
    |xx G c d (G.n d / 2) - (c.xxmin d + c.xxmax d) / 2| ≤ |xx G c d j - (c.xxmin d + c.xxmax d) / 2| := by
  rw [xx_mid h, xx_mid h, add_sub_cancel_left, add_sub_cancel_left, abs_mul, abs_mul]
  exact mul_le_mul_of_nonneg_right (half_near _ _) (abs_nonneg _)

/-- An interior coordinate is inside the range. -/
theorem xx_inside {G : Grid} {c : Coords} {d : Fin 3} (hr : c.xxmin d < c.xxmax d) {j : ℤ} (h0 : (G.g : ℤ) ≤ j)
    (h1 : j < G.n d - G.g) : c.xxmin d < xx G c d j ∧ xx G c d j < c.xxmax d := by
  have hN : (0 : ℝ) < ((G.n d - 2 * G.g : ℤ) : ℝ) := by exact_mod_cast (by omega : 0 < G.n d - 2 * (G.g : ℤ))
  have hdx : 0 < dxx G c d := div_pos (by linarith) hN
  have e : c.xxmax d = c.xxmin d + ((G.n d - 2 * G.g : ℤ) : ℝ) * dxx G c d := by
    unfold dxx; field_simp; ring
  have k0 : (0 : ℝ) ≤ ((j - G.g : ℤ) : ℝ) := by exact_mod_cast (by omega : 0 ≤ j - (G.g : ℤ))
  have k1 : ((j - G.g : ℤ) : ℝ) + 1 ≤ ((G.n d - 2 * G.g : ℤ) : ℝ) := by
    exact_mod_cast (by omega : j - (G.g : ℤ) + 1 ≤ G.n d - 2 * G.g)
  constructor
  · unfold xx
    have : 0 < (((j - G.g : ℤ) : ℝ) + 1 / 2) * dxx G c d := by positivity
    linarith
  · rw [e]
    unfold xx
    have : (((j - G.g : ℤ) : ℝ) + 1 / 2) * dxx G c d < ((G.n d - 2 * G.g : ℤ) : ℝ) * dxx G c d :=
      mul_lt_mul_of_pos_right (by linarith) hdx
    linarith

theorem sin_sq_le {a b : ℝ} (h : |a| ≤ |b|) (hb : |b| ≤ π / 2) : sin a ^ 2 ≤ sin b ^ 2 := by
  have h1 : 0 ≤ sin |a| := sin_nonneg_of_nonneg_of_le_pi (abs_nonneg _) (by linarith [pi_pos])
  have h2 : sin |a| ≤ sin |b| := sin_le_sin_of_le_of_le_pi_div_two (by linarith [pi_pos, abs_nonneg a]) hb h
  have e : ∀ t : ℝ, sin t ^ 2 = sin |t| ^ 2 := fun t => by
    rcases abs_cases t with ⟨e, -⟩ | ⟨e, -⟩ <;> rw [e]
    rw [sin_neg, neg_sq]
  rw [e a, e b]
  exact pow_le_pow_left₀ h1 h2 2

/-- Polar angles: the middle index is nearest to the equatorial plane. -/
theorem cos_half {G : Grid} {c : Coords} {d : Fin 3} (h : 2 * (G.g : ℤ) < G.n d) (hr : c.xxmin d < c.xxmax d)
    (hs : c.xxmin d + c.xxmax d = π) (h0 : 0 ≤ c.xxmin d) {j : ℤ} (hj : (G.g : ℤ) ≤ j) (hj' : j < G.n d - G.g) :
    cos (xx G c d (G.n d / 2)) ^ 2 ≤ cos (xx G c d j) ^ 2 := by
  have k := xx_half_near (c := c) h j
  have i := xx_inside (c := c) hr hj hj'
  rw [hs] at k
  have e : ∀ t : ℝ, cos t ^ 2 = sin (t - π / 2) ^ 2 := fun t => by rw [sin_sub_pi_div_two, neg_sq]
  rw [e, e]
  refine sin_sq_le k ?_
  rw [abs_le]
  constructor <;> linarith

/-- Azimuths of a wedge: the middle index is nearest to zero. -/
theorem sin_half {G : Grid} {c : Coords} {d : Fin 3} (h : 2 * (G.g : ℤ) < G.n d) (hr : c.xxmin d < c.xxmax d)
    (hs : c.xxmin d + c.xxmax d = 0) (h0 : -(π / 2) ≤ c.xxmin d) {j : ℤ} (hj : (G.g : ℤ) ≤ j) (hj' : j < G.n d - G.g) :
    sin (xx G c d (G.n d / 2)) ^ 2 ≤ sin (xx G c d j) ^ 2 := by
  have k := xx_half_near (c := c) h j
  have i := xx_inside (c := c) hr hj hj'
  rw [hs, zero_div, sub_zero, sub_zero] at k
  refine sin_sq_le k ?_
  rw [abs_le]
  constructor <;> linarith

/-- Polar angles: the first and the last index are nearest to the axis. -/
theorem sin_ends {G : Grid} {c : Coords} {d : Fin 3} (h0 : c.xxmin d = 0) (h1 : c.xxmax d = π)
    {j : ℤ} (hj : (G.g : ℤ) ≤ j) (hj' : j < G.n d - G.g) :
    sin (xx G c d G.g) ^ 2 ≤ sin (xx G c d j) ^ 2 ∧ sin (xx G c d (G.n d - G.g - 1)) ^ 2 ≤ sin (xx G c d j) ^ 2 := by
  have h : 2 * (G.g : ℤ) < G.n d := by omega
  have hπ := pi_pos
  have hr : c.xxmin d < c.xxmax d := by rw [h0, h1]; exact hπ
  have e : ∀ i : ℤ, xx G c d i = π / 2 + ((2 * i + 1 - G.n d : ℤ) : ℝ) * (dxx G c d / 2) := fun i => by
    rw [xx_mid h, h0, h1, zero_add]
  have hN : (0 : ℝ) < ((G.n d - 2 * G.g : ℤ) : ℝ) := by exact_mod_cast (by omega : 0 < G.n d - 2 * (G.g : ℤ))
  have hdx : 0 < dxx G c d := div_pos (by linarith) hN
  have key : ∀ i i' : ℤ, (G.g : ℤ) ≤ i → i < G.n d - G.g → |2 * i' + 1 - G.n d| ≤ |2 * i + 1 - G.n d| →
      sin (xx G c d i) ^ 2 ≤ sin (xx G c d i') ^ 2 := by
    intro i i' a b hle
    have ha : |((2 * i' + 1 - G.n d : ℤ) : ℝ) * (dxx G c d / 2)| ≤ |((2 * i + 1 - G.n d : ℤ) : ℝ) * (dxx G c d / 2)| := by
      rw [abs_mul, abs_mul]
      exact mul_le_mul_of_nonneg_right (by exact_mod_cast hle) (abs_nonneg _)
    have hb : |((2 * i + 1 - G.n d : ℤ) : ℝ) * (dxx G c d / 2)| ≤ π / 2 := by
      have i1 := xx_inside (c := c) hr a b
      rw [e, h0, h1] at i1
      rw [abs_le]
      constructor <;> linarith
    have := sin_sq_le ha hb
    rw [e, e, sin_sq, sin_sq, add_comm (π / 2), add_comm (π / 2), cos_add_pi_div_two, cos_add_pi_div_two, neg_sq, neg_sq]
    linarith
  constructor
  · refine key _ _ le_rfl (by omega) ?_
    rcases abs_cases (2 * (G.g : ℤ) + 1 - G.n d) with h | h <;> rcases abs_cases (2 * j + 1 - G.n d) with h' | h' <;> omega
  · refine key _ _ (by omega) (by omega) ?_
    rcases abs_cases (2 * (G.n d - G.g - 1) + 1 - G.n d) with h | h <;>
      rcases abs_cases (2 * j + 1 - G.n d) with h' | h' <;> omega

/-! ### Azimuths of a full circle -/

theorem xx_azimuth {G : Grid} {c : Coords} {d : Fin 3} (h0 : c.xxmin d = -π) (h1 : c.xxmax d = π) (j : ℤ) :
    xx G c d j = azimuth (G.n d - 2 * G.g) (j - G.g) := by
  unfold xx azimuth dxx
  rw [h0, h1]
  congr 2
  ring

theorem cos_le_cos_mod {N s : ℤ} (hN : 0 < N) (hs : s % N ≠ 0) : cos ((s : ℝ) * (2 * π / N)) ≤ cos (2 * π / N) := by
  have hN' : (0 : ℝ) < N := by exact_mod_cast hN
  have hπ := pi_pos
  have e : (s : ℝ) * (2 * π / N) = ((s % N : ℤ) : ℝ) * (2 * π / N) + ((s / N : ℤ) : ℝ) * (2 * π) := by
    have : (s : ℝ) = ((s % N : ℤ) : ℝ) + N * ((s / N : ℤ) : ℝ) := by exact_mod_cast (Int.emod_add_mul_ediv s N).symm
    rw [this]
    push_cast
    field_simp
  rw [e, cos_add_int_mul_two_pi]
  have r0 : 1 ≤ s % N := by have := Int.emod_nonneg s hN.ne'; omega
  have r1 : s % N + 1 ≤ N := Int.emod_lt_of_pos s hN
  have r0' : (1 : ℝ) ≤ ((s % N : ℤ) : ℝ) := by exact_mod_cast r0
  have r1' : ((s % N : ℤ) : ℝ) + 1 ≤ (N : ℝ) := by exact_mod_cast r1
  generalize ((s % N : ℤ) : ℝ) = r at *
  have hα : 0 < 2 * π / N := by positivity
  have hNα : (N : ℝ) * (2 * π / N) = 2 * π := by field_simp
  generalize 2 * π / (N : ℝ) = α at *
  have b1 : α ≤ r * α := by nlinarith
  have b2 : r * α ≤ 2 * π - α := by nlinarith
  rcases le_total (r * α) π with h | h
  · exact cos_le_cos_of_nonneg_of_le_pi hα.le h b1
  · rw [← cos_two_pi_sub]
    exact cos_le_cos_of_nonneg_of_le_pi hα.le (by linarith) (by linarith)

/-- The two planes of azimuth nearest to the `yz` plane. -/
theorem cos_azimuth {N : ℤ} (hN : 0 < N) (he : N % 2 = 0) (k : ℤ) :
    cos (azimuth N ((N - 2) / 4)) ^ 2 ≤ cos (azimuth N k) ^ 2 := by
  have hN' : (N : ℝ) ≠ 0 := by exact_mod_cast hN.ne'
  have e : ∀ k : ℤ, cos (azimuth N k) ^ 2 = 1 / 2 + cos (((2 * k + 1 : ℤ) : ℝ) * (2 * π / N)) / 2 := fun k => by
    rw [cos_sq]
    congr 2
    rw [show 2 * azimuth N k = ((2 * k + 1 : ℤ) : ℝ) * (2 * π / N) - 2 * π by
      unfold azimuth; push_cast; ring, cos_sub_two_pi]
  rw [e, e]
  have hm : N % 4 = 0 ∨ N % 4 = 2 := by omega
  suffices cos (((2 * ((N - 2) / 4) + 1 : ℤ) : ℝ) * (2 * π / N)) ≤ cos (((2 * k + 1 : ℤ) : ℝ) * (2 * π / N)) by linarith
  rcases hm with hm | hm
  · have e1 : ((2 * ((N - 2) / 4) + 1 : ℤ) : ℝ) * (2 * π / N) = π - 2 * π / N := by
      have : (2 * (2 * ((N - 2) / 4) + 1) : ℤ) = N - 2 := by omega
      have h' : (2 : ℝ) * ((2 * ((N - 2) / 4) + 1 : ℤ) : ℝ) = N - 2 := by exact_mod_cast this
      have : ((2 * ((N - 2) / 4) + 1 : ℤ) : ℝ) = (N - 2) / 2 := by linarith
      rw [this]
      field_simp
    have e2 : cos (((2 * k + 1 : ℤ) : ℝ) * (2 * π / N)) = -cos (((2 * k + 1 - N / 2 : ℤ) : ℝ) * (2 * π / N)) := by
      have h' : ((N / 2 : ℤ) : ℝ) = (N : ℝ) / 2 := by
        rw [eq_div_iff (by norm_num)]
        exact_mod_cast Int.ediv_mul_cancel (Int.dvd_of_emod_eq_zero he)
      rw [← cos_add_pi]
      congr 1
      push_cast
      rw [h']
      field_simp
      ring
    rw [e1, e2, cos_pi_sub, neg_le_neg_iff]
    refine cos_le_cos_mod hN ?_
    intro hz
    have := Int.emod_emod_of_dvd (2 * k + 1 - N / 2) (Int.dvd_of_emod_eq_zero he)
    rw [hz] at this
    omega
  · have e1 : ((2 * ((N - 2) / 4) + 1 : ℤ) : ℝ) * (2 * π / N) = π := by
      have : (2 * (2 * ((N - 2) / 4) + 1) : ℤ) = N := by omega
      have h' : (2 : ℝ) * ((2 * ((N - 2) / 4) + 1 : ℤ) : ℝ) = N := by exact_mod_cast this
      have : ((2 * ((N - 2) / 4) + 1 : ℤ) : ℝ) = N / 2 := by linarith
      rw [this]
      field_simp
    rw [e1, cos_pi]
    exact neg_one_le_cos _

theorem threeQuarters_turn {N : ℤ} (he : N % 2 = 0) : (3 * N - 2) / 4 = (N - 2) / 4 + N / 2 := by omega
end Verif.Diag
