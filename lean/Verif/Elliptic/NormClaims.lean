import Verif.Elliptic.Norm

/-!
# The norm of the residual (C109)
-/
namespace Verif.Elliptic
open Verif.Py Verif.RefMetric Verif.Grids Real

open Classical in
/-- The interior points within a distance of the origin. -/
noncomputable def region (g : ℕ) (G : GridData) (R : ℝ) : List Idx :=
  (interior g G).filter fun i => radius (G.sys.toCart (G.point i)) < R

/-- The volume of the cell of a grid point: the product of the spacings. -/
noncomputable def cellVolume (G : GridData) (i : Idx) : ℝ := spacing G i 0 * spacing G i 1 * spacing G i 2

/-- Root of the mean of the squares, with weights. -/
noncomputable def rms (w f : Idx → ℝ) (l : List Idx) : ℝ := √((l.map fun i => f i ^ 2 * w i).sum / (l.map w).sum)

/-- The planes of the interior are distributed over the threads, each to one. -/
def Shared (g : ℕ) (G : GridData) (chunks : List (List ℕ)) : Prop :=
  chunks.flatten.Perm ((List.range (G.params.Nxx 2).toNat).map fun a => g + a)

/-- What a point adds to the sums. -/
noncomputable def pt (G : GridData) (R : ℝ) (f : Arr) (i : Idx) : ℝ × ℝ := addPoint G R f 0 i

theorem addPoint_eq (G : GridData) (R : ℝ) (f : Arr) (s : ℝ × ℝ) (i : Idx) : addPoint G R f s i = s + pt G R f i := by
  unfold pt addPoint
  dsimp only
  split
  · ext <;> simp
  · simp

theorem foldl_add {α : Type} (F : ℝ × ℝ → α → ℝ × ℝ) (p : α → ℝ × ℝ) (h : ∀ s a, F s a = s + p a) :
    ∀ (l : List α) (s : ℝ × ℝ), l.foldl F s = s + (l.map p).sum
  | [], s => by simp
  | a :: l, s => by rw [List.foldl_cons, foldl_add F p h l, h]; simp [add_assoc]

theorem sums_eq {g : ℕ} {G : GridData} {R : ℝ} {f : Arr} {chunks : List (List ℕ)} (hc : Shared g G chunks) :
    sums g G R f chunks = ((interior g G).map (pt G R f)).sum := by
  unfold sums
  rw [foldl_add _ (fun chunk => ((chunk.flatMap fun i2 =>
    plane g (G.params.Nxx 0).toNat (G.params.Nxx 1).toNat i2).map (pt G R f)).sum) (fun s c => by
      rw [foldl_add _ _ (addPoint_eq G R f), Prod.mk_zero_zero, zero_add])]
  have key : ∀ l : List (List ℕ), (l.map fun chunk => ((chunk.flatMap fun i2 =>
      plane g (G.params.Nxx 0).toNat (G.params.Nxx 1).toNat i2).map (pt G R f)).sum).sum =
      ((l.flatten.flatMap fun i2 => plane g (G.params.Nxx 0).toNat (G.params.Nxx 1).toNat i2).map (pt G R f)).sum := by
    intro l
    induction l with
    | nil => rfl
    | cons c l ih => simp only [List.map_cons, List.sum_cons, ih, List.flatten_cons, List.flatMap_append, List.map_append, List.sum_append]
  rw [key, Prod.mk_zero_zero, zero_add]
  have hp := (hc.flatMap_right fun i2 => plane g (G.params.Nxx 0).toNat (G.params.Nxx 1).toNat i2).map (pt G R f)
  rw [hp.sum_eq]
  unfold interior
  rw [List.flatMap_map]

theorem sum_div (l : List Idx) (a : Idx → ℝ) (D : ℝ) : (l.map fun i => a i / D).sum = (l.map a).sum / D := by
  induction l with
  | nil => simp
  | cons i l ih => simp [ih, add_div]

section
variable {g : ℕ} {cf : ℝ} {s : Spec} {G : GridData} (h : s.setUp g cf = some G) (hR : Regular g G)
include h hR

theorem cell_pos {i : Idx} (hi : Interior g G i) : 0 < cellVolume G i :=
  mul_pos (mul_pos (interior_spacing h hR hi 0).2 (interior_spacing h hR hi 1).2) (interior_spacing h hR hi 2).2

theorem region_interior {R : ℝ} {i : Idx} (hi : i ∈ region g G R) : Interior g G i :=
  mem_interior.1 (List.mem_filter.1 hi).1

theorem sums_region {R : ℝ} {f : Arr} {chunks : List (List ℕ)} (hc : Shared g G chunks) :
    sums g G R f chunks =
      (((region g G R).map fun i => f i ^ 2 * cellVolume G i ^ 2).sum / (G.params.dxx 0 * G.params.dxx 1 * G.params.dxx 2),
        ((region g G R).map fun i => cellVolume G i ^ 2).sum / (G.params.dxx 0 * G.params.dxx 1 * G.params.dxx 2)) := by
  classical
  rw [sums_eq hc, ← sum_div, ← sum_div]
  have key : ∀ l : List Idx, (∀ i ∈ l, Interior g G i) → (l.map (pt G R f)).sum =
      (((l.filter fun i => radius (G.sys.toCart (G.point i)) < R).map fun i =>
          f i ^ 2 * cellVolume G i ^ 2 / (G.params.dxx 0 * G.params.dxx 1 * G.params.dxx 2)).sum,
        ((l.filter fun i => radius (G.sys.toCart (G.point i)) < R).map fun i =>
          cellVolume G i ^ 2 / (G.params.dxx 0 * G.params.dxx 1 * G.params.dxx 2)).sum) := by
    intro l hl
    induction l with
    | nil => rfl
    | cons i l ih =>
      have hi := hl i (by simp)
      rw [List.map_cons, List.sum_cons, ih fun j hj => hl j (by simp [hj])]
      unfold pt addPoint
      rw [(interior_scale h hR hi).2]
      dsimp only
      have hd := (interior_domain h hR hi).2
      have e : detgammahat G.sys.scale (G.point i) * G.params.dxx 0 * G.params.dxx 1 * G.params.dxx 2 =
          cellVolume G i ^ 2 / (G.params.dxx 0 * G.params.dxx 1 * G.params.dxx 2) := by
        unfold cellVolume
        rw [det_ghat, ← (interior_spacing h hR hi 0).1, ← (interior_spacing h hR hi 1).1, ← (interior_spacing h hR hi 2).1]
        have h0 := (hd 0).ne'
        have h1 := (hd 1).ne'
        have h2 := (hd 2).ne'
        field_simp
      by_cases hr : radius (G.sys.toCart (G.point i)) < R
      · rw [if_pos hr, List.filter_cons_of_pos (by simpa using hr)]
        simp only [List.map_cons, List.sum_cons, Prod.mk_add_mk, Prod.fst_zero, Prod.snd_zero, zero_add, e]
        congr 2
        ring
      · rw [if_neg hr, List.filter_cons_of_neg (by simpa using hr), zero_add]
  rw [key _ fun i hi => mem_interior.1 hi]
  rfl

theorem sum_pos_of {l : List Idx} (w : Idx → ℝ) (hw : ∀ i ∈ l, 0 < w i) (hl : l ≠ []) : 0 < (l.map w).sum := by
  refine List.sum_pos _ (fun x hx => ?_) (by simpa using hl)
  obtain ⟨i, hi, rfl⟩ := List.mem_map.1 hx
  exact hw i hi

/-- C109, norm of the residual, however the loop is distributed over threads and whatever was in the memory of the
diagnostics before: NaN if no point is within the radius, and otherwise the logarithm of 1e-16 plus the root of the mean of the squares of
the residual over the interior points within the radius.  Missing: the weights should be the volumes of the cells, they are the squares
of the volumes (`C109_norm_violation`). -/
theorem C109_norm_partial {R : ℝ} {H : Idx → ℝ} {D : Arr} {chunks : List (List ℕ)} (hc : Shared g G chunks) :
    l2norm g G R (residual g G H D) chunks = if region g G R = [] then none else
      some (logb 10 (1e-16 + rms (fun i => cellVolume G i ^ 2) H (region g G R))) := by
  have hres : ∀ i ∈ region g G R, residual g G H D i = H i := fun i hi => by
    unfold residual
    rw [assign_eq, if_pos (List.mem_filter.1 hi).1]
  unfold l2norm
  dsimp only
  rw [sums_region h hR hc]
  by_cases hr : region g G R = []
  · rw [if_pos hr, hr]; simp
  · have hd : ∃ i, Interior g G i := by
      obtain ⟨i, hi⟩ := List.exists_mem_of_ne_nil _ hr
      exact ⟨i, region_interior h hR hi⟩
    obtain ⟨i, hi⟩ := hd
    have hdx := (interior_domain h hR hi).2
    have hDpos : 0 < G.params.dxx 0 * G.params.dxx 1 * G.params.dxx 2 := mul_pos (mul_pos (hdx 0) (hdx 1)) (hdx 2)
    have hs := sum_pos_of h hR (l := region g G R) (fun i => cellVolume G i ^ 2)
      (fun i hi => pow_pos (cell_pos h hR (region_interior h hR hi)) 2) hr
    rw [if_neg hr, if_neg (div_pos hs hDpos).ne']
    dsimp only
    unfold rms
    rw [div_div_div_cancel_right₀ hDpos.ne']
    rw [List.map_congr_left fun i hi => by rw [hres i hi]]

/-- C109, meaning of the norm: if the residual is at most `ε` everywhere, the norm is at most the logarithm of `1e-16 + ε`; and if the norm is
below the tolerance `T`, then at every point the residual is below `10^T`, up to a factor that depends on the grid only. -/
theorem C109_norm_bounds_partial {R : ℝ} {H : Idx → ℝ} {D : Arr} {chunks : List (List ℕ)} (hc : Shared g G chunks) {r : ℝ}
    (hr : l2norm g G R (residual g G H D) chunks = some r) :
    (∀ ε, 0 ≤ ε → (∀ i ∈ region g G R, |H i| ≤ ε) → r ≤ logb 10 (1e-16 + ε)) ∧
      ∀ T, r < T → ∀ i ∈ region g G R,
        |H i| < 10 ^ T * √(((region g G R).map fun j => cellVolume G j ^ 2).sum / cellVolume G i ^ 2) := by
  rw [C109_norm_partial h hR hc] at hr
  split at hr
  · cases hr
  rename_i hne
  have hr' := (Option.some.inj hr).symm
  have hw : ∀ i ∈ region g G R, 0 < cellVolume G i ^ 2 := fun i hi => pow_pos (cell_pos h hR (region_interior h hR hi)) 2
  have hs := sum_pos_of h hR (l := region g G R) (fun i => cellVolume G i ^ 2) hw hne
  have h10 : (1 : ℝ) < 10 := by norm_num
  have hpos : 0 < 1e-16 + rms (fun i => cellVolume G i ^ 2) H (region g G R) :=
    add_pos_of_pos_of_nonneg (by norm_num) (sqrt_nonneg _)
  constructor
  · intro ε hε hH
    rw [hr']
    refine logb_le_logb_of_le h10 hpos ?_
    gcongr
    unfold rms
    rw [sqrt_le_left hε, div_le_iff₀ hs, ← List.sum_map_mul_left]
    refine List.sum_le_sum fun i hi => ?_
    have := sq_le_sq' (by linarith [(abs_le.1 (hH i hi)).1]) (abs_le.1 (hH i hi)).2
    exact mul_le_mul_of_nonneg_right this (hw i hi).le
  · intro T hT i hi
    rw [hr', logb_lt_iff_lt_rpow h10 hpos] at hT
    have hlt : rms (fun i => cellVolume G i ^ 2) H (region g G R) < 10 ^ T := by linarith [show (0:ℝ) < 1e-16 by norm_num]
    have hle : H i ^ 2 * cellVolume G i ^ 2 ≤ ((region g G R).map fun i => H i ^ 2 * cellVolume G i ^ 2).sum := by
      refine List.single_le_sum (fun x hx => ?_) _ (List.mem_map.2 ⟨i, hi, rfl⟩)
      obtain ⟨j, -, rfl⟩ := List.mem_map.1 hx
      positivity
    have hv := hw i hi
    have : |H i| ≤ rms (fun i => cellVolume G i ^ 2) H (region g G R) *
        √(((region g G R).map fun j => cellVolume G j ^ 2).sum / cellVolume G i ^ 2) := by
      unfold rms
      rw [← sqrt_mul (div_nonneg ((by positivity : (0:ℝ) ≤ H i ^ 2 * cellVolume G i ^ 2).trans hle) hs.le)]
      refine abs_le_sqrt ?_
      rw [div_mul_div_cancel₀ hs.ne', le_div_iff₀ hv]
      exact hle
    exact lt_of_le_of_lt this (mul_lt_mul_of_pos_right hlt (sqrt_pos.2 (div_pos hs hv)))

/-- C109, the norm is not the volume norm: on every grid with two cells of different volumes in the region there is a residual whose norm
is not that with the volumes of the cells as weights. -/
theorem C109_norm_violation {R : ℝ} {chunks : List (List ℕ)} (hc : Shared g G chunks) {p q : Idx} (hp : p ∈ region g G R)
    (hq : q ∈ region g G R) (hpq : cellVolume G p ≠ cellVolume G q) :
    ∃ H : Idx → ℝ, ∀ D, l2norm g G R (residual g G H D) chunks ≠ some (logb 10 (1e-16 + rms (cellVolume G) H (region g G R))) := by
  classical
  by_contra hcon
  push Not at hcon
  have hne : region g G R ≠ [] := List.ne_nil_of_mem hp
  have hw : ∀ i ∈ region g G R, 0 < cellVolume G i := fun i hi => cell_pos h hR (region_interior h hR hi)
  have hs1 := sum_pos_of h hR (l := region g G R) (cellVolume G) hw hne
  have hs2 := sum_pos_of h hR (l := region g G R) (fun i => cellVolume G i ^ 2) (fun i hi => pow_pos (hw i hi) 2) hne
  have hnd : (region g G R).Nodup := (nodup_interior g G).filter _
  have one : ∀ (w : Idx → ℝ) (j : Idx), j ∈ region g G R →
      ((region g G R).map fun i => (if i = j then (1 : ℝ) else 0) ^ 2 * w i).sum = w j := by
    intro w j hj
    rw [List.map_congr_left (g := fun i => if i = j then w i else 0) (fun i _ => by split <;> simp), ← List.sum_toFinset _ hnd]
    simp [List.mem_toFinset, hj]
  have key : ∀ j ∈ region g G R, cellVolume G j =
      ((region g G R).map fun i => cellVolume G i ^ 2).sum / ((region g G R).map (cellVolume G)).sum := by
    intro j hj
    obtain ⟨D, hD⟩ := hcon fun i => if i = j then 1 else 0
    rw [C109_norm_partial h hR hc, if_neg hne] at hD
    have e := logb_injOn_pos (b := 10) (by norm_num)
      (show _ ∈ Set.Ioi (0 : ℝ) from add_pos_of_pos_of_nonneg (by norm_num) (sqrt_nonneg _))
      (show _ ∈ Set.Ioi (0 : ℝ) from add_pos_of_pos_of_nonneg (by norm_num) (sqrt_nonneg _)) (Option.some.inj hD)
    have e' := add_left_cancel e
    unfold rms at e'
    rw [one _ j hj, one _ j hj, sqrt_inj (div_nonneg (by positivity) hs2.le) (div_nonneg (hw j hj).le hs1.le),
      div_eq_div_iff hs2.ne' hs1.ne'] at e'
    rw [eq_div_iff hs1.ne']
    have hj0 := (hw j hj).ne'
    apply mul_left_cancel₀ hj0
    linear_combination e'
  exact hpq ((key p hp).trans (key q hq).symm)

/-- C109, uniform cells: if all cells of the region have one volume, as on a Cartesian grid, the norm is the volume norm. -/
theorem C109_norm_uniform {R v : ℝ} {H : Idx → ℝ} {D : Arr} {chunks : List (List ℕ)} (hc : Shared g G chunks)
    (hne : region g G R ≠ []) (hv : ∀ i ∈ region g G R, cellVolume G i = v) :
    l2norm g G R (residual g G H D) chunks = some (logb 10 (1e-16 + rms (cellVolume G) H (region g G R))) := by
  rw [C109_norm_partial h hR hc, if_neg hne]
  obtain ⟨i, hi⟩ := List.exists_mem_of_ne_nil _ hne
  have hv0 : v ≠ 0 := by rw [← hv i hi]; exact (cell_pos h hR (region_interior h hR hi)).ne'
  have e1 : ((region g G R).map fun i => H i ^ 2 * cellVolume G i ^ 2).sum =
      ((region g G R).map fun i => H i ^ 2 * cellVolume G i).sum * v := by
    rw [← List.sum_map_mul_right]
    exact congrArg List.sum (List.map_congr_left fun i hi => by rw [hv i hi]; ring)
  have e2 : ((region g G R).map fun i => cellVolume G i ^ 2).sum = ((region g G R).map (cellVolume G)).sum * v := by
    rw [← List.sum_map_mul_right]
    exact congrArg List.sum (List.map_congr_left fun i hi => by rw [hv i hi]; ring)
  unfold rms
  rw [e1, e2, mul_div_mul_right _ _ hv0]

end

/-! ### A concrete grid -/

/-- The spherical grid of C101 has such cells within the radius that is used. -/
example : ∃ G, exSpec.setUp 3 2 = some G ∧ Regular 3 G ∧ Shared 3 G [[4], [3]] ∧ (3, 3, 3) ∈ region 3 G 1000 ∧ (4, 3, 3) ∈ region 3 G 1000 ∧
    cellVolume G (3, 3, 3) ≠ cellVolume G (4, 3, 3) ∧ Interior 3 G (outerIdx 3 G) := by
  obtain ⟨G, hG, hR, hN, hdx, hs⟩ := ex_setUp
  have i1 : Interior 3 G (3, 3, 3) := by
    intro d; rw [hN]; fin_cases d <;> simp [comp]
  have i2 : Interior 3 G (4, 3, 3) := by
    intro d; rw [hN]; fin_cases d <;> simp [comp]
  have x0 : ∀ {i}, Interior 3 G i → ∀ d, G.point i d = G.sys.xxmin d + ((comp i d : ℝ) - 3 + 1 / 2) * G.params.dxx d := by
    intro i hi d
    obtain ⟨e1, e2⟩ := point_eq hG (interior_hasPoint hG hR hi) d
    rw [e1]
    unfold CurviBC.xx
    rw [← e2]
    unfold gridOf
    push_cast
    ring
  have p1 : G.point (3, 3, 3) 0 = 5 / 8 := by rw [x0 i1, hdx, hs]; norm_num [spherical, sphericalLike, comp]
  have p2 : G.point (4, 3, 3) 0 = 15 / 8 := by rw [x0 i2, hdx, hs]; norm_num [spherical, sphericalLike, comp]
  have pq : G.point (4, 3, 3) 1 = G.point (3, 3, 3) 1 := by rw [x0 i1, x0 i2]; rfl
  have r1 : radius (G.sys.toCart (G.point (3, 3, 3))) = 5 / 8 := by
    rw [← (interior_scale hG hR i1).2, hs]; exact p1
  have r2 : radius (G.sys.toCart (G.point (4, 3, 3))) = 15 / 8 := by
    rw [← (interior_scale hG hR i2).2, hs]; exact p2
  refine ⟨G, hG, hR, ?_, ?_, ?_, ?_, C109_outer_point hG hR⟩
  · unfold Shared; rw [hN]; decide
  · exact List.mem_filter.2 ⟨mem_interior.2 i1, by rw [r1]; norm_num⟩
  · exact List.mem_filter.2 ⟨mem_interior.2 i2, by rw [r2]; norm_num⟩
  · unfold cellVolume
    rw [← (interior_spacing hG hR i1 0).1, ← (interior_spacing hG hR i1 1).1, ← (interior_spacing hG hR i1 2).1,
      ← (interior_spacing hG hR i2 0).1, ← (interior_spacing hG hR i2 1).1, ← (interior_spacing hG hR i2 2).1]
    have hd := (interior_domain hG hR i1).2
    have hsc := (interior_scale hG hR i1).1 2
    rw [hs] at hsc ⊢
    simp only [spherical, sphericalLike, Matrix.cons_val_zero, Matrix.cons_val_one, Matrix.cons_val, deriv_id''] at hsc ⊢
    rw [p1] at hsc
    rw [p1, p2, pq]
    have hsin : 0 < sin (G.point (3, 3, 3) 1) := by linarith
    have k := mul_pos (mul_pos (mul_pos (hd 0) (hd 1)) (hd 2)) hsin
    nlinarith

end Verif.Elliptic
