import Verif.TP.Lines

/-! Lemmas for C100: one relaxation of a line. -/

namespace Verif.TP
open Real

/-- The tridiagonal system of `gsl_linalg_solve_tridiag`: `diag` on the diagonal, `e` above it and `f` below it. -/
def TriSolves (n : ℕ) (diag e f b x : ℕ → ℝ) : Prop :=
  ∀ i < n, (if 0 < i then f (i - 1) * x (i - 1) else 0) + diag i * x i + (if i < n - 1 then e i * x (i + 1) else 0) = b i

/-! ## The system of a line -/

/-- The body of the loop over the elements of a row. -/
noncomputable def lineStep (dv : ℤ → ℝ) (n i : ℕ) (Ip Ic Im : ℤ) (L : Line) (cv : ℤ × ℝ) : Line :=
  if cv.1 ≠ Ip ∧ cv.1 ≠ Ic ∧ cv.1 ≠ Im then { L with b := setAt L.b i (L.b i - cv.2 * dv cv.1) }
  else
    let L := if cv.1 = Im ∧ i > 0 then { L with f := setAt L.f (i - 1) cv.2 } else L
    let L := if cv.1 = Ic then { L with diag := setAt L.diag i cv.2 } else L
    if cv.1 = Ip ∧ i < n - 1 then { L with e := setAt L.e i cv.2 } else L

theorem lineSystem_row (S : Sparse) (dv rhs : ℤ → ℝ) (n : ℕ) (at' : ℤ → ℤ) :
    lineSystem S dv rhs n at' = (List.range n).foldl (fun (L : Line) (i : ℕ) =>
      (S.row (at' i)).foldl (lineStep dv n i (at' (i + 1)) (at' i) (at' (i - 1))) { L with b := setAt L.b i (rhs (at' i)) })
      ⟨fun _ => 0, fun _ => 0, fun _ => 0, fun _ => 0⟩ := by
  simp only [lineSystem, Sparse.row, List.foldl_map, lineStep]

/-- The sum of the values of a column in a list. -/
noncomputable def pick (P : ℤ) (p : List (ℤ × ℝ)) : ℝ := (p.map fun cv => if cv.1 = P then cv.2 else 0).sum

/-- The part of the product that does not belong to the line. -/
noncomputable def offLine (dv : ℤ → ℝ) (Ip Ic Im : ℤ) (p : List (ℤ × ℝ)) : ℝ :=
  (p.map fun cv => if cv.1 ≠ Ip ∧ cv.1 ≠ Ic ∧ cv.1 ≠ Im then cv.2 * dv cv.1 else 0).sum

theorem pick_zero {P : ℤ} {p : List (ℤ × ℝ)} (h : ∀ cv ∈ p, cv.1 ≠ P) : pick P p = 0 := by
  induction p with
  | nil => rfl
  | cons cv p ih =>
    have e : pick P (cv :: p) = (if cv.1 = P then cv.2 else 0) + pick P p := by simp [pick]
    rw [e, if_neg (h cv (by simp)), ih fun c hc => h c (by simp [hc]), add_zero]

theorem pick_append (P : ℤ) (p : List (ℤ × ℝ)) (cv : ℤ × ℝ) : pick P (p ++ [cv]) = pick P p + if cv.1 = P then cv.2 else 0 := by
  simp [pick]

theorem offLine_append (dv : ℤ → ℝ) (Ip Ic Im : ℤ) (p : List (ℤ × ℝ)) (cv : ℤ × ℝ) :
    offLine dv Ip Ic Im (p ++ [cv]) = offLine dv Ip Ic Im p + if cv.1 ≠ Ip ∧ cv.1 ≠ Ic ∧ cv.1 ≠ Im then cv.2 * dv cv.1 else 0 := by
  simp [offLine]

/-- What one step does to the four arrays. -/
theorem lineStep_at (dv : ℤ → ℝ) (n i : ℕ) (Ip Ic Im : ℤ) (L : Line) (cv : ℤ × ℝ) :
    (lineStep dv n i Ip Ic Im L cv).b = (if cv.1 ≠ Ip ∧ cv.1 ≠ Ic ∧ cv.1 ≠ Im then setAt L.b i (L.b i - cv.2 * dv cv.1) else L.b) ∧
    (lineStep dv n i Ip Ic Im L cv).diag = (if cv.1 = Ic then setAt L.diag i cv.2 else L.diag) ∧
    (lineStep dv n i Ip Ic Im L cv).f = (if cv.1 = Im ∧ i > 0 then setAt L.f (i - 1) cv.2 else L.f) ∧
    (lineStep dv n i Ip Ic Im L cv).e = (if cv.1 = Ip ∧ i < n - 1 then setAt L.e i cv.2 else L.e) := by
  unfold lineStep
  by_cases h1 : cv.1 = Ip <;> by_cases h2 : cv.1 = Ic <;> by_cases h3 : cv.1 = Im <;> by_cases h4 : i > 0 <;> by_cases h5 : i < n - 1 <;>
    simp [h1, h2, h3, h4, h5] <;> (try simp [← h1, ← h2, ← h3, h4, h5]) <;> simp_all

theorem lineRow (dv : ℤ → ℝ) (n i : ℕ) (Ip Ic Im : ℤ) (r : ℝ) (L0 : Line) (hd : L0.diag i = 0) (he : L0.e i = 0) (hf : 0 < i → L0.f (i - 1) = 0)
    (p : List (ℤ × ℝ)) (hp : (p.map Prod.fst).Nodup) :
    let L := p.foldl (lineStep dv n i Ip Ic Im) { L0 with b := setAt L0.b i r }
    L.b i = r - offLine dv Ip Ic Im p ∧ L.diag i = pick Ic p ∧ (0 < i → L.f (i - 1) = pick Im p) ∧ (i < n - 1 → L.e i = pick Ip p) ∧
      (∀ m, m ≠ i → L.b m = L0.b m ∧ L.diag m = L0.diag m ∧ L.e m = L0.e m) ∧ ∀ m, m + 1 ≠ i → L.f m = L0.f m := by
  induction p using List.reverseRecOn with
  | nil =>
    refine ⟨?_, ?_, fun h => ?_, fun _ => ?_, fun m hm => ⟨?_, rfl, rfl⟩, fun m hm => rfl⟩
    · simp [setAt, offLine]
    · simpa [pick] using hd
    · simpa [pick] using hf h
    · simpa [pick] using he
    · simp [setAt, hm]
  | append_singleton p cv ih =>
    rw [List.map_append, List.nodup_append'] at hp
    obtain ⟨hp1, -, hp2⟩ := hp
    obtain ⟨h1, h2, h3, h4, h5, h6⟩ := ih hp1
    have hne : ∀ P, cv.1 = P → pick P p = 0 := by
      rintro P rfl
      refine pick_zero fun c hc e => hp2 (List.mem_map.2 ⟨c, hc, rfl⟩) ?_
      simp [e]
    simp only [List.foldl_append, List.foldl_cons, List.foldl_nil]
    generalize p.foldl (lineStep dv n i Ip Ic Im) { L0 with b := setAt L0.b i r } = L at h1 h2 h3 h4 h5 h6 ⊢
    obtain ⟨s1, s2, s3, s4⟩ := lineStep_at dv n i Ip Ic Im L cv
    rw [s1, s2, s3, s4, offLine_append, pick_append, pick_append, pick_append]
    refine ⟨?_, ?_, fun h => ?_, fun h => ?_, fun m hm => ⟨?_, ?_, ?_⟩, fun m hm => ?_⟩
    · split_ifs with hc
      · rw [setAt, Function.update_self, h1]
        ring
      · rw [h1]
        ring
    · split_ifs with hc
      · rw [setAt, Function.update_self, hne _ hc, zero_add]
      · rw [h2, add_zero]
    · by_cases hc : cv.1 = Im
      · rw [if_pos ⟨hc, h⟩, if_pos hc, setAt, Function.update_self, hne _ hc, zero_add]
      · rw [if_neg fun q => hc q.1, if_neg hc, h3 h, add_zero]
    · by_cases hc : cv.1 = Ip
      · rw [if_pos ⟨hc, h⟩, if_pos hc, setAt, Function.update_self, hne _ hc, zero_add]
      · rw [if_neg fun q => hc q.1, if_neg hc, h4 h, add_zero]
    · split_ifs
      · rw [setAt, Function.update_of_ne hm, (h5 m hm).1]
      · exact (h5 m hm).1
    · split_ifs
      · rw [setAt, Function.update_of_ne hm, (h5 m hm).2.1]
      · exact (h5 m hm).2.1
    · split_ifs
      · rw [setAt, Function.update_of_ne hm, (h5 m hm).2.2]
      · exact (h5 m hm).2.2
    · split_ifs with hc
      · rw [setAt, Function.update_of_ne (by omega), h6 m hm]
      · exact h6 m hm

/-- What the relaxation of a line relies on. -/
structure LineOk (S : Sparse) (n : ℕ) (at' : ℤ → ℤ) : Prop where
  inj : ∀ l l' : ℕ, l < n → l' < n → at' l = at' l' → l = l'
  lo : 0 < n → at' (-1) = at' 0
  hi : 0 < n → at' n = at' (n - 1)
  nodup : ∀ i : ℕ, i < n → ((S.row (at' i)).map Prod.fst).Nodup
  near : ∀ i : ℕ, i < n → ∀ cv ∈ S.row (at' i), ∀ l : ℕ, l < n → cv.1 = at' l → l ≤ i + 1 ∧ i ≤ l + 1

/-- The state after the first `I` nodes of a line. -/
noncomputable def lineFold (S : Sparse) (dv rhs : ℤ → ℝ) (n : ℕ) (at' : ℤ → ℤ) (I : ℕ) : Line :=
  (List.range I).foldl (fun (L : Line) (i : ℕ) =>
      (S.row (at' i)).foldl (lineStep dv n i (at' (i + 1)) (at' i) (at' (i - 1))) { L with b := setAt L.b i (rhs (at' i)) })
      ⟨fun _ => 0, fun _ => 0, fun _ => 0, fun _ => 0⟩

theorem lineFold_succ (S : Sparse) (dv rhs : ℤ → ℝ) (n : ℕ) (at' : ℤ → ℤ) (I : ℕ) :
    lineFold S dv rhs n at' (I + 1) = (S.row (at' I)).foldl (lineStep dv n I (at' (I + 1)) (at' I) (at' (I - 1)))
      { lineFold S dv rhs n at' I with b := setAt (lineFold S dv rhs n at' I).b I (rhs (at' I)) } := by
  simp only [lineFold, List.range_succ, List.foldl_append, List.foldl_cons, List.foldl_nil]

theorem lineSystem_at {S : Sparse} {n : ℕ} {at' : ℤ → ℤ} (hn : ∀ i : ℕ, i < n → ((S.row (at' i)).map Prod.fst).Nodup) (dv rhs : ℤ → ℝ) (i : ℕ) (hi : i < n) :
    (lineSystem S dv rhs n at').b i = rhs (at' i) - offLine dv (at' (i + 1)) (at' i) (at' (i - 1)) (S.row (at' i)) ∧
    (lineSystem S dv rhs n at').diag i = pick (at' i) (S.row (at' i)) ∧
    (0 < i → (lineSystem S dv rhs n at').f (i - 1) = pick (at' (i - 1)) (S.row (at' i))) ∧
    (i < n - 1 → (lineSystem S dv rhs n at').e i = pick (at' (i + 1)) (S.row (at' i))) := by
  have key : ∀ I ≤ n,
      (∀ i : ℕ, i < I → (lineFold S dv rhs n at' I).b i = rhs (at' i) - offLine dv (at' (i + 1)) (at' i) (at' (i - 1)) (S.row (at' i)) ∧
        (lineFold S dv rhs n at' I).diag i = pick (at' i) (S.row (at' i)) ∧
        (0 < i → (lineFold S dv rhs n at' I).f (i - 1) = pick (at' (i - 1)) (S.row (at' i))) ∧
        (i < n - 1 → (lineFold S dv rhs n at' I).e i = pick (at' (i + 1)) (S.row (at' i)))) ∧
      ∀ i : ℕ, I ≤ i → (lineFold S dv rhs n at' I).diag i = 0 ∧ (lineFold S dv rhs n at' I).e i = 0 ∧ (0 < i → (lineFold S dv rhs n at' I).f (i - 1) = 0) := by
    intro I hI
    induction I with
    | zero => simp [lineFold]
    | succ I ih =>
      obtain ⟨h1, h2⟩ := ih (by omega)
      rw [lineFold_succ]
      generalize lineFold S dv rhs n at' I = L at h1 h2 ⊢
      obtain ⟨q1, q2, q3⟩ := h2 I le_rfl
      obtain ⟨r1, r2, r3, r4, r5, r6⟩ := lineRow dv n I (at' (I + 1)) (at' I) (at' (I - 1)) (rhs (at' I)) L q1 q2 q3 (S.row (at' I)) (hn I (by omega))
      refine ⟨fun m hm => ?_, fun m hm => ?_⟩
      · by_cases e : m = I
        · subst e
          exact ⟨r1, r2, r3, r4⟩
        · obtain ⟨p1, p2, p3, p4⟩ := h1 m (by omega)
          obtain ⟨t1, t2, t3⟩ := r5 m e
          exact ⟨t1.trans p1, t2.trans p2, fun h => (r6 (m - 1) (by omega)).trans (p3 h), fun h => t3.trans (p4 h)⟩
      · obtain ⟨t1, t2, t3⟩ := r5 m (by omega)
        obtain ⟨p1, p2, p3⟩ := h2 m (by omega)
        exact ⟨t2.trans p1, t3.trans p2, fun h => (r6 (m - 1) (by omega)).trans (p3 h)⟩
  rw [lineSystem_row]
  exact (key n le_rfl).1 i hi

/-! ## The assignments to the line -/

/-- The loop that stores the solution (Newton.py:136-138 and 184-186). -/
noncomputable def putLine (n : ℕ) (at' : ℤ → ℤ) (x : ℕ → ℝ) (dv : ℤ → ℝ) : ℤ → ℝ :=
  (List.range n).foldl (fun (dv : ℤ → ℝ) (i : ℕ) => Function.update dv (at' i) (x i)) dv

theorem putLine_off {n : ℕ} {at' : ℤ → ℤ} {x : ℕ → ℝ} {dv : ℤ → ℝ} {y : ℤ} (h : ∀ i : ℕ, i < n → y ≠ at' i) : putLine n at' x dv y = dv y := by
  induction n with
  | zero => rfl
  | succ n ih =>
    have e : putLine (n + 1) at' x dv = Function.update (putLine n at' x dv) (at' n) (x n) := by simp [putLine, List.range_succ]
    rw [e, Function.update_of_ne (h n (by omega)), ih fun i hi => h i (by omega)]

/-- On the line the result does not depend on what was there. -/
theorem putLine_indep {n : ℕ} {at' : ℤ → ℤ} {x : ℕ → ℝ} {dv dv' : ℤ → ℝ} {y : ℤ} (h : ∃ i : ℕ, i < n ∧ y = at' i) : putLine n at' x dv y = putLine n at' x dv' y := by
  induction n with
  | zero =>
    obtain ⟨i, hi, -⟩ := h
    omega
  | succ n ih =>
    have e : ∀ dv, putLine (n + 1) at' x dv = Function.update (putLine n at' x dv) (at' n) (x n) := by simp [putLine, List.range_succ]
    rw [e, e]
    by_cases hy : y = at' n
    · subst hy
      rw [Function.update_self, Function.update_self]
    · rw [Function.update_of_ne hy, Function.update_of_ne hy]
      obtain ⟨i, hi, hyi⟩ := h
      have hne : i ≠ n := by
        rintro rfl
        exact hy hyi
      exact ih ⟨i, by omega, hyi⟩

theorem putLine_on {n : ℕ} {at' : ℤ → ℤ} (hinj : ∀ l l' : ℕ, l < n → l' < n → at' l = at' l' → l = l') (x : ℕ → ℝ) (dv : ℤ → ℝ) (i : ℕ) (hi : i < n) :
    putLine n at' x dv (at' i) = x i := by
  induction n with
  | zero => omega
  | succ n ih =>
    have e : putLine (n + 1) at' x dv = Function.update (putLine n at' x dv) (at' n) (x n) := by simp [putLine, List.range_succ]
    rw [e]
    by_cases h : i = n
    · subst h
      rw [Function.update_self]
    · rw [Function.update_of_ne fun q => h (hinj i n hi (by omega) q)]
      exact ih (fun l l' hl hl' => hinj l l' (by omega) (by omega)) (by omega)

/-! ## The equations of the line -/

theorem row_split {S : Sparse} {n : ℕ} {at' : ℤ → ℤ} (ok : LineOk S n at') (dv : ℤ → ℝ) (x : ℕ → ℝ) (i : ℕ) (hi : i < n) :
    ((S.row (at' i)).map fun cv => cv.2 * putLine n at' x dv cv.1).sum = offLine dv (at' (i + 1)) (at' i) (at' (i - 1)) (S.row (at' i)) +
      ((if 0 < i then pick (at' (i - 1)) (S.row (at' i)) * x (i - 1) else 0) + pick (at' i) (S.row (at' i)) * x i +
        (if i < n - 1 then pick (at' (i + 1)) (S.row (at' i)) * x (i + 1) else 0)) := by
  have on := putLine_on ok.inj x dv
  have em : 0 < i → at' ((i : ℤ) - 1) = at' ((i - 1 : ℕ) : ℤ) := fun h => by
    congr 1
    omega
  have ep : at' ((i : ℤ) + 1) = at' ((i + 1 : ℕ) : ℤ) := by
    congr 1
  have hm : 0 < i → at' ((i : ℤ) - 1) ≠ at' i := fun h e => by
    have := ok.inj (i - 1) i (by omega) hi ((em h).symm.trans e)
    omega
  have hp : i < n - 1 → at' ((i : ℤ) + 1) ≠ at' i := fun h e => by
    have := ok.inj (i + 1) i (by omega) hi (ep.symm.trans e)
    omega
  have hmp : 0 < i → i < n - 1 → at' ((i : ℤ) - 1) ≠ at' ((i : ℤ) + 1) := fun h h' e => by
    have := ok.inj (i - 1) (i + 1) (by omega) (by omega) ((em h).symm.trans (e.trans ep))
    omega
  have hm0 : ¬0 < i → at' ((i : ℤ) - 1) = at' i := fun h => by
    have : i = 0 := by omega
    subst this
    simpa using ok.lo (by omega)
  have hpn : ¬i < n - 1 → at' ((i : ℤ) + 1) = at' i := fun h => by
    have e1 : ((i : ℤ) + 1) = n := by omega
    have e2 : (i : ℤ) = n - 1 := by omega
    rw [e1, ok.hi (by omega), ← e2]
  have one : ∀ cv ∈ S.row (at' i), cv.2 * putLine n at' x dv cv.1 =
      (if cv.1 ≠ at' (i + 1) ∧ cv.1 ≠ at' i ∧ cv.1 ≠ at' (i - 1) then cv.2 * dv cv.1 else 0) +
      ((if 0 < i then (if cv.1 = at' (i - 1) then cv.2 else 0) * x (i - 1) else 0) + (if cv.1 = at' i then cv.2 else 0) * x i +
        (if i < n - 1 then (if cv.1 = at' (i + 1) then cv.2 else 0) * x (i + 1) else 0)) := by
    intro cv hcv
    by_cases hc : cv.1 = at' i
    · have e1 : 0 < i → cv.1 ≠ at' (i - 1) := fun h => by
        rw [hc]
        exact (hm h).symm
      have e2 : i < n - 1 → cv.1 ≠ at' (i + 1) := fun h => by
        rw [hc]
        exact (hp h).symm
      rw [if_neg (fun q => q.2.1 hc), if_pos hc, hc, on i hi]
      have t1 : (if 0 < i then (if at' i = at' (i - 1) then cv.2 else 0) * x (i - 1) else 0) = 0 := by
        split_ifs with h1 h2
        · exact absurd (hc.trans h2) (e1 h1)
        · ring
        · rfl
      have t2 : (if i < n - 1 then (if at' i = at' (i + 1) then cv.2 else 0) * x (i + 1) else 0) = 0 := by
        split_ifs with h1 h2
        · exact absurd (hc.trans h2) (e2 h1)
        · ring
        · rfl
      rw [t1, t2]
      ring
    · by_cases hc' : cv.1 = at' (i - 1)
      · have h0 : 0 < i := by
          by_contra h
          exact hc (hc'.trans (hm0 h))
        rw [if_neg (fun q => q.2.2 hc'), if_pos h0, if_pos hc', if_neg hc]
        have t2 : (if i < n - 1 then (if cv.1 = at' (i + 1) then cv.2 else 0) * x (i + 1) else 0) = 0 := by
          split_ifs with h1 h2
          · exact absurd (hc'.symm.trans h2) (hmp h0 h1)
          · ring
          · rfl
        rw [t2, hc', em h0, on (i - 1) (by omega)]
        ring
      · by_cases hc'' : cv.1 = at' (i + 1)
        · have h0 : i < n - 1 := by
            by_contra h
            exact hc (hc''.trans (hpn h))
          rw [if_neg (fun q => q.1 hc''), if_neg hc, if_neg hc', if_pos h0, if_pos hc'', hc'', ep, on (i + 1) (by omega)]
          simp
        · rw [if_pos ⟨hc'', hc, hc'⟩, if_neg hc, if_neg hc', if_neg hc'', putLine_off]
          · simp
          · intro l hl e
            have hl' := ok.near i hi cv hcv l hl e
            have : l = i ∨ l + 1 = i ∨ l = i + 1 := by omega
            rcases this with rfl | rfl | rfl
            · exact hc e
            · exact hc' (by
                rw [e]
                congr 1
                push_cast
                ring)
            · exact hc'' (by
                rw [e]
                congr 1)
  rw [List.map_congr_left one]
  simp only [offLine, pick]
  generalize S.row (at' i) = p
  induction p with
  | nil => simp
  | cons cv p ih =>
    simp only [List.map_cons, List.sum_cons]
    rw [ih]
    split_ifs <;> ring

/-- The vector solves the tridiagonal system of a line if and only if after it has been stored the equations of the line hold. -/
theorem line_iff {S : Sparse} {n : ℕ} {at' : ℤ → ℤ} (ok : LineOk S n at') (dv rhs : ℤ → ℝ) (x : ℕ → ℝ) :
    TriSolves n (lineSystem S dv rhs n at').diag (lineSystem S dv rhs n at').e (lineSystem S dv rhs n at').f (lineSystem S dv rhs n at').b x ↔
      ∀ i : ℕ, i < n → ((S.row (at' i)).map fun cv => cv.2 * putLine n at' x dv cv.1).sum = rhs (at' i) := by
  refine forall₂_congr fun i hi => ?_
  obtain ⟨h1, h2, h3, h4⟩ := lineSystem_at ok.nodup dv rhs i hi
  rw [row_split ok dv x i hi, h1, h2]
  have t1 : (if 0 < i then (lineSystem S dv rhs n at').f (i - 1) * x (i - 1) else 0) = if 0 < i then pick (at' (i - 1)) (S.row (at' i)) * x (i - 1) else 0 := by
    split_ifs with h
    · rw [h3 h]
    · rfl
  have t2 : (if i < n - 1 then (lineSystem S dv rhs n at').e i * x (i + 1) else 0) = if i < n - 1 then pick (at' (i + 1)) (S.row (at' i)) * x (i + 1) else 0 := by
    split_ifs with h
    · rw [h4 h]
    · rfl
  rw [t1, t2]
  constructor <;> intro h <;> linarith

/-! ## Two lines -/

theorem lineSystem_congr {S : Sparse} {n : ℕ} {at' : ℤ → ℤ} {dv dv' : ℤ → ℝ} (rhs : ℤ → ℝ)
    (h : ∀ i : ℕ, i < n → ∀ cv ∈ S.row (at' i), dv cv.1 = dv' cv.1) : lineSystem S dv rhs n at' = lineSystem S dv' rhs n at' := by
  rw [lineSystem_row, lineSystem_row]
  have inner : ∀ (i : ℕ) (p : List (ℤ × ℝ)) (L : Line), (∀ cv ∈ p, dv cv.1 = dv' cv.1) →
      p.foldl (lineStep dv n i (at' (i + 1)) (at' i) (at' (i - 1))) L = p.foldl (lineStep dv' n i (at' (i + 1)) (at' i) (at' (i - 1))) L := by
    intro i p L hp
    induction p generalizing L with
    | nil => rfl
    | cons cv p ih =>
      rw [List.foldl_cons, List.foldl_cons, ih _ fun c hc => hp c (by simp [hc])]
      congr 1
      rw [lineStep, lineStep, hp cv (by simp)]
  have outer : ∀ I ≤ n, ∀ L, (List.range I).foldl (fun (L : Line) (i : ℕ) =>
      (S.row (at' i)).foldl (lineStep dv n i (at' (i + 1)) (at' i) (at' (i - 1))) { L with b := setAt L.b i (rhs (at' i)) }) L =
      (List.range I).foldl (fun (L : Line) (i : ℕ) =>
      (S.row (at' i)).foldl (lineStep dv' n i (at' (i + 1)) (at' i) (at' (i - 1))) { L with b := setAt L.b i (rhs (at' i)) }) L := by
    intro I hI L
    induction I with
    | zero => rfl
    | succ I ih =>
      rw [List.range_succ, List.foldl_append, List.foldl_append, ih (by omega)]
      simp only [List.foldl_cons, List.foldl_nil]
      exact inner I _ _ (h I (by omega))
  exact outer n le_rfl _

theorem lineRelax_eq (tridiag : Tridiag) (S : Sparse) (rhs : ℤ → ℝ) (n : ℕ) (at' : ℤ → ℤ) (dv : ℤ → ℝ) :
    lineRelax tridiag S rhs n at' dv = putLine n at' (tridiag n (lineSystem S dv rhs n at').diag (lineSystem S dv rhs n at').e (lineSystem S dv rhs n at').f
      (lineSystem S dv rhs n at').b) dv := rfl

theorem lineRelax_off {tridiag : Tridiag} {S : Sparse} {rhs : ℤ → ℝ} {n : ℕ} {at' : ℤ → ℤ} {dv : ℤ → ℝ} {y : ℤ} (h : ∀ i : ℕ, i < n → y ≠ at' i) :
    lineRelax tridiag S rhs n at' dv y = dv y := by
  rw [lineRelax_eq, putLine_off h]

/-- The new values of a line depend only on the elements in the columns of its rows. -/
theorem lineRelax_on {tridiag : Tridiag} {S : Sparse} {rhs : ℤ → ℝ} {n : ℕ} {at' : ℤ → ℤ} {dv dv' : ℤ → ℝ}
    (h : ∀ i : ℕ, i < n → ∀ cv ∈ S.row (at' i), dv cv.1 = dv' cv.1) {y : ℤ} (hy : ∃ i : ℕ, i < n ∧ y = at' i) :
    lineRelax tridiag S rhs n at' dv y = lineRelax tridiag S rhs n at' dv' y := by
  rw [lineRelax_eq, lineRelax_eq, lineSystem_congr rhs h]
  exact putLine_indep hy

/-- Two lines whose rows have no column on the other line can be relaxed in either order. -/
theorem lineRelax_comm {tridiag : Tridiag} {S : Sparse} {rhs : ℤ → ℝ} {n : ℕ} {at1 at2 : ℤ → ℤ} (hd : ∀ i : ℕ, i < n → ∀ l : ℕ, l < n → at1 i ≠ at2 l)
    (h1 : ∀ i : ℕ, i < n → ∀ cv ∈ S.row (at1 i), ∀ l : ℕ, l < n → cv.1 ≠ at2 l) (h2 : ∀ i : ℕ, i < n → ∀ cv ∈ S.row (at2 i), ∀ l : ℕ, l < n → cv.1 ≠ at1 l) (dv : ℤ → ℝ) :
    lineRelax tridiag S rhs n at2 (lineRelax tridiag S rhs n at1 dv) = lineRelax tridiag S rhs n at1 (lineRelax tridiag S rhs n at2 dv) := by
  funext y
  by_cases hy1 : ∃ i : ℕ, i < n ∧ y = at1 i
  · have hy2 : ∀ l : ℕ, l < n → y ≠ at2 l := by
      obtain ⟨i, hi, rfl⟩ := hy1
      exact fun l hl => hd i hi l hl
    rw [lineRelax_off hy2]
    exact lineRelax_on (fun i hi cv hcv => (lineRelax_off fun l hl => h1 i hi cv hcv l hl).symm) hy1
  · have hy1' : ∀ l : ℕ, l < n → y ≠ at1 l := fun l hl e => hy1 ⟨l, hl, e⟩
    rw [lineRelax_off hy1' (dv := lineRelax tridiag S rhs n at2 dv)]
    by_cases hy2 : ∃ i : ℕ, i < n ∧ y = at2 i
    · exact lineRelax_on (fun i hi cv hcv => lineRelax_off fun l hl => h2 i hi cv hcv l hl) hy2
    · have hy2' : ∀ l : ℕ, l < n → y ≠ at2 l := fun l hl e => hy2 ⟨l, hl, e⟩
      rw [lineRelax_off hy2', lineRelax_off hy2', lineRelax_off hy1']

end Verif.TP
