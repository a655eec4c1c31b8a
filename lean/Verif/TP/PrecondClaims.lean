import Verif.TP.Relax

/-! C100: the preconditioner of TwoPunctures. -/

namespace Verif.TP
open Real

theorem sum_row (S : Sparse) (x : ℤ) (y : ℤ → ℝ) : ∑ m ∈ Finset.range (S.ncols x), S.Matrix x m * y (S.cols x m) = ((S.row x).map fun cv => cv.2 * y cv.1).sum := by
  rw [Sparse.row, List.map_map]
  generalize S.ncols x = n
  induction n with
  | zero => rfl
  | succ n ih => rw [Finset.sum_range_succ, ih, List.range_succ, List.map_append, List.sum_append]; simp

/-! ## The matrix -/

/-- **C100** (matrix).  For every grid with at least three planes, every solution and every node: the row of the matrix that `SetMatrix_JFD` builds has at most 19
elements, the number for which `bicgstab` allocates memory; the columns are indices of nodes of the grid, none occurs twice; and the product of the row with any vector is
the number that `JFD_times_dv` computes at the node. -/
theorem C100_matrix (par : Par) {n1 n2 n3 : ℕ} (h3 : 3 ≤ n3) (u : Derivs) {i j k : ℕ} (hi : i < n1) (hj : j < n2) (hk : k < n3) :
    let S := SetMatrix_JFD par n1 n2 n3 u
    let x := Index 0 i j k 1 n1 n2 n3
    S.ncols x ≤ 19 ∧
    (∀ m < S.ncols x, ∃ i' < n1, ∃ j' < n2, ∃ k' < n3, S.cols x m = Index 0 (i' : ℕ) (j' : ℕ) (k' : ℕ) 1 n1 n2 n3) ∧
    (∀ m < S.ncols x, ∀ m' < S.ncols x, S.cols x m = S.cols x m' → m = m') ∧
    ∀ y : ℤ → ℝ, ∑ m ∈ Finset.range (S.ncols x), S.Matrix x m * y (S.cols x m) = JFD_times_dv par i j k n1 n2 n3 y u := by
  intro S x
  have hr : (i, j, k) ∈ loop3 n1 n2 n3 := mem_loop3.2 ⟨hi, hj, hk⟩
  refine ⟨?_, fun m hm => ?_, fun m hm m' hm' h => ?_, fun y => ?_⟩
  · have h := length_row (par := par) (u := u) h3 hr
    rw [Sparse.row, List.length_map, List.length_range] at h
    exact h
  · have hmem : (S.cols x m, S.Matrix x m) ∈ S.row x := List.mem_map.2 ⟨m, List.mem_range.2 hm, rfl⟩
    obtain ⟨c, hc, e, -⟩ := row_near (par := par) (u := u) hr hmem
    rw [mem_loop3] at hc
    exact ⟨c.1, hc.1, c.2.1, hc.2.1, c.2.2, hc.2.2, e⟩
  · have h' := nodup_row (par := par) (u := u) h3 hr
    rw [Sparse.row, List.map_map] at h'
    exact List.inj_on_of_nodup_map h' (List.mem_range.2 hm) (List.mem_range.2 hm') h
  · rw [sum_row]
    exact row_product h3 hr y

/-- The claim is about something: on the coarsest grid with four planes every node has a row. -/
example (par : Par) (u : Derivs) (y : ℤ → ℝ) :
    ∑ m ∈ Finset.range ((SetMatrix_JFD par 4 4 4 u).ncols (Index 0 (3 : ℕ) (0 : ℕ) (3 : ℕ) 1 (4 : ℕ) (4 : ℕ) (4 : ℕ))),
      (SetMatrix_JFD par 4 4 4 u).Matrix (Index 0 (3 : ℕ) (0 : ℕ) (3 : ℕ) 1 (4 : ℕ) (4 : ℕ) (4 : ℕ)) m *
        y ((SetMatrix_JFD par 4 4 4 u).cols (Index 0 (3 : ℕ) (0 : ℕ) (3 : ℕ) 1 (4 : ℕ) (4 : ℕ) (4 : ℕ)) m) = JFD_times_dv par (3 : ℕ) (0 : ℕ) (3 : ℕ) 4 4 4 y u :=
  (C100_matrix par (by norm_num) u (by norm_num) (by norm_num) (by norm_num)).2.2.2 y

/-! ## One line -/

theorem ok_al (par : Par) {n1 n2 n3 : ℕ} (h3 : 3 ≤ n3) (u : Derivs) {j k : ℕ} (hj : j < n2) (hk : k < n3) :
    LineOk (SetMatrix_JFD par n1 n2 n3 u) n1 (fun i => Index 0 i j k 1 n1 n2 n3) := by
  have hl : ∀ l : ℕ, l < n1 → (l, j, k) ∈ loop3 n1 n2 n3 := fun l h => mem_loop3.2 ⟨h, hj, hk⟩
  constructor <;> beta_reduce
  · intro l l' h h' e
    exact congrArg Prod.fst (idx_inj (hl l h) (hl l' h') e)
  · intro h
    exact Index_fold ⟨by omega, by omega⟩ ⟨by omega, by omega⟩ (by omega) (by omega)
  · intro h
    exact Index_fold ⟨by omega, by omega⟩ ⟨by omega, by omega⟩ (by omega) (by omega)
  · intro i h
    exact nodup_row (par := par) (u := u) (r := (i, j, k)) h3 (hl i h)
  · intro i h cv hcv l hl' e
    obtain ⟨c, hc, e', h', -⟩ := row_near (par := par) (u := u) (hl i h) hcv
    have := idx_inj hc (hl l hl') (e'.symm.trans e)
    subst this
    exact h'

theorem ok_be (par : Par) {n1 n2 n3 : ℕ} (h3 : 3 ≤ n3) (u : Derivs) {i k : ℕ} (hi : i < n1) (hk : k < n3) :
    LineOk (SetMatrix_JFD par n1 n2 n3 u) n2 (fun j => Index 0 i j k 1 n1 n2 n3) := by
  have hl : ∀ l : ℕ, l < n2 → (i, l, k) ∈ loop3 n1 n2 n3 := fun l h => mem_loop3.2 ⟨hi, h, hk⟩
  constructor <;> beta_reduce
  · intro l l' h h' e
    exact congrArg (·.2.1) (idx_inj (hl l h) (hl l' h') e)
  · intro h
    exact Index_fold ⟨by omega, by omega⟩ ⟨by omega, by omega⟩ (by omega) (by omega)
  · intro h
    exact Index_fold ⟨by omega, by omega⟩ ⟨by omega, by omega⟩ (by omega) (by omega)
  · intro l h
    exact nodup_row (par := par) (u := u) (r := (i, l, k)) h3 (hl l h)
  · intro i' h cv hcv l hl' e
    obtain ⟨c, hc, e', -, h'⟩ := row_near (par := par) (u := u) (hl i' h) hcv
    have := idx_inj hc (hl l hl') (e'.symm.trans e)
    subst this
    exact h'

/-- **C100** (system of a line of constant `be` and `phi`).  The four arrays that `LineRelax_al` fills are the equations of the line: a vector solves the tridiagonal system
if and only if, when it is stored on the line and nothing else is changed, `JFD_times_dv` gives the right-hand side at every node of the line. -/
theorem C100_line_al_system (par : Par) {n1 n2 n3 : ℕ} (h3 : 3 ≤ n3) (u : Derivs) {j k : ℕ} (hj : j < n2) (hk : k < n3) (rhs dv z : ℤ → ℝ)
    (hz : ∀ y, (∀ i : ℕ, i < n1 → y ≠ Index 0 i j k 1 n1 n2 n3) → z y = dv y) :
    let L := lineSystem (SetMatrix_JFD par n1 n2 n3 u) dv rhs n1 (fun i => Index 0 i j k 1 n1 n2 n3)
    TriSolves n1 L.diag L.e L.f L.b (fun i => z (Index 0 i j k 1 n1 n2 n3)) ↔
      ∀ i : ℕ, i < n1 → JFD_times_dv par i j k n1 n2 n3 z u = rhs (Index 0 i j k 1 n1 n2 n3) := by
  intro L
  have ok := ok_al par h3 u hj hk (n1 := n1)
  rw [line_iff ok]
  have e : putLine n1 (fun i => Index 0 i j k 1 n1 n2 n3) (fun i => z (Index 0 i j k 1 n1 n2 n3)) dv = z := by
    funext y
    by_cases hy : ∃ i : ℕ, i < n1 ∧ y = Index 0 i j k 1 n1 n2 n3
    · obtain ⟨i, hi, rfl⟩ := hy
      exact putLine_on ok.inj (fun i => z (Index 0 i j k 1 n1 n2 n3)) dv i hi
    · have hy' : ∀ i : ℕ, i < n1 → y ≠ Index 0 i j k 1 n1 n2 n3 := fun i hi e => hy ⟨i, hi, e⟩
      exact (putLine_off hy').trans (hz y hy').symm
  refine forall₂_congr fun i hi => ?_
  rw [e]
  have := row_product (par := par) (u := u) h3 (mem_loop3.2 ⟨hi, hj, hk⟩ : (i, j, k) ∈ loop3 n1 n2 n3) z
  rw [← this]
  rfl

/-- **C100** (system of a line of constant `al` and `phi`), as for `LineRelax_al`. -/
theorem C100_line_be_system (par : Par) {n1 n2 n3 : ℕ} (h3 : 3 ≤ n3) (u : Derivs) {i k : ℕ} (hi : i < n1) (hk : k < n3) (rhs dv z : ℤ → ℝ)
    (hz : ∀ y, (∀ j : ℕ, j < n2 → y ≠ Index 0 i j k 1 n1 n2 n3) → z y = dv y) :
    let L := lineSystem (SetMatrix_JFD par n1 n2 n3 u) dv rhs n2 (fun j => Index 0 i j k 1 n1 n2 n3)
    TriSolves n2 L.diag L.e L.f L.b (fun j => z (Index 0 i j k 1 n1 n2 n3)) ↔
      ∀ j : ℕ, j < n2 → JFD_times_dv par i j k n1 n2 n3 z u = rhs (Index 0 i j k 1 n1 n2 n3) := by
  intro L
  have ok := ok_be par h3 u hi hk (n2 := n2)
  rw [line_iff ok]
  have e : putLine n2 (fun j => Index 0 i j k 1 n1 n2 n3) (fun j => z (Index 0 i j k 1 n1 n2 n3)) dv = z := by
    funext y
    by_cases hy : ∃ j : ℕ, j < n2 ∧ y = Index 0 i j k 1 n1 n2 n3
    · obtain ⟨j, hj, rfl⟩ := hy
      exact putLine_on ok.inj (fun j => z (Index 0 i j k 1 n1 n2 n3)) dv j hj
    · have hy' : ∀ j : ℕ, j < n2 → y ≠ Index 0 i j k 1 n1 n2 n3 := fun j hj e => hy ⟨j, hj, e⟩
      exact (putLine_off hy').trans (hz y hy').symm
  refine forall₂_congr fun j hj => ?_
  rw [e]
  have := row_product (par := par) (u := u) h3 (mem_loop3.2 ⟨hi, hj, hk⟩ : (i, j, k) ∈ loop3 n1 n2 n3) z
  rw [← this]
  rfl

/-- **C100** (`LineRelax_al`).  If the call of `gsl_linalg_solve_tridiag` solves its system, then afterwards `JFD_times_dv` gives the right-hand side at every node of the
line, and no other element has changed. -/
theorem C100_line_al (par : Par) {n1 n2 n3 : ℕ} (h3 : 3 ≤ n3) (u : Derivs) {j k : ℕ} (hj : j < n2) (hk : k < n3) (rhs dv : ℤ → ℝ) (tridiag : Tridiag)
    (ht : let L := lineSystem (SetMatrix_JFD par n1 n2 n3 u) dv rhs n1 (fun i => Index 0 i j k 1 n1 n2 n3)
      TriSolves n1 L.diag L.e L.f L.b (tridiag n1 L.diag L.e L.f L.b)) :
    let dv' := LineRelax_al tridiag n1 n2 n3 rhs (SetMatrix_JFD par n1 n2 n3 u) j k dv
    (∀ i : ℕ, i < n1 → JFD_times_dv par i j k n1 n2 n3 dv' u = rhs (Index 0 i j k 1 n1 n2 n3)) ∧
      ∀ y, (∀ i : ℕ, i < n1 → y ≠ Index 0 i j k 1 n1 n2 n3) → dv' y = dv y := by
  intro dv'
  refine ⟨fun i hi => ?_, fun y hy => lineRelax_off hy⟩
  have := row_product (par := par) (u := u) h3 (mem_loop3.2 ⟨hi, hj, hk⟩ : (i, j, k) ∈ loop3 n1 n2 n3) dv'
  rw [← this]
  exact (line_iff (ok_al par h3 u hj hk) dv rhs _).1 ht i hi

/-- **C100** (`LineRelax_be`), as for `LineRelax_al`. -/
theorem C100_line_be (par : Par) {n1 n2 n3 : ℕ} (h3 : 3 ≤ n3) (u : Derivs) {i k : ℕ} (hi : i < n1) (hk : k < n3) (rhs dv : ℤ → ℝ) (tridiag : Tridiag)
    (ht : let L := lineSystem (SetMatrix_JFD par n1 n2 n3 u) dv rhs n2 (fun j => Index 0 i j k 1 n1 n2 n3)
      TriSolves n2 L.diag L.e L.f L.b (tridiag n2 L.diag L.e L.f L.b)) :
    let dv' := LineRelax_be tridiag n1 n2 n3 rhs (SetMatrix_JFD par n1 n2 n3 u) i k dv
    (∀ j : ℕ, j < n2 → JFD_times_dv par i j k n1 n2 n3 dv' u = rhs (Index 0 i j k 1 n1 n2 n3)) ∧
      ∀ y, (∀ j : ℕ, j < n2 → y ≠ Index 0 i j k 1 n1 n2 n3) → dv' y = dv y := by
  intro dv'
  refine ⟨fun j hj => ?_, fun y hy => lineRelax_off hy⟩
  have := row_product (par := par) (u := u) h3 (mem_loop3.2 ⟨hi, hj, hk⟩ : (i, j, k) ∈ loop3 n1 n2 n3) dv'
  rw [← this]
  exact (line_iff (ok_be par h3 u hi hk) dv rhs _).1 ht j hj

open Classical in
/-- A solver that solves every system that has a solution. -/
noncomputable def solver : Tridiag := fun n diag e f b => if h : ∃ x, TriSolves n diag e f b x then h.choose else fun _ => 0

theorem solver_solves {n : ℕ} {diag e f b : ℕ → ℝ} (h : ∃ x, TriSolves n diag e f b x) : TriSolves n diag e f b (solver n diag e f b) := by
  rw [solver, dif_pos h]
  exact h.choose_spec

/-- The hypothesis of `C100_line_al` holds for the solver above whenever some values on the line satisfy the equations, for example when the right-hand side is the product
of the matrix with a vector that agrees with `dv` off the line. -/
example (par : Par) (u : Derivs) (z : ℤ → ℝ) :
    let dv : ℤ → ℝ := fun y => if ∃ i : ℕ, i < 8 ∧ y = Index 0 i (5 : ℕ) (0 : ℕ) 1 (8 : ℕ) (6 : ℕ) (4 : ℕ) then 7 else z y
    let rhs : ℤ → ℝ := fun y => ∑ m ∈ Finset.range ((SetMatrix_JFD par 8 6 4 u).ncols y), (SetMatrix_JFD par 8 6 4 u).Matrix y m * z ((SetMatrix_JFD par 8 6 4 u).cols y m)
    ∀ i : ℕ, i < 8 → JFD_times_dv par i (5 : ℕ) (0 : ℕ) 8 6 4 (LineRelax_al solver 8 6 4 rhs (SetMatrix_JFD par 8 6 4 u) 5 0 dv) u =
      rhs (Index 0 i (5 : ℕ) (0 : ℕ) 1 (8 : ℕ) (6 : ℕ) (4 : ℕ)) := by
  intro dv rhs
  refine (C100_line_al par (by norm_num) u (by norm_num) (by norm_num) rhs dv solver (solver_solves ⟨_, (C100_line_al_system par (by norm_num) u (by norm_num) (by norm_num)
    rhs dv z fun y hy => ?_).2 fun i hi => ?_⟩)).1
  · exact (if_neg fun ⟨i, hi, e⟩ => hy i hi e).symm
  · exact ((C100_matrix par (by norm_num) u hi (by norm_num) (by norm_num)).2.2.2 z).symm

/-! ## The parallel loops -/

theorem apart_be (par : Par) (n1 n2 n3 : ℕ) (u : Derivs) {i i' k : ℕ} (hi : i < n1) (hi' : i' < n1) (hk : k < n3) (hd : i + 2 ≤ i' ∨ i' + 2 ≤ i) (j : ℕ) (hj : j < n2)
    (cv : ℤ × ℝ) (hcv : cv ∈ (SetMatrix_JFD par n1 n2 n3 u).row (Index 0 i j k 1 n1 n2 n3)) (l : ℕ) (hl : l < n2) : cv.1 ≠ Index 0 i' l k 1 n1 n2 n3 := by
  intro e
  obtain ⟨c, hc, e', h', -⟩ := row_near (par := par) (u := u) (mem_loop3.2 ⟨hi, hj, hk⟩ : (i, j, k) ∈ loop3 n1 n2 n3) hcv
  have := idx_inj hc (mem_loop3.2 ⟨hi', hl, hk⟩ : (i', l, k) ∈ loop3 n1 n2 n3) (e'.symm.trans e)
  subst this
  dsimp only at h'
  omega

theorem apart_al (par : Par) (n1 n2 n3 : ℕ) (u : Derivs) {j j' k : ℕ} (hj : j < n2) (hj' : j' < n2) (hk : k < n3) (hd : j + 2 ≤ j' ∨ j' + 2 ≤ j) (i : ℕ) (hi : i < n1)
    (cv : ℤ × ℝ) (hcv : cv ∈ (SetMatrix_JFD par n1 n2 n3 u).row (Index 0 i j k 1 n1 n2 n3)) (l : ℕ) (hl : l < n1) : cv.1 ≠ Index 0 l j' k 1 n1 n2 n3 := by
  intro e
  obtain ⟨c, hc, e', -, h'⟩ := row_near (par := par) (u := u) (mem_loop3.2 ⟨hi, hj, hk⟩ : (i, j, k) ∈ loop3 n1 n2 n3) hcv
  have := idx_inj hc (mem_loop3.2 ⟨hl, hj', hk⟩ : (l, j', k) ∈ loop3 n1 n2 n3) (e'.symm.trans e)
  subst this
  dsimp only at h'
  omega

/-- **C100** (no race between lines of constant `al`).  Two different iterations of a parallel loop relax lines that are at least two apart.  What one of them stores does not
depend on what the other one stores: it is the same for any two arrays that differ only on the other line, and it stores nothing outside its own line. -/
theorem C100_race_free_be (par : Par) (n1 n2 n3 : ℕ) (u : Derivs) {i i' k : ℕ} (hi : i < n1) (hi' : i' < n1) (hk : k < n3) (hne : i ≠ i') (hpar : i % 2 = i' % 2)
    (tridiag : Tridiag) (rhs dv dv' : ℤ → ℝ) (h : ∀ y, (∀ l : ℕ, l < n2 → y ≠ Index 0 i' l k 1 n1 n2 n3) → dv y = dv' y) :
    (∀ j : ℕ, j < n2 → LineRelax_be tridiag n1 n2 n3 rhs (SetMatrix_JFD par n1 n2 n3 u) i k dv (Index 0 i j k 1 n1 n2 n3) =
      LineRelax_be tridiag n1 n2 n3 rhs (SetMatrix_JFD par n1 n2 n3 u) i k dv' (Index 0 i j k 1 n1 n2 n3)) ∧
    ∀ y, (∀ j : ℕ, j < n2 → y ≠ Index 0 i j k 1 n1 n2 n3) → LineRelax_be tridiag n1 n2 n3 rhs (SetMatrix_JFD par n1 n2 n3 u) i k dv y = dv y :=
  ⟨fun j hj => lineRelax_on (fun l hl cv hcv => h _ (apart_be par n1 n2 n3 u hi hi' hk (by omega) l hl cv hcv)) ⟨j, hj, rfl⟩, fun y hy => lineRelax_off hy⟩

/-- **C100** (no race between lines of constant `be`). -/
theorem C100_race_free_al (par : Par) (n1 n2 n3 : ℕ) (u : Derivs) {j j' k : ℕ} (hj : j < n2) (hj' : j' < n2) (hk : k < n3) (hne : j ≠ j') (hpar : j % 2 = j' % 2)
    (tridiag : Tridiag) (rhs dv dv' : ℤ → ℝ) (h : ∀ y, (∀ l : ℕ, l < n1 → y ≠ Index 0 l j' k 1 n1 n2 n3) → dv y = dv' y) :
    (∀ i : ℕ, i < n1 → LineRelax_al tridiag n1 n2 n3 rhs (SetMatrix_JFD par n1 n2 n3 u) j k dv (Index 0 i j k 1 n1 n2 n3) =
      LineRelax_al tridiag n1 n2 n3 rhs (SetMatrix_JFD par n1 n2 n3 u) j k dv' (Index 0 i j k 1 n1 n2 n3)) ∧
    ∀ y, (∀ i : ℕ, i < n1 → y ≠ Index 0 i j k 1 n1 n2 n3) → LineRelax_al tridiag n1 n2 n3 rhs (SetMatrix_JFD par n1 n2 n3 u) j k dv y = dv y :=
  ⟨fun i hi => lineRelax_on (fun l hl cv hcv => h _ (apart_al par n1 n2 n3 u hj hj' hk (by omega) l hl cv hcv)) ⟨i, hi, rfl⟩, fun y hy => lineRelax_off hy⟩

theorem mem_stride2 {a n i : ℕ} : i ∈ stride2 a n ↔ i < n ∧ a ≤ i ∧ i % 2 = a % 2 := by
  simp [stride2]

theorem sched_be (par : Par) (n1 n2 n3 : ℕ) (u : Derivs) {k : ℕ} (hk : k < n3) (tridiag : Tridiag) (rhs dv : ℤ → ℝ) (a : ℕ) {l : List ℕ} (hl : l.Perm (stride2 a n1)) :
    l.foldl (fun dv i => LineRelax_be tridiag n1 n2 n3 rhs (SetMatrix_JFD par n1 n2 n3 u) i k dv) dv =
      (stride2 a n1).foldl (fun dv i => LineRelax_be tridiag n1 n2 n3 rhs (SetMatrix_JFD par n1 n2 n3 u) i k dv) dv := by
  refine hl.foldl_eq' (fun i hi i' hi' z => ?_) dv
  obtain ⟨p1, -, p2⟩ := mem_stride2.1 (hl.mem_iff.1 hi)
  obtain ⟨q1, -, q2⟩ := mem_stride2.1 (hl.mem_iff.1 hi')
  by_cases e : i = i'
  · rw [e]
  · refine lineRelax_comm (fun j hj l hl e' => e ?_) (fun j hj cv hcv l hl => ?_) (fun j hj cv hcv l hl => ?_) z
    · exact congrArg Prod.fst (idx_inj (mem_loop3.2 ⟨p1, hj, hk⟩ : (i, j, k) ∈ loop3 n1 n2 n3) (mem_loop3.2 ⟨q1, hl, hk⟩ : (i', l, k) ∈ loop3 n1 n2 n3) e')
    · exact apart_be par n1 n2 n3 u p1 q1 hk (by omega) j hj cv hcv l hl
    · exact apart_be par n1 n2 n3 u q1 p1 hk (by omega) j hj cv hcv l hl

theorem sched_al (par : Par) (n1 n2 n3 : ℕ) (u : Derivs) {k : ℕ} (hk : k < n3) (tridiag : Tridiag) (rhs dv : ℤ → ℝ) (a : ℕ) {l : List ℕ} (hl : l.Perm (stride2 a n2)) :
    l.foldl (fun dv j => LineRelax_al tridiag n1 n2 n3 rhs (SetMatrix_JFD par n1 n2 n3 u) j k dv) dv =
      (stride2 a n2).foldl (fun dv j => LineRelax_al tridiag n1 n2 n3 rhs (SetMatrix_JFD par n1 n2 n3 u) j k dv) dv := by
  refine hl.foldl_eq' (fun i hi i' hi' z => ?_) dv
  obtain ⟨p1, -, p2⟩ := mem_stride2.1 (hl.mem_iff.1 hi)
  obtain ⟨q1, -, q2⟩ := mem_stride2.1 (hl.mem_iff.1 hi')
  by_cases e : i = i'
  · rw [e]
  · refine lineRelax_comm (fun j hj l hl e' => e ?_) (fun j hj cv hcv l hl => ?_) (fun j hj cv hcv l hl => ?_) z
    · exact congrArg (·.2.1) (idx_inj (mem_loop3.2 ⟨hj, p1, hk⟩ : (j, i, k) ∈ loop3 n1 n2 n3) (mem_loop3.2 ⟨hl, q1, hk⟩ : (l, i', k) ∈ loop3 n1 n2 n3) e')
    · exact apart_al par n1 n2 n3 u p1 q1 hk (by omega) j hj cv hcv l hl
    · exact apart_al par n1 n2 n3 u q1 p1 hk (by omega) j hj cv hcv l hl

/-- **C100** (schedules).  A sweep gives the same array for every order in which the iterations of the parallel loops are executed. -/
theorem C100_relax_schedule (par : Par) (n1 n2 n3 : ℕ) (u : Derivs) (tridiag : Tridiag) (rhs dv : ℤ → ℝ) (sched : List ℕ → List ℕ) (hs : ∀ l, (sched l).Perm l) :
    relaxSched sched tridiag n1 n2 n3 rhs (SetMatrix_JFD par n1 n2 n3 u) dv = relax tridiag n1 n2 n3 rhs (SetMatrix_JFD par n1 n2 n3 u) dv := by
  simp only [relax, relaxSched, id]
  have e : ∀ a b : ℕ, ∀ dv, (stride2 a n3).foldl (fun dv k =>
      (sched (stride2 0 n2)).foldl (fun dv j => LineRelax_al tridiag n1 n2 n3 rhs (SetMatrix_JFD par n1 n2 n3 u) j k dv)
      ((sched (stride2 1 n2)).foldl (fun dv j => LineRelax_al tridiag n1 n2 n3 rhs (SetMatrix_JFD par n1 n2 n3 u) j k dv)
      ((sched (stride2 1 n1)).foldl (fun dv i => LineRelax_be tridiag n1 n2 n3 rhs (SetMatrix_JFD par n1 n2 n3 u) i k dv)
      ((sched (stride2 b n1)).foldl (fun dv i => LineRelax_be tridiag n1 n2 n3 rhs (SetMatrix_JFD par n1 n2 n3 u) i k dv) dv)))) dv =
      (stride2 a n3).foldl (fun dv k =>
      (stride2 0 n2).foldl (fun dv j => LineRelax_al tridiag n1 n2 n3 rhs (SetMatrix_JFD par n1 n2 n3 u) j k dv)
      ((stride2 1 n2).foldl (fun dv j => LineRelax_al tridiag n1 n2 n3 rhs (SetMatrix_JFD par n1 n2 n3 u) j k dv)
      ((stride2 1 n1).foldl (fun dv i => LineRelax_be tridiag n1 n2 n3 rhs (SetMatrix_JFD par n1 n2 n3 u) i k dv)
      ((stride2 b n1).foldl (fun dv i => LineRelax_be tridiag n1 n2 n3 rhs (SetMatrix_JFD par n1 n2 n3 u) i k dv) dv)))) dv := by
    intro a b dv
    refine List.foldl_ext _ _ _ fun dv k hk => ?_
    have hk' := (mem_stride2.1 hk).1
    rw [sched_be par n1 n2 n3 u hk' tridiag rhs dv b (hs _), sched_be par n1 n2 n3 u hk' tridiag rhs _ 1 (hs _), sched_al par n1 n2 n3 u hk' tridiag rhs _ 1 (hs _),
      sched_al par n1 n2 n3 u hk' tridiag rhs _ 0 (hs _)]
  rw [e, e]

/-- The claim is about something: the iterations in the opposite order. -/
example (par : Par) (u : Derivs) (tridiag : Tridiag) (rhs dv : ℤ → ℝ) :
    relaxSched List.reverse tridiag 8 8 4 rhs (SetMatrix_JFD par 8 8 4 u) dv = relax tridiag 8 8 4 rhs (SetMatrix_JFD par 8 8 4 u) dv :=
  C100_relax_schedule par 8 8 4 u tridiag rhs dv _ fun l => List.reverse_perm l

end Verif.TP
