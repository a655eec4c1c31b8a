import Verif.Grids.Model
import Verif.CurviBC.EigenClaims
import Verif.CurviBC.FoldTP

/-!
# Lemmas about the numerical grids
-/
namespace Verif.Grids
open Verif.Py Verif.RefMetric Real

/-- The parameters of the coordinate system after `grid_physical_size` and `grid_hole_radius` were put in. -/
noncomputable def rfmOf (name : Str) (p : Params) : CoordParams := setHole name p.hole (setSize name p.size p.rfm)

theorem gridParams_some {name : Str} {g : ℕ} {cf : ℝ} {Nd Nx : Fin 3 → ℤ} {b : Bool} {p : Params} {G : GridData}
    (h : gridParams name g cf Nd Nx b p = some G) :
    choose (rfmOf name p) name = .sys G.sys ∧ G.name = name ∧ G.params.rfm = rfmOf name p ∧
      (∀ d, G.params.Nxx d = resize cf (chosenN Nd Nx d)) ∧ (∀ d, G.params.NxxG d = G.params.Nxx d + 2 * g) ∧
      (∀ d, G.params.dxx d = (G.params.xxmax d - G.params.xxmin d) / (G.params.Nxx d : ℝ)) ∧
      (∀ d, G.params.invdxx d = (G.params.Nxx d : ℝ) / (G.params.xxmax d - G.params.xxmin d)) ∧
      (∀ d, G.xx d = coordArray g (G.params.xxmin d) (G.params.dxx d) (G.params.NxxG d)) ∧
      (b = true → G.params.xxmin = G.sys.xxmin ∧ G.params.xxmax = G.sys.xxmax) ∧
      (b = false → G.params.xxmin = p.xxmin ∧ G.params.xxmax = p.xxmax) := by
  unfold gridParams at h
  dsimp only at h
  split at h
  · next c hc =>
    cases h
    refine ⟨hc, rfl, ?_, ?_, ?_, ?_, ?_, ?_, ?_, ?_⟩ <;> cases b <;> simp [setSpacing, rfmOf]
  · cases h

theorem length_coordArray (g : ℕ) (lo dx : ℝ) (tot : ℤ) : (coordArray g lo dx tot).length = tot.toNat := by
  simp [coordArray]

theorem coordArray_get {g : ℕ} {lo dx : ℝ} {tot : ℤ} {j : ℕ} (h : (j : ℤ) < tot) :
    (coordArray g lo dx tot)[j]? = some (lo + ((j : ℝ) - g + 1 / 2) * dx) := by
  have : j < tot.toNat := by omega
  unfold coordArray
  rw [List.getElem?_map, List.getElem?_range this]
  simp only [Option.map_some, Option.some.injEq]
  push_cast
  norm_num

/-! ### Scale factors at grid points -/

theorem sin_polar_ne {N : ℤ} (hN : 0 < N) (b : ℤ) : sin (((b : ℝ) + 1 / 2) * (π / N)) ≠ 0 := by
  intro h
  obtain ⟨k, hk⟩ := sin_eq_zero_iff.1 h
  have hN' : (N : ℝ) ≠ 0 := by exact_mod_cast hN.ne'
  have hπ := pi_ne_zero
  have e : (2 * k * N : ℝ) = 2 * b + 1 := by
    field_simp at hk
    linear_combination hk
  have e' : 2 * k * N = 2 * b + 1 := by exact_mod_cast e
  have : 2 * (k * N) = 2 * b + 1 := by rw [← e']; ring
  omega

theorem sinhv1_ne {t ampl w : ℝ} (hA : 0 < ampl) (hw : 0 < w) (ht : t ≠ 0) : sinhv1 t ampl w ≠ 0 := by
  rcases lt_or_gt_of_ne ht with h | h
  · have := sinhv1_pos (x := -t) hA hw (by linarith)
    rw [CurviBC.sinhv1_odd] at this
    intro e; rw [e] at this; norm_num at this
  · exact (sinhv1_pos hA hw h).ne'

theorem sinhv2_ne {n : ℕ} (hn : n % 2 = 0) {t ampl w s : ℝ} (hA : 0 < ampl) (hw : 0 < w) (hs : 0 ≤ s) (hle : s ≤ ampl)
    (ht : t ≠ 0) : sinhv2 n t ampl w s ≠ 0 := by
  rcases lt_or_gt_of_ne ht with h | h
  · have := sinhv2_pos (n := n) (x := -t) hA hw hs hle (by linarith)
    rw [CurviBC.sinhv2_odd hn] at this
    intro e; rw [e] at this; norm_num at this
  · exact (sinhv2_pos hA hw hs hle h).ne'

theorem deriv_sinhv2_pos {n : ℕ} (hn : n % 2 = 0) {ampl w s : ℝ} (hw : 0 < w) (hs : 0 < s) (hle : s ≤ ampl) (x : ℝ) :
    0 < deriv (fun t => sinhv2 n t ampl w s) x := by
  have h2 : 0 < exp (1 / w) - exp (-1 / w) := by
    rw [sub_pos, exp_lt_exp]; gcongr; norm_num
  have e1 : HasDerivAt (fun t : ℝ => t / w) (1 / w) x := (hasDerivAt_id' x).div_const w
  have e2 : HasDerivAt (fun t : ℝ => -t / w) (-1 / w) x := (hasDerivAt_id' x).neg.div_const w
  have e3 : HasDerivAt (fun t : ℝ => t ^ n) (n * x ^ (n - 1)) x := hasDerivAt_pow n x
  have hd : HasDerivAt (fun t => sinhv2 n t ampl w s)
      (((ampl - s) * (n * x ^ (n - 1)) * (exp (x / w) - exp (-x / w)) +
        (ampl - s) * x ^ n * (exp (x / w) * (1 / w) - exp (-x / w) * (-1 / w))) / (exp (1 / w) - exp (-1 / w)) + s * 1) x := by
    unfold sinhv2
    exact (((e3.const_mul (ampl - s)).mul (e1.exp.sub e2.exp)).div_const _).add ((hasDerivAt_id' x).const_mul s)
  rw [hd.deriv]
  have k0 : 0 ≤ ampl - s := by linarith
  have k1 : 0 ≤ (n : ℝ) * x ^ (n - 1) * (exp (x / w) - exp (-x / w)) := by
    rcases Nat.eq_zero_or_pos n with rfl | hpos
    · simp
    · have ho : Odd (n - 1) := Nat.odd_iff.2 (by omega)
      rcases le_total 0 x with hx | hx
      · have : 0 ≤ exp (x / w) - exp (-x / w) := by rw [sub_nonneg, exp_le_exp]; gcongr; linarith
        positivity
      · have a : exp (x / w) - exp (-x / w) ≤ 0 := by rw [sub_nonpos, exp_le_exp]; gcongr; linarith
        have b : x ^ (n - 1) ≤ 0 := ho.pow_nonpos hx
        rw [mul_assoc]
        exact mul_nonneg (Nat.cast_nonneg n) (mul_nonneg_of_nonpos_of_nonpos b a)
  have k2 : 0 ≤ x ^ n := (Nat.even_iff.2 hn).pow_nonneg x
  have k3 : 0 ≤ exp (x / w) * (1 / w) - exp (-x / w) * (-1 / w) := by
    rw [show exp (x / w) * (1 / w) - exp (-x / w) * (-1 / w) = (exp (x / w) + exp (-x / w)) * (1 / w) by ring]
    have a := exp_pos (x / w)
    have b := exp_pos (-x / w)
    positivity
  have : 0 ≤ ((ampl - s) * (n * x ^ (n - 1)) * (exp (x / w) - exp (-x / w)) +
        (ampl - s) * x ^ n * (exp (x / w) * (1 / w) - exp (-x / w) * (-1 / w))) / (exp (1 / w) - exp (-1 / w)) := by
    refine div_nonneg (add_nonneg ?_ (by positivity)) h2.le
    rw [mul_assoc]
    exact mul_nonneg k0 k1
  linarith

/-! ### The loops -/

theorem cMin_eq (a b : ℝ) : cMin a b = min a b := by
  unfold cMin
  split
  · next h => exact (min_eq_left h.le).symm
  · next h => exact (min_eq_right (not_lt.1 h)).symm

theorem foldl_min_le {α : Type} (f : α → ℝ) : ∀ (l : List α) (b : ℝ), l.foldl (fun acc i => min acc (f i)) b ≤ b ∧
    (∀ i ∈ l, l.foldl (fun acc i => min acc (f i)) b ≤ f i) ∧
    (l.foldl (fun acc i => min acc (f i)) b = b ∨ ∃ i ∈ l, l.foldl (fun acc i => min acc (f i)) b = f i)
  | [], b => ⟨le_rfl, by simp, .inl rfl⟩
  | a :: l, b => by
    obtain ⟨h1, h2, h3⟩ := foldl_min_le f l (min b (f a))
    rw [List.foldl_cons]
    refine ⟨h1.trans (min_le_left _ _), fun i hi => ?_, ?_⟩
    · rcases List.mem_cons.1 hi with rfl | hi
      · exact h1.trans (min_le_right _ _)
      · exact h2 i hi
    · rcases h3 with h3 | ⟨i, hi, h3⟩
      · rcases min_choice b (f a) with e | e
        · exact .inl (h3.trans e)
        · exact .inr ⟨a, List.mem_cons_self, h3.trans e⟩
      · exact .inr ⟨i, List.mem_cons_of_mem _ hi, h3⟩

/-- The points of a grid, ghost points included. -/
def GridData.HasPoint (G : GridData) (i : ℕ × ℕ × ℕ) : Prop :=
  (i.1 : ℤ) < G.params.NxxG 0 ∧ (i.2.1 : ℤ) < G.params.NxxG 1 ∧ (i.2.2 : ℤ) < G.params.NxxG 2

/-- Each value of `i2` is visited by exactly one thread. -/
def GridData.Scheduled (G : GridData) (chunks : List (List ℕ)) : Prop :=
  chunks.flatten.Perm (List.range (G.params.NxxG 2).toNat)

theorem mem_slab {N0 N1 i2 : ℕ} {i : ℕ × ℕ × ℕ} : i ∈ slab N0 N1 i2 ↔ i.1 < N0 ∧ i.2.1 < N1 ∧ i.2.2 = i2 := by
  obtain ⟨a, b, c⟩ := i
  simp only [slab, List.mem_flatMap, List.mem_range, List.mem_map, Prod.mk.injEq]
  constructor
  · rintro ⟨i1, h1, i0, h0, rfl, rfl, rfl⟩
    exact ⟨h0, h1, rfl⟩
  · rintro ⟨h0, h1, rfl⟩
    exact ⟨b, h1, a, h0, rfl, rfl, rfl⟩

/-- The smallest of the three spacings at a point. -/
noncomputable def GridData.dsAll (G : GridData) (i : ℕ × ℕ × ℕ) : ℝ := min (G.ds i 0) (min (G.ds i 1) (G.ds i 2))

theorem visit_eq (G : GridData) : G.visit = fun acc i => min acc (G.dsAll i) := by
  funext acc i
  simp only [GridData.visit, cMin_eq, GridData.dsAll]

theorem dsAll_le (G : GridData) (i : ℕ × ℕ × ℕ) (d : Fin 3) : G.dsAll i ≤ G.ds i d := by
  fin_cases d
  · exact min_le_left _ _
  · exact (min_le_right _ _).trans (min_le_left _ _)
  · exact (min_le_right _ _).trans (min_le_right _ _)

theorem dsAll_mem (G : GridData) (i : ℕ × ℕ × ℕ) : ∃ d, G.dsAll i = G.ds i d := by
  unfold GridData.dsAll
  rcases min_choice (G.ds i 0) (min (G.ds i 1) (G.ds i 2)) with h | h
  · exact ⟨0, h⟩
  · rw [h]
    rcases min_choice (G.ds i 1) (G.ds i 2) with h | h
    · exact ⟨1, h⟩
    · exact ⟨2, h⟩

theorem dsMin_spec {G : GridData} {big : ℝ} (hb : (1e38 : ℝ) ≤ big) {chunks : List (List ℕ)} (hc : G.Scheduled chunks) :
    (∀ i d, G.HasPoint i → G.dsMin big chunks ≤ G.ds i d) ∧
      (G.dsMin big chunks = 1e38 ∨ ∃ i d, G.HasPoint i ∧ G.dsMin big chunks = G.ds i d) ∧ G.dsMin big chunks ≤ 1e38 := by
  let N0 := (G.params.NxxG 0).toNat
  let N1 := (G.params.NxxG 1).toNat
  let f : List ℕ → ℝ := fun chunk => (chunk.flatMap fun i2 => slab N0 N1 i2).foldl G.visit big
  have e : G.dsMin big chunks = chunks.foldl (fun acc ch => min acc (f ch)) 1e38 := by
    unfold GridData.dsMin
    simp only [cMin_eq]
    rfl
  have hf : ∀ ch, f ch = (ch.flatMap fun i2 => slab N0 N1 i2).foldl (fun acc i => min acc (G.dsAll i)) big := fun ch => by
    rw [← visit_eq]
  obtain ⟨a1, a2, a3⟩ := foldl_min_le f chunks 1e38
  rw [e]
  have mem : ∀ i, G.HasPoint i ↔ ∃ ch ∈ chunks, i ∈ ch.flatMap fun i2 => slab N0 N1 i2 := by
    intro i
    have hp : i.2.2 ∈ chunks.flatten ↔ i.2.2 < (G.params.NxxG 2).toNat := by rw [hc.mem_iff, List.mem_range]
    rw [List.mem_flatten] at hp
    simp only [List.mem_flatMap, mem_slab, GridData.HasPoint]
    constructor
    · rintro ⟨h0, h1, h2⟩
      obtain ⟨ch, hch, hi⟩ := hp.2 (by omega)
      exact ⟨ch, hch, i.2.2, hi, by omega, by omega, rfl⟩
    · rintro ⟨ch, hch, i2, hi2, h0, h1, rfl⟩
      have := hp.1 ⟨ch, hch, hi2⟩
      omega
  refine ⟨fun i d hi => ?_, ?_, a1⟩
  · obtain ⟨ch, hch, hi⟩ := (mem i).1 hi
    refine (a2 ch hch).trans ?_
    rw [hf]
    exact ((foldl_min_le G.dsAll _ big).2.1 i hi).trans (dsAll_le G i d)
  · rcases a3 with h | ⟨ch, hch, h⟩
    · exact .inl h
    · rw [h]
      rcases (foldl_min_le G.dsAll (ch.flatMap fun i2 => slab N0 N1 i2) big).2.2 with k | ⟨i, hi, k⟩
      · left
        rw [hf, k]
        have : f ch ≤ 1e38 := h ▸ a1
        rw [hf, k] at this
        exact le_antisymm this hb
      · obtain ⟨d, hd⟩ := dsAll_mem G i
        exact .inr ⟨i, d, (mem i).2 ⟨ch, hch, hi⟩, by rw [hf, k, hd]⟩

theorem mapM_some {α β : Type} {f : α → Option β} : ∀ {l : List α} {r : List β}, l.mapM f = some r →
    ∀ b ∈ r, ∃ a ∈ l, f a = some b := by
  intro l
  induction l with
  | nil => intro r h; simp at h; subst h; simp
  | cons a l ih =>
    intro r h
    rw [List.mapM_cons] at h
    cases ha : f a with
    | none => rw [ha] at h; cases h
    | some b =>
      rw [ha] at h
      cases hl : l.mapM f with
      | none => rw [hl] at h; cases h
      | some bs =>
        rw [hl] at h
        cases h
        intro c hc
        rcases List.mem_cons.1 hc with rfl | hc
        · exact ⟨a, List.mem_cons_self, ha⟩
        · obtain ⟨a', h1, h2⟩ := ih hl c hc
          exact ⟨a', List.mem_cons_of_mem _ h1, h2⟩

theorem mapM_forall {α β : Type} {f : α → Option β} : ∀ {l : List α} {r : List β}, l.mapM f = some r →
    List.Forall₂ (fun a b => f a = some b) l r := by
  intro l
  induction l with
  | nil => intro r h; simp at h; subst h; exact .nil
  | cons a l ih =>
    intro r h
    rw [List.mapM_cons] at h
    cases ha : f a with
    | none => rw [ha] at h; cases h
    | some b =>
      rw [ha] at h
      cases hl : l.mapM f with
      | none => rw [hl] at h; cases h
      | some bs =>
        rw [hl] at h
        cases h
        exact .cons ha (ih hl)

end Verif.Grids
