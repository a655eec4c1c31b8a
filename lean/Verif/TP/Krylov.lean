import Verif.TP.SolveModel
import Verif.TP.InterpClaims

/-!
# TwoPunctures: the linear and the nonlinear iteration
-/
namespace Verif.TP
open Real Verif.RefMetric Verif.BSSN Verif.Wave

/-! ## The nodes and the elements of the arrays -/

theorem exists_node {n1 n2 n3 : ℕ} {x : ℤ} (h0 : 0 ≤ x) (h1 : x < (n1 * n2 * n3 : ℕ)) :
    ∃ i < n1, ∃ j < n2, ∃ k < n3, x = Index 0 (i : ℕ) (j : ℕ) (k : ℕ) 1 n1 n2 n3 := by
  obtain ⟨m, rfl⟩ := Int.eq_ofNat_of_zero_le h0
  have hm : m < n1 * n2 * n3 := by exact_mod_cast h1
  have p1 : 0 < n1 := Nat.pos_of_ne_zero fun h => by simp [h] at hm
  have p2 : 0 < n2 := Nat.pos_of_ne_zero fun h => by simp [h] at hm
  refine ⟨m % n1, Nat.mod_lt _ p1, m / n1 % n2, Nat.mod_lt _ p2, m / n1 / n2, ?_, ?_⟩
  · rw [Nat.div_div_eq_div_mul, Nat.div_lt_iff_lt_mul (by positivity)]
    calc m < n1 * n2 * n3 := hm
      _ = n3 * (n1 * n2) := by ring
  · rw [Index_in (by positivity) (by exact_mod_cast Nat.mod_lt _ p1) (by positivity) (by exact_mod_cast Nat.mod_lt _ p2) (by positivity)]
    · have e1 := Nat.mod_add_div m n1
      have e2 := Nat.mod_add_div (m / n1) n2
      have : m = m % n1 + n1 * (m / n1 % n2 + n2 * (m / n1 / n2)) := by rw [e2, e1]
      push_cast
      have e3 : (m : ℤ) = ((m % n1 + n1 * (m / n1 % n2 + n2 * (m / n1 / n2)) : ℕ) : ℤ) := by exact_mod_cast this
      push_cast at e3
      linarith
    · have : m / n1 / n2 < n3 := by
        rw [Nat.div_div_eq_div_mul, Nat.div_lt_iff_lt_mul (by positivity)]
        calc m < n1 * n2 * n3 := hm
          _ = n3 * (n1 * n2) := by ring
      exact_mod_cast this

theorem node_index {n1 n2 n3 i j k : ℕ} (hi : i < n1) (hj : j < n2) (hk : k < n3) :
    0 ≤ Index 0 i j k 1 n1 n2 n3 ∧ Index 0 i j k 1 n1 n2 n3 < (n1 * n2 * n3 : ℕ) := by
  have h := (C95_index_injective 1 n1 n2 n3 (ivar := 0) (i := i) (j := j) (k := k) (ivar' := 0) (i' := i) (j' := j) (k' := k) (by norm_num) (by omega) (by omega) (by omega)
    (by norm_num) (by omega) (by omega) (by omega)).1
  refine ⟨h.1, h.2.trans_eq ?_⟩
  push_cast
  ring

theorem not_node {n1 n2 n3 : ℕ} {x : ℤ} (h : ¬(0 ≤ x ∧ x < (n1 * n2 * n3 : ℕ))) : ∀ i < n1, ∀ j < n2, ∀ k < n3, x ≠ Index 0 (i : ℕ) (j : ℕ) (k : ℕ) 1 n1 n2 n3 :=
  fun i hi j hj k hk e => h (e ▸ node_index hi hj hk)

/-! ## The Jacobian is linear -/

/-- The Jacobian at `v`: the array that `J_times_dv` computes with the derivatives that `F_of_v` stored. -/
noncomputable def jacobian (par : Par) (n1 n2 n3 : ℕ) (v : Derivs) (d : ℤ → ℝ) : ℤ → ℝ :=
  (J_times_dv par n1 n2 n3 { Derivs.zero with d0 := d } 0 (F_of_v par n1 n2 n3 v 0 .zero).2.2).2

/-- The residual at `v`: the array that `F_of_v` computes. -/
noncomputable def residualOf (par : Par) (n1 n2 n3 : ℕ) (v : Derivs) : ℤ → ℝ := (F_of_v par n1 n2 n3 v 0 .zero).2.1

section Jac
variable {par : Par} (hb : 0 < par.par_b) {n1 n2 M : ℕ} (hM : 0 < M)
include hb hM

theorem J_formula (v dv : Derivs) (F Jdv : ℤ → ℝ) (U : Derivs) {f g : ℝ → ℝ → ℝ → ℝ} {u w : Scal} (hf : Resolved n1 n2 (2 * M) f)
    (hfg : OnGrid n1 n2 (2 * M) v.d0 f) (hu : Represents par.par_b f u) (hg : Resolved n1 n2 (2 * M) g) (hgg : OnGrid n1 n2 (2 * M) dv.d0 g)
    (hw : Represents par.par_b g w) {i j k : ℕ} (hi : i < n1) (hj : j < n2) (hk : k < 2 * M) :
    let x := nodePos par.par_b n1 n2 (2 * M) i j k
    (J_times_dv par n1 n2 (2 * M) dv Jdv (F_of_v par n1 n2 (2 * M) v F U).2.2).2 (Index 0 i j k 1 n1 n2 (2 * M : ℕ)) =
      (laplacian w x - 7 / 8 * (∑ i, ∑ j, curvature par i j x ^ 2) * (conformal par u x ^ 8)⁻¹ * w x) * FAC (π / 2 * (2 * i + 1) / n1) (π / 2 * (2 * j + 1) / n2) := by
  intro x
  have hx : x ∈ offAxis := nodePos_offAxis hb hi hj
  have hx' := offAxis_le par hx
  rw [(J_times_dv_at par n1 n2 (2 * M) dv Jdv _).2.1 i hi j hj k hk]
  have h := node_jet hb hM hg hw dv hgg hi hj hk
  rw [angle] at h
  have h2 := ((F_of_v_at par n1 n2 (2 * M) v F U).2.1 i hi j hj k hk).2
  rw [point_eq hb hM hf hu v hfg hi hj hk] at h2
  simp only [J_times_dv_point, al_eq, h2]
  rw [h]
  simp only [x] at hx' ⊢
  rw [Lin_eq hx']

/-- `J_times_dv` reads only `d0`, and is linear. -/
theorem jacobian_comb (v d e w : Derivs) (Je : ℤ → ℝ) (t : ℝ) {x : ℤ} (hx : 0 ≤ x ∧ x < (n1 * n2 * (2 * M) : ℕ)) (F : ℤ → ℝ) (U : Derivs)
    (hd : ∀ y : ℤ, 0 ≤ y ∧ y < (n1 * n2 * (2 * M) : ℕ) → e.d0 y = d.d0 y + t * w.d0 y) :
    (J_times_dv par n1 n2 (2 * M) e Je (F_of_v par n1 n2 (2 * M) v F U).2.2).2 x =
      jacobian par n1 n2 (2 * M) v d.d0 x + t * jacobian par n1 n2 (2 * M) v w.d0 x := by
  obtain ⟨i, hi, j, hj, k, hk, rfl⟩ := exists_node hx.1 hx.2
  obtain ⟨f, u, hf, hfg, hu⟩ := C97_function_exists par.par_b hb n1 n2 M hM v.d0
  obtain ⟨g, a, hg, hgg, ha⟩ := C97_function_exists par.par_b hb n1 n2 M hM d.d0
  obtain ⟨g', a', hg', hgg', ha'⟩ := C97_function_exists par.par_b hb n1 n2 M hM w.d0
  have o := nodePos_offAxis (n3 := 2 * M) (k := k) hb hi hj
  rw [J_formula hb hM v e F Je U hf hfg hu (hg.comb hg' t) (fun i hi j hj k hk => by
      rw [hd _ (node_index hi hj hk), hgg i hi j hj k hk, hgg' i hi j hj k hk]) (ha.comb ha' t) hi hj hk,
    jacobian, jacobian, J_formula hb hM v { Derivs.zero with d0 := d.d0 } 0 0 .zero hf hfg hu hg hgg ha hi hj hk,
    J_formula hb hM v { Derivs.zero with d0 := w.d0 } 0 0 .zero hf hfg hu hg' hgg' ha' hi hj hk, laplacian_comb ha.1 ha'.1 t o]
  ring

theorem jacobian_eq (v d : Derivs) (Jd : ℤ → ℝ) {x : ℤ} (hx : 0 ≤ x ∧ x < (n1 * n2 * (2 * M) : ℕ)) (F : ℤ → ℝ) (U : Derivs) :
    (J_times_dv par n1 n2 (2 * M) d Jd (F_of_v par n1 n2 (2 * M) v F U).2.2).2 x = jacobian par n1 n2 (2 * M) v d.d0 x := by
  rw [jacobian_comb hb hM v d d d Jd 0 hx F U (fun y _ => by ring)]
  ring

theorem jacobian_add (v : Derivs) (d e w : ℤ → ℝ) (t : ℝ) {x : ℤ} (hx : 0 ≤ x ∧ x < (n1 * n2 * (2 * M) : ℕ))
    (hd : ∀ y : ℤ, 0 ≤ y ∧ y < (n1 * n2 * (2 * M) : ℕ) → e y = d y + t * w y) :
    jacobian par n1 n2 (2 * M) v e x = jacobian par n1 n2 (2 * M) v d x + t * jacobian par n1 n2 (2 * M) v w x :=
  jacobian_comb hb hM v { Derivs.zero with d0 := d } { Derivs.zero with d0 := e } { Derivs.zero with d0 := w } 0 t hx 0 .zero hd

omit hb in
theorem Derivatives_d0 (v : Derivs) : (Derivatives_AB3 1 n1 n2 (2 * M) v).d0 = v.d0 := by
  obtain ⟨fs, hf, h0⟩ := C95_interpolant_exists 1 n1 n2 M hM v.d0
  exact (C95_derivatives 1 n1 n2 M fs hf v h0).1

omit hb in
theorem J_d0 (d : Derivs) (Jd : ℤ → ℝ) (u : Derivs) : (J_times_dv par n1 n2 (2 * M) d Jd u).1.d0 = d.d0 := by
  rw [(J_times_dv_at par n1 n2 (2 * M) d Jd u).1, Derivatives_d0 hM]

omit hb in
theorem F_d0 (v : Derivs) (F : ℤ → ℝ) (U : Derivs) : (F_of_v par n1 n2 (2 * M) v F U).1.d0 = v.d0 := by
  rw [(F_of_v_at par n1 n2 (2 * M) v F U).1, Derivatives_d0 hM]

omit hb in
/-- The residual depends on `d0` only. -/
theorem residual_congr (hb : 0 < par.par_b) (v w : Derivs) (F : ℤ → ℝ) (U : Derivs) (h : ∀ y : ℤ, 0 ≤ y ∧ y < (n1 * n2 * (2 * M) : ℕ) → v.d0 y = w.d0 y) {x : ℤ}
    (hx : 0 ≤ x ∧ x < (n1 * n2 * (2 * M) : ℕ)) : (F_of_v par n1 n2 (2 * M) v F U).2.1 x = residualOf par n1 n2 (2 * M) w x := by
  obtain ⟨i, hi, j, hj, k, hk, rfl⟩ := exists_node hx.1 hx.2
  obtain ⟨f, u, hf, hfg, hu⟩ := C97_function_exists par.par_b hb n1 n2 M hM w.d0
  rw [residualOf, ((F_of_v_at par n1 n2 (2 * M) v F U).2.1 i hi j hj k hk).1, ((F_of_v_at par n1 n2 (2 * M) w 0 .zero).2.1 i hi j hj k hk).1,
    point_eq hb hM hf hu w hfg hi hj hk, point_eq hb hM hf hu v (fun i hi j hj k hk => by rw [h _ (node_index hi hj hk), hfg i hi j hj k hk]) hi hj hk]

end Jac

/-! ## Norms -/

theorem norm2_eq (v : ℤ → ℝ) (n : ℕ) : norm2 v n = √(∑ i ∈ Finset.range n, v i ^ 2) := by
  rw [norm2, foldl_add, zero_add]
  simp only [pow_two]

theorem norm2_congr {v w : ℤ → ℝ} {n : ℕ} (h : ∀ y : ℤ, 0 ≤ y ∧ y < n → v y = w y) : norm2 v n = norm2 w n := by
  rw [norm2_eq, norm2_eq]
  congr 1
  refine Finset.sum_congr rfl fun i hi => ?_
  rw [h i ⟨by positivity, by exact_mod_cast Finset.mem_range.1 hi⟩]

theorem fill_in {n : ℕ} {f a : ℤ → ℝ} {x : ℤ} (h : 0 ≤ x ∧ x < n) : fill n f a x = f x := if_pos h
theorem fill_out {n : ℕ} {f a : ℤ → ℝ} {x : ℤ} (h : ¬(0 ≤ x ∧ x < n)) : fill n f a x = a x := if_neg h

/-! ## BiCGSTAB -/

section Bicgstab
variable {par : Par} (hb : 0 < par.par_b) {n1 n2 M : ℕ} (hM : 0 < M)

/-- The norm of the residual of the linear system for `d`. -/
noncomputable def linNorm (par : Par) (n1 n2 n3 : ℕ) (v : Derivs) (d : ℤ → ℝ) : ℝ :=
  norm2 (fun x => residualOf par n1 n2 n3 v x - jacobian par n1 n2 n3 v d x) (n1 * n2 * n3)

/-- `r = F - J dv`, and the results so far. -/
structure BInv (par : Par) (n1 n2 n3 : ℕ) (v : Derivs) (d0 : ℤ → ℝ) (st : Bicg) : Prop where
  r : ∀ x : ℤ, 0 ≤ x ∧ x < (n1 * n2 * n3 : ℕ) → st.r x = residualOf par n1 n2 n3 v x - jacobian par n1 n2 n3 v st.dv.d0 x
  normres : st.normres = linNorm par n1 n2 n3 v st.dv.d0
  outside : ∀ x : ℤ, ¬(0 ≤ x ∧ x < (n1 * n2 * n3 : ℕ)) → st.dv.d0 x = d0 x

/-- What holds after the loop. -/
structure BPost (par : Par) (n1 n2 n3 : ℕ) (v : Derivs) (d0 : ℤ → ℝ) (st : Bicg) : Prop where
  normres : st.normres = linNorm par n1 n2 n3 v st.dv.d0
  outside : ∀ x : ℤ, ¬(0 ≤ x ∧ x < (n1 * n2 * n3 : ℕ)) → st.dv.d0 x = d0 x

theorem BInv.post {par : Par} {n1 n2 n3 : ℕ} {v : Derivs} {d0 : ℤ → ℝ} {st : Bicg} (h : BInv par n1 n2 n3 v d0 st) : BPost par n1 n2 n3 v d0 st := ⟨h.normres, h.outside⟩

include hb hM in
theorem step_inv (tridiag : Tridiag) (v : Derivs) (S : Sparse) (rt : ℤ → ℝ) (tol : ℝ) (ii : ℕ) (d0 : ℤ → ℝ) (st : Bicg) (h : BInv par n1 n2 (2 * M) v d0 st) :
    let q := bicgstab_step tridiag par n1 n2 (2 * M) (F_of_v par n1 n2 (2 * M) v 0 .zero).2.2 S rt tol ii st
    BPost par n1 n2 (2 * M) v d0 q.1 ∧ (q.2 = false → BInv par n1 n2 (2 * M) v d0 q.1) := by
  intro q
  obtain ⟨hr, hn, ho⟩ := h
  have key : ∀ (x : ℤ) (c : ℝ) (a b e Jb : ℤ → ℝ), 0 ≤ x ∧ x < (n1 * n2 * (2 * M) : ℕ) → (∀ y : ℤ, 0 ≤ y ∧ y < (n1 * n2 * (2 * M) : ℕ) → e y = a y + c * b y) →
      Jb x = jacobian par n1 n2 (2 * M) v b x →
      residualOf par n1 n2 (2 * M) v x - jacobian par n1 n2 (2 * M) v a x - c * Jb x = residualOf par n1 n2 (2 * M) v x - jacobian par n1 n2 (2 * M) v e x :=
    fun x c a b e Jb hx he hJb => by rw [jacobian_add hb hM v a e b c hx he, hJb]; ring
  simp only [q, bicgstab_step]
  by_cases h1 : |scalarproduct rt st.r (n1 * n2 * (2 * M))| < rhotol
  · rw [if_pos h1]
    exact ⟨⟨hn, ho⟩, fun h => by simp at h⟩
  rw [if_neg h1]
  generalize hst1 : bicgstab_direction _ ii _ = st1
  have e1 : st1.r = st.r ∧ st1.dv = st.dv := by
    rw [← hst1, bicgstab_direction]
    split_ifs <;> exact ⟨rfl, rfl⟩
  clear hst1
  rw [← e1.1, ← e1.2] at hr
  rw [← e1.2] at ho
  simp only [J_d0 hM]
  have hJ := fun (d : Derivs) (Jd : ℤ → ℝ) {x : ℤ} (hx : 0 ≤ x ∧ x < (n1 * n2 * (2 * M) : ℕ)) => jacobian_eq hb hM v d Jd hx 0 .zero
  generalize precondition tridiag n1 n2 (2 * M) st1.p S st1.ph.d0 = ph
  generalize hvv : (J_times_dv par n1 n2 (2 * M) { st1.ph with d0 := ph } st1.vv (F_of_v par n1 n2 (2 * M) v 0 .zero).2.2).2 = vv
  have hvv' : ∀ x : ℤ, 0 ≤ x ∧ x < (n1 * n2 * (2 * M) : ℕ) → vv x = jacobian par n1 n2 (2 * M) v ph x := fun x hx => by rw [← hvv, hJ _ _ hx]
  generalize st1.rho / scalarproduct rt vv (n1 * n2 * (2 * M)) = alpha
  generalize hs : fill (n1 * n2 * (2 * M)) (fun j => st1.r j - alpha * vv j) st1.s = s
  have hs' : ∀ x : ℤ, 0 ≤ x ∧ x < (n1 * n2 * (2 * M) : ℕ) → s x = residualOf par n1 n2 (2 * M) v x -
      jacobian par n1 n2 (2 * M) v (fill (n1 * n2 * (2 * M)) (fun j => st1.dv.d0 j + alpha * ph j) st1.dv.d0) x := fun x hx => by
    rw [← hs, fill_in hx, hr x hx]
    exact key x alpha st1.dv.d0 ph _ vv hx (fun y hy => fill_in hy) (hvv' x hx)
  by_cases h2 : norm2 s (n1 * n2 * (2 * M)) ≤ tol
  · rw [if_pos h2]
    refine ⟨⟨?_, fun x hx => ?_⟩, fun h => by simp at h⟩
    · exact norm2_congr hs'
    · simp only
      rw [fill_out hx, ho x hx]
  rw [if_neg h2]
  generalize precondition tridiag n1 n2 (2 * M) s S st1.sh.d0 = sh
  generalize ht : (J_times_dv par n1 n2 (2 * M) { st1.sh with d0 := sh } st1.t (F_of_v par n1 n2 (2 * M) v 0 .zero).2.2).2 = t
  have ht' : ∀ x : ℤ, 0 ≤ x ∧ x < (n1 * n2 * (2 * M) : ℕ) → t x = jacobian par n1 n2 (2 * M) v sh x := fun x hx => by rw [← ht, hJ _ _ hx]
  generalize scalarproduct t s (n1 * n2 * (2 * M)) / scalarproduct t t (n1 * n2 * (2 * M)) = omega
  generalize hr2 : fill (n1 * n2 * (2 * M)) (fun j => s j - omega * t j) st1.r = r
  have hr' : ∀ x : ℤ, 0 ≤ x ∧ x < (n1 * n2 * (2 * M) : ℕ) → r x = residualOf par n1 n2 (2 * M) v x -
      jacobian par n1 n2 (2 * M) v (fill (n1 * n2 * (2 * M)) (fun j => st1.dv.d0 j + (alpha * ph j + omega * sh j)) st1.dv.d0) x := fun x hx => by
    rw [← hr2, fill_in hx, hs' x hx]
    refine key x omega _ sh _ t hx (fun y hy => ?_) (ht' x hx)
    rw [fill_in hy, fill_in hy]
    ring
  have good : BInv par n1 n2 (2 * M) v d0
      ({ st1 with
        sh := (J_times_dv par n1 n2 (2 * M) { st1.sh with d0 := sh } st1.t (F_of_v par n1 n2 (2 * M) v 0 .zero).2.2).1, t := t, omega := omega,
        dv := { st1.dv with d0 := fill (n1 * n2 * (2 * M)) (fun j => st1.dv.d0 j + (alpha * ph j + omega * sh j)) st1.dv.d0 }, r := r,
        normres := norm2 r (n1 * n2 * (2 * M)) } : Bicg) := by
    refine ⟨hr', norm2_congr hr', fun x hx => ?_⟩
    simp only
    rw [fill_out hx, ho x hx]
  by_cases h3 : norm2 r (n1 * n2 * (2 * M)) ≤ tol
  · rw [if_pos h3]
    exact ⟨⟨good.normres, good.outside⟩, fun h => by simp at h⟩
  · rw [if_neg h3]
    exact ⟨⟨good.normres, good.outside⟩, fun _ => ⟨good.r, good.normres, good.outside⟩⟩

theorem loop_post (step : ℕ → Bicg → Bicg × Bool) (I P : Bicg → Prop) (hIP : ∀ st, I st → P st) (hs : ∀ ii st, I st → P (step ii st).1 ∧ ((step ii st).2 = false → I (step ii st).1)) :
    ∀ (fuel ii : ℕ) (st : Bicg), I st → P (bicgstab_loop step fuel ii st).1 ∧ (bicgstab_loop step fuel ii st).2 ≤ ii + fuel
  | 0, ii, st, h => ⟨hIP st h, le_rfl⟩
  | fuel + 1, ii, st, h => by
    rw [bicgstab_loop]
    rcases hq : step ii st with ⟨st', done⟩
    have := hs ii st h
    rw [hq] at this
    simp only
    cases done
    · have r := loop_post step I P hIP hs fuel (ii + 1) st' (this.2 rfl)
      rw [if_neg (by simp)]
      exact ⟨r.1, by omega⟩
    · rw [if_pos rfl]
      exact ⟨this.1, by omega⟩

include hb hM in
theorem bicgstab_spec (tridiag : Tridiag) (v dv : Derivs) (itmax : ℕ) (tol : ℝ) :
    let w := bicgstab tridiag par n1 n2 (2 * M) v dv itmax tol
    w.2.1 = linNorm par n1 n2 (2 * M) v w.1.d0 ∧ (w.2.2 = 0 ↔ w.2.1 ≤ tol) ∧ w.2.2 ≠ -1 ∧ w.2.2 ≤ itmax + 1 ∧ (∀ x : ℤ, ¬(0 ≤ x ∧ x < (n1 * n2 * (2 * M) : ℕ)) → w.1.d0 x = dv.d0 x) := by
  intro w
  simp only [w, bicgstab]
  have hr : ∀ x : ℤ, 0 ≤ x ∧ x < (n1 * n2 * (2 * M) : ℕ) →
      (bicgstab_start par n1 n2 (2 * M) dv (F_of_v par n1 n2 (2 * M) v 0 .zero).2.1 (F_of_v par n1 n2 (2 * M) v 0 .zero).2.2).r x =
        residualOf par n1 n2 (2 * M) v x - jacobian par n1 n2 (2 * M) v dv.d0 x := fun x hx => by
    simp only [bicgstab_start]
    rw [fill_in hx, jacobian_eq hb hM v dv 0 hx 0 .zero]
    rfl
  have hd : (bicgstab_start par n1 n2 (2 * M) dv (F_of_v par n1 n2 (2 * M) v 0 .zero).2.1 (F_of_v par n1 n2 (2 * M) v 0 .zero).2.2).dv.d0 = dv.d0 :=
    J_d0 (par := par) hM dv 0 (F_of_v par n1 n2 (2 * M) v 0 .zero).2.2
  have hn : (bicgstab_start par n1 n2 (2 * M) dv (F_of_v par n1 n2 (2 * M) v 0 .zero).2.1 (F_of_v par n1 n2 (2 * M) v 0 .zero).2.2).normres =
      norm2 (bicgstab_start par n1 n2 (2 * M) dv (F_of_v par n1 n2 (2 * M) v 0 .zero).2.1 (F_of_v par n1 n2 (2 * M) v 0 .zero).2.2).r (n1 * n2 * (2 * M)) := rfl
  generalize bicgstab_start par n1 n2 (2 * M) dv (F_of_v par n1 n2 (2 * M) v 0 .zero).2.1 (F_of_v par n1 n2 (2 * M) v 0 .zero).2.2 = st at *
  have inv : BInv par n1 n2 (2 * M) v dv.d0 st := by
    refine ⟨fun x hx => by rw [hd]; exact hr x hx, ?_, fun x _ => by rw [hd]⟩
    rw [linNorm, hd, hn]
    exact norm2_congr hr
  generalize hrt : fill (n1 * n2 * (2 * M)) _ (0 : ℤ → ℝ) = rt
  generalize SetMatrix_JFD par n1 n2 (2 * M) _ = S
  have h := loop_post (bicgstab_step tridiag par n1 n2 (2 * M) (F_of_v par n1 n2 (2 * M) v 0 .zero).2.2 S rt tol) _ _ (fun _ h => BInv.post h)
    (fun ii st h => step_inv hb hM tridiag v S rt tol ii dv.d0 st h) itmax 0 st inv
  obtain ⟨q, hq⟩ : ∃ q, (if st.normres > tol then bicgstab_loop (bicgstab_step tridiag par n1 n2 (2 * M) (F_of_v par n1 n2 (2 * M) v 0 .zero).2.2 S rt tol) itmax 0 st else (st, 0)) = q :=
    ⟨_, rfl⟩
  have post : BPost par n1 n2 (2 * M) v dv.d0 q.1 ∧ q.2 ≤ itmax := by
    rw [← hq]
    split_ifs
    · exact ⟨h.1, by omega⟩
    · exact ⟨inv.post, by omega⟩
  rw [hq]
  refine ⟨post.1.normres, ?_, ?_, ?_, post.1.outside⟩
  · rw [bicgstab_result]
    split_ifs with a1 a2 a3 a4 <;> simp [a1]
    omega
  · rw [bicgstab_result]
    split_ifs with a1 a2 a3 a4 <;> omega
  · rw [bicgstab_result]
    split_ifs with a1 a2 a3 a4 <;> omega

end Bicgstab

/-! ## Newton's method -/

theorem chunkMax_le (F : ℤ → ℝ) (l : List ℕ) {c : ℝ} (hc : -1 ≤ c) : chunkMax F l ≤ c ↔ ∀ j ∈ l, |F j| ≤ c := by
  have h : ∀ (l : List ℕ) (d : ℝ), (l.foldl (fun (d : ℝ) (j : ℕ) => if |F j| > d then |F j| else d) d) ≤ c ↔ d ≤ c ∧ ∀ j ∈ l, |F j| ≤ c := by
    intro l
    induction l with
    | nil => intro d; simp
    | cons a l ih =>
      intro d
      rw [List.foldl_cons, ih, List.forall_mem_cons]
      split_ifs with h
      · exact ⟨fun h' => ⟨h.le.trans h'.1, h'⟩, fun h' => h'.2⟩
      · exact ⟨fun h' => ⟨h'.1, (not_lt.1 h).trans h'.1, h'.2⟩, fun h' => ⟨h'.1, h'.2.2⟩⟩
  rw [chunkMax, h]
  exact ⟨fun h => h.2, fun h => ⟨hc, h⟩⟩

theorem norm_inf_le (F : ℤ → ℝ) (chunks : List (List ℕ)) {c : ℝ} (hc : -1 ≤ c) : norm_inf F chunks ≤ c ↔ ∀ j ∈ chunks.flatten, |F j| ≤ c := by
  have h : ∀ (l : List (List ℕ)) (d : ℝ), (l.foldl (fun (dmax : ℝ) chunk => if chunkMax F chunk > dmax then chunkMax F chunk else dmax) d) ≤ c ↔
      d ≤ c ∧ ∀ ch ∈ l, chunkMax F ch ≤ c := by
    intro l
    induction l with
    | nil => intro d; simp
    | cons a l ih =>
      intro d
      rw [List.foldl_cons, ih, List.forall_mem_cons]
      split_ifs with h
      · exact ⟨fun h' => ⟨h.le.trans h'.1, h'⟩, fun h' => h'.2⟩
      · exact ⟨fun h' => ⟨h'.1, (not_lt.1 h).trans h'.1, h'.2⟩, fun h' => ⟨h'.1, h'.2.2⟩⟩
  rw [norm_inf]
  simp only
  rw [h]
  simp only [chunkMax_le F _ hc, List.mem_flatten]
  exact ⟨fun h j ⟨l, hl, hj⟩ => h.2 l hl j hj, fun h => ⟨hc, fun l hl j hj => h j ⟨l, hl, hj⟩⟩⟩

/-- The largest absolute value of an element. -/
noncomputable def maxAbs (F : ℤ → ℝ) (n : ℕ) : ℝ := sSup ((fun j : ℕ => |F j|) '' {j | j < n})

theorem norm_inf_greatest (F : ℤ → ℝ) (chunks : List (List ℕ)) {n : ℕ} (hn : 0 < n) (h : chunks.flatten.Perm (List.range n)) :
    IsGreatest ((fun j : ℕ => |F j|) '' {j | j < n}) (norm_inf F chunks) := by
  have le : ∀ c : ℝ, -1 ≤ c → (norm_inf F chunks ≤ c ↔ ∀ j < n, |F j| ≤ c) := fun c hc => by
    rw [norm_inf_le F chunks hc]
    simp only [h.mem_iff, List.mem_range]
  have fin : ((fun j : ℕ => |F j|) '' {j | j < n}).Finite := (Set.finite_lt_nat n).image _
  obtain ⟨m, ⟨j, hj, hm⟩, hmax⟩ := fin.exists_maximalFor id _ ⟨_, 0, hn, rfl⟩
  have hmax' : ∀ j < n, |F j| ≤ m := fun i hi => by
    by_contra hlt
    exact hlt (hmax ⟨i, hi, rfl⟩ (not_le.1 hlt).le)
  have m0 : (0 : ℝ) ≤ m := by
    rw [← hm]
    exact abs_nonneg _
  have hle : norm_inf F chunks ≤ m := (le m (by linarith)).2 hmax'
  have hge : -1 ≤ norm_inf F chunks := by
    have h : ∀ (l : List (List ℕ)) (d : ℝ), d ≤ l.foldl (fun (dmax : ℝ) chunk => if chunkMax F chunk > dmax then chunkMax F chunk else dmax) d := by
      intro l
      induction l with
      | nil => intro d; simp
      | cons a l ih =>
        intro d
        rw [List.foldl_cons]
        refine le_trans ?_ (ih _)
        split_ifs with h
        · exact h.le
        · exact le_rfl
    exact h chunks (-1)
  have hall := (le _ hge).1 le_rfl
  refine ⟨⟨j, hj, le_antisymm (hall j hj) ?_⟩, ?_⟩
  · rw [hm]
    exact hle
  · rintro _ ⟨i, hi, rfl⟩
    exact hall i hi

theorem norm_inf_eq (F : ℤ → ℝ) (chunks : List (List ℕ)) {n : ℕ} (hn : 0 < n) (h : chunks.flatten.Perm (List.range n)) : norm_inf F chunks = maxAbs F n :=
  (norm_inf_greatest F chunks hn h).csSup_eq.symm

theorem maxAbs_congr {F G : ℤ → ℝ} {n : ℕ} (h : ∀ x : ℤ, 0 ≤ x ∧ x < n → F x = G x) : maxAbs F n = maxAbs G n := by
  rw [maxAbs, maxAbs]
  congr 1
  refine Set.image_congr fun j hj => ?_
  rw [h j ⟨by positivity, by exact_mod_cast hj⟩]

/-- One step of the iteration: `w = v - d` on the grid, where `d` is what `bicgstab` returns for `v` with the start value zero, at most 100 iterations and a thousandth of the largest
absolute value of the residual as tolerance. -/
def NewtonStep (tridiag : Tridiag) (par : Par) (n1 n2 n3 : ℕ) (v w : Derivs) : Prop :=
  ∃ dv : Derivs, (∀ x : ℤ, 0 ≤ x ∧ x < (n1 * n2 * n3 : ℕ) → dv.d0 x = 0) ∧
    let b := bicgstab tridiag par n1 n2 n3 v dv 100 (maxAbs (residualOf par n1 n2 n3 v) (n1 * n2 * n3) * 1e-3)
    (∀ x : ℤ, 0 ≤ x ∧ x < (n1 * n2 * n3 : ℕ) → w.d0 x = v.d0 x - b.1.d0 x) ∧ ∀ x : ℤ, ¬(0 ≤ x ∧ x < (n1 * n2 * n3 : ℕ)) → w.d0 x = v.d0 x

section NewtonLoop
variable {par : Par} (hb : 0 < par.par_b) {n1 n2 M : ℕ} (hM : 0 < M) (hn : 0 < n1 * n2 * (2 * M))
include hb hM hn

theorem residual_spec (st : Newton) : (st.residual par n1 n2 (2 * M)).v = Derivatives_AB3 1 n1 n2 (2 * M) st.v ∧ (st.residual par n1 n2 (2 * M)).v.d0 = st.v.d0 ∧
    (st.residual par n1 n2 (2 * M)).dmax = maxAbs (residualOf par n1 n2 (2 * M) (st.residual par n1 n2 (2 * M)).v) (n1 * n2 * (2 * M)) ∧
    (st.residual par n1 n2 (2 * M)).dv = st.dv := by
  have e1 : (st.residual par n1 n2 (2 * M)).v = Derivatives_AB3 1 n1 n2 (2 * M) st.v := (F_of_v_at par n1 n2 (2 * M) st.v st.F st.u).1
  have e2 : (st.residual par n1 n2 (2 * M)).v.d0 = st.v.d0 := by rw [e1, Derivatives_d0 hM]
  refine ⟨e1, e2, ?_, rfl⟩
  have : (st.residual par n1 n2 (2 * M)).dmax = norm_inf (F_of_v par n1 n2 (2 * M) st.v st.F st.u).2.1 [List.range (n1 * n2 * (2 * M))] := rfl
  rw [this, norm_inf_eq _ _ hn (by simp)]
  exact maxAbs_congr fun x hx => residual_congr hM hb st.v _ st.F st.u (fun y _ => by rw [e2]) hx

theorem step_spec (tridiag : Tridiag) (st : Newton) (h : st.dmax = maxAbs (residualOf par n1 n2 (2 * M) st.v) (n1 * n2 * (2 * M))) :
    NewtonStep tridiag par n1 n2 (2 * M) st.v (st.step tridiag par n1 n2 (2 * M)).v ∧
    (st.step tridiag par n1 n2 (2 * M)).dmax = maxAbs (residualOf par n1 n2 (2 * M) (st.step tridiag par n1 n2 (2 * M)).v) (n1 * n2 * (2 * M)) ∧
    ∃ d, (st.step tridiag par n1 n2 (2 * M)).v = Derivatives_AB3 1 n1 n2 (2 * M) d := by
  refine ⟨⟨{ st.dv with d0 := fill (n1 * n2 * (2 * M)) (fun _ => 0) st.dv.d0 }, fun x hx => by
      show fill (n1 * n2 * (2 * M)) (fun _ => 0) st.dv.d0 x = 0
      rw [fill_in hx], ?_⟩, ?_, ?_⟩
  · simp only [Newton.step, (residual_spec hb hM hn _).2.1, h]
    exact ⟨fun x hx => fill_in hx, fun x hx => fill_out hx⟩
  · exact (residual_spec hb hM hn _).2.2.1
  · exact ⟨_, (residual_spec hb hM hn _).1⟩

/-- The iterates of the loop. -/
theorem newton_loop (tridiag : Tridiag) (tol : ℝ) : ∀ (fuel it : ℕ) (st : Newton), 0 < it →
    st.dmax = maxAbs (residualOf par n1 n2 (2 * M) st.v) (n1 * n2 * (2 * M)) → (∃ d, st.v = Derivatives_AB3 1 n1 n2 (2 * M) d) →
    let q := Newton.loop tridiag par n1 n2 (2 * M) tol fuel it st
    (∃ vs : ℕ → Derivs, vs 0 = st.v ∧ vs (q.2 - it) = q.1.v ∧ ∀ m, m < q.2 - it → NewtonStep tridiag par n1 n2 (2 * M) (vs m) (vs (m + 1))) ∧
    q.1.dmax = maxAbs (residualOf par n1 n2 (2 * M) q.1.v) (n1 * n2 * (2 * M)) ∧ (∃ d, q.1.v = Derivatives_AB3 1 n1 n2 (2 * M) d) ∧ it ≤ q.2 ∧ q.2 ≤ it + fuel ∧
    (q.2 = it + fuel ∨ q.1.dmax ≤ tol)
  | 0, it, st, _, h, hd => ⟨⟨fun _ => st.v, rfl, rfl, fun m hm => by simp [Newton.loop] at hm⟩, h, hd, le_rfl, le_rfl, Or.inl rfl⟩
  | fuel + 1, it, st, h0, h, hd => by
    intro q
    by_cases ht : st.dmax > tol
    · have eq : q = Newton.loop tridiag par n1 n2 (2 * M) tol fuel (it + 1) (st.step tridiag par n1 n2 (2 * M)) := by
        simp only [q, Newton.loop]
        rw [if_pos ht, if_neg (by omega)]
      obtain ⟨s1, s2, s3⟩ := step_spec hb hM hn tridiag st h
      obtain ⟨⟨vs, v0, v1, v2⟩, r2, r3, r4, r5, r6⟩ := newton_loop tridiag tol fuel (it + 1) (st.step tridiag par n1 n2 (2 * M)) (by omega) s2 s3
      rw [← eq] at v1 v2 r2 r3 r4 r5 r6
      refine ⟨⟨fun m => if m = 0 then st.v else vs (m - 1), by simp, ?_, fun m hm => ?_⟩, r2, r3, by omega, by omega, ?_⟩
      · beta_reduce
        rw [if_neg (by omega), ← v1]
        congr 1
      · rcases Nat.eq_zero_or_pos m with rfl | hm'
        · simpa [v0] using s1
        · have := v2 (m - 1) (by omega)
          beta_reduce
          rw [if_neg (show ¬m = 0 by omega), if_neg (show ¬m + 1 = 0 by omega)]
          rwa [show m - 1 + 1 = m + 1 - 1 by omega] at this
      · rcases r6 with r6 | r6
        · left
          omega
        · exact Or.inr r6
    · have eq : q = (st, it) := by
        simp only [q, Newton.loop]
        rw [if_neg ht]
      rw [eq]
      exact ⟨⟨fun _ => st.v, rfl, rfl, fun m hm => by simp at hm⟩, h, hd, le_rfl, by simp, Or.inr (not_lt.1 ht)⟩

theorem newton_spec (tridiag : Tridiag) (v : Derivs) (tol : ℝ) (htol : tol < 1) (itmax : ℕ) :
    let w := TP_Newton tridiag par n1 n2 (2 * M) v tol itmax
    (∃ vs : ℕ → Derivs, (vs 0).d0 = v.d0 ∧ (vs w.2.2).d0 = w.1.d0 ∧ ∀ m, m < w.2.2 → NewtonStep tridiag par n1 n2 (2 * M) (vs m) (vs (m + 1))) ∧
    w.2.1 = maxAbs (residualOf par n1 n2 (2 * M) w.1) (n1 * n2 * (2 * M)) ∧ (∃ d, w.1 = Derivatives_AB3 1 n1 n2 (2 * M) d) ∧ w.2.2 ≤ itmax ∧ (w.2.2 = itmax ∨ w.2.1 ≤ tol) := by
  intro w
  cases itmax with
  | zero =>
    have eq : w = (((⟨v, .zero, 0, .zero, 1⟩ : Newton).residual par n1 n2 (2 * M)).v, ((⟨v, .zero, 0, .zero, 1⟩ : Newton).residual par n1 n2 (2 * M)).dmax, 0) := rfl
    obtain ⟨r1, r2, r3, -⟩ := residual_spec hb hM hn (⟨v, .zero, 0, .zero, 1⟩ : Newton)
    rw [eq]
    exact ⟨⟨fun _ => v, rfl, r2.symm, fun m hm => by simp at hm⟩, r3, ⟨_, r1⟩, le_rfl, Or.inl rfl⟩
  | succ itmax =>
    obtain ⟨r1, r2, r3, -⟩ := residual_spec hb hM hn (⟨v, .zero, 0, .zero, 1⟩ : Newton)
    obtain ⟨s1, s2, s3⟩ := step_spec hb hM hn tridiag _ r3
    obtain ⟨⟨vs, v0, v1, v2⟩, q2, q3, q4, q5, q6⟩ := newton_loop hb hM hn tridiag tol itmax 1 _ (by norm_num) s2 s3
    have eq : Newton.loop tridiag par n1 n2 (2 * M) tol (itmax + 1) 0 ⟨v, .zero, 0, .zero, 1⟩ =
        Newton.loop tridiag par n1 n2 (2 * M) tol itmax 1 (((⟨v, .zero, 0, .zero, 1⟩ : Newton).residual par n1 n2 (2 * M)).step tridiag par n1 n2 (2 * M)) := by
      rw [Newton.loop]
      rw [if_pos (show (1 : ℝ) > tol from htol), if_pos rfl]
    have ew : w = ((Newton.loop tridiag par n1 n2 (2 * M) tol (itmax + 1) 0 ⟨v, .zero, 0, .zero, 1⟩).1.v, (Newton.loop tridiag par n1 n2 (2 * M) tol (itmax + 1) 0 ⟨v, .zero, 0, .zero, 1⟩).1.dmax,
        (Newton.loop tridiag par n1 n2 (2 * M) tol (itmax + 1) 0 ⟨v, .zero, 0, .zero, 1⟩).2) := by
      simp only [w, TP_Newton]
      rw [if_neg (by omega)]
    rw [ew, eq]
    refine ⟨⟨fun m => if m = 0 then ((⟨v, .zero, 0, .zero, 1⟩ : Newton).residual par n1 n2 (2 * M)).v else vs (m - 1), by simpa using r2, ?_, fun m hm => ?_⟩, q2, q3, by simp only; omega, ?_⟩
    · simp only
      rw [if_neg (by omega), v1]
    · rcases Nat.eq_zero_or_pos m with rfl | hm'
      · simpa [v0] using s1
      · have := v2 (m - 1) (by simp only at hm; omega)
        beta_reduce
        rw [if_neg (show ¬m = 0 by omega), if_neg (show ¬m + 1 = 0 by omega)]
        rwa [show m - 1 + 1 = m + 1 - 1 by omega] at this
    · rcases q6 with q6 | q6
      · left
        simp only
        omega
      · exact Or.inr q6

end NewtonLoop

end Verif.TP
