import Verif.TP.ByTensor
import Verif.TP.CoordClaims

/-!
# C97: the equations of TwoPunctures
-/
namespace Verif.TP
open Real Verif.RefMetric Verif.BSSN Verif.Wave Verif.Initial
open scoped ContDiff

/-! ## Loops over the grid -/

theorem foldl_put {S K V α : Type} [DecidableEq K] (get : S → K → V) (put : S → K → V → S)
    (hgp : ∀ s k v k', get (put s k v) k' = if k' = k then v else get s k') (key : α → K) (val : α → V) (l : List α) (s : S) :
    (∀ a ∈ l, (∀ b ∈ l, key b = key a → val b = val a) → get (l.foldl (fun s a => put s (key a) (val a)) s) (key a) = val a) ∧
      ∀ k, (∀ a ∈ l, key a ≠ k) → get (l.foldl (fun s a => put s (key a) (val a)) s) k = get s k := by
  induction l using List.reverseRecOn with
  | nil => exact ⟨fun a h => absurd h (by simp), fun k _ => rfl⟩
  | append_singleton l b ih =>
    constructor
    · intro a ha h
      rw [List.foldl_append, List.foldl_cons, List.foldl_nil, hgp]
      split_ifs with hk
      · exact h b (by simp) hk.symm
      · have ha' : a ∈ l := by
          rcases List.mem_append.1 ha with h1 | h1
          · exact h1
          · exact absurd (congrArg key (List.mem_singleton.1 h1)) hk
        exact ih.1 a ha' fun c hc hcc => h c (List.mem_append_left _ hc) hcc
    · intro k hk
      rw [List.foldl_append, List.foldl_cons, List.foldl_nil, hgp, if_neg fun h => hk b (by simp) h.symm]
      exact ih.2 k fun a ha => hk a (List.mem_append_left _ ha)

theorem mem_loop3 {n1 n2 n3 : ℕ} {q : ℕ × ℕ × ℕ} : q ∈ loop3 n1 n2 n3 ↔ q.1 < n1 ∧ q.2.1 < n2 ∧ q.2.2 < n3 := by
  obtain ⟨i, j, k⟩ := q
  simp [loop3]

theorem Derivs.get_set (v : Derivs) (x : ℤ) (U : Jet) (y : ℤ) : (v.set x U).get y = if y = x then U else v.get y := by
  by_cases h : y = x
  · subst h
    simp [Derivs.get, Derivs.set]
  · simp [Derivs.get, Derivs.set, h]

theorem index_nat_inj {n1 n2 n3 : ℕ} {a b : ℕ × ℕ × ℕ} (ha : a ∈ loop3 n1 n2 n3) (hb : b ∈ loop3 n1 n2 n3)
    (h : Index 0 b.1 b.2.1 b.2.2 1 n1 n2 n3 = Index 0 a.1 a.2.1 a.2.2 1 n1 n2 n3) : b = a := by
  rw [mem_loop3] at ha hb
  obtain ⟨-, e1, e2, e3⟩ := (C95_index_injective 1 n1 n2 n3 (ivar := 0) (ivar' := 0) ⟨by omega, by omega⟩ ⟨by omega, by omega⟩ ⟨by omega, by omega⟩ ⟨by omega, by omega⟩
    ⟨by omega, by omega⟩ ⟨by omega, by omega⟩ ⟨by omega, by omega⟩ ⟨by omega, by omega⟩).2 h
  exact Prod.ext (by omega) (Prod.ext (by omega) (by omega))

theorem F_of_v_at (par : Par) (n1 n2 n3 : ℕ) (v : Derivs) (F : ℤ → ℝ) (u : Derivs) :
    (F_of_v par n1 n2 n3 v F u).1 = Derivatives_AB3 1 n1 n2 n3 v ∧
    (∀ i < n1, ∀ j < n2, ∀ k < n3, (F_of_v par n1 n2 n3 v F u).2.1 (Index 0 i j k 1 n1 n2 n3) = (F_of_v_point par n1 n2 n3 (Derivatives_AB3 1 n1 n2 n3 v) i j k).1 ∧
      (F_of_v par n1 n2 n3 v F u).2.2.get (Index 0 i j k 1 n1 n2 n3) = (F_of_v_point par n1 n2 n3 (Derivatives_AB3 1 n1 n2 n3 v) i j k).2) ∧
    ∀ x, (∀ i < n1, ∀ j < n2, ∀ k < n3, x ≠ Index 0 i j k 1 n1 n2 n3) →
      (F_of_v par n1 n2 n3 v F u).2.1 x = F x ∧ (F_of_v par n1 n2 n3 v F u).2.2.get x = u.get x := by
  have key := foldl_put (fun (Fu : (ℤ → ℝ) × Derivs) x => (Fu.1 x, Fu.2.get x)) (fun Fu x q => (Function.update Fu.1 x q.1, Fu.2.set x q.2))
    (fun s k q k' => by
      by_cases h : k' = k
      · subst h
        simp [Derivs.get_set]
      · simp [Derivs.get_set, h])
    (fun ijk : ℕ × ℕ × ℕ => Index 0 ijk.1 ijk.2.1 ijk.2.2 1 n1 n2 n3)
    (fun ijk => F_of_v_point par n1 n2 n3 (Derivatives_AB3 1 n1 n2 n3 v) ijk.1 ijk.2.1 ijk.2.2) (loop3 n1 n2 n3) (F, u)
  refine ⟨rfl, fun i hi j hj k hk => ?_, fun x hx => ?_⟩
  · have m : (i, j, k) ∈ loop3 n1 n2 n3 := mem_loop3.2 ⟨hi, hj, hk⟩
    have := key.1 (i, j, k) m fun b hb h => by rw [index_nat_inj m hb h]
    exact ⟨congrArg Prod.fst this, congrArg Prod.snd this⟩
  · have := key.2 x fun a ha => by
      rw [mem_loop3] at ha
      exact fun h => hx a.1 ha.1 a.2.1 ha.2.1 a.2.2 ha.2.2 h.symm
    exact ⟨congrArg Prod.fst this, congrArg Prod.snd this⟩

theorem J_times_dv_at (par : Par) (n1 n2 n3 : ℕ) (dv : Derivs) (Jdv : ℤ → ℝ) (u : Derivs) :
    (J_times_dv par n1 n2 n3 dv Jdv u).1 = Derivatives_AB3 1 n1 n2 n3 dv ∧
    (∀ i < n1, ∀ j < n2, ∀ k < n3, (J_times_dv par n1 n2 n3 dv Jdv u).2 (Index 0 i j k 1 n1 n2 n3) =
      J_times_dv_point par n1 n2 n3 (Derivatives_AB3 1 n1 n2 n3 dv) u i j k) ∧
    ∀ x, (∀ i < n1, ∀ j < n2, ∀ k < n3, x ≠ Index 0 i j k 1 n1 n2 n3) → (J_times_dv par n1 n2 n3 dv Jdv u).2 x = Jdv x := by
  have key := foldl_put (fun (F : ℤ → ℝ) x => F x) (fun F x q => Function.update F x q)
    (fun s k q k' => by simp [Function.update_apply])
    (fun ijk : ℕ × ℕ × ℕ => Index 0 ijk.1 ijk.2.1 ijk.2.2 1 n1 n2 n3)
    (fun ijk => J_times_dv_point par n1 n2 n3 (Derivatives_AB3 1 n1 n2 n3 dv) u ijk.1 ijk.2.1 ijk.2.2) (loop3 n1 n2 n3) Jdv
  refine ⟨rfl, fun i hi j hj k hk => ?_, fun x hx => ?_⟩
  · have m : (i, j, k) ∈ loop3 n1 n2 n3 := mem_loop3.2 ⟨hi, hj, hk⟩
    exact key.1 (i, j, k) m fun b hb h => by rw [index_nat_inj m hb h]
  · exact key.2 x fun a ha => by
      rw [mem_loop3] at ha
      exact fun h => hx a.1 ha.1 a.2.1 ha.2.1 a.2.2 ha.2.2 h.symm

/-! ## One node -/

/-- The position of a node. -/
noncomputable def nodePos (b : ℝ) (n1 n2 n3 i j k : ℕ) : Vec := position b (node n1 i) (node n2 j) (angle n3 k)

/-- `u` is the function of the Cartesian position that `v` represents: `u = (A - 1) v`. -/
def Represents (b : ℝ) (f : ℝ → ℝ → ℝ → ℝ) (u : Scal) : Prop :=
  Sm offAxis u ∧ ∀ A B phi : ℝ, -1 < A ∧ A < 1 → -1 < B ∧ B < 1 → u (position b A B phi) = (A - 1) * f A B phi

/-- The interior of the ranges of `A` and `B`. -/
def inAB : Dom := ⟨{q | (-1 < q 0 ∧ q 0 < 1) ∧ -1 < q 1 ∧ q 1 < 1},
  ((isOpen_lt continuous_const (continuous_apply 0)).inter (isOpen_lt (continuous_apply 0) continuous_const)).inter
    ((isOpen_lt continuous_const (continuous_apply 1)).inter (isOpen_lt (continuous_apply 1) continuous_const))⟩

/-- The Cartesian jet at an interior point. -/
theorem jet_position {b : ℝ} (hb : 0 < b) {n1 n2 M : ℕ} (hM : 0 < M) {f : ℝ → ℝ → ℝ → ℝ} (hf : Resolved n1 n2 (2 * M) f) {u : Scal} (hu : Represents b f u)
    {A B : ℝ} (phi : ℝ) (hA : -1 < A ∧ A < 1) (hB : -1 < B ∧ B < 1) :
    toCartesian b A B phi (timesAm1 (A - 1) (jetABphi f A B phi)) =
      (position b A B phi 0, position b A B phi 1, position b A B phi 2, jetOf u (position b A B phi)) := by
  rw [← toCartesian_chain phi hb hA.1 hA.2 hB.1 hB.2 hu.1 (position_offAxis phi hb hA hB), ← jet_timesAm1 (hf.contDiff hM)]
  have h1 := jetABphi_eq (fun A B phi => (A - 1) * f A B phi) ![A, B, phi]
  have h2 := jetABphi_eq (fun A B phi => u (position b A B phi)) ![A, B, phi]
  simp only [Matrix.cons_val] at h1 h2
  rw [h1, h2]
  have hq : (![A, B, phi] : Vec) ∈ inAB := ⟨hA, hB⟩
  rw [jetOf_congr (Ω := inAB) (f := unc fun A B phi => (A - 1) * f A B phi) (g := unc fun A B phi => u (position b A B phi))
    (fun q hq => (hu.2 (q 0) (q 1) (q 2) hq.1 hq.2).symm) hq]

theorem al_eq (n i : ℕ) : -cos (π / 2 * (2 * i + 1) / n) = node n i := by
  rw [node]
  congr 2
  ring

theorem node_jet {b : ℝ} (hb : 0 < b) {n1 n2 M : ℕ} (hM : 0 < M) {f : ℝ → ℝ → ℝ → ℝ} (hf : Resolved n1 n2 (2 * M) f) {u : Scal} (hu : Represents b f u)
    (v : Derivs) (h0 : OnGrid n1 n2 (2 * M) v.d0 f) {i j k : ℕ} (hi : i < n1) (hj : j < n2) (hk : k < 2 * M) :
    toCartesian b (node n1 i) (node n2 j) (angle (2 * M) k)
      (timesAm1 (node n1 i - 1) ((Derivatives_AB3 1 n1 n2 (2 * M) v).get (Index 0 i j k 1 n1 n2 (2 * M : ℕ)))) =
      (nodePos b n1 n2 (2 * M) i j k 0, nodePos b n1 n2 (2 * M) i j k 1, nodePos b n1 n2 (2 * M) i j k 2, jetOf u (nodePos b n1 n2 (2 * M) i j k)) := by
  rw [grid_jet hf v h0 hi hj hk, jet_position hb hM hf hu _ (node_mem hi) (node_mem hj)]
  rfl

theorem offAxis_le (par : Par) : offAxis ≤ offPunctures par := by
  intro x hx
  have hx' : 0 < x 1 ^ 2 + x 2 ^ 2 := hx
  refine ⟨fun h => ?_, fun h => ?_⟩
  · rw [h] at hx'
    simp [plus] at hx'
  · rw [h] at hx'
    simp [minus] at hx'

theorem KK_eq {par : Par} {x : Vec} (hx : x ∈ offPunctures par) : BY_KKofxyz par (x 0) (x 1) (x 2) = ∑ i, ∑ j, curvature par i j x ^ 2 := by
  have e : (![x 0, x 1, x 2] : Vec) = x := by
    funext i
    fin_cases i <;> rfl
  have h := BY_Aij_eq (par := par) (x := x 0) (y := x 1) (z := x 2) (by rw [e]; exact hx)
  rw [e] at h
  have l : List.finRange 3 = [0, 1, 2] := rfl
  simp only [BY_KKofxyz, sq_plus, sq_minus, e, h, l, List.foldl_cons, List.foldl_nil, Fin.sum_univ_three]
  ring

theorem NonLin_eq {par : Par} {x : Vec} (hx : x ∈ offPunctures par) (u : Scal) :
    NonLinEquations par 0 (x 0) (x 1) (x 2) (jetOf u x) = laplacian u x + 1 / 8 * (∑ i, ∑ j, curvature par i j x ^ 2) * conformal par u x ^ (-7 : ℤ) := by
  have e : (![x 0, x 1, x 2] : Vec) = x := by
    funext i
    fin_cases i <;> rfl
  simp only [NonLinEquations, sq_plus, sq_minus, e, sqrt_sq (dist3_nonneg _ _), KK_eq hx, jetOf, laplacian, Fin.sum_univ_three, conformal]
  rw [show (-7 : ℤ) = -((7 : ℕ) : ℤ) by norm_num, zpow_neg, zpow_natCast]
  have e2 : 1 + 0.5 * par.par_m_plus / dist3 (plus par) x + 0.5 * par.par_m_minus / dist3 (minus par) x + u x =
      1 + par.par_m_plus / (2 * dist3 (plus par) x) + par.par_m_minus / (2 * dist3 (minus par) x) + u x := by ring
  rw [e2]
  generalize 1 + par.par_m_plus / (2 * dist3 (plus par) x) + par.par_m_minus / (2 * dist3 (minus par) x) + u x = p
  rw [show p * (p * p) * (p * p * (p * p)) = p ^ 7 by ring]
  norm_num
  ring

theorem FAC_pos {n1 n2 i j : ℕ} (hi : i < n1) (hj : j < n2) : 0 < FAC (π / 2 * (2 * i + 1) / n1) (π / 2 * (2 * j + 1) / n2) := by
  have key : ∀ n k : ℕ, k < n → 0 < sin (π / 2 * (2 * k + 1) / n) := by
    intro n k hk
    have hn : (0 : ℝ) < n := by exact_mod_cast Nat.pos_of_ne_zero (by omega)
    have hk' : (k : ℝ) + 1 ≤ n := by exact_mod_cast hk
    apply sin_pos_of_pos_of_lt_pi
    · positivity
    · rw [div_lt_iff₀ hn]
      nlinarith [pi_pos]
  have h1 := key n1 i hi
  have h2 := key n2 j hj
  unfold FAC
  positivity

theorem point_eq {par : Par} (hb : 0 < par.par_b) {n1 n2 M : ℕ} (hM : 0 < M) {f : ℝ → ℝ → ℝ → ℝ} (hf : Resolved n1 n2 (2 * M) f) {u : Scal}
    (hu : Represents par.par_b f u) (v : Derivs) (h0 : OnGrid n1 n2 (2 * M) v.d0 f) {i j k : ℕ} (hi : i < n1) (hj : j < n2) (hk : k < 2 * M) :
    F_of_v_point par n1 n2 (2 * M) (Derivatives_AB3 1 n1 n2 (2 * M) v) i j k =
      (NonLinEquations par 0 (nodePos par.par_b n1 n2 (2 * M) i j k 0) (nodePos par.par_b n1 n2 (2 * M) i j k 1) (nodePos par.par_b n1 n2 (2 * M) i j k 2)
        (jetOf u (nodePos par.par_b n1 n2 (2 * M) i j k)) * FAC (π / 2 * (2 * i + 1) / n1) (π / 2 * (2 * j + 1) / n2),
        jetOf u (nodePos par.par_b n1 n2 (2 * M) i j k)) := by
  have h := node_jet hb hM hf hu v h0 hi hj hk
  rw [angle] at h
  simp only [F_of_v_point, al_eq]
  rw [h]

theorem nodePos_offAxis {b : ℝ} (hb : 0 < b) {n1 n2 n3 i j k : ℕ} (hi : i < n1) (hj : j < n2) : nodePos b n1 n2 n3 i j k ∈ offAxis :=
  position_offAxis _ hb (node_mem hi) (node_mem hj)

/-! ## C97 -/

/-- C97: the quadratic form of the code is that of the Bowen–York tensor of the two punctures, which is symmetric, traceless and free of divergence. -/
theorem C97_bowen_york (par : Par) (x : Vec) (hx : x ∈ offPunctures par) :
    BY_KKofxyz par (x 0) (x 1) (x 2) = ∑ i, ∑ j, curvature par i j x ^ 2 ∧
    (∀ i j, curvature par i j x = curvature par j i x) ∧ ∑ i, curvature par i i x = 0 ∧ ∀ i, ∑ j, pd j (curvature par i j) x = 0 :=
  ⟨KK_eq hx, fun i j => curvature_symm par i j x, curvature_trace hx, curvature_div hx⟩

/-- C97: without the regularisation (`TP_epsilon = 0`) and outside the spheres of radius `TP_Tiny` the components that the code returns are those of this tensor. -/
theorem C97_components (par : Par) (x y z : ℝ) (hx : ![x, y, z] ∈ offPunctures par) (he : par.TP_epsilon = 0) (ht : 0 ≤ par.TP_Tiny)
    (hp : par.TP_Tiny ≤ dist3 (plus par) ![x, y, z]) (hm : par.TP_Tiny ≤ dist3 (minus par) ![x, y, z]) (i j : Fin 3) :
    BY_Aijofxyz par x y z i j = curvature par i j ![x, y, z] := by
  have e : ∀ r : ℝ, 0 ≤ r → √(r ^ 2 + 0) = r := fun r hr => by rw [add_zero, sqrt_sq hr]
  simp only [BY_Aijofxyz, sq_plus, sq_minus, he, ne_eq, OfNat.ofNat_ne_zero, not_false_eq_true, zero_pow, e _ (sq_nonneg (dist3 (plus par) ![x, y, z])),
    e _ (sq_nonneg (dist3 (minus par) ![x, y, z]))]
  rw [if_neg (not_lt.2 (pow_le_pow_left₀ ht hp 2)), if_neg (not_lt.2 (pow_le_pow_left₀ ht hm 2)), BY_Aij_eq hx]

/-- C97: the residual.  Let the data on the grid be those of a resolved `v` and `u` the function `(A - 1) v` of the Cartesian position.  At every node `F_of_v`
stores a positive number times `Δu + ⅛ A_ij A_ij ψ⁻⁷` at the position of the node, and the value and all first and second Cartesian derivatives of `u` there.
It changes nothing outside the grid and keeps the data. -/
theorem C97_residual (par : Par) (hb : 0 < par.par_b) (n1 n2 M : ℕ) (hM : 0 < M) (f : ℝ → ℝ → ℝ → ℝ) (hf : Resolved n1 n2 (2 * M) f) (v : Derivs)
    (h0 : OnGrid n1 n2 (2 * M) v.d0 f) (u : Scal) (hu : Represents par.par_b f u) (F : ℤ → ℝ) (U : Derivs) :
    let w := F_of_v par n1 n2 (2 * M) v F U
    w.1.d0 = v.d0 ∧
    (∀ i < n1, ∀ j < n2, ∀ k < 2 * M,
      let x := nodePos par.par_b n1 n2 (2 * M) i j k
      (∃ c, 0 < c ∧ c = (sin (π * (2 * i + 1) / (2 * n1)) * sin (π * (2 * j + 1) / (2 * n2))) ^ 3 ∧
        w.2.1 (Index 0 i j k 1 n1 n2 (2 * M : ℕ)) = c * (laplacian u x + 1 / 8 * (∑ i, ∑ j, curvature par i j x ^ 2) * conformal par u x ^ (-7 : ℤ))) ∧
      w.2.2.get (Index 0 i j k 1 n1 n2 (2 * M : ℕ)) = jetOf u x) ∧
    ∀ x, (∀ i < n1, ∀ j < n2, ∀ k < 2 * M, x ≠ Index 0 i j k 1 n1 n2 (2 * M : ℕ)) → w.2.1 x = F x ∧ w.2.2.get x = U.get x := by
  intro w
  obtain ⟨e1, e2, e3⟩ := F_of_v_at par n1 n2 (2 * M) v F U
  refine ⟨?_, fun i hi j hj k hk => ⟨⟨FAC (π / 2 * (2 * i + 1) / n1) (π / 2 * (2 * j + 1) / n2), FAC_pos hi hj, ?_, ?_⟩, ?_⟩, e3⟩
  · have := (C95_derivatives 1 n1 n2 M (fun _ => f) (fun _ _ => hf) v (fun ivar hv i hi j hj k hk => by
      obtain rfl : ivar = 0 := by omega
      exact h0 i hi j hj k hk)).1
    simp only [w, e1, this]
  · unfold FAC
    rw [show π / 2 * (2 * i + 1) / n1 = π * (2 * i + 1) / (2 * n1) by ring, show π / 2 * (2 * j + 1) / n2 = π * (2 * j + 1) / (2 * n2) by ring]
    ring
  · have := (e2 i hi j hj k hk).1
    rw [point_eq hb hM hf hu v h0 hi hj hk, NonLin_eq (offAxis_le par (nodePos_offAxis hb hi hj))] at this
    rw [mul_comm (FAC _ _)]
    exact this
  · have := (e2 i hi j hj k hk).2
    rw [point_eq hb hM hf hu v h0 hi hj hk] at this
    exact this

/-- C97: the residual vanishes at a node exactly if the data `ψ⁴ δ_ij`, `ψ⁻² A_ij` satisfy the Hamiltonian constraint there; the momentum constraint holds at
every position off the axis where the conformal factor is positive near the position. -/
theorem C97_constraints (par : Par) (hb : 0 < par.par_b) (n1 n2 M : ℕ) (hM : 0 < M) (f : ℝ → ℝ → ℝ → ℝ) (hf : Resolved n1 n2 (2 * M) f) (v : Derivs)
    (h0 : OnGrid n1 n2 (2 * M) v.d0 f) (u : Scal) (hu : Represents par.par_b f u) (F : ℤ → ℝ) (U : Derivs) (Ω : Dom) (hΩ : Ω ≤ offAxis)
    (hp : ∀ y ∈ Ω, 0 < conformal par u y) :
    (∀ i < n1, ∀ j < n2, ∀ k < 2 * M, nodePos par.par_b n1 n2 (2 * M) i j k ∈ Ω →
      ((F_of_v par n1 n2 (2 * M) v F U).2.1 (Index 0 i j k 1 n1 n2 (2 * M : ℕ)) = 0 ↔
        hamiltonian (confFlat (conformal par u)) (confK (conformal par u) (curvature par)) .vacuum (nodePos par.par_b n1 n2 (2 * M) i j k) = 0)) ∧
    ∀ y ∈ Ω, ∀ i, momentum (confFlat (conformal par u)) (confK (conformal par u) (curvature par)) .vacuum i y = 0 := by
  have hΩ' : Ω ≤ offPunctures par := hΩ.trans (offAxis_le par)
  have hψ : Sm Ω (conformal par u) := conformal_smooth hΩ' (hu.1.mono hΩ)
  refine ⟨fun i hi j hj k hk hx => ?_, fun y hy i => ?_⟩
  · obtain ⟨⟨c, hc, -, e⟩, -⟩ := (C97_residual par hb n1 n2 M hM f hf v h0 u hu F U).2.1 i hi j hj k hk
    rw [e, mul_eq_zero, or_iff_right hc.ne', ← conformal_laplacian hΩ' (hu.1.mono hΩ) hx, residual_iff (hp _ hx), confFlat_hamiltonian hψ hp _ hx, curvature_trace (hΩ' hx)]
    rw [show ∀ a b : ℝ, ((0 : ℝ) ^ 2 - a) / b = -(a / b) from fun a b => by ring, ← sub_eq_add_neg]
  · rw [confFlat_momentum hψ hp (fun a b => (curvature_smooth par a b).mono hΩ') (fun y _ a b => curvature_symm par a b y) (fun y hy => curvature_trace (hΩ' hy)) hy i,
      curvature_div (hΩ' hy), zero_div]

/-- C97: for every content of the grid such `v` and `u` exist. -/
theorem C97_function_exists (b : ℝ) (hb : 0 < b) (n1 n2 M : ℕ) (hM : 0 < M) (d0 : ℤ → ℝ) :
    ∃ f u, Resolved n1 n2 (2 * M) f ∧ OnGrid n1 n2 (2 * M) d0 f ∧ Represents b f u := by
  obtain ⟨f, hf, e⟩ := exists_resolved n1 n2 M hM fun i j k => d0 (Index 0 i j k 1 n1 n2 (2 * M : ℕ))
  exact ⟨f, cartesian b f, hf, fun i hi j hj k hk => (e i hi j hj k hk).symm, cartesian_smooth hb hM hf, fun A B phi hA hB => cartesian_position phi hb hA hB hM hf⟩

/-! ## The Jacobian -/

theorem IsPoly.comb {n : ℕ} {g h : ℝ → ℝ} (hg : IsPoly n g) (hh : IsPoly n h) (t : ℝ) : IsPoly n fun x => g x + t * h x := by
  obtain ⟨p, hp, e⟩ := hg
  obtain ⟨q, hq, e'⟩ := hh
  refine ⟨p + Polynomial.C t * q, ?_, fun x => by simp [e, e']⟩
  refine lt_of_le_of_lt (Polynomial.degree_add_le _ _) (max_lt hp (lt_of_le_of_lt ?_ hq))
  by_cases ht : t = 0
  · simp [ht]
  · rw [Polynomial.degree_C_mul ht]

theorem IsTrig.comb {N : ℕ} {g h : ℝ → ℝ} (hg : IsTrig N g) (hh : IsTrig N h) (t : ℝ) : IsTrig N fun x => g x + t * h x := by
  obtain ⟨a, b, e⟩ := hg
  obtain ⟨a', b', e'⟩ := hh
  refine ⟨fun l => a l + t * a' l, fun l => b l + t * b' l, fun x => ?_⟩
  beta_reduce
  rw [e, e']
  simp only [add_mul, Finset.sum_add_distrib, mul_assoc, ← Finset.mul_sum]
  ring

theorem Resolved.comb {n1 n2 n3 : ℕ} {f g : ℝ → ℝ → ℝ → ℝ} (hf : Resolved n1 n2 n3 f) (hg : Resolved n1 n2 n3 g) (t : ℝ) :
    Resolved n1 n2 n3 fun A B phi => f A B phi + t * g A B phi where
  inA B phi := (hf.inA B phi).comb (hg.inA B phi) t
  inB A phi := (hf.inB A phi).comb (hg.inB A phi) t
  inPhi A B := (hf.inPhi A B).comb (hg.inPhi A B) t

theorem Represents.comb {b : ℝ} {f g : ℝ → ℝ → ℝ → ℝ} {u w : Scal} (hu : Represents b f u) (hw : Represents b g w) (t : ℝ) :
    Represents b (fun A B phi => f A B phi + t * g A B phi) fun x => u x + t * w x :=
  ⟨hu.1.add ((Sm.const t).mul hw.1), fun A B phi hA hB => by beta_reduce; rw [hu.2 A B phi hA hB, hw.2 A B phi hA hB]; ring⟩

theorem laplacian_comb {Ω : Dom} {u w : Scal} (hu : Sm Ω u) (hw : Sm Ω w) (t : ℝ) {x : Vec} (hx : x ∈ Ω) :
    laplacian (fun x => u x + t * w x) x = laplacian u x + t * laplacian w x := by
  have e : ∀ k, pd k (pd k fun x => u x + t * w x) x = pd k (pd k u) x + t * pd k (pd k w) x := by
    intro k
    have : ∀ y ∈ Ω, pd k (fun x => u x + t * w x) y = pd k u y + t * pd k w y := fun y hy => by
      rw [dpd_add hy k hu ((Sm.const t).mul hw), dpd_cmul hy k t hw]
    rw [pd_congr_on this hx k, dpd_add hx k (hu.pd k) ((Sm.const t).mul (hw.pd k)), dpd_cmul hx k t (hw.pd k)]
  simp only [laplacian, e, Finset.sum_add_distrib, Finset.mul_sum]

theorem Lin_eq {par : Par} {x : Vec} (hx : x ∈ offPunctures par) (u w : Scal) :
    LinEquations par (x 0) (x 1) (x 2) (jetOf w x) (jetOf u x) =
      laplacian w x - 7 / 8 * (∑ i, ∑ j, curvature par i j x ^ 2) * (conformal par u x ^ 8)⁻¹ * w x := by
  have e : (![x 0, x 1, x 2] : Vec) = x := by
    funext i
    fin_cases i <;> rfl
  simp only [LinEquations, sq_plus, sq_minus, e, sqrt_sq (dist3_nonneg _ _), KK_eq hx, jetOf, laplacian, Fin.sum_univ_three, conformal]
  have e2 : 1 + 0.5 * par.par_m_plus / dist3 (plus par) x + 0.5 * par.par_m_minus / dist3 (minus par) x + u x =
      1 + par.par_m_plus / (2 * dist3 (plus par) x) + par.par_m_minus / (2 * dist3 (minus par) x) + u x := by ring
  rw [e2]
  generalize 1 + par.par_m_plus / (2 * dist3 (plus par) x) + par.par_m_minus / (2 * dist3 (minus par) x) + u x = p
  rw [show p * p * (p * p) * (p * p * (p * p)) = p ^ 8 by ring, show (0.875 : ℝ) = 7 / 8 by norm_num]
  ring

/-- C97: the Jacobian.  With the derivatives of `u` that `F_of_v` stored for `v`, the array that `J_times_dv` computes for `dv` is at every node the derivative
of the array that `F_of_v` computes for `v + t dv`, at `t = 0`, for all data at which the conformal factor does not vanish at the node. -/
theorem C97_jacobian (par : Par) (hb : 0 < par.par_b) (n1 n2 M : ℕ) (hM : 0 < M) (v dv : Derivs) (F Jdv : ℤ → ℝ) (U : Derivs) (i j k : ℕ) (hi : i < n1)
    (hj : j < n2) (hk : k < 2 * M)
    (hψ : let x := nodePos par.par_b n1 n2 (2 * M) i j k
      1 + par.par_m_plus / (2 * dist3 (plus par) x) + par.par_m_minus / (2 * dist3 (minus par) x) + (node n1 i - 1) * v.d0 (Index 0 i j k 1 n1 n2 (2 * M : ℕ)) ≠ 0) :
    HasDerivAt (fun t : ℝ => (F_of_v par n1 n2 (2 * M) { v with d0 := fun x => v.d0 x + t * dv.d0 x } F U).2.1 (Index 0 i j k 1 n1 n2 (2 * M : ℕ)))
      ((J_times_dv par n1 n2 (2 * M) dv Jdv (F_of_v par n1 n2 (2 * M) v F U).2.2).2 (Index 0 i j k 1 n1 n2 (2 * M : ℕ))) 0 := by
  obtain ⟨f, u, hf, hfg, hu⟩ := C97_function_exists par.par_b hb n1 n2 M hM v.d0
  obtain ⟨g, w, hg, hgg, hw⟩ := C97_function_exists par.par_b hb n1 n2 M hM dv.d0
  set x := nodePos par.par_b n1 n2 (2 * M) i j k with hxdef
  have hx : x ∈ offAxis := nodePos_offAxis hb hi hj
  have hx' := offAxis_le par hx
  have ht : ∀ t : ℝ, (F_of_v par n1 n2 (2 * M) { v with d0 := fun x => v.d0 x + t * dv.d0 x } F U).2.1 (Index 0 i j k 1 n1 n2 (2 * M : ℕ)) =
      (laplacian u x + t * laplacian w x + 1 / 8 * (∑ i, ∑ j, curvature par i j x ^ 2) * ((conformal par u x + t * w x) ^ 7)⁻¹) *
        FAC (π / 2 * (2 * i + 1) / n1) (π / 2 * (2 * j + 1) / n2) := by
    intro t
    rw [((F_of_v_at par n1 n2 (2 * M) _ F U).2.1 i hi j hj k hk).1, point_eq hb hM (hf.comb hg t) (hu.comb hw t) _ (fun i hi j hj k hk => by
      simp only [hfg i hi j hj k hk, hgg i hi j hj k hk]) hi hj hk]
    simp only [← hxdef]
    rw [NonLin_eq hx', laplacian_comb hu.1 hw.1 t hx]
    have ec : conformal par (fun x => u x + t * w x) x = conformal par u x + t * w x := by
      simp only [conformal]
      ring
    rw [ec, show (-7 : ℤ) = -((7 : ℕ) : ℤ) by norm_num, zpow_neg, zpow_natCast]
  have hJ : (J_times_dv par n1 n2 (2 * M) dv Jdv (F_of_v par n1 n2 (2 * M) v F U).2.2).2 (Index 0 i j k 1 n1 n2 (2 * M : ℕ)) =
      (laplacian w x - 7 / 8 * (∑ i, ∑ j, curvature par i j x ^ 2) * (conformal par u x ^ 8)⁻¹ * w x) * FAC (π / 2 * (2 * i + 1) / n1) (π / 2 * (2 * j + 1) / n2) := by
    rw [(J_times_dv_at par n1 n2 (2 * M) dv Jdv _).2.1 i hi j hj k hk]
    have h := node_jet hb hM hg hw dv hgg hi hj hk
    rw [angle] at h
    have h2 := ((F_of_v_at par n1 n2 (2 * M) v F U).2.1 i hi j hj k hk).2
    rw [point_eq hb hM hf hu v hfg hi hj hk] at h2
    simp only [J_times_dv_point, al_eq, h2]
    rw [h]
    simp only [← hxdef]
    rw [Lin_eq hx']
  rw [hJ]
  have hψ' : conformal par u x ≠ 0 := by
    have e : u x = (node n1 i - 1) * v.d0 (Index 0 i j k 1 n1 n2 (2 * M : ℕ)) := by
      rw [hfg i hi j hj k hk, hxdef, nodePos, hu.2 _ _ _ (node_mem hi) (node_mem hj)]
    rw [conformal, e]
    exact hψ
  have e : (fun t : ℝ => (F_of_v par n1 n2 (2 * M) { v with d0 := fun x => v.d0 x + t * dv.d0 x } F U).2.1 (Index 0 i j k 1 n1 n2 (2 * M : ℕ))) = _ := funext ht
  rw [e]
  generalize conformal par u x = p at *
  generalize (∑ i, ∑ j, curvature par i j x ^ 2) = K
  generalize FAC (π / 2 * (2 * i + 1) / n1) (π / 2 * (2 * j + 1) / n2) = c
  have h1 : HasDerivAt (fun t : ℝ => p + t * w x) (w x) 0 := by
    simpa using ((hasDerivAt_id (0 : ℝ)).mul_const (w x)).const_add p
  have h2 := (h1.pow 7).inv (by simpa using hψ')
  have h3 : HasDerivAt (fun t : ℝ => laplacian u x + t * laplacian w x) (laplacian w x) 0 := by
    simpa using ((hasDerivAt_id (0 : ℝ)).mul_const (laplacian w x)).const_add (laplacian u x)
  have h4 := ((h3.add (h2.const_mul (1 / 8 * K))).mul_const c)
  refine (h4.congr_deriv ?_)
  simp
  left
  field_simp
  ring

/-- Two punctures at distance 1 from the origin, the first with a linear momentum, with the default `TP_epsilon` and `TP_Tiny`. -/
noncomputable def boosted : Par := ⟨1, 1, 1, ![1, 0, 0], 0, 0, 0, 1 / 1000000, 0⟩

theorem boosted_Aij (q r : ℝ) (i j : Fin 3) : BY_Aij boosted 2 0 0 q r i j =
    if i = j then if i = 0 then 3 / 2 * (1 / √q + (1 / √q) ^ 3) / q else -(3 / 2 * (1 / √q) / q) else 0 := by
  fin_cases i <;> fin_cases j <;> simp [BY_Aij, boosted] <;> ring

/-- C97 fails for the components with the regularisation, which is on by default: they are not those of a traceless tensor, and the sum of their squares differs from
the number in the Hamiltonian constraint that the solver solved. -/
theorem C97_regularised_violation : ![2, 0, 0] ∈ offPunctures boosted ∧ ∑ i, BY_Aijofxyz boosted 2 0 0 i i ≠ 0 ∧
    ∑ i, ∑ j, BY_Aijofxyz boosted 2 0 0 i j ^ 2 ≠ BY_KKofxyz boosted 2 0 0 := by
  have hoff : ![2, 0, 0] ∈ offPunctures boosted := by
    refine ⟨fun h => ?_, fun h => ?_⟩
    · have h2 : (2 : ℝ) = 1 := congrFun h 0
      norm_num at h2
    · have h2 : (2 : ℝ) = -1 := congrFun h 0
      norm_num at h2
  have hA : ∃ q : ℝ, 1 < q ∧ ∀ i j, BY_Aijofxyz boosted 2 0 0 i j = BY_Aij boosted 2 0 0 q 1 i j := by
    refine ⟨√(1 + (1 / 1000000) ^ 4), ?_, fun i j => ?_⟩
    · rw [lt_sqrt (by norm_num)]
      norm_num
    · have e : ((2 : ℝ) - boosted.par_b) * (2 - boosted.par_b) + 0 * 0 + 0 * 0 = 1 := by norm_num [boosted]
      simp only [BY_Aijofxyz, e]
      have h1 : √((1 : ℝ) ^ 2 + boosted.TP_epsilon ^ 4) = √(1 + (1 / 1000000) ^ 4) := by simp [boosted]
      rw [h1, if_neg (show ¬√((1 : ℝ) + (1 / 1000000) ^ 4) < boosted.TP_Tiny ^ 2 from not_lt.2 (by simp [boosted])), boosted_Aij, boosted_Aij]
  obtain ⟨q, hq, hA⟩ := hA
  have hK : BY_KKofxyz boosted 2 0 0 = 27 / 2 := by
    have e : ((2 : ℝ) - boosted.par_b) * (2 - boosted.par_b) + 0 * 0 + 0 * 0 = 1 := by norm_num [boosted]
    have l : List.finRange 3 = [0, 1, 2] := rfl
    simp only [BY_KKofxyz, e, boosted_Aij, l, List.foldl_cons, List.foldl_nil]
    simp
    norm_num
  obtain ⟨n, hn⟩ : ∃ n, n = 1 / √q := ⟨_, rfl⟩
  have hs : 1 < √q := by
    rw [lt_sqrt (by norm_num)]
    linarith
  have hn0 : 0 < n := by
    rw [hn]
    positivity
  have hn1 : n < 1 := by
    rw [hn, div_lt_one (by linarith)]
    exact hs
  have hq2 : q = 1 / n ^ 2 := by
    rw [hn, div_pow, sq_sqrt (by linarith)]
    field_simp
  refine ⟨hoff, ?_, ?_⟩
  · simp only [hA, boosted_Aij, ← hn, Fin.sum_univ_three]
    simp
    rw [hq2]
    have : 3 / 2 * (n + n ^ 3) / (1 / n ^ 2) + -(3 / 2 * n / (1 / n ^ 2)) + -(3 / 2 * n / (1 / n ^ 2)) = -(3 / 2 * n ^ 3 * (1 - n ^ 2)) := by
      field_simp
      ring
    rw [this]
    have : 0 < 1 - n ^ 2 := by nlinarith
    have : 0 < 3 / 2 * n ^ 3 * (1 - n ^ 2) := by positivity
    linarith
  · simp only [hA, boosted_Aij, ← hn, Fin.sum_univ_three, hK]
    simp
    rw [hq2]
    have e : (3 / 2 * (n + n ^ 3) / (1 / n ^ 2)) ^ 2 + (3 / 2 * n / (1 / n ^ 2)) ^ 2 + (3 / 2 * n / (1 / n ^ 2)) ^ 2 = 9 / 4 * n ^ 6 * ((1 + n ^ 2) ^ 2 + 2) := by
      field_simp
      ring
    rw [e]
    have h2 : n ^ 2 < 1 := by nlinarith
    have h6 : n ^ 6 < 1 := by
      have : n ^ 6 = (n ^ 2) ^ 3 := by ring
      rw [this]
      exact pow_lt_one₀ (by positivity) h2 (by norm_num)
    have h3 : (1 + n ^ 2) ^ 2 < 4 := by nlinarith [sq_nonneg n]
    have h4 : 0 ≤ (1 + n ^ 2) ^ 2 := by positivity
    apply ne_of_lt
    nlinarith

/-- A grid function with all hypotheses: the data of `example_resolved`, with positive conformal factor near a node. -/
example : ∃ (f : ℝ → ℝ → ℝ → ℝ) (u : Scal) (d0 : ℤ → ℝ) (Ω : Dom), Resolved 3 2 4 f ∧ OnGrid 3 2 4 d0 f ∧ Represents boosted.par_b f u ∧ Ω ≤ offAxis ∧
    (∀ y ∈ Ω, 0 < conformal boosted u y) ∧ nodePos boosted.par_b 3 2 4 1 1 1 ∈ Ω ∧ d0 (Index 0 1 1 1 1 3 2 4) = -1 := by
  have hb : 0 < boosted.par_b := by norm_num [boosted]
  obtain ⟨f, u, hf, hg, hu⟩ := C97_function_exists boosted.par_b hb 3 2 2 (by norm_num) fun _ => (-1 : ℝ)
  have hx : nodePos boosted.par_b 3 2 4 1 1 1 ∈ offAxis := nodePos_offAxis hb (by norm_num) (by norm_num)
  have hc : ContinuousOn (conformal boosted u) offAxis := (conformal_smooth (offAxis_le boosted) hu.1).continuousOn
  refine ⟨f, u, fun _ => -1, ⟨offAxis ∩ conformal boosted u ⁻¹' Set.Ioi 0, hc.isOpen_inter_preimage offAxis.isOpen isOpen_Ioi⟩, hf, hg, hu, fun y hy => hy.1,
    fun y hy => hy.2, ⟨hx, ?_⟩, rfl⟩
  have hm : node 3 1 - 1 < 0 := by linarith [(node_mem (show 1 < 3 by norm_num)).2]
  have e := hu.2 (node 3 1) (node 2 1) (angle 4 1) (node_mem (by norm_num)) (node_mem (by norm_num))
  have e2 := hg 1 (by norm_num) 1 (by norm_num) 1 (by norm_num)
  rw [show angle (2 * 2) 1 = angle 4 1 from rfl] at e2
  rw [← e2] at e
  have d1 := dist3_pos (offAxis_le boosted hx).1
  have d2 := dist3_pos (offAxis_le boosted hx).2
  show 0 < conformal boosted u (nodePos boosted.par_b 3 2 4 1 1 1)
  rw [conformal, nodePos, e]
  rw [nodePos] at d1 d2
  have p1 : 0 < boosted.par_m_plus := by norm_num [boosted]
  have p2 : 0 < boosted.par_m_minus := by norm_num [boosted]
  have : 0 < boosted.par_m_plus / (2 * dist3 (plus boosted) (position boosted.par_b (node 3 1) (node 2 1) (angle 4 1))) := by positivity
  have : 0 < boosted.par_m_minus / (2 * dist3 (minus boosted) (position boosted.par_b (node 3 1) (node 2 1) (angle 4 1))) := by positivity
  linarith

end Verif.TP
