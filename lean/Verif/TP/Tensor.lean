import Verif.TP.Fourier

/-!
# Functions on the three-dimensional grid of TwoPunctures
-/
namespace Verif.TP
open Real Polynomial

/-! ## Specification -/

/-- A function of `(A, B, phi)` that the grid resolves: polynomials of degree less than `n1` in `A` and less than `n2` in `B`, a trigonometric
polynomial in `phi`. -/
structure Resolved (n1 n2 n3 : ℕ) (f : ℝ → ℝ → ℝ → ℝ) : Prop where
  inA : ∀ B phi, IsPoly n1 fun A => f A B phi
  inB : ∀ A phi, IsPoly n2 fun B => f A B phi
  inPhi : ∀ A B, IsTrig n3 fun phi => f A B phi

/-- `∂f/∂A`. -/
noncomputable def dA (f : ℝ → ℝ → ℝ → ℝ) : ℝ → ℝ → ℝ → ℝ := fun A B phi => deriv (fun A => f A B phi) A

/-- `∂f/∂B`. -/
noncomputable def dB (f : ℝ → ℝ → ℝ → ℝ) : ℝ → ℝ → ℝ → ℝ := fun A B phi => deriv (fun B => f A B phi) B

/-- `∂f/∂phi`. -/
noncomputable def dPhi (f : ℝ → ℝ → ℝ → ℝ) : ℝ → ℝ → ℝ → ℝ := fun A B phi => deriv (fun phi => f A B phi) phi

/-- The value of `f` at the node `(i, j, k)`. -/
noncomputable def atNode (n1 n2 n3 : ℕ) (f : ℝ → ℝ → ℝ → ℝ) (i j k : ℕ) : ℝ := f (node n1 i) (node n2 j) (angle n3 k)

/-! ## Lines -/

theorem IsPoly.deriv_eq {n : ℕ} {g : ℝ → ℝ} (h : IsPoly n g) :
    ∃ p : ℝ[X], p.degree < n ∧ (∀ x, g x = p.eval x) ∧ (∀ x, deriv g x = (derivative p).eval x) ∧
      ∀ x, deriv (deriv g) x = (derivative (derivative p)).eval x := by
  obtain ⟨p, hp, hg⟩ := h
  have h1 : g = fun x => p.eval x := funext hg
  have h2 : deriv g = fun x => (derivative p).eval x := by
    funext x
    rw [h1, Polynomial.deriv]
  refine ⟨p, hp, hg, fun x => by rw [h2], fun x => ?_⟩
  rw [h2, Polynomial.deriv]

/-- `chebLine` differentiates polynomials along a line. -/
theorem chebLine_deriv {n : ℕ} {g : ℝ → ℝ} (h : IsPoly n g) (u : ℕ → ℝ) (hu : ∀ k < n, u k = g (node n k)) (k : ℕ) (hk : k < n) :
    (chebLine u n).1 k = deriv g (node n k) ∧ (chebLine u n).2 k = deriv (deriv g) (node n k) := by
  obtain ⟨p, hp, hg, h1, h2⟩ := h.deriv_eq
  rw [h1, h2]
  exact chebLine_eq n p hp u (fun k hk => by rw [hu k hk, hg]) k hk

/-- `fourLine` differentiates trigonometric polynomials along a line. -/
theorem fourLine_deriv {M : ℕ} {g : ℝ → ℝ} (h : IsTrig (2 * M) g) (u : ℕ → ℝ) (hu : ∀ k < 2 * M, u k = g (angle (2 * M) k)) (k : ℕ) (hk : k < 2 * M) :
    (fourLine u (2 * M)).1 k = deriv g (angle (2 * M) k) ∧ (fourLine u (2 * M)).2 k = deriv (deriv g) (angle (2 * M) k) := by
  obtain ⟨c, hc⟩ := (isTrig_iff M (by omega) g).1 h
  have h1 : g = trig M c := funext hc
  have h2 : deriv g = trigD M c := by
    funext x
    rw [h1, (hasDerivAt_trig M c x).deriv]
  rw [h2, (hasDerivAt_trigD M c _).deriv]
  exact fourLine_eq M c u (fun k hk => by rw [hu k hk, hc]) k hk

theorem chebLine_congr {n : ℕ} {u w : ℕ → ℝ} (h : ∀ k < n, u k = w k) (k : ℕ) (hk : k < n) :
    (chebLine u n).1 k = (chebLine w n).1 k ∧ (chebLine u n).2 k = (chebLine w n).2 k := by
  obtain ⟨p, hp, hw⟩ := exists_interpolant n w
  have h1 := chebLine_eq n p hp w hw k hk
  have h2 := chebLine_eq n p hp u (fun k hk => by rw [h k hk, hw k hk]) k hk
  exact ⟨h2.1.trans h1.1.symm, h2.2.trans h1.2.symm⟩

/-! ## Closure -/

theorem IsPoly.sum {n : ℕ} (m : ℕ) (a : ℕ → ℝ) (g : ℕ → ℝ → ℝ) (h : ∀ i, IsPoly n (g i)) : IsPoly n fun x => ∑ i ∈ Finset.range m, a i * g i x := by
  choose p hp hg using h
  refine ⟨∑ i ∈ Finset.range m, C (a i) * p i, ?_, fun x => ?_⟩
  · rw [← mem_degreeLT]
    refine Submodule.sum_mem _ fun i _ => ?_
    rw [← smul_eq_C_mul]
    exact Submodule.smul_mem _ _ (mem_degreeLT.2 (hp i))
  · simp [eval_finsetSum, hg]

theorem IsTrig.sum {n : ℕ} (m : ℕ) (a : ℕ → ℝ) (g : ℕ → ℝ → ℝ) (h : ∀ i, IsTrig n (g i)) : IsTrig n fun x => ∑ i ∈ Finset.range m, a i * g i x := by
  choose p q hg using h
  refine ⟨fun l => ∑ i ∈ Finset.range m, a i * p i l, fun l => ∑ i ∈ Finset.range m, a i * q i l, fun x => ?_⟩
  simp only [hg, mul_add, Finset.mul_sum, Finset.sum_mul, Finset.sum_add_distrib]
  rw [Finset.sum_comm, Finset.sum_comm (s := Finset.range m) (t := Finset.range (n / 2))]
  congr 1 <;> exact Finset.sum_congr rfl fun l _ => Finset.sum_congr rfl fun i _ => by ring

/-- The cardinal polynomials. -/
noncomputable def card (n i : ℕ) : ℝ[X] := Lagrange.basis (Finset.range n) (node n) i

theorem IsPoly.cardinal {n : ℕ} {g : ℝ → ℝ} (h : IsPoly n g) (x : ℝ) : g x = ∑ i ∈ Finset.range n, g (node n i) * (card n i).eval x := by
  obtain ⟨p, hp, hg⟩ := h
  have e := Lagrange.eq_interpolate_of_eval_eq (s := Finset.range n) (v := node n) (fun i => g (node n i)) (node_injOn n) (f := p)
    (by simpa using hp) (fun i _ => (hg _).symm)
  rw [hg x]
  conv_lhs => rw [e, Lagrange.interpolate_apply]
  simp [eval_finsetSum, card]

theorem IsPoly.cardinal_deriv {n : ℕ} {g : ℝ → ℝ} (h : IsPoly n g) (x : ℝ) :
    deriv g x = ∑ i ∈ Finset.range n, g (node n i) * (derivative (card n i)).eval x := by
  have e : g = fun x => ∑ i ∈ Finset.range n, g (node n i) * (card n i).eval x := funext h.cardinal
  have d : HasDerivAt (fun x => ∑ i ∈ Finset.range n, g (node n i) * (card n i).eval x)
      (∑ i ∈ Finset.range n, g (node n i) * (derivative (card n i)).eval x) x :=
    HasDerivAt.fun_sum fun i _ => ((card n i).hasDerivAt x).const_mul _
  rw [← e] at d
  exact d.deriv

theorem IsPoly.deriv' {n : ℕ} {g : ℝ → ℝ} (h : IsPoly n g) : IsPoly n (deriv g) := by
  obtain ⟨p, hp, hg, h1, _⟩ := h.deriv_eq
  exact ⟨derivative p, degree_derivative_lt' hp, h1⟩

theorem Resolved.dA {n1 n2 n3 : ℕ} {f : ℝ → ℝ → ℝ → ℝ} (h : Resolved n1 n2 n3 f) : Resolved n1 n2 n3 (dA f) where
  inA B phi := (h.inA B phi).deriv'
  inB A phi := by
    have e : (fun B => TP.dA f A B phi) = fun B => ∑ i ∈ Finset.range n1, (derivative (card n1 i)).eval A * f (node n1 i) B phi := by
      funext B
      rw [TP.dA, (h.inA B phi).cardinal_deriv]
      exact Finset.sum_congr rfl fun i _ => mul_comm _ _
    rw [e]
    exact IsPoly.sum n1 _ _ fun i => h.inB _ _
  inPhi A B := by
    have e : (fun phi => TP.dA f A B phi) = fun phi => ∑ i ∈ Finset.range n1, (derivative (card n1 i)).eval A * f (node n1 i) B phi := by
      funext phi
      rw [TP.dA, (h.inA B phi).cardinal_deriv]
      exact Finset.sum_congr rfl fun i _ => mul_comm _ _
    rw [e]
    exact IsTrig.sum n1 _ _ fun i => h.inPhi _ _

theorem Resolved.dB {n1 n2 n3 : ℕ} {f : ℝ → ℝ → ℝ → ℝ} (h : Resolved n1 n2 n3 f) : Resolved n1 n2 n3 (dB f) where
  inB A phi := (h.inB A phi).deriv'
  inA B phi := by
    have e : (fun A => TP.dB f A B phi) = fun A => ∑ i ∈ Finset.range n2, (derivative (card n2 i)).eval B * f A (node n2 i) phi := by
      funext A
      rw [TP.dB, (h.inB A phi).cardinal_deriv]
      exact Finset.sum_congr rfl fun i _ => mul_comm _ _
    rw [e]
    exact IsPoly.sum n2 _ _ fun i => h.inA _ _
  inPhi A B := by
    have e : (fun phi => TP.dB f A B phi) = fun phi => ∑ i ∈ Finset.range n2, (derivative (card n2 i)).eval B * f A (node n2 i) phi := by
      funext phi
      rw [TP.dB, (h.inB A phi).cardinal_deriv]
      exact Finset.sum_congr rfl fun i _ => mul_comm _ _
    rw [e]
    exact IsTrig.sum n2 _ _ fun i => h.inPhi _ _

/-- Any data on the grid are the values of a resolved function. -/
theorem exists_resolved (n1 n2 M : ℕ) (hM : 0 < M) (u : ℕ → ℕ → ℕ → ℝ) :
    ∃ f, Resolved n1 n2 (2 * M) f ∧ ∀ i < n1, ∀ j < n2, ∀ k < 2 * M, atNode n1 n2 (2 * M) f i j k = u i j k := by
  have hP : ∀ n i, ∃ p : ℝ[X], p.degree < (n : ℕ) ∧ ∀ k < n, (if k = i then (1 : ℝ) else 0) = p.eval (node n k) := fun n i =>
    exists_interpolant n fun k => if k = i then 1 else 0
  choose P hPd hPe using hP
  have hF : ∀ i, ∃ c : ℕ → ℝ, ∀ k < 2 * M, (if k = i then (1 : ℝ) else 0) = trig M c (angle (2 * M) k) := fun i =>
    exists_trig M hM fun k => if k = i then 1 else 0
  choose F hFe using hF
  have hT : ∀ c, IsTrig (2 * M) (trig M c) := fun c => (isTrig_iff M hM _).2 ⟨c, fun _ => rfl⟩
  refine ⟨fun A B phi => ∑ i ∈ Finset.range n1, (P n1 i).eval A * ∑ j ∈ Finset.range n2, (P n2 j).eval B * ∑ k ∈ Finset.range (2 * M), u i j k * trig M (F k) phi, ⟨fun B phi => ?_, fun A phi => ?_, fun A B => ?_⟩, fun i hi j hj k hk => ?_⟩
  · simp only [mul_comm (eval _ (P n1 _))]
    exact IsPoly.sum n1 _ _ fun i => ⟨P n1 i, hPd n1 i, fun _ => rfl⟩
  · refine IsPoly.sum n1 _ _ fun i => ?_
    simp only [mul_comm (eval _ (P n2 _))]
    exact IsPoly.sum n2 _ _ fun i => ⟨P n2 i, hPd n2 i, fun _ => rfl⟩
  · refine IsTrig.sum n1 _ _ fun i => IsTrig.sum n2 _ _ fun j => IsTrig.sum _ _ _ fun k => hT _
  · simp only [atNode]
    have e1 : ∀ q ∈ Finset.range n1, (P n1 q).eval (node n1 i) * ∑ j' ∈ Finset.range n2, (P n2 j').eval (node n2 j) * ∑ k' ∈ Finset.range (2 * M), u q j' k' * trig M (F k') (angle (2 * M) k) =
        if i = q then u q j k else 0 := fun q _ => by
      rw [← hPe n1 q i hi]
      have e2 : ∀ q' ∈ Finset.range n2, (P n2 q').eval (node n2 j) * ∑ k' ∈ Finset.range (2 * M), u q q' k' * trig M (F k') (angle (2 * M) k) = if j = q' then u q q' k else 0 := fun q' _ => by
        rw [← hPe n2 q' j hj]
        have e3 : ∀ k' ∈ Finset.range (2 * M), u q q' k' * trig M (F k') (angle (2 * M) k) = if k = k' then u q q' k' else 0 := fun k' _ => by
          rw [← hFe k' k hk]
          simp
        rw [Finset.sum_congr rfl e3, Finset.sum_ite_eq, if_pos (Finset.mem_range.2 hk)]
        simp
      rw [Finset.sum_congr rfl e2, Finset.sum_ite_eq, if_pos (Finset.mem_range.2 hj)]
      simp
    rw [Finset.sum_congr rfl e1, Finset.sum_ite_eq, if_pos (Finset.mem_range.2 hi)]

/-! ## The index -/

theorem Index_inside {ivar i j k nvar n1 n2 n3 : ℕ} (hi : i < n1) (hj : j < n2) (hk : k < n3) :
    Index ivar i j k nvar n1 n2 n3 = ((ivar + nvar * (i + n1 * (j + n2 * k)) : ℕ) : ℤ) := by
  have h1 : ¬((i : ℤ) < 0) := by omega
  have h2 : ¬((j : ℤ) < 0) := by omega
  have h3 : ¬((k : ℤ) < 0) := by omega
  have h4 : ¬((i : ℤ) ≥ n1) := by omega
  have h5 : ¬((j : ℤ) ≥ n2) := by omega
  have h6 : ¬((k : ℤ) ≥ n3) := by omega
  simp only [Index, h1, h2, h3, h4, h5, h6, if_false]
  push_cast
  ring

/-- Reading `G (ivar, i, j, k)` from an index. -/
def decode (nvar n1 n2 : ℕ) (G : ℕ → ℕ → ℕ → ℕ → ℝ) (x : ℤ) : ℝ :=
  let m := x.toNat
  G (m % nvar) (m / nvar % n1) (m / nvar / n1 % n2) (m / nvar / n1 / n2)

theorem decode_index {ivar i j k nvar n1 n2 n3 : ℕ} (hv : ivar < nvar) (hi : i < n1) (hj : j < n2) (hk : k < n3) (G : ℕ → ℕ → ℕ → ℕ → ℝ) :
    decode nvar n1 n2 G (Index ivar i j k nvar n1 n2 n3) = G ivar i j k := by
  rw [Index_inside hi hj hk]
  simp only [decode, Int.toNat_natCast, Nat.add_mul_mod_self_left, Nat.mod_eq_of_lt hv, Nat.add_mul_div_left _ _ (show 0 < nvar by omega),
    Nat.div_eq_of_lt hv, zero_add, Nat.mod_eq_of_lt hi, Nat.add_mul_div_left _ _ (show 0 < n1 by omega), Nat.div_eq_of_lt hi, Nat.mod_eq_of_lt hj,
    Nat.add_mul_div_left _ _ (show 0 < n2 by omega), Nat.div_eq_of_lt hj]

/-! ## Loops over lines -/

open Classical in
/-- `v` with the entries in `S` replaced by those of `t`. -/
noncomputable def patch (S : Set ℤ) (t v : ℤ → ℝ) : ℤ → ℝ := fun x => if x ∈ S then t x else v x

theorem patch_patch (S S' : Set ℤ) (t v : ℤ → ℝ) : patch S' t (patch S t v) = patch (S ∪ S') t v := by
  funext x
  by_cases h' : x ∈ S'
  · simp [patch, h']
  · by_cases h : x ∈ S <;> simp [patch, h, h']

theorem patch_mem {S : Set ℤ} {x : ℤ} (h : x ∈ S) (t v : ℤ → ℝ) : patch S t v x = t x := if_pos h

theorem patch_notMem {S : Set ℤ} {x : ℤ} (h : x ∉ S) (t v : ℤ → ℝ) : patch S t v x = v x := if_neg h

theorem patch_empty (t v : ℤ → ℝ) : patch ∅ t v = v := by
  funext x
  simp [patch]

theorem writeLine_eq (v t : ℤ → ℝ) (indx : ℕ → ℤ) (d : ℕ → ℝ) (n : ℕ) (h : ∀ i < n, d i = t (indx i)) :
    writeLine v indx d n = patch {x | ∃ i < n, x = indx i} t v := by
  rw [writeLine]
  induction n with
  | zero => funext x; simp [patch]
  | succ n ih =>
    rw [List.range_succ, List.foldl_append, ih fun i hi => h i (by omega)]
    funext x
    simp only [List.foldl_cons, List.foldl_nil, Function.update_apply]
    by_cases hx : x = indx n
    · rw [if_pos hx, hx, h n (by omega), patch_mem (show indx n ∈ {x | ∃ i < n + 1, x = indx i} from ⟨n, by omega, rfl⟩)]
    · rw [if_neg hx]
      by_cases hm : ∃ i < n, x = indx i
      · obtain ⟨i, hi, e⟩ := hm
        rw [patch_mem (show x ∈ {x | ∃ i < n, x = indx i} from ⟨i, hi, e⟩), patch_mem (show x ∈ {x | ∃ i < n + 1, x = indx i} from ⟨i, by omega, e⟩)]
      · rw [patch_notMem (show x ∉ {x | ∃ i < n, x = indx i} from hm), patch_notMem]
        rintro ⟨i, hi, e⟩
        rcases Nat.lt_succ_iff_lt_or_eq.1 hi with h' | rfl
        · exact hm ⟨i, h', e⟩
        · exact hx e

theorem mem_loop2 {nx ny : ℕ} {q : ℕ × ℕ} : q ∈ loop2 nx ny ↔ q.1 < nx ∧ q.2 < ny := by
  obtain ⟨a, b⟩ := q
  simp [loop2]

/-- The indices of the nodes of the variable `ivar`. -/
def gridVar (ivar nvar n1 n2 n3 : ℕ) : Set ℤ := {x | ∃ i < n1, ∃ j < n2, ∃ k < n3, x = Index ivar i j k nvar n1 n2 n3}

/-- What the ten arrays should hold for the functions `fs`. -/
noncomputable def truth (nvar n1 n2 n3 : ℕ) (fs : ℕ → ℝ → ℝ → ℝ → ℝ) : ℤ → ℝ := decode nvar n1 n2 fun ivar i j k => atNode n1 n2 n3 (fs ivar) i j k

theorem truth_index {ivar i j k nvar n1 n2 n3 : ℕ} (hv : ivar < nvar) (hi : i < n1) (hj : j < n2) (hk : k < n3) (fs : ℕ → ℝ → ℝ → ℝ → ℝ) :
    truth nvar n1 n2 n3 fs (Index ivar i j k nvar n1 n2 n3) = atNode n1 n2 n3 (fs ivar) i j k := decode_index hv hi hj hk _

section Var
variable {ivar nvar n1 n2 M : ℕ} (hv : ivar < nvar) (fs : ℕ → ℝ → ℝ → ℝ → ℝ) (hf : Resolved n1 n2 (2 * M) (fs ivar))
include hv hf

theorem phaseA (L : List (ℕ × ℕ)) (hL : ∀ q ∈ L, q.1 < 2 * M ∧ q.2 < n2) (v : Derivs)
    (h0 : ∀ i < n1, ∀ j < n2, ∀ k < 2 * M, v.d0 (Index ivar i j k nvar n1 n2 (2 * M : ℕ)) = atNode n1 n2 (2 * M) (fs ivar) i j k) :
    L.foldl (fun (v : Derivs) kj =>
      { v with
        d1 := writeLine v.d1 (fun i => Index ivar i kj.2 kj.1 nvar n1 n2 (2 * M : ℕ)) (chebLine (fun i => v.d0 (Index ivar i kj.2 kj.1 nvar n1 n2 (2 * M : ℕ))) n1).1 n1
        d11 := writeLine v.d11 (fun i => Index ivar i kj.2 kj.1 nvar n1 n2 (2 * M : ℕ)) (chebLine (fun i => v.d0 (Index ivar i kj.2 kj.1 nvar n1 n2 (2 * M : ℕ))) n1).2 n1 }) v =
    { v with
      d1 := patch {x | ∃ q ∈ L, ∃ i < n1, x = Index ivar i q.2 q.1 nvar n1 n2 (2 * M : ℕ)} (truth nvar n1 n2 (2 * M) fun a => dA (fs a)) v.d1
      d11 := patch {x | ∃ q ∈ L, ∃ i < n1, x = Index ivar i q.2 q.1 nvar n1 n2 (2 * M : ℕ)} (truth nvar n1 n2 (2 * M) fun a => dA (dA (fs a))) v.d11 } := by
  induction L generalizing v with
  | nil => simp [patch_empty]
  | cons q L ih =>
    obtain ⟨hk, hj⟩ := hL q (by simp)
    have e := fun i hi => chebLine_deriv (hf.inA (node n2 q.2) (angle (2 * M) q.1)) (fun i => v.d0 (Index ivar i q.2 q.1 nvar n1 n2 (2 * M : ℕ)))
      (fun i hi => h0 i hi q.2 hj q.1 hk) i hi
    rw [List.foldl_cons, ih (fun q hq => hL q (by simp [hq])) _ (by exact h0)]
    simp only
    rw [writeLine_eq v.d1 (truth nvar n1 n2 (2 * M) fun a => dA (fs a)) _ _ n1 fun i hi => by rw [(e i hi).1, truth_index hv hi hj hk]; rfl,
      writeLine_eq v.d11 (truth nvar n1 n2 (2 * M) fun a => dA (dA (fs a))) _ _ n1 fun i hi => by rw [(e i hi).2, truth_index hv hi hj hk]; rfl,
      patch_patch, patch_patch]
    have s : {x | ∃ i < n1, x = Index ivar i q.2 q.1 nvar n1 n2 (2 * M : ℕ)} ∪ {x | ∃ q ∈ L, ∃ i < n1, x = Index ivar i q.2 q.1 nvar n1 n2 (2 * M : ℕ)} =
        {x | ∃ q' ∈ q :: L, ∃ i < n1, x = Index ivar i q'.2 q'.1 nvar n1 n2 (2 * M : ℕ)} := by
      ext x; simp
    rw [s]

theorem phaseB (L : List (ℕ × ℕ)) (hL : ∀ q ∈ L, q.1 < 2 * M ∧ q.2 < n1) (v : Derivs)
    (h0 : ∀ i < n1, ∀ j < n2, ∀ k < 2 * M, v.d0 (Index ivar i j k nvar n1 n2 (2 * M : ℕ)) = atNode n1 n2 (2 * M) (fs ivar) i j k)
    (h1 : ∀ i < n1, ∀ j < n2, ∀ k < 2 * M, v.d1 (Index ivar i j k nvar n1 n2 (2 * M : ℕ)) = atNode n1 n2 (2 * M) (dA (fs ivar)) i j k) :
    L.foldl (fun (v : Derivs) ki =>
      { v with
        d2 := writeLine v.d2 (fun j => Index ivar ki.2 j ki.1 nvar n1 n2 (2 * M : ℕ)) (chebLine (fun j => v.d0 (Index ivar ki.2 j ki.1 nvar n1 n2 (2 * M : ℕ))) n2).1 n2
        d22 := writeLine v.d22 (fun j => Index ivar ki.2 j ki.1 nvar n1 n2 (2 * M : ℕ)) (chebLine (fun j => v.d0 (Index ivar ki.2 j ki.1 nvar n1 n2 (2 * M : ℕ))) n2).2 n2
        d12 := writeLine v.d12 (fun j => Index ivar ki.2 j ki.1 nvar n1 n2 (2 * M : ℕ)) (chebLine (fun j => v.d1 (Index ivar ki.2 j ki.1 nvar n1 n2 (2 * M : ℕ))) n2).1 n2 }) v =
    { v with
      d2 := patch {x | ∃ q ∈ L, ∃ j < n2, x = Index ivar q.2 j q.1 nvar n1 n2 (2 * M : ℕ)} (truth nvar n1 n2 (2 * M) fun a => dB (fs a)) v.d2
      d22 := patch {x | ∃ q ∈ L, ∃ j < n2, x = Index ivar q.2 j q.1 nvar n1 n2 (2 * M : ℕ)} (truth nvar n1 n2 (2 * M) fun a => dB (dB (fs a))) v.d22
      d12 := patch {x | ∃ q ∈ L, ∃ j < n2, x = Index ivar q.2 j q.1 nvar n1 n2 (2 * M : ℕ)} (truth nvar n1 n2 (2 * M) fun a => dB (dA (fs a))) v.d12 } := by
  induction L generalizing v with
  | nil => simp [patch_empty]
  | cons q L ih =>
    obtain ⟨hk, hi⟩ := hL q (by simp)
    have e := fun j hj => chebLine_deriv (hf.inB (node n1 q.2) (angle (2 * M) q.1)) (fun j => v.d0 (Index ivar q.2 j q.1 nvar n1 n2 (2 * M : ℕ)))
      (fun j hj => h0 q.2 hi j hj q.1 hk) j hj
    have e' := fun j hj => chebLine_deriv (hf.dA.inB (node n1 q.2) (angle (2 * M) q.1)) (fun j => v.d1 (Index ivar q.2 j q.1 nvar n1 n2 (2 * M : ℕ)))
      (fun j hj => h1 q.2 hi j hj q.1 hk) j hj
    rw [List.foldl_cons, ih (fun q hq => hL q (by simp [hq])) _ (by exact h0) (by exact h1)]
    simp only
    rw [writeLine_eq v.d2 (truth nvar n1 n2 (2 * M) fun a => dB (fs a)) _ _ n2 fun j hj => by rw [(e j hj).1, truth_index hv hi hj hk]; rfl,
      writeLine_eq v.d22 (truth nvar n1 n2 (2 * M) fun a => dB (dB (fs a))) _ _ n2 fun j hj => by rw [(e j hj).2, truth_index hv hi hj hk]; rfl,
      writeLine_eq v.d12 (truth nvar n1 n2 (2 * M) fun a => dB (dA (fs a))) _ _ n2 fun j hj => by rw [(e' j hj).1, truth_index hv hi hj hk]; rfl,
      patch_patch, patch_patch, patch_patch]
    have s : {x | ∃ j < n2, x = Index ivar q.2 j q.1 nvar n1 n2 (2 * M : ℕ)} ∪ {x | ∃ q ∈ L, ∃ j < n2, x = Index ivar q.2 j q.1 nvar n1 n2 (2 * M : ℕ)} =
        {x | ∃ q' ∈ q :: L, ∃ j < n2, x = Index ivar q'.2 j q'.1 nvar n1 n2 (2 * M : ℕ)} := by
      ext x; simp
    rw [s]

theorem phaseC (L : List (ℕ × ℕ)) (hL : ∀ q ∈ L, q.1 < n1 ∧ q.2 < n2) (v : Derivs)
    (h0 : ∀ i < n1, ∀ j < n2, ∀ k < 2 * M, v.d0 (Index ivar i j k nvar n1 n2 (2 * M : ℕ)) = atNode n1 n2 (2 * M) (fs ivar) i j k)
    (h1 : ∀ i < n1, ∀ j < n2, ∀ k < 2 * M, v.d1 (Index ivar i j k nvar n1 n2 (2 * M : ℕ)) = atNode n1 n2 (2 * M) (dA (fs ivar)) i j k)
    (h2 : ∀ i < n1, ∀ j < n2, ∀ k < 2 * M, v.d2 (Index ivar i j k nvar n1 n2 (2 * M : ℕ)) = atNode n1 n2 (2 * M) (dB (fs ivar)) i j k) :
    L.foldl (fun (v : Derivs) ij =>
      { v with
        d3 := writeLine v.d3 (fun k => Index ivar ij.1 ij.2 k nvar n1 n2 (2 * M : ℕ)) (fourLine (fun k => v.d0 (Index ivar ij.1 ij.2 k nvar n1 n2 (2 * M : ℕ))) (2 * M)).1 (2 * M)
        d33 := writeLine v.d33 (fun k => Index ivar ij.1 ij.2 k nvar n1 n2 (2 * M : ℕ)) (fourLine (fun k => v.d0 (Index ivar ij.1 ij.2 k nvar n1 n2 (2 * M : ℕ))) (2 * M)).2 (2 * M)
        d13 := writeLine v.d13 (fun k => Index ivar ij.1 ij.2 k nvar n1 n2 (2 * M : ℕ)) (fourLine (fun k => v.d1 (Index ivar ij.1 ij.2 k nvar n1 n2 (2 * M : ℕ))) (2 * M)).1 (2 * M)
        d23 := writeLine v.d23 (fun k => Index ivar ij.1 ij.2 k nvar n1 n2 (2 * M : ℕ)) (fourLine (fun k => v.d2 (Index ivar ij.1 ij.2 k nvar n1 n2 (2 * M : ℕ))) (2 * M)).1 (2 * M) }) v =
    { v with
      d3 := patch {x | ∃ q ∈ L, ∃ k < 2 * M, x = Index ivar q.1 q.2 k nvar n1 n2 (2 * M : ℕ)} (truth nvar n1 n2 (2 * M) fun a => dPhi (fs a)) v.d3
      d33 := patch {x | ∃ q ∈ L, ∃ k < 2 * M, x = Index ivar q.1 q.2 k nvar n1 n2 (2 * M : ℕ)} (truth nvar n1 n2 (2 * M) fun a => dPhi (dPhi (fs a))) v.d33
      d13 := patch {x | ∃ q ∈ L, ∃ k < 2 * M, x = Index ivar q.1 q.2 k nvar n1 n2 (2 * M : ℕ)} (truth nvar n1 n2 (2 * M) fun a => dPhi (dA (fs a))) v.d13
      d23 := patch {x | ∃ q ∈ L, ∃ k < 2 * M, x = Index ivar q.1 q.2 k nvar n1 n2 (2 * M : ℕ)} (truth nvar n1 n2 (2 * M) fun a => dPhi (dB (fs a))) v.d23 } := by
  induction L generalizing v with
  | nil => simp [patch_empty]
  | cons q L ih =>
    obtain ⟨hi, hj⟩ := hL q (by simp)
    have e := fun k hk => fourLine_deriv (hf.inPhi (node n1 q.1) (node n2 q.2)) (fun k => v.d0 (Index ivar q.1 q.2 k nvar n1 n2 (2 * M : ℕ)))
      (fun k hk => h0 q.1 hi q.2 hj k hk) k hk
    have e1 := fun k hk => fourLine_deriv (hf.dA.inPhi (node n1 q.1) (node n2 q.2)) (fun k => v.d1 (Index ivar q.1 q.2 k nvar n1 n2 (2 * M : ℕ)))
      (fun k hk => h1 q.1 hi q.2 hj k hk) k hk
    have e2 := fun k hk => fourLine_deriv (hf.dB.inPhi (node n1 q.1) (node n2 q.2)) (fun k => v.d2 (Index ivar q.1 q.2 k nvar n1 n2 (2 * M : ℕ)))
      (fun k hk => h2 q.1 hi q.2 hj k hk) k hk
    rw [List.foldl_cons, ih (fun q hq => hL q (by simp [hq])) _ (by exact h0) (by exact h1) (by exact h2)]
    simp only
    rw [writeLine_eq v.d3 (truth nvar n1 n2 (2 * M) fun a => dPhi (fs a)) _ _ (2 * M) fun k hk => by rw [(e k hk).1, truth_index hv hi hj hk]; rfl,
      writeLine_eq v.d33 (truth nvar n1 n2 (2 * M) fun a => dPhi (dPhi (fs a))) _ _ (2 * M) fun k hk => by rw [(e k hk).2, truth_index hv hi hj hk]; rfl,
      writeLine_eq v.d13 (truth nvar n1 n2 (2 * M) fun a => dPhi (dA (fs a))) _ _ (2 * M) fun k hk => by rw [(e1 k hk).1, truth_index hv hi hj hk]; rfl,
      writeLine_eq v.d23 (truth nvar n1 n2 (2 * M) fun a => dPhi (dB (fs a))) _ _ (2 * M) fun k hk => by rw [(e2 k hk).1, truth_index hv hi hj hk]; rfl,
      patch_patch, patch_patch, patch_patch, patch_patch]
    have s : {x | ∃ k < 2 * M, x = Index ivar q.1 q.2 k nvar n1 n2 (2 * M : ℕ)} ∪ {x | ∃ q ∈ L, ∃ k < 2 * M, x = Index ivar q.1 q.2 k nvar n1 n2 (2 * M : ℕ)} =
        {x | ∃ q' ∈ q :: L, ∃ k < 2 * M, x = Index ivar q'.1 q'.2 k nvar n1 n2 (2 * M : ℕ)} := by
      ext x; simp
    rw [s]

theorem derivativesVar_eq (v : Derivs)
    (h0 : ∀ i < n1, ∀ j < n2, ∀ k < 2 * M, v.d0 (Index ivar i j k nvar n1 n2 (2 * M : ℕ)) = atNode n1 n2 (2 * M) (fs ivar) i j k) :
    derivativesVar ivar nvar n1 n2 (2 * M) v =
      { d0 := v.d0
        d1 := patch (gridVar ivar nvar n1 n2 (2 * M)) (truth nvar n1 n2 (2 * M) fun a => dA (fs a)) v.d1
        d2 := patch (gridVar ivar nvar n1 n2 (2 * M)) (truth nvar n1 n2 (2 * M) fun a => dB (fs a)) v.d2
        d3 := patch (gridVar ivar nvar n1 n2 (2 * M)) (truth nvar n1 n2 (2 * M) fun a => dPhi (fs a)) v.d3
        d11 := patch (gridVar ivar nvar n1 n2 (2 * M)) (truth nvar n1 n2 (2 * M) fun a => dA (dA (fs a))) v.d11
        d12 := patch (gridVar ivar nvar n1 n2 (2 * M)) (truth nvar n1 n2 (2 * M) fun a => dB (dA (fs a))) v.d12
        d13 := patch (gridVar ivar nvar n1 n2 (2 * M)) (truth nvar n1 n2 (2 * M) fun a => dPhi (dA (fs a))) v.d13
        d22 := patch (gridVar ivar nvar n1 n2 (2 * M)) (truth nvar n1 n2 (2 * M) fun a => dB (dB (fs a))) v.d22
        d23 := patch (gridVar ivar nvar n1 n2 (2 * M)) (truth nvar n1 n2 (2 * M) fun a => dPhi (dB (fs a))) v.d23
        d33 := patch (gridVar ivar nvar n1 n2 (2 * M)) (truth nvar n1 n2 (2 * M) fun a => dPhi (dPhi (fs a))) v.d33 } := by
  have sA : {x | ∃ q ∈ loop2 (2 * M) n2, ∃ i < n1, x = Index ivar i q.2 q.1 nvar n1 n2 (2 * M : ℕ)} = gridVar ivar nvar n1 n2 (2 * M) := by
    ext x
    simp only [Set.mem_setOf_eq, gridVar, mem_loop2, Prod.exists]
    exact ⟨fun ⟨k, j, ⟨hk, hj⟩, i, hi, e⟩ => ⟨i, hi, j, hj, k, hk, e⟩, fun ⟨i, hi, j, hj, k, hk, e⟩ => ⟨k, j, ⟨hk, hj⟩, i, hi, e⟩⟩
  have sB : {x | ∃ q ∈ loop2 (2 * M) n1, ∃ j < n2, x = Index ivar q.2 j q.1 nvar n1 n2 (2 * M : ℕ)} = gridVar ivar nvar n1 n2 (2 * M) := by
    ext x
    simp only [Set.mem_setOf_eq, gridVar, mem_loop2, Prod.exists]
    exact ⟨fun ⟨k, i, ⟨hk, hi⟩, j, hj, e⟩ => ⟨i, hi, j, hj, k, hk, e⟩, fun ⟨i, hi, j, hj, k, hk, e⟩ => ⟨k, i, ⟨hk, hi⟩, j, hj, e⟩⟩
  have sC : {x | ∃ q ∈ loop2 n1 n2, ∃ k < 2 * M, x = Index ivar q.1 q.2 k nvar n1 n2 (2 * M : ℕ)} = gridVar ivar nvar n1 n2 (2 * M) := by
    ext x
    simp only [Set.mem_setOf_eq, gridVar, mem_loop2, Prod.exists]
    exact ⟨fun ⟨i, j, ⟨hi, hj⟩, k, hk, e⟩ => ⟨i, hi, j, hj, k, hk, e⟩, fun ⟨i, hi, j, hj, k, hk, e⟩ => ⟨i, j, ⟨hi, hj⟩, k, hk, e⟩⟩
  have pA := phaseA hv fs hf (loop2 (2 * M) n2) (fun q hq => mem_loop2.1 hq) v h0
  rw [sA] at pA
  have m : ∀ i < n1, ∀ j < n2, ∀ k < 2 * M, Index ivar i j k nvar n1 n2 (2 * M : ℕ) ∈ gridVar ivar nvar n1 n2 (2 * M) :=
    fun i hi j hj k hk => ⟨i, hi, j, hj, k, hk, rfl⟩
  rw [derivativesVar]
  simp only
  rw [pA]
  have pB := phaseB hv fs hf (loop2 (2 * M) n1) (fun q hq => mem_loop2.1 hq)
    { v with
      d1 := patch (gridVar ivar nvar n1 n2 (2 * M)) (truth nvar n1 n2 (2 * M) fun a => dA (fs a)) v.d1
      d11 := patch (gridVar ivar nvar n1 n2 (2 * M)) (truth nvar n1 n2 (2 * M) fun a => dA (dA (fs a))) v.d11 } h0
    fun i hi j hj k hk => by simp only [patch_mem (m i hi j hj k hk), truth_index hv hi hj hk]
  rw [sB] at pB
  rw [pB]
  have pC := phaseC hv fs hf (loop2 n1 n2) (fun q hq => mem_loop2.1 hq)
    { v with
      d1 := patch (gridVar ivar nvar n1 n2 (2 * M)) (truth nvar n1 n2 (2 * M) fun a => dA (fs a)) v.d1
      d11 := patch (gridVar ivar nvar n1 n2 (2 * M)) (truth nvar n1 n2 (2 * M) fun a => dA (dA (fs a))) v.d11
      d2 := patch (gridVar ivar nvar n1 n2 (2 * M)) (truth nvar n1 n2 (2 * M) fun a => dB (fs a)) v.d2
      d22 := patch (gridVar ivar nvar n1 n2 (2 * M)) (truth nvar n1 n2 (2 * M) fun a => dB (dB (fs a))) v.d22
      d12 := patch (gridVar ivar nvar n1 n2 (2 * M)) (truth nvar n1 n2 (2 * M) fun a => dB (dA (fs a))) v.d12 } h0
    (fun i hi j hj k hk => by simp only [patch_mem (m i hi j hj k hk), truth_index hv hi hj hk])
    (fun i hi j hj k hk => by simp only [patch_mem (m i hi j hj k hk), truth_index hv hi hj hk])
  rw [sC] at pC
  rw [pC]

end Var

/-- The indices of the nodes of the first `m` variables. -/
def grid (m nvar n1 n2 n3 : ℕ) : Set ℤ := {x | ∃ ivar < m, x ∈ gridVar ivar nvar n1 n2 n3}

theorem Derivatives_eq (nvar n1 n2 M : ℕ) (fs : ℕ → ℝ → ℝ → ℝ → ℝ) (hf : ∀ ivar < nvar, Resolved n1 n2 (2 * M) (fs ivar)) (v : Derivs)
    (h0 : ∀ ivar < nvar, ∀ i < n1, ∀ j < n2, ∀ k < 2 * M, v.d0 (Index ivar i j k nvar n1 n2 (2 * M : ℕ)) = atNode n1 n2 (2 * M) (fs ivar) i j k) :
    Derivatives_AB3 nvar n1 n2 (2 * M) v =
      { d0 := v.d0
        d1 := patch (grid nvar nvar n1 n2 (2 * M)) (truth nvar n1 n2 (2 * M) fun a => dA (fs a)) v.d1
        d2 := patch (grid nvar nvar n1 n2 (2 * M)) (truth nvar n1 n2 (2 * M) fun a => dB (fs a)) v.d2
        d3 := patch (grid nvar nvar n1 n2 (2 * M)) (truth nvar n1 n2 (2 * M) fun a => dPhi (fs a)) v.d3
        d11 := patch (grid nvar nvar n1 n2 (2 * M)) (truth nvar n1 n2 (2 * M) fun a => dA (dA (fs a))) v.d11
        d12 := patch (grid nvar nvar n1 n2 (2 * M)) (truth nvar n1 n2 (2 * M) fun a => dB (dA (fs a))) v.d12
        d13 := patch (grid nvar nvar n1 n2 (2 * M)) (truth nvar n1 n2 (2 * M) fun a => dPhi (dA (fs a))) v.d13
        d22 := patch (grid nvar nvar n1 n2 (2 * M)) (truth nvar n1 n2 (2 * M) fun a => dB (dB (fs a))) v.d22
        d23 := patch (grid nvar nvar n1 n2 (2 * M)) (truth nvar n1 n2 (2 * M) fun a => dPhi (dB (fs a))) v.d23
        d33 := patch (grid nvar nvar n1 n2 (2 * M)) (truth nvar n1 n2 (2 * M) fun a => dPhi (dPhi (fs a))) v.d33 } := by
  have key : ∀ m ≤ nvar, (List.range m).foldl (fun v ivar => derivativesVar ivar nvar n1 n2 (2 * M) v) v =
      { d0 := v.d0
        d1 := patch (grid m nvar n1 n2 (2 * M)) (truth nvar n1 n2 (2 * M) fun a => dA (fs a)) v.d1
        d2 := patch (grid m nvar n1 n2 (2 * M)) (truth nvar n1 n2 (2 * M) fun a => dB (fs a)) v.d2
        d3 := patch (grid m nvar n1 n2 (2 * M)) (truth nvar n1 n2 (2 * M) fun a => dPhi (fs a)) v.d3
        d11 := patch (grid m nvar n1 n2 (2 * M)) (truth nvar n1 n2 (2 * M) fun a => dA (dA (fs a))) v.d11
        d12 := patch (grid m nvar n1 n2 (2 * M)) (truth nvar n1 n2 (2 * M) fun a => dB (dA (fs a))) v.d12
        d13 := patch (grid m nvar n1 n2 (2 * M)) (truth nvar n1 n2 (2 * M) fun a => dPhi (dA (fs a))) v.d13
        d22 := patch (grid m nvar n1 n2 (2 * M)) (truth nvar n1 n2 (2 * M) fun a => dB (dB (fs a))) v.d22
        d23 := patch (grid m nvar n1 n2 (2 * M)) (truth nvar n1 n2 (2 * M) fun a => dPhi (dB (fs a))) v.d23
        d33 := patch (grid m nvar n1 n2 (2 * M)) (truth nvar n1 n2 (2 * M) fun a => dPhi (dPhi (fs a))) v.d33 } := by
    intro m hm
    induction m with
    | zero =>
      have : grid 0 nvar n1 n2 (2 * M) = ∅ := by ext x; simp [grid]
      simp [this, patch_empty]
    | succ m ih =>
      have s : grid m nvar n1 n2 (2 * M) ∪ gridVar m nvar n1 n2 (2 * M) = grid (m + 1) nvar n1 n2 (2 * M) := by
        ext x
        simp only [grid, Set.mem_union, Set.mem_setOf_eq, Nat.lt_succ_iff_lt_or_eq]
        constructor
        · rintro (⟨a, ha, h⟩ | h)
          · exact ⟨a, Or.inl ha, h⟩
          · exact ⟨m, Or.inr rfl, h⟩
        · rintro ⟨a, ha | rfl, h⟩
          · exact Or.inl ⟨a, ha, h⟩
          · exact Or.inr h
      rw [List.range_succ, List.foldl_append, ih (by omega), List.foldl_cons, List.foldl_nil,
        derivativesVar_eq (show m < nvar by omega) fs (hf m (by omega)) _ (by exact h0 m (by omega))]
      simp only [patch_patch, s]
  exact key nvar le_rfl

/-! ## Evaluation -/

/-- A resolved function is recovered from its values along `A`. -/
theorem cheb_eval {n : ℕ} (hn : 0 < n) {g : ℝ → ℝ} (h : IsPoly n g) (u : ℕ → ℝ) (hu : ∀ k < n, u k = g (node n k)) (x : ℝ) :
    chebev (-1) 1 (chebft_Zeros u n false) n x = g x := by
  obtain ⟨p, hp, hg⟩ := h
  rw [chebev_unit _ n hn, series_fwd n hn p hp u fun k hk => by rw [hu k hk, hg], hg]

theorem four_eval {M : ℕ} (hM : 0 < M) {g : ℝ → ℝ} (h : IsTrig (2 * M) g) (u : ℕ → ℝ) (hu : ∀ k < 2 * M, u k = g (angle (2 * M) k)) (x : ℝ) :
    fourev (fourft u (2 * M) false) (2 * M) x = g x := by
  obtain ⟨c, hc⟩ := (isTrig_iff M hM g).1 h
  rw [fourev_eq, trig_fwd M hM c u fun k hk => by rw [hu k hk, hc], hc]

theorem PunctEval_eq {ivar nvar n1 n2 M : ℕ} (h1 : 0 < n1) (h2 : 0 < n2) (hM : 0 < M) {f : ℝ → ℝ → ℝ → ℝ} (hf : Resolved n1 n2 (2 * M) f) (v : ℤ → ℝ)
    (h0 : ∀ i < n1, ∀ j < n2, ∀ k < 2 * M, v (Index ivar i j k nvar n1 n2 (2 * M : ℕ)) = atNode n1 n2 (2 * M) f i j k) (A B phi : ℝ) :
    PunctEvalAtArbitPosition v ivar A B phi nvar n1 n2 (2 * M) = f A B phi := by
  rw [PunctEvalAtArbitPosition]
  refine four_eval hM (hf.inPhi A B) _ (fun k hk => ?_) phi
  refine cheb_eval h2 (hf.inB A (angle (2 * M) k)) _ (fun j hj => ?_) B
  refine cheb_eval h1 (hf.inA (node n2 j) (angle (2 * M) k)) _ (fun i hi => ?_) A
  have := h0 i hi j hj k hk
  rw [Index_inside hi hj hk] at this
  rw [atNode] at this
  rw [← this]
  push_cast
  rfl

theorem fold_writeLine (L : List (ℕ × ℕ)) (t cf : ℤ → ℝ) (indx : ℕ × ℕ → ℕ → ℤ) (d : ℕ × ℕ → ℕ → ℝ) (n : ℕ) (h : ∀ q ∈ L, ∀ k < n, d q k = t (indx q k)) :
    L.foldl (fun (cf : ℤ → ℝ) q => writeLine cf (indx q) (d q) n) cf = patch {x | ∃ q ∈ L, ∃ k < n, x = indx q k} t cf := by
  induction L generalizing cf with
  | nil => simp [patch_empty]
  | cons q L ih =>
    rw [List.foldl_cons, ih _ fun q hq => h q (by simp [hq]), writeLine_eq _ t _ _ n (h q (by simp)), patch_patch]
    have s : {x | ∃ k < n, x = indx q k} ∪ {x | ∃ q ∈ L, ∃ k < n, x = indx q k} = {x | ∃ q' ∈ q :: L, ∃ k < n, x = indx q' k} := by
      ext x; simp
    rw [s]

/-- The coefficients that `SpecCoef` stores. -/
theorem SpecCoef_index {n1 n2 n3 : ℕ} (v cf : ℤ → ℝ) {n l p : ℕ} (hn : n < n1) (hl : l < n2) (hp : p < n3) :
    SpecCoef n1 n2 n3 0 v cf ((n + n1 * (l + n2 * p) : ℕ) : ℤ) =
      fourft (fun k => chebft_Zeros (fun j => chebft_Zeros (fun i => v ((i + n1 * (j + n2 * k) : ℕ) : ℤ)) n1 false n) n2 false l) n3 false p := by
  set G : ℕ → ℕ → ℕ → ℝ := fun n l p =>
    fourft (fun k => chebft_Zeros (fun j => chebft_Zeros (fun i => v ((i + n1 * (j + n2 * k) : ℕ) : ℤ)) n1 false n) n2 false l) n3 false p with hG
  have e : ∀ n < n1, ∀ l < n2, ∀ p < n3, ((n + n1 * (l + n2 * p) : ℕ) : ℤ) = Index (0 : ℕ) n l p (1 : ℕ) n1 n2 n3 := fun n hn l hl p hp => by
    rw [Index_inside hn hl hp]
    simp
  have h := fold_writeLine (loop2 n1 n2) (decode 1 n1 n2 fun _ => G) cf (fun q k => (((0 : ℕ) : ℤ) + (q.1 + n1 * (q.2 + n2 * k)) : ℤ)) (fun q k => G q.1 q.2 k) n3 (by
    intro q hq k hk
    obtain ⟨h1, h2⟩ := mem_loop2.1 hq
    have := e q.1 h1 q.2 h2 k hk
    push_cast at this
    rw [show (((0 : ℕ) : ℤ) + (q.1 + n1 * (q.2 + n2 * k)) : ℤ) = Index (0 : ℕ) q.1 q.2 k (1 : ℕ) n1 n2 n3 by push_cast; rw [zero_add, this], decode_index one_pos h1 h2 hk])
  have h' : SpecCoef n1 n2 n3 0 v cf = (loop2 n1 n2).foldl (fun (cf : ℤ → ℝ) q => writeLine cf (fun k => (((0 : ℕ) : ℤ) + (q.1 + n1 * (q.2 + n2 * k)) : ℤ)) (fun k => G q.1 q.2 k) n3) cf := by
    simp only [SpecCoef, hG]
    push_cast
    simp only [zero_add]
  rw [h', h, patch_mem]
  · rw [e n hn l hl p hp, decode_index one_pos hn hl hp]
  · refine ⟨(n, l), mem_loop2.2 ⟨hn, hl⟩, p, hp, ?_⟩
    push_cast
    ring

theorem chebft_sum (n : ℕ) (m : ℕ) (a : ℕ → ℝ) (g : ℕ → ℕ → ℝ) (j : ℕ) (hj : j < n) :
    chebft_Zeros (fun k => ∑ i ∈ Finset.range m, a i * g i k) n false j = ∑ i ∈ Finset.range m, a i * chebft_Zeros (g i) n false j := by
  simp only [chebft_fwd _ n j hj, Finset.sum_mul, Finset.mul_sum]
  rw [Finset.sum_comm]
  exact Finset.sum_congr rfl fun i _ => Finset.sum_congr rfl fun k _ => by ring

theorem fourft_sum (M : ℕ) (m : ℕ) (a : ℕ → ℝ) (g : ℕ → ℕ → ℝ) (j : ℕ) (hj : j < 2 * M) :
    fourft (fun k => ∑ i ∈ Finset.range m, a i * g i k) (2 * M) false j = ∑ i ∈ Finset.range m, a i * fourft (g i) (2 * M) false j := by
  have hM : 0 < M := by omega
  simp only [fourft_fwd _ M j hM hj]
  split_ifs
  · simp only [Finset.sum_mul, Finset.mul_sum]
    rw [Finset.sum_comm]
    exact Finset.sum_congr rfl fun i _ => Finset.sum_congr rfl fun k _ => by ring
  · simp only [Finset.sum_mul, Finset.mul_sum]
    rw [Finset.sum_comm]
    exact Finset.sum_congr rfl fun i _ => Finset.sum_congr rfl fun k _ => by ring

theorem chebft_congr {n : ℕ} {u w : ℕ → ℝ} (h : ∀ k < n, u k = w k) (j : ℕ) (hj : j < n) : chebft_Zeros u n false j = chebft_Zeros w n false j := by
  rw [chebft_fwd u n j hj, chebft_fwd w n j hj, Finset.sum_congr rfl fun k hk => by rw [h k (Finset.mem_range.1 hk)]]

theorem fourft_congr {M : ℕ} {u w : ℕ → ℝ} (h : ∀ k < 2 * M, u k = w k) (j : ℕ) (hj : j < 2 * M) :
    fourft u (2 * M) false j = fourft w (2 * M) false j := by
  have hM : 0 < M := by omega
  rw [fourft_fwd u M j hM hj, fourft_fwd w M j hM hj]
  congr 2 <;> exact Finset.sum_congr rfl fun k hk => by rw [h k (Finset.mem_range.1 hk)]

/-- The weights of `chebev`. -/
noncomputable def weight (x : ℝ) (i : ℕ) : ℝ := (Polynomial.Chebyshev.T ℝ i).eval x - if i = 0 then 1 / 2 else 0

theorem chebev_weight (c : ℕ → ℝ) (n : ℕ) (hn : 0 < n) (x : ℝ) : chebev (-1) 1 c n x = ∑ i ∈ Finset.range n, weight x i * c i := by
  rw [chebev_unit c n hn, series_eval]
  simp only [weight, sub_mul, Finset.sum_sub_distrib, ite_mul, zero_mul]
  rw [Finset.sum_ite_eq', if_pos (Finset.mem_range.2 hn)]
  congr 1
  · exact Finset.sum_congr rfl fun i _ => mul_comm _ _
  · ring

theorem fourev_congr {M : ℕ} (hM : 0 < M) {c c' : ℕ → ℝ} (h : ∀ j < 2 * M, c j = c' j) (x : ℝ) : fourev c (2 * M) x = fourev c' (2 * M) x := by
  rw [fourev_eq, fourev_eq, trig_congr hM h]

/-- Evaluation from the stored coefficients. -/
theorem PunctEvalFast_eq {n1 n2 M : ℕ} (h1 : 0 < n1) (h2 : 0 < n2) (hM : 0 < M) {f : ℝ → ℝ → ℝ → ℝ} (hf : Resolved n1 n2 (2 * M) f) (v cf : ℤ → ℝ)
    (h0 : ∀ i < n1, ∀ j < n2, ∀ k < 2 * M, v (Index (0 : ℕ) i j k (1 : ℕ) n1 n2 (2 * M : ℕ)) = atNode n1 n2 (2 * M) f i j k) (A B phi : ℝ) :
    PunctEvalAtArbitPositionFast (SpecCoef n1 n2 (2 * M) 0 v cf) 0 A B phi 1 n1 n2 (2 * M) = f A B phi := by
  have e0 : ∀ i < n1, ∀ j < n2, ∀ k < 2 * M, v ((i + n1 * (j + n2 * k) : ℕ) : ℤ) = f (node n1 i) (node n2 j) (angle (2 * M) k) := fun i hi j hj k hk => by
    have := h0 i hi j hj k hk
    rw [Index_inside hi hj hk, zero_add, one_mul, atNode] at this
    exact this
  have c2 : ∀ j < n2, ∀ k < 2 * M,
      chebev (-1) 1 (fun i => SpecCoef n1 n2 (2 * M) 0 v cf (((0 : ℕ) : ℤ) + ((1 : ℕ) : ℤ) * ((i : ℤ) + n1 * (j + n2 * k)))) n1 A =
        fourft (fun k => chebft_Zeros (fun j => f A (node n2 j) (angle (2 * M) k)) n2 false j) (2 * M) false k := fun j hj k hk => by
    rw [chebev_weight _ n1 h1]
    have e : ∀ i ∈ Finset.range n1, weight A i * SpecCoef n1 n2 (2 * M) 0 v cf (((0 : ℕ) : ℤ) + ((1 : ℕ) : ℤ) * ((i : ℤ) + n1 * (j + n2 * k))) =
        weight A i * fourft (fun k => chebft_Zeros (fun j => chebft_Zeros (fun i => v ((i + n1 * (j + n2 * k) : ℕ) : ℤ)) n1 false i) n2 false j) (2 * M) false k := fun i hi => by
      rw [← SpecCoef_index v cf (Finset.mem_range.1 hi) hj hk]
      push_cast
      rw [zero_add, one_mul]
    rw [Finset.sum_congr rfl e, ← fourft_sum M n1 (weight A) _ k hk]
    refine fourft_congr (fun k' hk' => ?_) k hk
    rw [← chebft_sum n2 n1 (weight A) _ j hj]
    refine chebft_congr (fun j' hj' => ?_) j hj
    rw [← chebev_weight _ n1 h1]
    exact cheb_eval h1 (hf.inA (node n2 j') (angle (2 * M) k')) _ (fun i hi => e0 i hi j' hj' k' hk') A
  have c1 : ∀ k < 2 * M,
      chebev (-1) 1 (fun j => chebev (-1) 1 (fun i => SpecCoef n1 n2 (2 * M) 0 v cf (((0 : ℕ) : ℤ) + ((1 : ℕ) : ℤ) * ((i : ℤ) + n1 * (j + n2 * k)))) n1 A) n2 B =
        fourft (fun k => f A B (angle (2 * M) k)) (2 * M) false k := fun k hk => by
    rw [chebev_weight _ n2 h2, Finset.sum_congr rfl fun j hj => by rw [c2 j (Finset.mem_range.1 hj) k hk], ← fourft_sum M n2 (weight B) _ k hk]
    refine fourft_congr (fun k' hk' => ?_) k hk
    rw [← chebev_weight _ n2 h2]
    exact cheb_eval h2 (hf.inB A (angle (2 * M) k')) _ (fun j hj => rfl) B
  rw [PunctEvalAtArbitPositionFast]
  rw [fourev_congr hM c1 phi]
  exact four_eval hM (hf.inPhi A B) _ (fun k hk => rfl) phi

end Verif.TP
