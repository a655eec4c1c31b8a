import Verif.BSSN.Tetrad

/-!
# Claims C85, C86
-/
namespace Verif.BSSN
open Verif.RefMetric Verif.IndexedExp

section
variable {P : CoordParams} {name : Py.Str} {C : Coords} {Ω : Dom} {F : Fields} {c : CF}

/-! ## C85: psi4 -/

/-- **C85**: `RDDDD` is the Riemann tensor of the physical metric, with all indices lowered. -/
theorem C85_riemann (S : Setting P name C Ω F c) {x : Vec} (hx : x ∈ Ω) (i j k l : Fin 3) :
    (psi4In (rfmAt C.scale x) (gfsAt F x) c).RDDDD i j k l = riemannLow (gammaF C.scale F c) i j k l x :=
  RDDDD_eq S.metric hx (psi4In_is S hx) i j k l

/-- **C85**: a curvature as in `C85_psi4` exists for every slice. -/
theorem C85_exists (S : Setting P name C Ω F c) {x : Vec} (hx : x ∈ Ω) :
    ∃ Riem, VacuumCurvature (gammaF C.scale F c) (KF C.scale F c) x Riem :=
  curvature_exists S.metric (fun i j _ hy => S.K_symm hy i j) hx

/-- **C85**: if the slice satisfies the constraints then all components of the Ricci tensor of that curvature vanish, so that it is the
Weyl tensor. -/
theorem C85_ricci_flat (S : Setting P name C Ω F c) {x : Vec} (hx : x ∈ Ω) {Riem : W4}
    (hR : VacuumCurvature (gammaF C.scale F c) (KF C.scale F c) x Riem)
    (hH : hamiltonian (gammaF C.scale F c) (KF C.scale F c) .vacuum x = 0)
    (hM : ∀ i, momentum (gammaF C.scale F c) (KF C.scale F c) .vacuum i x = 0) (b d : Fin 4) :
    -Riem 0 b 0 d + ∑ i : Fin 3, ∑ m : Fin 3, inverse (gammaF C.scale F c) i m x * Riem i.succ b m.succ d = 0 :=
  frame_ricci_flat S.metric S.K_smooth (fun i j _ hy => S.K_symm hy i j) hx hR hH hM b d

theorem fold_other {val : DerivVar → ℝ} {a : String} {p : Nat} : ∀ (L : List DerivVar) (mem : String → Nat → ℝ),
    (∀ v ∈ L, ¬(a = v.arr ∧ p = v.place)) →
    L.foldl (fun m v a p => if a = v.arr ∧ p = v.place then val v else m a p) mem a p = mem a p
  | [], _, _ => rfl
  | v :: L, mem, h => by
    rw [List.foldl_cons, fold_other L _ fun w hw => h w (List.mem_cons_of_mem _ hw), if_neg (h v List.mem_cons_self)]

theorem fold_mem {val : DerivVar → ℝ} : ∀ (L : List DerivVar) (mem : String → Nat → ℝ),
    L.Pairwise (fun v w => ¬(v.arr = w.arr ∧ v.place = w.place)) → ∀ v ∈ L,
    L.foldl (fun m v a p => if a = v.arr ∧ p = v.place then val v else m a p) mem v.arr v.place = val v
  | [], _, _, _, hv => absurd hv List.not_mem_nil
  | w :: L, mem, h, v, hv => by
    rw [List.pairwise_cons] at h
    rw [List.foldl_cons]
    rcases List.mem_cons.1 hv with rfl | hv
    · rw [fold_other L _ fun u hu => h.1 u hu, if_pos ⟨rfl, rfl⟩]
    · exact fold_mem L _ h.2 v hv

/-- **C85**: the derivatives that one C function stores are those the other reads: each array is long enough, no two share a place, and
every symbol of the expressions of `psi4` is one of them. -/
theorem C85_linkage (val : DerivVar → ℝ) (mem : String → Nat → ℝ) :
    (∀ v ∈ derivVars, unpackDerivs (packDerivs val mem) v = val v) ∧
    (∀ v ∈ derivVars, v.place < if v.arr = "gammaDDdDD" then 81 else 27) ∧
    (∀ i j k l : Fin 3, ∃ v ∈ derivVars, v.arr = "gammaDDdDD" ∧ v.idx = [min i j, max i j, min k l, max k l]) ∧
    (∀ i j k : Fin 3, ∃ v ∈ derivVars, v.arr = "GammaUDD" ∧ v.idx = [i, min j k, max j k]) ∧
    (∀ i j k : Fin 3, ∃ v ∈ derivVars, v.arr = "KDDdD" ∧ v.idx = [min i j, max i j, k]) := by
  refine ⟨fun v hv => fold_mem derivVars mem (by decide +kernel) v hv, by decide +kernel, by decide +kernel, by decide +kernel,
    by decide +kernel⟩

/-! ## C86: the tetrad -/

/-- **C86**: `r`, `θ` and `φ` are the right-handed orthonormal frame of the physical metric, adapted to the rotations about the `z`
axis. -/
theorem C86_frame (S : Setting P name C Ω F c) {x : Vec} (hx : x ∈ Ω) (hp : Riemannian (gammaF C.scale F c) x)
    (hX : C.toCart x 0 ≠ 0 ∨ C.toCart x 1 ≠ 0) : ∃ r θ φ : V1,
    (tetradIn C x (rfmAt C.scale x) (gfsAt F x) c).r4U = Fin.cons 0 r ∧
    (tetradIn C x (rfmAt C.scale x) (gfsAt F x) c).theta4U = Fin.cons 0 θ ∧
    (tetradIn C x (rfmAt C.scale x) (gfsAt F x) c).phi4U = Fin.cons 0 φ ∧
    SphericalFrame (fun i j => gammaF C.scale F c i j x) (fun i j => pd j (fun y => C.toCart y i) x) (C.toCart x) r θ φ :=
  ⟨_, _, _, rfl, rfl, rfl, frame_at S hx hp hX⟩

/-- **C86**: the tetrad is a null tetrad of the spacetime, given by its components in the basis made of the unit normal and the coordinate
vectors: the basis to which the expression of psi4 refers (C85). -/
theorem C86_null (S : Setting P name C Ω F c) {x : Vec} (hx : x ∈ Ω) (hp : Riemannian (gammaF C.scale F c) x)
    (hX : C.toCart x 0 ≠ 0 ∨ C.toCart x 1 ≠ 0) : ∃ T,
    psi4Tetrads (tetradIn C x (rfmAt C.scale x) (gfsAt F x) c) "quasiKinnersley" none = .ok T ∧
    NullTetrad (normalMetric fun i j => gammaF C.scale F c i j x) T :=
  ⟨_, rfl, null_normal (I := tetradIn C x (rfmAt C.scale x) (gfsAt F x) c) (frame_at S hx hp hX) fun i j => S.metric.symm i j x hx⟩

/-- **C86**: with `use_metric_to_construct_unit_normal`, the tetrad is a null tetrad of the spacetime, given by its components in the
coordinate basis. -/
theorem C86_null_metric (S : Setting P name C Ω F c) {x : Vec} (hx : x ∈ Ω) (hp : Riemannian (gammaF C.scale F c) x)
    (hX : C.toCart x 0 ≠ 0 ∨ C.toCart x 1 ≠ 0) {α : ℝ} (hα : α ≠ 0) (β : V1) : ∃ T,
    psi4Tetrads (tetradIn C x (rfmAt C.scale x) (gfsAt F x) c) "quasiKinnersley" (some (α, β)) = .ok T ∧
    NullTetrad (coordMetric (fun i j => gammaF C.scale F c i j x) α β) T :=
  ⟨_, rfl, null_coord (I := tetradIn C x (rfmAt C.scale x) (gfsAt F x) c) (frame_at S hx hp hX) (fun i j => S.metric.symm i j x hx) hα β⟩

/-- The coordinate components of the vector with components `v` in the basis made of the unit normal `(1/α, -β^i/α)` and the coordinate
vectors. -/
noncomputable def toCoord (α : ℝ) (β : V1) (v : W1) : W1 := Fin.cons (v 0 / α) fun i => v i.succ - v 0 * (β i / α)

/-- **C86**: the two options give the same vectors, in these two bases. -/
theorem C86_same (I : TetradIn) (α : ℝ) (β : V1) :
    (I.tetrad (some (α, β))).l4U = toCoord α β (I.tetrad none).l4U ∧ (I.tetrad (some (α, β))).n4U = toCoord α β (I.tetrad none).n4U ∧
    (I.tetrad (some (α, β))).mre4U = toCoord α β (I.tetrad none).mre4U ∧
    (I.tetrad (some (α, β))).mim4U = toCoord α β (I.tetrad none).mim4U := by
  refine ⟨?_, ?_, ?_, ?_⟩ <;>
  · funext μ
    cases μ using Fin.cases with
    | zero => simp [TetradIn.tetrad, unitNormal, toCoord, TetradIn.r4U, TetradIn.theta4U, TetradIn.phi4U] <;> ring
    | succ i =>
      simp [TetradIn.tetrad, unitNormal, toCoord, TetradIn.r4U, TetradIn.theta4U, TetradIn.phi4U, Matrix.cons_val_succ]
      try fin_cases i <;> simp <;> ring

/-- **C86** does not hold of psi4 with `use_metric_to_construct_unit_normal`: the expression of psi4 takes the components of the tetrad in
the basis of the unit normal (C85), but these are the components in the coordinate basis, and as such not those of a null vector, unless the
lapse is 1: shown for zero shift. -/
theorem C86_metric_violation (S : Setting P name C Ω F c) {x : Vec} (hx : x ∈ Ω) (hp : Riemannian (gammaF C.scale F c) x)
    (hX : C.toCart x 0 ≠ 0 ∨ C.toCart x 1 ≠ 0) {α : ℝ} (hα : 0 < α) (h1 : α ≠ 1) {T : Tetrad}
    (hT : psi4Tetrads (tetradIn C x (rfmAt C.scale x) (gfsAt F x) c) "quasiKinnersley" (some (α, fun _ => 0)) = .ok T) :
    prod (normalMetric fun i j => gammaF C.scale F c i j x) T.n4U T.n4U ≠ 0 ∧
    ¬ NullTetrad (normalMetric fun i j => gammaF C.scale F c i j x) T := by
  have key : prod (normalMetric fun i j => gammaF C.scale F c i j x) T.n4U T.n4U ≠ 0 := by
    cases hT
    have h := (frame_at S hx hp hX).rr
    generalize hI : tetradIn C x (rfmAt C.scale x) (gfsAt F x) c = I at h ⊢
    have e : prod (normalMetric fun i j => gammaF C.scale F c i j x) (I.tetrad (some (α, fun _ => 0))).n4U
        (I.tetrad (some (α, fun _ => 0))).n4U = 1 / Real.sqrt 2 * (1 / Real.sqrt 2) *
          (-(1 / α) ^ 2 + prod (fun i j => gammaF C.scale F c i j x) I.e2U I.e2U) := by
      simp only [prod, normalMetric, TetradIn.tetrad, unitNormal, TetradIn.r4U, Fin.sum_univ_succ (n := 3), Fin.cons_zero, Fin.cons_succ]
      simp only [Fin.sum_univ_three]
      ring
    rw [e, h, sqrt2]
    intro h0
    have : (1 / α) ^ 2 = 1 := by linarith
    have h3 : 1 / α = 1 := by
      have p : 0 < 1 / α := by positivity
      nlinarith
    exact h1 (by field_simp at h3; linarith)
  exact ⟨key, fun h => key h.nn⟩

/-- **C86**: any other name of a tetrad is refused. -/
theorem C86_choices (I : TetradIn) (tetrad : String) (normal : Option (ℝ × V1)) :
    (∃ T, psi4Tetrads I tetrad normal = .ok T) ↔ tetrad = "quasiKinnersley" := by
  unfold psi4Tetrads
  split_ifs with h
  · simp [h]
  · simpa using h

end

theorem demoF_riemannian : Riemannian (gammaF one3 demoF .W) ![1, 1, 0] := by
  intro v hv
  have h : prod (fun i j => gammaF one3 demoF .W i j ![1, 1, 0]) v v = 1 / 4 * (v 0 ^ 2 + (v 0 + v 1) ^ 2 + v 2 ^ 2) := by
    simp [prod, Fin.sum_univ_three, gammaF, gammaDD, exp4phi, gammabarDD, gfsAt, rfmAt, RefMetric.ReDD, RefMetric.ghatDD, one3, demoF, demoF0]
    ring
  rw [h]
  by_contra hn
  refine hv (funext fun i => ?_)
  have z0 : v 0 = 0 := by nlinarith [sq_nonneg (v 0), sq_nonneg (v 0 + v 1), sq_nonneg (v 2)]
  have z1 : v 1 = 0 := by nlinarith [sq_nonneg (v 0), sq_nonneg (v 0 + v 1), sq_nonneg (v 2)]
  have z2 : v 2 = 0 := by nlinarith [sq_nonneg (v 0), sq_nonneg (v 0 + v 1), sq_nonneg (v 2)]
  fin_cases i <;> assumption

/-- The hypotheses of C85 and C86 hold for curved data in Cartesian coordinates. -/
example : Setting demo (c% "Cartesian") (cartesian demo.lo demo.hi) ⊤ demoF .W ∧
    Riemannian (gammaF (cartesian demo.lo demo.hi).scale demoF .W) ![1, 1, 0] ∧
    (cartesian demo.lo demo.hi).toCart ![1, 1, 0] 0 ≠ 0 ∧
    ∃ Riem, VacuumCurvature (gammaF (cartesian demo.lo demo.hi).scale demoF .W) (KF (cartesian demo.lo demo.hi).scale demoF .W) ![1, 1, 0] Riem :=
  ⟨demoF_setting, demoF_riemannian, by simp [cartesian], C85_exists demoF_setting trivial⟩

end Verif.BSSN
