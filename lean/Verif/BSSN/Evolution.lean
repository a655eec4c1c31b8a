import Verif.BSSN.Constraints

/-!
# The evolution equations of `γ` and `K`
-/
namespace Verif.BSSN
open Verif.RefMetric Verif.IndexedExp Real

/-- Stress-energy at the point `x` (`none`: `enable_T4munu=False`). -/
def T4At (T : Option (Fin 4 → Fin 4 → Scal)) (x : Vec) : Option (Fin 4 → Fin 4 → ℝ) := T.map fun T i j => T i j x

/-- The matter fields of the equations. -/
noncomputable def matterF (s : Vec → Vec) (F : Fields) (c : CF) (T : Option (Fin 4 → Fin 4 → Scal)) : Matter :=
  match T with
  | none => .vacuum
  | some T => matterOf (gammaF s F c) F.alpha (betaF s F) T

/-- At the point `x` and the time `t` the evolved variables change at the rates given by the code. -/
structure SolvesAt (s : Vec → Vec) (c : CF) (T : Option (Fin 4 → Fin 4 → Scal)) (F : ℝ → Fields) (t : ℝ) (x : Vec) : Prop where
  hDD : ∀ i j, HasDerivAt (fun τ => (F τ).hDD i j x) (h_rhsDD (rfmAt s x) (gfsAt (F t) x) i j) t
  aDD : ∀ i j, HasDerivAt (fun τ => (F τ).aDD i j x) (a_rhsDD (rfmAt s x) (gfsAt (F t) x) c (T4At T x) i j) t
  cf : HasDerivAt (fun τ => (F τ).cf x) (cf_rhs (rfmAt s x) (gfsAt (F t) x) c) t
  trK : HasDerivAt (fun τ => (F τ).trK x) (trK_rhs (rfmAt s x) (gfsAt (F t) x) c (T4At T x)) t

section
variable {Ω : Dom} {s : Vec → Vec} {c : CF} {T : Option (Fin 4 → Fin 4 → Scal)} {F : ℝ → Fields} {t : ℝ} {x : Vec}
  (hs : IsRfm Ω s) (hF : (F t).Smooth Ω) (hx : x ∈ Ω) (hsol : SolvesAt s c T F t x)

/-- `β^k ∂_k X_{ij} + X_{kj} ∂_i β^k + X_{ik} ∂_j β^k` as in the code. -/
noncomputable def lieA (R : Rfm) (G : Gfs) (X : V2) (dX : V3) : V2 := fun i j =>
  ∑ k, (betaU R G k * dX i j k + betaU_dD R G k i * X k j + betaU_dD R G k j * X i k)

include hs hx hsol

theorem deriv_gammabar (i j : Fin 3) : HasDerivAt (fun τ => gammabarF s (F τ) i j x) (gammabar_rhsDD (rfmAt s x) (gfsAt (F t) x) i j) t := by
  have h0 : (rfmAt s x).ReDD i j ≠ 0 := (rfmAt_regular (hs.ne x hx)).ReDD i j
  have := ((hsol.hDD i j).mul_const ((rfmAt s x).ReDD i j)).add_const ((rfmAt s x).ghatDD i j)
  rw [h_rhsDD, div_mul_cancel₀ _ h0] at this
  exact this

theorem deriv_Abar (i j : Fin 3) :
    HasDerivAt (fun τ => AbarF s (F τ) i j x) (Abar_rhsDD (rfmAt s x) (gfsAt (F t) x) c (T4At T x) i j) t := by
  have h0 : (rfmAt s x).ReDD i j ≠ 0 := (rfmAt_regular (hs.ne x hx)).ReDD i j
  have := (hsol.aDD i j).mul_const ((rfmAt s x).ReDD i j)
  rw [a_rhsDD, div_mul_cancel₀ _ h0] at this
  exact this

omit hs hx in
theorem deriv_exp4phi (hc : cfValid c ((F t).cf x)) :
    HasDerivAt (fun τ => exp4phi (gfsAt (F τ) x) c) (4 * exp4phi (gfsAt (F t) x) c * phi_rhs (rfmAt s x) (gfsAt (F t) x) c) t := by
  have h := hsol.cf
  cases c
  · have := (h.const_mul 4).exp
    refine this.congr_deriv ?_
    simp only [exp4phi, cf_rhs, gfsAt]
    ring
  · have h0 : (F t).cf x ≠ 0 := (hc : 0 < (F t).cf x).ne'
    have := ((h.pow 2).inv (pow_ne_zero 2 h0))
    have e : (fun τ => exp4phi (gfsAt (F τ) x) .W) = fun τ => (((F τ).cf x) ^ 2)⁻¹ := by
      funext τ; simp [exp4phi, gfsAt]
    rw [e]
    refine this.congr_deriv ?_
    have ec : (gfsAt (F t) x).cf = (F t).cf x := rfl
    simp only [exp4phi, cf_rhs, ec]
    show -(((2 : ℕ) : ℝ) * (F t).cf x ^ (2 - 1) * _) / ((F t).cf x ^ 2) ^ 2 = _
    field_simp
    push_cast
    ring
  · have h0 : (F t).cf x ≠ 0 := (hc : 0 < (F t).cf x).ne'
    have := (h.inv h0)
    have e : (fun τ => exp4phi (gfsAt (F τ) x) .chi) = fun τ => ((F τ).cf x)⁻¹ := by
      funext τ; simp [exp4phi, gfsAt]
    rw [e]
    refine this.congr_deriv ?_
    have ec : (gfsAt (F t) x).cf = (F t).cf x := rfl
    simp only [exp4phi, cf_rhs, ec]
    field_simp

omit hsol
include hF

/-- Lie derivative of a tensor `e^{4φ} X`. -/
theorem lieDD_conf (hc : ∀ y ∈ Ω, cfValid c ((F t).cf y)) {X Y : T2} {dX : V3} (hX : ∀ i j, Sm Ω (X i j))
    (hY : ∀ y ∈ Ω, ∀ i j, Y i j y = Real.exp (4 * phiF (F t) c y) * X i j y) (hdX : ∀ i j k, pd k (X i j) x = dX i j k) (i j : Fin 3) :
    lieDD (betaF s (F t)) Y i j x = Real.exp (4 * phiF (F t) c x) * (lieA (rfmAt s x) (gfsAt (F t) x) (fun a b => X a b x) dX i j +
      4 * (∑ k, betaU (rfmAt s x) (gfsAt (F t) x) k * phi_dD (gfsAt (F t) x) c k) * X i j x) := by
  have hφ := phiF_smooth hF hc
  have hp : ∀ k, pd k (Y i j) x = Real.exp (4 * phiF (F t) c x) * (4 * phi_dD (gfsAt (F t) x) c k * X i j x + dX i j k) := fun k => by
    rw [pd_congr_on (fun y hy => hY y hy i j) hx k, dpd_mul hx k ((Sm.const 4).mul hφ).exp (hX i j),
      dpd_exp hx k ((Sm.const 4).mul hφ), dpd_cmul hx k 4 hφ, pd_phiF hF hc hx, hdX]
    ring
  have hb : ∀ k, betaF s (F t) k x = betaU (rfmAt s x) (gfsAt (F t) x) k := fun _ => rfl
  simp only [lieDD, lieA, hp, hY x hx, pd_betaF hs hF hx, hb, Fin.sum_univ_three]
  ring

theorem lie_gamma (hc : ∀ y ∈ Ω, cfValid c ((F t).cf y)) (i j : Fin 3) :
    lieDD (betaF s (F t)) (gammaF s (F t) c) i j x = Real.exp (4 * phiF (F t) c x) *
      (lieA (rfmAt s x) (gfsAt (F t) x) (gammabarDD (rfmAt s x) (gfsAt (F t) x)) (gammabarDD_dupD (rfmAt s x) (gfsAt (F t) x)) i j +
      4 * (∑ k, betaU (rfmAt s x) (gfsAt (F t) x) k * phi_dD (gfsAt (F t) x) c k) * gammabarF s (F t) i j x) :=
  lieDD_conf hs hF hx hc (gammabarF_smooth hs hF) (fun y hy i j => gammaF_eq hF hc y hy i j)
    (fun i j k => pd_gammabarF hs hF hx i j k) i j

theorem lie_K (hc : ∀ y ∈ Ω, cfValid c ((F t).cf y)) (i j : Fin 3) :
    lieDD (betaF s (F t)) (KF s (F t) c) i j x = Real.exp (4 * phiF (F t) c x) *
      (lieA (rfmAt s x) (gfsAt (F t) x) (AbarDD (rfmAt s x) (gfsAt (F t) x)) (AbarDD_dupD (rfmAt s x) (gfsAt (F t) x)) i j +
      1 / 3 * (F t).trK x *
        lieA (rfmAt s x) (gfsAt (F t) x) (gammabarDD (rfmAt s x) (gfsAt (F t) x)) (gammabarDD_dupD (rfmAt s x) (gfsAt (F t) x)) i j +
      1 / 3 * gammabarF s (F t) i j x * (∑ k, betaU (rfmAt s x) (gfsAt (F t) x) k * (gfsAt (F t) x).trK_dupD k) +
      4 * (∑ k, betaU (rfmAt s x) (gfsAt (F t) x) k * phi_dD (gfsAt (F t) x) c k) *
        (AbarF s (F t) i j x + 1 / 3 * gammabarF s (F t) i j x * (F t).trK x)) := by
  have hA := AbarF_smooth hs hF
  have hg := gammabarF_smooth hs hF
  have hd : ∀ i j k, pd k (fun y => AbarF s (F t) i j y + 1 / 3 * gammabarF s (F t) i j y * (F t).trK y) x =
      AbarDD_dupD (rfmAt s x) (gfsAt (F t) x) i j k + 1 / 3 * (gammabarDD_dupD (rfmAt s x) (gfsAt (F t) x) i j k * (F t).trK x +
        gammabarF s (F t) i j x * (gfsAt (F t) x).trK_dupD k) := fun i j k => by
    rw [dpd_add hx k (hA i j) (((Sm.const _).mul (hg i j)).mul hF.trK), dpd_mul hx k ((Sm.const _).mul (hg i j)) hF.trK,
      dpd_cmul hx k _ (hg i j), pd_AbarF hs hF hx, pd_gammabarF hs hF hx]
    have u1 : AbarDD_dD (rfmAt s x) (gfsAt (F t) x) = AbarDD_dupD (rfmAt s x) (gfsAt (F t) x) := rfl
    have u2 : gammabarDD_dD (rfmAt s x) (gfsAt (F t) x) = gammabarDD_dupD (rfmAt s x) (gfsAt (F t) x) := rfl
    have u3 : pd k (F t).trK x = (gfsAt (F t) x).trK_dupD k := rfl
    rw [u1, u2, u3]
    ring
  rw [lieDD_conf hs hF hx hc (X := fun i j y => AbarF s (F t) i j y + 1 / 3 * gammabarF s (F t) i j y * (F t).trK y)
    (fun i j => (hA i j).add (((Sm.const _).mul (hg i j)).mul hF.trK)) (fun y hy i j => KF_eq hs hF hc y hy i j) hd i j]
  have eA : ∀ a b, AbarF s (F t) a b x = AbarDD (rfmAt s x) (gfsAt (F t) x) a b := fun _ _ => rfl
  have eg : ∀ a b, gammabarF s (F t) a b x = gammabarDD (rfmAt s x) (gfsAt (F t) x) a b := fun _ _ => rfl
  simp only [lieA, eA, eg, Fin.sum_univ_three]
  ring

include hsol

/-- The evolution of `γ_{ij}`. -/
theorem deriv_gamma (hc : ∀ y ∈ Ω, cfValid c ((F t).cf y)) (htr : trAbar (rfmAt s x) (gfsAt (F t) x) = 0) (i j : Fin 3) :
    HasDerivAt (fun τ => gammaF s (F τ) c i j x) (admGammaRhs (gammaF s (F t) c) (KF s (F t) c) (F t).alpha (betaF s (F t)) i j x) t := by
  refine ((deriv_exp4phi hsol (hc x hx)).mul (deriv_gammabar hs hx hsol i j)).congr_deriv ?_
  rw [admGammaRhs, lie_gamma hs hF hx hc, KF_eq hs hF hc x hx, exp4phi_eq hF hc hx]
  unfold gammabar_rhsDD phi_rhs
  rw [htr]
  have e1 : (gfsAt (F t) x).alpha = (F t).alpha x := rfl
  have e2 : (gfsAt (F t) x).trK = (F t).trK x := rfl
  have e3 : phi_dupD (gfsAt (F t) x) c = phi_dD (gfsAt (F t) x) c := rfl
  simp only [e1, e2, e3, lieA, gammabarF, AbarF]
  ring

end

/-- The algebra of the `K` equation at one point. -/
theorem K_algebra (e E α k g A gt LA Lg D bφ bk AA A2 c ctr hα aφ w R P φφ Pt q Rs Dα S Str ρ : ℝ) (h : e * E = 1)
    (hgt : gt = Lg + 2 / 3 * g * (α * 0 - D) + -2 * α * A)
    (hcij : c = -2 * α * P + 4 * α * φφ + 2 * aφ - hα + α * R)
    (hctr : ctr = -2 * α * Pt + 4 * α * q + 4 * w - Dα + α * Rs) :
    4 * e * (1 / 6 * (D - α * k) + bφ) * (A + 1 / 3 * g * k) +
      e * ((LA + (-(2 / 3) * A * D + α * A * k + -2 * α * AA) + E * (c - 1 / 3 * g * ctr) + -8 * π * α * E * (S - 1 / 3 * g * Str)) +
        1 / 3 * (gt * k + g * (1 / 3 * α * k * k + bk - E * (Dα + 2 * w) + α * A2 + 4 * π * α * (ρ + E * Str)))) =
    -(hα - 2 * (aφ - g * w)) +
      α * (R - 2 * P + 4 * φφ - 2 * g * Pt - 4 * g * q + k * (e * (A + 1 / 3 * g * k)) - 2 * (e * (AA + 2 / 3 * k * A + 1 / 9 * k ^ 2 * g))) +
      e * (LA + 1 / 3 * k * Lg + 1 / 3 * g * bk + 4 * bφ * (A + 1 / 3 * g * k)) -
      8 * π * α * (S - 1 / 2 * (e * g) * (E * Str - ρ)) -
      1 / 3 * α * (e * g) * (E * (Rs - 8 * Pt - 8 * q) + k ^ 2 - (A2 + 1 / 3 * k ^ 2) - 16 * π * ρ) := by
  subst hgt hcij hctr
  linear_combination (-2 * α * P + 4 * α * φφ + 2 * aφ - hα + α * R - 1 / 3 * g * (-2 * α * Pt + 4 * α * q + 4 * w - Dα + α * Rs) -
    1 / 3 * g * (Dα + 2 * w) - 8 * π * α * (S - 1 / 3 * g * Str) + 4 / 3 * π * α * g * Str - 4 * π * α * g * Str +
    1 / 3 * α * g * (Rs - 8 * Pt - 8 * q)) * h

section
variable {Ω : Dom} {s : Vec → Vec} {F : Fields} {c : CF} (hs : IsRfm Ω s) (hF : F.Smooth Ω)
  (hc : ∀ y ∈ Ω, cfValid c (F.cf y)) (hdet : ∀ y ∈ Ω, (Matrix.of fun a b => gammabarF s F a b y).det ≠ 0)
  (T : Fin 4 → Fin 4 → Scal) {x : Vec} (hx : x ∈ Ω)

theorem bSDD_eq (i j : Fin 3) : bSDD (rfmAt s x) (gfsAt F x) c (fun a b => T a b x) i j =
    (matterOf (gammaF s F c) F.alpha (betaF s F) T).SS i j x := SDD_eq _ _ _ _ i j

theorem bSD_eq (i : Fin 3) : bSD (rfmAt s x) (gfsAt F x) c (fun a b => T a b x) i =
    (matterOf (gammaF s F c) F.alpha (betaF s F) T).S i x := SD_eq _ _ _ _ i

theorem bRho_eq : bRho (gfsAt F x) (fun a b => T a b x) = (matterOf (gammaF s F c) F.alpha (betaF s F) T).rho x := rho_eq _ _

include hs hF hc

theorem bS_eq : bS (rfmAt s x) (gfsAt F x) c (fun a b => T a b x) =
    trace (gammaF s F c) (matterOf (gammaF s F c) F.alpha (betaF s F) T).SS x := by
  unfold bS Strace trace
  refine Finset.sum_congr rfl fun i _ => Finset.sum_congr rfl fun j _ => ?_
  exact congrArg₂ _ (gammaUU_eq hs hF hc x i j) (bSDD_eq T i j)

include hdet hx

/-- The source terms of the right-hand sides. -/
theorem sources (T : Option (Fin 4 → Fin 4 → Scal)) (i j : Fin 3) :
    Abar_rhsDD (rfmAt s x) (gfsAt F x) c (T4At T x) i j = Abar_rhsDD (rfmAt s x) (gfsAt F x) c none i j +
      -8 * π * F.alpha x * Real.exp (-4 * phiF F c x) * ((matterF s F c T).SS i j x -
        1 / 3 * gammabarF s F i j x * trace (gammabarF s F) (matterF s F c T).SS x) ∧
    trK_rhs (rfmAt s x) (gfsAt F x) c (T4At T x) = trK_rhs (rfmAt s x) (gfsAt F x) c none +
      4 * π * F.alpha x * ((matterF s F c T).rho x + Real.exp (-4 * phiF F c x) * trace (gammabarF s F) (matterF s F c T).SS x) ∧
    trace (gammaF s F c) (matterF s F c T).SS x = Real.exp (-4 * phiF F c x) * trace (gammabarF s F) (matterF s F c T).SS x := by
  have e : ∀ X : T2, trace (gammaF s F c) X x = Real.exp (-4 * phiF F c x) * trace (gammabarF s F) X x := fun X => by
    simp only [trace, inverse_gammaF hs hF hc hdet hx, Fin.sum_univ_three]
    ring
  refine ⟨?_, ?_, e _⟩
  · cases T with
    | none => simp [T4At, matterF, Matter.vacuum, trace]
    | some T =>
      simp only [T4At, Option.map_some, matterF, Abar_rhsDD, add_zero, add_right_inj]
      unfold src_Abar tracefree_SDD
      simp only [bSDD_eq, gammabarUU_eq hs hF, exp_m4phi_eq hF hc hx]
      congr 1
      simp only [trace, Finset.mul_sum, ← Finset.sum_neg_distrib, sub_eq_add_neg]
      congr 1
      refine Finset.sum_congr rfl fun k _ => Finset.sum_congr rfl fun l _ => ?_
      simp only [gammabarF]
      ring
  · cases T with
    | none => simp [T4At, matterF, Matter.vacuum, trace]
    | some T =>
      simp only [T4At, Option.map_some, matterF, trK_rhs, add_zero, add_right_inj]
      unfold src_trK
      rw [bS_eq hs hF hc, bRho_eq (s := s) (c := c), e]
      rfl

/-- The constraint with matter. -/
theorem H_eq (T : Option (Fin 4 → Fin 4 → Scal)) (hR : ∀ i j, RbarDD (rfmAt s x) (gfsAt F x) i j = ricci (gammabarF s F) i j x)
    (htr : trAbar (rfmAt s x) (gfsAt F x) = 0) :
    H (rfmAt s x) (gfsAt F x) c (T4At T x) = hamiltonian (gammaF s F c) (KF s F c) (matterF s F c T) x := by
  have h := H_vacuum_eq hs hF hc hdet hx hR htr
  unfold hamiltonian
  rw [← h]
  cases T with
  | none => simp [H, T4At, matterF, Matter.vacuum]
  | some T =>
    simp only [H, T4At, Option.map_some, matterF, src_H]
    rw [bRho_eq (s := s) (c := c)]
    ring

theorem MU_eq (T : Option (Fin 4 → Fin 4 → Scal)) (htr : ∀ y ∈ Ω, trAbar (rfmAt s y) (gfsAt F y) = 0) (i : Fin 3) :
    MU (rfmAt s x) (gfsAt F x) c (T4At T x) i = momentum (gammaF s F c) (KF s F c) (matterF s F c T) i x := by
  have h := MU_vacuum_eq hs hF hc hdet hx htr i
  unfold momentum
  rw [← h]
  cases T with
  | none => simp [MU, T4At, matterF, Matter.vacuum]
  | some T =>
    simp only [MU, T4At, Option.map_some, matterF, src_MU]
    simp only [bSD_eq, gammaUU_eq hs hF hc]
    ring

end

section
variable {Ω : Dom} {s : Vec → Vec} {c : CF} {T : Option (Fin 4 → Fin 4 → Scal)} {F : ℝ → Fields} {t : ℝ} {x : Vec}
  (hs : IsRfm Ω s) (hF : (F t).Smooth Ω) (hx : x ∈ Ω) (hsol : SolvesAt s c T F t x)
include hs hF hx hsol

/-- The evolution of `K_{ij}`: the ADM equation up to a multiple of the Hamiltonian constraint. -/
theorem deriv_K (hc : ∀ y ∈ Ω, cfValid c ((F t).cf y))
    (hdet : ∀ y ∈ Ω, (Matrix.of fun a b => gammabarF s (F t) a b y).det ≠ 0)
    (hR : ∀ i j, RbarDD (rfmAt s x) (gfsAt (F t) x) i j = ricci (gammabarF s (F t)) i j x)
    (htr : trAbar (rfmAt s x) (gfsAt (F t) x) = 0) (i j : Fin 3) :
    HasDerivAt (fun τ => KF s (F τ) c i j x)
      (admKRhs (gammaF s (F t) c) (KF s (F t) c) (F t).alpha (betaF s (F t)) (matterF s (F t) c T) i j x -
        1 / 3 * (F t).alpha x * gammaF s (F t) c i j x * hamiltonian (gammaF s (F t) c) (KF s (F t) c) (matterF s (F t) c T) x) t := by
  have d0 := deriv_exp4phi hsol (hc x hx)
  have d1 := d0.mul (deriv_Abar hs hx hsol i j)
  have d2 := ((d0.mul (deriv_gammabar hs hx hsol i j)).const_mul (1 / 3)).mul hsol.trK
  refine (d1.add d2).congr_deriv ?_
  have hg := gammabarF_metric hs hF hdet
  have hφ := phiF_smooth hF hc
  have hγ : ∀ y ∈ Ω, ∀ i j, gammaF s (F t) c i j y = Real.exp (4 * phiF (F t) c y) * gammabarF s (F t) i j y :=
    fun y hy i j => gammaF_eq hF hc y hy i j
  obtain ⟨s1, s2, s3⟩ := sources hs hF hc hdet hx T i j
  have hE : Real.exp (4 * phiF (F t) c x) * Real.exp (-4 * phiF (F t) c x) = 1 := by rw [← Real.exp_add]; simp
  -- names for the pieces
  set e := Real.exp (4 * phiF (F t) c x) with he
  set E := Real.exp (-4 * phiF (F t) c x) with hEd
  set α := (F t).alpha x with hα
  set k := (F t).trK x with hk
  set g := gammabarF s (F t) i j x with hgd
  set A := AbarF s (F t) i j x with hAd
  have e1 : (gfsAt (F t) x).alpha = α := rfl
  have e2 : (gfsAt (F t) x).trK = k := rfl
  have e3 : gammabarDD (rfmAt s x) (gfsAt (F t) x) i j = g := rfl
  have e4 : AbarDD (rfmAt s x) (gfsAt (F t) x) i j = A := rfl
  have u : ∀ a b, gammabarUU (rfmAt s x) (gfsAt (F t) x) a b = inverse (gammabarF s (F t)) a b x := fun a b => gammabarUU_eq hs hF x a b
  have ealpha : ∀ a b, alpha_dBarDD (rfmAt s x) (gfsAt (F t) x) a b = hessian (gammabarF s (F t)) (F t).alpha a b x := fun a b => by
    unfold alpha_dBarDD hessian
    simp only [GammabarUDD_eq hs hF hx, neg_mul, Finset.sum_neg_distrib]
    rw [dpd_comm hx a hF.alpha b]
    rfl
  have ead : ∀ a, (gfsAt (F t) x).alpha_dD a = pd a (F t).alpha x := fun _ => rfl
  have eP : ∀ a b, phi_dBarDD (rfmAt s x) (gfsAt (F t) x) c a b = hessian (gammabarF s (F t)) (phiF (F t) c) a b x :=
    fun a b => phi_dBarDD_eq hs hF hc hx a b
  have epd : ∀ a, phi_dD (gfsAt (F t) x) c a = pd a (phiF (F t) c) x := fun a => (pd_phiF hF hc hx a).symm
  have ecurly : ∀ a b, curly (rfmAt s x) (gfsAt (F t) x) c a b = -2 * α * hessian (gammabarF s (F t)) (phiF (F t) c) a b x +
      4 * α * (pd a (phiF (F t) c) x * pd b (phiF (F t) c) x) +
      2 * (pd a (F t).alpha x * pd b (phiF (F t) c) x + pd a (phiF (F t) c) x * pd b (F t).alpha x) -
      hessian (gammabarF s (F t)) (F t).alpha a b x + α * ricci (gammabarF s (F t)) a b x := fun a b => by
    unfold curly
    rw [e1, eP, epd, epd, ead, ead, ealpha, hR]
    ring
  set w := ∑ a, ∑ b, inverse (gammabarF s (F t)) a b x * pd b (phiF (F t) c) x * pd a (F t).alpha x with hw
  set Pt := ∑ a, ∑ b, inverse (gammabarF s (F t)) a b x * hessian (gammabarF s (F t)) (phiF (F t) c) a b x with hPt
  set q := ∑ a, ∑ b, inverse (gammabarF s (F t)) a b x * pd a (phiF (F t) c) x * pd b (phiF (F t) c) x with hq
  set Dα := ∑ a, ∑ b, inverse (gammabarF s (F t)) a b x * hessian (gammabarF s (F t)) (F t).alpha a b x with hDα
  set AA := ∑ a, AbarDD (rfmAt s x) (gfsAt (F t) x) i a * AbarUD (rfmAt s x) (gfsAt (F t) x) a j with hAA
  set A2 := ∑ a, ∑ b, AbarDD (rfmAt s x) (gfsAt (F t) x) a b * AbarUU (rfmAt s x) (gfsAt (F t) x) a b with hA2
  have htr' : trace (gammabarF s (F t)) (AbarF s (F t)) x = 0 := by rw [← trAbar_eq hs hF, htr]
  have Usym := hg.inverse_symm hx
  have ectr : curlyTrace (rfmAt s x) (gfsAt (F t) x) c = -2 * α * Pt + 4 * α * q + 4 * w - Dα + α * scalarCurvature (gammabarF s (F t)) x := by
    unfold curlyTrace
    simp only [u, ecurly, hPt, hq, hw, hDα, scalarCurvature]
    simp only [Fin.sum_univ_three, Usym 1 0, Usym 2 0, Usym 2 1]
    ring
  have etrK : trK_rhs (rfmAt s x) (gfsAt (F t) x) c (T4At T x) = 1 / 3 * α * k * k +
      ∑ a, betaU (rfmAt s x) (gfsAt (F t) x) a * (gfsAt (F t) x).trK_dupD a - E * (Dα + 2 * w) + α * A2 +
      4 * π * α * ((matterF s (F t) c T).rho x + E * trace (gammabarF s (F t)) (matterF s (F t) c T).SS x) := by
    rw [s2]
    unfold trK_rhs
    simp only [u, ealpha, ead, epd, e1, e2, exp_m4phi_eq hF hc hx, hDα, hw, hA2, Finset.mul_sum, ← hEd]
    simp only [Fin.sum_univ_three, Usym 1 0, Usym 2 0, Usym 2 1]
    ring
  have eKK : ∑ a, ∑ b, KF s (F t) c i a x * inverse (gammaF s (F t) c) a b x * KF s (F t) c b j x =
      e * (AA + 2 / 3 * k * A + 1 / 9 * k ^ 2 * g) := by
    have t1 : ∑ a, ∑ b, KF s (F t) c i a x * inverse (gammaF s (F t) c) a b x * KF s (F t) c b j x = e * (e * E) *
        (∑ a, ∑ b, AbarF s (F t) i a x * inverse (gammabarF s (F t)) a b x * AbarF s (F t) b j x +
          1 / 3 * k * ∑ a, AbarF s (F t) i a x * (∑ b, inverse (gammabarF s (F t)) a b x * gammabarF s (F t) b j x) +
          1 / 3 * k * ∑ b, (∑ a, gammabarF s (F t) i a x * inverse (gammabarF s (F t)) a b x) * AbarF s (F t) b j x +
          1 / 9 * k ^ 2 * ∑ b, (∑ a, gammabarF s (F t) i a x * inverse (gammabarF s (F t)) a b x) * gammabarF s (F t) b j x) := by
      simp only [KF_eq hs hF hc x hx, inverse_gammaF hs hF hc hdet hx, ← he, ← hEd, ← hk, Fin.sum_univ_three]
      ring
    rw [t1, hE]
    simp only [hg.inverse_mul hx, hg.mul_inverse hx]
    have t2 : ∑ a, ∑ b, AbarF s (F t) i a x * inverse (gammabarF s (F t)) a b x * AbarF s (F t) b j x = AA := by
      simp only [hAA, AbarUD, u, Finset.mul_sum]
      refine Finset.sum_congr rfl fun a _ => Finset.sum_congr rfl fun b _ => ?_
      simp only [AbarF]
      ring
    rw [t2]
    simp only [mul_ite, ite_mul, mul_one, one_mul, mul_zero, zero_mul, Finset.sum_ite_eq, Finset.sum_ite_eq', Finset.mem_univ, if_true, ← hgd, ← hAd]
    ring
  have ham : hamiltonian (gammaF s (F t) c) (KF s (F t) c) (matterF s (F t) c T) x =
      E * (scalarCurvature (gammabarF s (F t)) x - 8 * Pt - 8 * q) + k ^ 2 - (A2 + 1 / 3 * k ^ 2) - 16 * π * (matterF s (F t) c T).rho x := by
    have h1 := H_vacuum_eq hs hF hc hdet hx hR htr
    unfold hamiltonian
    rw [← h1, H, Hcurv_eq hs hF hc hdet hx hR, conf_scalar hg hφ hγ hx]
    have h2 : ∑ a, ∑ b, -AbarDD (rfmAt s x) (gfsAt (F t) x) a b * AbarUU (rfmAt s x) (gfsAt (F t) x) a b = -A2 := by
      simp only [hA2, neg_mul, Finset.sum_neg_distrib]
    rw [h2]
    simp only [e2, ← hEd, ← hPt, ← hq]
    ring
  have hadm : admKRhs (gammaF s (F t) c) (KF s (F t) c) (F t).alpha (betaF s (F t)) (matterF s (F t) c T) i j x =
      -(hessian (gammabarF s (F t)) (F t).alpha i j x - 2 * ((pd i (F t).alpha x * pd j (phiF (F t) c) x +
        pd i (phiF (F t) c) x * pd j (F t).alpha x) - g * w)) +
      α * (ricci (gammabarF s (F t)) i j x - 2 * hessian (gammabarF s (F t)) (phiF (F t) c) i j x +
        4 * (pd i (phiF (F t) c) x * pd j (phiF (F t) c) x) - 2 * g * Pt - 4 * g * q + k * (e * (A + 1 / 3 * g * k)) -
        2 * (e * (AA + 2 / 3 * k * A + 1 / 9 * k ^ 2 * g))) +
      e * (lieA (rfmAt s x) (gfsAt (F t) x) (AbarDD (rfmAt s x) (gfsAt (F t) x)) (AbarDD_dupD (rfmAt s x) (gfsAt (F t) x)) i j +
        1 / 3 * k * lieA (rfmAt s x) (gfsAt (F t) x) (gammabarDD (rfmAt s x) (gfsAt (F t) x)) (gammabarDD_dupD (rfmAt s x) (gfsAt (F t) x)) i j +
        1 / 3 * g * (∑ a, betaU (rfmAt s x) (gfsAt (F t) x) a * (gfsAt (F t) x).trK_dupD a) +
        4 * (∑ a, betaU (rfmAt s x) (gfsAt (F t) x) a * phi_dD (gfsAt (F t) x) c a) * (A + 1 / 3 * g * k)) -
      8 * π * α * ((matterF s (F t) c T).SS i j x - 1 / 2 * (e * g) * (E * trace (gammabarF s (F t)) (matterF s (F t) c T).SS x -
        (matterF s (F t) c T).rho x)) := by
    unfold admKRhs
    rw [conf_hessian hg hφ hγ hx, conf_ricci hg hφ hγ hx, trace_KF hs hF hc hdet hx, htr, KF_eq hs hF hc x hx, eKK,
      lie_K hs hF hx hc, s3, gammaF_eq hF hc x hx]
    simp only [← he, ← hEd, ← hα, ← hk, ← hgd, ← hAd, ← hw, ← hPt, ← hq]
    ring
  rw [hadm, ham, hγ x hx]
  rw [← K_algebra e E α k g A _ _ _ (Dbarbetacontraction (rfmAt s x) (gfsAt (F t) x)) _ _ AA A2 _ _ _ _ w _ _ _ Pt q _ Dα _ _ _ hE rfl (ecurly i j) ectr]
  rw [s1]
  unfold Abar_rhsDD gammabar_rhsDD phi_rhs
  rw [etrK, exp_m4phi_eq hF hc hx, exp4phi_eq hF hc hx, htr, ← he, ← hEd, e1, e2, e3, e4, ectr, ecurly]
  have e5 : phi_dupD (gfsAt (F t) x) c = phi_dD (gfsAt (F t) x) c := rfl
  have e6 : ∑ a, -2 * α * AbarDD (rfmAt s x) (gfsAt (F t) x) i a * AbarUD (rfmAt s x) (gfsAt (F t) x) a j = -2 * α * AA := by
    simp only [hAA, Finset.mul_sum, mul_assoc]
  have e7 : gammabarF s (F t) i j x = g := rfl
  have e8 : AbarF s (F t) i j x = A := rfl
  rw [e5, e6]
  simp only [e7, Pi.mul_apply, lieA, exp4phi_eq hF hc hx, ← he]
  ring

end

end Verif.BSSN
