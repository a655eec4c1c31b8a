import Verif.BSSN.Constraints

/-!
# The rate of change of `Λ̄`: tensor algebra at one point
-/
namespace Verif.BSSN
open Verif.RefMetric

/-! ### Rates of change of the inverse metric and of the connection -/

section
variable {g : ℝ → T2} {t : ℝ} {x : Vec} {X : A2} {dX : A3} (hg : ∀ i j, HasDerivAt (fun τ => g τ i j x) (X i j) t)
  (hdet : (Matrix.of fun a b => g t a b x).det ≠ 0)
include hg

theorem hasDerivAt_det : HasDerivAt (fun τ => (Matrix.of fun a b => g τ a b x).det)
    (∑ i, ∑ j, (Matrix.of fun a b => g t a b x).adjugate j i * X i j) t := by
  have e : (fun τ => (Matrix.of fun a b => g τ a b x).det) = fun τ => g τ 0 0 x * g τ 1 1 x * g τ 2 2 x - g τ 0 0 x * g τ 1 2 x * g τ 2 1 x -
      g τ 0 1 x * g τ 1 0 x * g τ 2 2 x + g τ 0 1 x * g τ 1 2 x * g τ 2 0 x + g τ 0 2 x * g τ 1 0 x * g τ 2 1 x -
      g τ 0 2 x * g τ 1 1 x * g τ 2 0 x := by
    funext τ
    rw [Matrix.det_fin_three]
    simp only [Matrix.of_apply]
  rw [e]
  have h3 : ∀ a b c d p q, HasDerivAt (fun τ => g τ a b x * g τ c d x * g τ p q x)
      ((X a b * g t c d x + g t a b x * X c d) * g t p q x + g t a b x * g t c d x * X p q) t :=
    fun a b c d p q => ((hg a b).mul (hg c d)).mul (hg p q)
  refine ((((((h3 0 0 1 1 2 2).sub (h3 0 0 1 2 2 1)).sub (h3 0 1 1 0 2 2)).add (h3 0 1 1 2 2 0)).add (h3 0 2 1 0 2 1)).sub
    (h3 0 2 1 1 2 0)).congr_deriv ?_
  simp only [Matrix.adjugate_fin_three, Fin.sum_univ_three, Matrix.of_apply]
  simp
  ring

include hdet

theorem inverse_differentiable (i j : Fin 3) : DifferentiableAt ℝ (fun τ => inverse (g τ) i j x) t := by
  have hd := (hasDerivAt_det hg).differentiableAt
  have e : (fun τ => inverse (g τ) i j x) = fun τ => (Matrix.of fun a b => g τ a b x).adjugate i j / (Matrix.of fun a b => g τ a b x).det := by
    funext τ
    rw [inverse, Matrix.inv_def, Matrix.smul_apply, smul_eq_mul, Ring.inverse_eq_inv', div_eq_inv_mul]
  rw [e]
  refine DifferentiableAt.div ?_ hd hdet
  have h : ∀ i j, DifferentiableAt ℝ (fun τ => g τ i j x) t := fun i j => (hg i j).differentiableAt
  have h2 : ∀ a b c d p q r s, DifferentiableAt ℝ (fun τ => g τ a b x * g τ c d x - g τ p q x * g τ r s x) t :=
    fun a b c d p q r s => ((h a b).mul (h c d)).sub ((h p q).mul (h r s))
  have h2' : ∀ a b c d p q r s, DifferentiableAt ℝ (fun τ => -(g τ a b x * g τ c d x) + g τ p q x * g τ r s x) t :=
    fun a b c d p q r s => ((h a b).mul (h c d)).neg.add ((h p q).mul (h r s))
  simp only [Matrix.adjugate_fin_three, Matrix.of_apply]
  fin_cases i <;> fin_cases j <;> first | exact h2 _ _ _ _ _ _ _ _ | exact h2' _ _ _ _ _ _ _ _

theorem hasDerivAt_inverse (i j : Fin 3) : HasDerivAt (fun τ => inverse (g τ) i j x)
    (-∑ a, ∑ b, inverse (g t) i a x * X a b * inverse (g t) b j x) t := by
  have hU : ∀ i j, HasDerivAt (fun τ => inverse (g τ) i j x) (deriv (fun τ => inverse (g τ) i j x) t) t :=
    fun i j => (inverse_differentiable hg hdet i j).hasDerivAt
  have hne : ∀ᶠ τ in nhds t, (Matrix.of fun a b => g τ a b x).det ≠ 0 := (hasDerivAt_det hg).continuousAt.eventually_ne hdet
  have hone : ∀ i b, ∀ τ, (Matrix.of fun a b => g τ a b x).det ≠ 0 → ∑ m, inverse (g τ) i m x * g τ m b x = if i = b then 1 else 0 :=
    fun i b τ h => by
      have h := Matrix.nonsing_inv_mul (Matrix.of fun a b => g τ a b x) (isUnit_iff_ne_zero.2 h)
      have e := congrFun (congrFun h i) b
      rw [Matrix.mul_apply, Matrix.one_apply] at e
      exact e
  have hmul : ∀ i b, ∑ m, g t i m x * inverse (g t) m b x = if i = b then 1 else 0 := fun i b => by
    have h := Matrix.mul_nonsing_inv (Matrix.of fun a b => g t a b x) (isUnit_iff_ne_zero.2 hdet)
    have e := congrFun (congrFun h i) b
    rw [Matrix.mul_apply, Matrix.one_apply] at e
    exact e
  have h0 : ∀ b, ∑ m, (deriv (fun τ => inverse (g τ) i m x) t * g t m b x + inverse (g t) i m x * X m b) = 0 := fun b => by
    have h1 : HasDerivAt (fun τ => ∑ m, inverse (g τ) i m x * g τ m b x)
        (∑ m, (deriv (fun τ => inverse (g τ) i m x) t * g t m b x + inverse (g t) i m x * X m b)) t :=
      HasDerivAt.fun_sum fun m _ => (hU i m).mul (hg m b)
    have h2 : HasDerivAt (fun τ => ∑ m, inverse (g τ) i m x * g τ m b x) 0 t :=
      (hasDerivAt_const t (if i = b then (1 : ℝ) else 0)).congr_of_eventuallyEq (hne.mono fun τ h => hone i b τ h)
    exact h1.unique h2
  have key : deriv (fun τ => inverse (g τ) i j x) t = -∑ a, ∑ b, inverse (g t) i a x * X a b * inverse (g t) b j x := by
    have e1 : ∑ b, (∑ m, (deriv (fun τ => inverse (g τ) i m x) t * g t m b x + inverse (g t) i m x * X m b)) * inverse (g t) b j x =
        ∑ m, deriv (fun τ => inverse (g τ) i m x) t * (∑ b, g t m b x * inverse (g t) b j x) +
          ∑ a, ∑ b, inverse (g t) i a x * X a b * inverse (g t) b j x := by
      simp only [Fin.sum_univ_three]; ring
    simp only [h0, zero_mul, Finset.sum_const_zero, hmul, mul_ite, mul_one, mul_zero, Finset.sum_ite_eq', Finset.mem_univ, if_true] at e1
    linarith
  exact key ▸ hU i j

end

/-- The rate of change of the connection of a metric that changes at the rate `X`. -/
noncomputable def dtGamma (U : A2) (Γ : A3) (X : A2) (dX : A3) : A3 := fun i j k =>
  ∑ a, U i a * (1 / 2 * (dX a k j + dX a j k - dX j k a) - ∑ b, X a b * Γ b j k)

/-- The rate of change of `g^{jk} (Γ^i_{jk} - H^i_{jk})`. -/
noncomputable def dtLam (U : A2) (Γ Δ : A3) (X : A2) (dX : A3) : A1 := fun i =>
  ∑ j, ∑ k, (-(∑ a, ∑ b, U j a * X a b * U b k) * Δ i j k + U j k * dtGamma U Γ X dX i j k)

theorem dtLam_add (U : A2) (Γ Δ : A3) (X Y : A2) (dX dY : A3) (i : Fin 3) :
    dtLam U Γ Δ (fun a b => X a b + Y a b) (fun a b c => dX a b c + dY a b c) i = dtLam U Γ Δ X dX i + dtLam U Γ Δ Y dY i := by
  simp only [dtLam, ← Finset.sum_add_distrib]
  refine Finset.sum_congr rfl fun j _ => Finset.sum_congr rfl fun k _ => ?_
  have e1 : ∑ a, ∑ b, U j a * (X a b + Y a b) * U b k = ∑ a, ∑ b, U j a * X a b * U b k + ∑ a, ∑ b, U j a * Y a b * U b k := by
    simp only [← Finset.sum_add_distrib]
    exact Finset.sum_congr rfl fun _ _ => Finset.sum_congr rfl fun _ _ => by ring
  have e2 : dtGamma U Γ (fun a b => X a b + Y a b) (fun a b c => dX a b c + dY a b c) i j k =
      dtGamma U Γ X dX i j k + dtGamma U Γ Y dY i j k := by
    simp only [dtGamma, ← Finset.sum_add_distrib]
    refine Finset.sum_congr rfl fun a _ => ?_
    simp only [add_mul, Finset.sum_add_distrib]
    ring
  rw [e1, e2]
  ring

theorem hasDerivAt_lambda {g : ℝ → T2} {t : ℝ} {x : Vec} {X : A2} {dX : A3} (hg : ∀ i j, HasDerivAt (fun τ => g τ i j x) (X i j) t)
    (hdg : ∀ i j k, HasDerivAt (fun τ => pd k (g τ i j) x) (dX i j k) t)
    (hdet : (Matrix.of fun a b => g t a b x).det ≠ 0) (H : A3) (i : Fin 3) :
    HasDerivAt (fun τ => ∑ j, ∑ k, inverse (g τ) j k x * (christoffel (g τ) i j k x - H i j k))
      (dtLam (fun a b => inverse (g t) a b x) (fun a b c => christoffel (g t) a b c x)
        (fun a b c => christoffel (g t) a b c x - H a b c) X dX i) t := by
  have hU := fun i j => hasDerivAt_inverse hg hdet i j
  have hΓ : ∀ i j k, HasDerivAt (fun τ => christoffel (g τ) i j k x)
      (dtGamma (fun a b => inverse (g t) a b x) (fun a b c => christoffel (g t) a b c x) X dX i j k) t := fun i j k => by
    have h : HasDerivAt (fun τ => christoffel (g τ) i j k x) (∑ m, (1 / 2 * (-∑ a, ∑ b, inverse (g t) i a x * X a b * inverse (g t) b m x) *
        (pd j (g t m k) x + pd k (g t m j) x - pd m (g t j k) x) + 1 / 2 * inverse (g t) i m x * (dX m k j + dX m j k - dX j k m))) t :=
      HasDerivAt.fun_sum fun m _ => ((hU i m).const_mul (1 / 2)).mul (((hdg m k j).add (hdg m j k)).sub (hdg j k m))
    refine h.congr_deriv ?_
    simp only [dtGamma, christoffel]
    simp only [Fin.sum_univ_three]
    ring
  refine (HasDerivAt.fun_sum fun j _ => HasDerivAt.fun_sum fun k _ => (hU j k).mul ((hΓ i j k).sub_const _)).congr_deriv ?_
  rfl

/-! ### The three parts of the rate of the metric -/

section
variable {g U : A2} {dg : A3} {ddg : A4} {Γ : A3} {dΓ : A4} (hgs : ∀ i j, g i j = g j i) (hUs : ∀ i j, U i j = U j i)
  (hUg : ∀ i j, ∑ m, U i m * g m j = if i = j then 1 else 0) (hgU : ∀ i j, ∑ m, g i m * U m j = if i = j then 1 else 0)
  (h1 : ∀ a j k, ∑ l, g a l * Γ l j k = 1 / 2 * (dg a k j + dg a j k - dg j k a))
include hgs hUg h1

/-- The Lie derivative of a connection. -/
def lieG (Γ : A3) (dΓ : A4) (β : A1) (dβ : A2) (ddβ : A3) : A3 := fun i j k =>
  ∑ m, (β m * dΓ i j k m - Γ m j k * dβ i m + Γ i m k * dβ m j + Γ i j m * dβ m k) + ddβ i j k

/-- The connection of a metric dragged along `β` is dragged along `β`. -/
theorem dtGamma_lie (h2 : ∀ a j k m, ∑ l, (dg a l m * Γ l j k + g a l * dΓ l j k m) = 1 / 2 * (ddg a k j m + ddg a j k m - ddg j k a m))
    (hdd : ∀ i j k l, ddg i j k l = ddg i j l k) (β : A1) (dβ : A2) (ddβ : A3) (hβ : ∀ i j k, ddβ i j k = ddβ i k j) (i j k : Fin 3) :
    dtGamma U Γ (fun i j => ∑ n, (β n * dg i j n + dβ n i * g n j + dβ n j * g i n))
      (fun i j l => ∑ n, (dβ n l * dg i j n + β n * ddg i j n l + ddβ n i l * g n j + dβ n i * dg n j l + ddβ n j l * g i n + dβ n j * dg i n l))
      i j k = lieG Γ dΓ β dβ ddβ i j k := by
  rw [← raise_lower hUg (fun l => lieG Γ dΓ β dβ ddβ l j k) i]
  unfold dtGamma
  refine Finset.sum_congr rfl fun a _ => ?_
  congr 1
  have e1 : ∑ m, g a m * lieG Γ dΓ β dβ ddβ m j k = ∑ m, β m * (∑ l, (dg a l m * Γ l j k + g a l * dΓ l j k m)) -
      ∑ m, ∑ l, β m * dg a l m * Γ l j k - ∑ l, ∑ m, g a l * Γ m j k * dβ l m + ∑ m, (∑ l, g a l * Γ l m k) * dβ m j +
      ∑ m, (∑ l, g a l * Γ l j m) * dβ m k + ∑ l, g a l * ddβ l j k := by
    simp only [lieG, Fin.sum_univ_three]; ring
  have e2 : ∑ b, (∑ n, (β n * dg a b n + dβ n a * g n b + dβ n b * g a n)) * Γ b j k = ∑ m, ∑ l, β m * dg a l m * Γ l j k +
      ∑ n, dβ n a * (∑ b, g n b * Γ b j k) + ∑ l, ∑ m, g a l * Γ m j k * dβ l m := by
    simp only [Fin.sum_univ_three]; ring
  rw [e1, e2]
  simp only [h1, h2]
  simp only [Fin.sum_univ_three, hdd a k 0 j, hdd a k 1 j, hdd a k 2 j, hdd a j 0 k, hdd a j 1 k, hdd a j 2 k, hdd j k 0 a, hdd j k 1 a,
    hdd j k 2 a, hβ _ a j, hβ _ a k, hβ _ k j, hgs 0 j, hgs 1 j, hgs 2 j, hgs 0 k, hgs 1 k, hgs 2 k]
  ring

omit h1 in
include hgU in
/-- Part 1: the metric is dragged along `β`. -/
theorem dtLam_lie {Δ H : A3} {dH : A4} (hΔ : ∀ i j k, Δ i j k = Γ i j k - H i j k)
    (β : A1) (dβ : A2) (ddβ : A3) (dX : A3)
    (hΓ : ∀ i j k, dtGamma U Γ (fun i j => ∑ n, (β n * dg i j n + dβ n i * g n j + dβ n j * g i n)) dX i j k = lieG Γ dΓ β dβ ddβ i j k) (i : Fin 3) :
    dtLam U Γ Δ (fun i j => ∑ n, (β n * dg i j n + dβ n i * g n j + dβ n j * g i n)) dX i =
      ∑ m, (β m * (∑ j, ∑ k, (-(∑ a, ∑ b, U j a * dg a b m * U b k) * Δ i j k + U j k * (dΓ i j k m - dH i j k m))) -
        dβ i m * ∑ j, ∑ k, U j k * Δ m j k) + ∑ j, ∑ k, U j k * lieG H dH β dβ ddβ i j k := by
  have e1 : ∀ j k, ∑ a, ∑ b, U j a * (∑ n, (β n * dg a b n + dβ n a * g n b + dβ n b * g a n)) * U b k =
      ∑ n, β n * (∑ a, ∑ b, U j a * dg a b n * U b k) + ∑ a, U j a * dβ k a + ∑ b, dβ j b * U b k := fun j k => by
    have e : ∑ a, ∑ b, U j a * (∑ n, (β n * dg a b n + dβ n a * g n b + dβ n b * g a n)) * U b k =
      ∑ n, β n * (∑ a, ∑ b, U j a * dg a b n * U b k) + ∑ n, ∑ a, U j a * dβ n a * (∑ b, g n b * U b k) +
        ∑ n, ∑ b, dβ n b * (∑ a, U j a * g a n) * U b k := by
      simp only [Fin.sum_univ_three]; ring
    rw [e]
    simp only [hUg, hgU, mul_ite, ite_mul, mul_one, mul_zero, zero_mul]
    congr 1
    · congr 1
      rw [Finset.sum_comm]
      simp only [Finset.sum_ite_eq', Finset.mem_univ, if_true]
    · rw [Finset.sum_comm]
      simp only [Finset.sum_ite_eq, Finset.mem_univ, if_true]
  unfold dtLam
  simp only [e1, hΓ]
  have hΓ' : ∀ i j k, Γ i j k = Δ i j k + H i j k := fun i j k => by rw [hΔ]; ring
  simp only [lieG, hΓ', Fin.sum_univ_three]
  ring

include hUs

include hgU in
/-- Part 2: the metric is multiplied by a factor. -/
theorem dtLam_conf {Δ : A3} (f : ℝ) (df : A1) (i : Fin 3) :
    dtLam U Γ Δ (fun a b => f * g a b) (fun a b c => df c * g a b + f * dg a b c) i =
      -f * (∑ j, ∑ k, U j k * Δ i j k) - 1 / 2 * ∑ a, U i a * df a := by
  have e1 : ∀ j k, ∑ a, ∑ b, U j a * (f * g a b) * U b k = f * U j k := fun j k => by
    have : ∑ a, ∑ b, U j a * (f * g a b) * U b k = f * ∑ b, (∑ a, U j a * g a b) * U b k := by
      simp only [Fin.sum_univ_three]; ring
    rw [this]
    simp only [hUg, ite_mul, one_mul, zero_mul, Finset.sum_ite_eq, Finset.mem_univ, if_true]
  have e2 : ∀ j k, dtGamma U Γ (fun a b => f * g a b) (fun a b c => df c * g a b + f * dg a b c) i j k =
      ∑ a, U i a * (1 / 2 * (df j * g a k + df k * g a j - df a * g j k)) := fun j k => by
    unfold dtGamma
    refine Finset.sum_congr rfl fun a _ => ?_
    congr 1
    have : ∑ b, f * g a b * Γ b j k = f * ∑ b, g a b * Γ b j k := by
      simp only [Finset.mul_sum, mul_assoc]
    rw [this, h1]
    ring
  unfold dtLam
  simp only [e1, e2]
  have e3 : ∑ j, ∑ k, (-(f * U j k) * Δ i j k + U j k * ∑ a, U i a * (1 / 2 * (df j * g a k + df k * g a j - df a * g j k))) =
      -f * (∑ j, ∑ k, U j k * Δ i j k) + 1 / 2 * (∑ k, ∑ j, U j k * df j * (∑ a, U i a * g a k) +
        ∑ j, ∑ k, U j k * df k * (∑ a, U i a * g a j) - ∑ a, U i a * df a * (∑ k, ∑ j, g k j * U j k)) := by
    simp only [Fin.sum_univ_three, hgs 1 0, hgs 2 0, hgs 2 1]; ring
  rw [e3]
  simp only [hUg, hgU, if_true, Finset.sum_const, Finset.card_univ, Fintype.card_fin, mul_ite, mul_one, mul_zero]
  have e4 : ∀ j, ∑ k, (if i = j then U j k * df k else 0) = if i = j then ∑ k, U j k * df k else 0 := fun j => by
    split_ifs <;> simp
  have e5 : ∀ k, ∑ j, (if i = k then U j k * df j else 0) = if i = k then ∑ j, U j k * df j else 0 := fun j => by
    split_ifs <;> simp
  simp only [e4, e5, Finset.sum_ite_eq, Finset.mem_univ, if_true]
  have hUs' : ∀ j, U j i = U i j := fun j => hUs j i
  simp only [hUs', nsmul_eq_mul]
  rw [← Finset.sum_mul]
  push_cast
  ring

/-- Part 3: a tracefree rate. -/
theorem dtLam_tracefree {Δ : A3} {A Au : A2} {dA : A3} (hdg : ∀ i j k, dg i j k = dg j i k) (hAs : ∀ i j, A i j = A j i)
    (hdA : ∀ i j k, dA i j k = dA j i k) (hAu : ∀ i j, Au i j = ∑ k, ∑ l, U i k * U j l * A k l)
    (htr : ∑ i, ∑ j, U i j * A i j = 0)
    (hdtr : ∀ k, ∑ i, ∑ j, (-(∑ a, ∑ b, U i a * dg a b k * U b j) * A i j + U i j * dA i j k) = 0)
    (hgU : ∀ i j, ∑ m, g i m * U m j = if i = j then 1 else 0) (f : ℝ) (df : A1) (i : Fin 3) :
    dtLam U Γ Δ (fun a b => f * A a b) (fun a b c => df c * A a b + f * dA a b c) i =
      -f * (∑ j, ∑ k, Au j k * Δ i j k) + ∑ j, Au i j * df j + f * ∑ j, ∑ k, ∑ l, U i k * U j l * covDD Γ A dA k l j := by
  have hAus : ∀ i j, Au i j = Au j i := fun i j => by
    rw [hAu, hAu, Finset.sum_comm]
    exact Finset.sum_congr rfl fun k _ => Finset.sum_congr rfl fun l _ => by rw [hAs k l]; ring
  -- the trace of the derivative
  have t1 : ∀ k, ∑ i, ∑ j, U i j * dA i j k = ∑ i, ∑ j, Au i j * dg i j k := fun k => by
    have h := hdtr k
    have e : ∑ i, ∑ j, (-(∑ a, ∑ b, U i a * dg a b k * U b j) * A i j + U i j * dA i j k) =
        ∑ i, ∑ j, U i j * dA i j k - ∑ i, ∑ j, Au i j * dg i j k := by
      simp only [hAu, Fin.sum_univ_three, hUs 1 0, hUs 2 0, hUs 2 1, hAs 1 0, hAs 2 0, hAs 2 1, hdg 1 0, hdg 2 0, hdg 2 1]
      ring
    linarith
  -- the connection term of the divergence
  have hlow : ∀ m l, A m l = ∑ n, g m n * ∑ p, U n p * A p l := fun m l =>
    (raise_lower hgU (fun p => A p l) m).symm
  have t2 : ∀ k, ∑ j, ∑ l, U j l * ∑ m, Γ m j k * A m l = 1 / 2 * ∑ n, ∑ j, Au n j * dg n j k := fun k => by
    have e : ∑ j, ∑ l, U j l * ∑ m, Γ m j k * A m l = ∑ n, ∑ j, (∑ m, g n m * Γ m j k) * Au n j := by
      have e1 : ∑ j, ∑ l, U j l * ∑ m, Γ m j k * A m l = ∑ j, ∑ l, U j l * ∑ m, Γ m j k * ∑ n, g m n * ∑ p, U n p * A p l :=
        Finset.sum_congr rfl fun j _ => Finset.sum_congr rfl fun l _ => by
          congr 1
          exact Finset.sum_congr rfl fun m _ => by rw [← hlow m l]
      rw [e1]
      simp only [hAu, Fin.sum_univ_three, hgs 1 0, hgs 2 0, hgs 2 1]
      ring
    rw [e]
    simp only [h1]
    simp only [Fin.sum_univ_three, hAus 1 0, hAus 2 0, hAus 2 1, hdg 1 0, hdg 2 0, hdg 2 1, hdg 0 k, hdg 1 k, hdg 2 k]
    ring
  have e1 : ∀ j k, ∑ a, ∑ b, U j a * (f * A a b) * U b k = f * Au j k := fun j k => by
    rw [hAu, Finset.mul_sum]
    refine Finset.sum_congr rfl fun a _ => ?_
    rw [Finset.mul_sum]
    exact Finset.sum_congr rfl fun b _ => by rw [hUs b k]; ring
  have e2 : dtLam U Γ Δ (fun a b => f * A a b) (fun a b c => df c * A a b + f * dA a b c) i =
      -f * (∑ j, ∑ k, Au j k * Δ i j k) + ∑ j, Au i j * df j - 1 / 2 * (∑ a, U i a * df a) * (∑ i, ∑ j, U i j * A i j) +
      f * (∑ a, U i a * (∑ j, ∑ k, U j k * (dA a k j - ∑ b, A a b * Γ b j k)) - 1 / 2 * ∑ a, U i a * (∑ j, ∑ k, U j k * dA j k a)) := by
    unfold dtLam
    simp only [e1]
    simp only [dtGamma, hAu, Fin.sum_univ_three, hUs 1 0, hUs 2 0, hUs 2 1]
    ring
  have e3 : ∑ j, ∑ k, ∑ l, U i k * U j l * covDD Γ A dA k l j =
      ∑ a, U i a * (∑ j, ∑ k, U j k * (dA a k j - ∑ b, A a b * Γ b j k)) - ∑ a, U i a * (∑ j, ∑ l, U j l * ∑ m, Γ m j a * A m l) := by
    simp only [covDD, Fin.sum_univ_three]
    ring
  rw [e2, e3, htr]
  simp only [t1, t2]
  simp only [← Finset.mul_sum, mul_left_comm _ (1 / 2 : ℝ)]
  ring

end

end Verif.BSSN
