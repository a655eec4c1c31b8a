import Verif.BSSN.Calculus

/-!
# Tensor algebra at one point: two connections, their difference, and the Ricci tensor
-/
namespace Verif.BSSN

abbrev A1 := Fin 3 → ℝ
abbrev A2 := Fin 3 → A1
abbrev A3 := Fin 3 → A2
abbrev A4 := Fin 3 → A3

/-- Ricci tensor from the values `Γ` of a connection and `dΓ i j k l = ∂_l Γ^i_{jk}` of its derivatives. -/
def ric (Γ : A3) (dΓ : A4) : A2 := fun j l =>
  ∑ k, (dΓ k l j k - dΓ k k j l + ∑ m, (Γ k k m * Γ m l j - Γ k l m * Γ m k j))

/-- Curvature. -/
def riem (Γ : A3) (dΓ : A4) : A4 := fun i j k l =>
  dΓ i l j k - dΓ i k j l + ∑ m, (Γ i k m * Γ m l j - Γ i l m * Γ m k j)

/-- `D_l T^i_{jk}` for the connection `Γ`. -/
def covUDD (Γ T : A3) (dT : A4) : A4 := fun i j k l =>
  dT i j k l + ∑ m, (Γ i l m * T m j k - Γ m l j * T i m k - Γ m l k * T i j m)

/-- `D_l T_{ijk}`. -/
def covDDD (Γ T : A3) (dT : A4) : A4 := fun i j k l =>
  dT i j k l - ∑ m, (Γ m l i * T m j k + Γ m l j * T i m k + Γ m l k * T i j m)

/-- `D_k T_{ij}`. -/
def covDD (Γ : A3) (T : A2) (dT : A3) : A3 := fun i j k =>
  dT i j k - ∑ m, (Γ m k i * T m j + Γ m k j * T i m)

/-- The Ricci tensors of two symmetric connections. -/
theorem ric_add (Γ Δ : A3) (dΓ dΔ : A4) (hΓ : ∀ i j k, Γ i j k = Γ i k j) (j l : Fin 3) :
    ric (fun i j k => Γ i j k + Δ i j k) (fun i j k l => dΓ i j k l + dΔ i j k l) j l =
      ric Γ dΓ j l + ∑ k, (covUDD Γ Δ dΔ k l j k - covUDD Γ Δ dΔ k k j l) +
      ∑ k, ∑ m, (Δ k k m * Δ m l j - Δ k l m * Δ m k j) := by
  simp only [ric, covUDD, Fin.sum_univ_three, hΓ _ 1 0, hΓ _ 2 0, hΓ _ 2 1, hΓ _ l 0, hΓ _ l 1, hΓ _ l 2, hΓ _ j 0, hΓ _ j 1, hΓ _ j 2]
  ring

theorem covDDD_lower (Γ Δ : A3) (dΔ : A4) (g : A2) (dg : A3) (i j k l : Fin 3) :
    covDDD Γ (fun i j k => ∑ m, g i m * Δ m j k) (fun i j k l => ∑ m, (dg i m l * Δ m j k + g i m * dΔ m j k l)) i j k l =
      ∑ m, (covDD Γ g dg i m l * Δ m j k + g i m * covUDD Γ Δ dΔ m j k l) := by
  simp only [covDDD, covDD, covUDD, Fin.sum_univ_three]
  ring

/-- `∂_l (D_k g_{ij})`. -/
def dcovDD (Γ : A3) (dΓ : A4) (g : A2) (dg : A3) (ddg : A4) : A4 := fun i j k l =>
  ddg i j k l - ∑ m, (dΓ m k i l * g m j + Γ m k i * dg m j l + dΓ m k j l * g i m + Γ m k j * dg i m l)

/-- Second covariant derivatives of a tensor commute for a flat connection. -/
theorem cov_comm (Γ : A3) (dΓ : A4) (g : A2) (dg : A3) (ddg : A4) (hΓ : ∀ i j k, Γ i j k = Γ i k j)
    (hflat : ∀ i j k l, riem Γ dΓ i j k l = 0) (hdd : ∀ i j k l, ddg i j k l = ddg i j l k) (i j k l : Fin 3) :
    covDDD Γ (covDD Γ g dg) (dcovDD Γ dΓ g dg ddg) i j k l = covDDD Γ (covDD Γ g dg) (dcovDD Γ dΓ g dg ddg) i j l k := by
  have e : covDDD Γ (covDD Γ g dg) (dcovDD Γ dΓ g dg ddg) i j k l - covDDD Γ (covDD Γ g dg) (dcovDD Γ dΓ g dg ddg) i j l k =
      ∑ m, (riem Γ dΓ m i k l * g m j + riem Γ dΓ m j k l * g i m) := by
    simp only [covDDD, covDD, dcovDD, riem, Fin.sum_univ_three, hdd i j k l, hΓ _ l k]
    ring
  simp only [hflat, zero_mul, add_zero, Finset.sum_const_zero] at e
  linarith

theorem ricci_linear (U : A2) (M : A4) (hU : ∀ i j, U i j = U j i)
    (hM : ∀ i j k l, M i j k l = M i k j l)
    (hS : ∀ i j k l, M i k j l + M j k i l = M i l j k + M j l i k) (i j : Fin 3) :
    ∑ k, ∑ n, U k n * (M n j i k - M n k i j) =
    ∑ k, ∑ l, -(1 / 2) * U k l * (M i l j k + M j l i k) +
    1 / 2 * (∑ a, ∑ b, U a b * M i a b j + ∑ a, ∑ b, U a b * M j a b i) := by
  have hs : ∑ k, ∑ m, U k m * (1 / 2 * ((M m j i k + M i j m k) - (M m k i j + M i k m j)) +
      1 / 2 * ((M m i j k + M j i m k) - (M m k j i + M j k m i)) -
      1 / 4 * ((M m i k j + M k i m j) - (M m j k i + M k j m i))) = 0 := by
    refine Finset.sum_eq_zero fun k _ => Finset.sum_eq_zero fun m _ => ?_
    rw [hS m i j k, hS m j i k, hS m k i j]
    ring
  simp only [Fin.sum_univ_three, hU 1 0, hU 2 0, hU 2 1, hM _ j i, hM _ 1 0, hM _ 2 0, hM _ 2 1, hM _ 0 i, hM _ 1 i,
    hM _ 2 i, hM _ 0 j, hM _ 1 j, hM _ 2 j] at hs ⊢
  linear_combination hs

theorem ricci_quadratic (U : A2) (L : A3) (hU : ∀ i j, U i j = U j i) (hL : ∀ i j k, L i j k = L i k j) (i j : Fin 3) :
    -∑ k, ∑ n, ∑ m, U k n * (L m k n * (∑ a, U m a * L a i j) - L m j n * (∑ a, U m a * L a i k)) =
    1 / 2 * ((-∑ a, ∑ b, ∑ c, ∑ d, U a c * U b d * (L c j d + L d j c) * L i a b -
      ∑ a, ∑ b, U a b * ∑ m, (L i j m + L m j i) * ∑ c, U m c * L c a b) +
      (-∑ a, ∑ b, ∑ c, ∑ d, U a c * U b d * (L c i d + L d i c) * L j a b -
      ∑ a, ∑ b, U a b * ∑ m, (L j i m + L m i j) * ∑ c, U m c * L c a b)) +
    ∑ k, 1 / 2 * (∑ a, ∑ b, U a b * ∑ c, U k c * L c a b) * (L i j k + L j i k) +
    ∑ k, ∑ l, ∑ m, U k l * ((∑ c, U m c * L c k i) * L j m l + (∑ c, U m c * L c k j) * L i m l +
      (∑ c, U m c * L c i k) * L m j l) := by
  simp only [Fin.sum_univ_three, hU 1 0, hU 2 0, hU 2 1, hL _ j i, hL _ 1 0, hL _ 2 0, hL _ 2 1, hL _ 0 i, hL _ 1 i,
    hL _ 2 i, hL _ 0 j, hL _ 1 j, hL _ 2 j]
  ring

/-- The Ricci tensor of a metric in terms of its difference to a flat connection.  `U` is the inverse metric, `L` the
difference tensor with all indices lowered, `M i j k l` the flat derivative `D_l L_{ijk}`. -/
theorem ricci_core (U : A2) (L : A3) (M : A4) (hU : ∀ i j, U i j = U j i) (hL : ∀ i j k, L i j k = L i k j)
    (hM : ∀ i j k l, M i j k l = M i k j l)
    (hS : ∀ i j k l, M i k j l + M j k i l = M i l j k + M j l i k) (i j : Fin 3) :
    ∑ k, ∑ n, U k n * (M n j i k - M n k i j) -
      ∑ k, ∑ n, ∑ m, U k n * (L m k n * (∑ a, U m a * L a i j) - L m j n * (∑ a, U m a * L a i k)) =
    ∑ k, ∑ l, -(1 / 2) * U k l * (M i l j k + M j l i k) +
    1 / 2 * ((-∑ a, ∑ b, ∑ c, ∑ d, U a c * U b d * (L c j d + L d j c) * L i a b +
      ∑ a, ∑ b, U a b * (M i a b j - ∑ m, (L i j m + L m j i) * ∑ c, U m c * L c a b)) +
      (-∑ a, ∑ b, ∑ c, ∑ d, U a c * U b d * (L c i d + L d i c) * L j a b +
      ∑ a, ∑ b, U a b * (M j a b i - ∑ m, (L j i m + L m i j) * ∑ c, U m c * L c a b))) +
    ∑ k, 1 / 2 * (∑ a, ∑ b, U a b * ∑ c, U k c * L c a b) * (L i j k + L j i k) +
    ∑ k, ∑ l, ∑ m, U k l * ((∑ c, U m c * L c k i) * L j m l + (∑ c, U m c * L c k j) * L i m l +
      (∑ c, U m c * L c i k) * L m j l) := by
  have h1 := ricci_linear U M hU hM hS i j
  have h2 := ricci_quadratic U L hU hL i j
  simp only [mul_sub, Finset.sum_sub_distrib] at h1 h2 ⊢
  linarith

end Verif.BSSN
