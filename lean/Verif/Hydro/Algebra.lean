import Verif.Hydro.Spacetime

/-!
# Algebra of the conservation laws at a point
-/
namespace Verif.Hydro
open Verif.RefMetric Verif.BSSN

section
variable (U : Fin 4 → Fin 4 → ℝ) (dg : Fin 4 → Fin 4 → Fin 4 → ℝ)

noncomputable def chrP (l μ ν : Fin 4) : ℝ := ∑ σ, 1 / 2 * U l σ * (dg σ μ ν + dg σ ν μ - dg μ ν σ)
noncomputable def divP1 (J : Fin 4 → ℝ) (dJ : Fin 4 → Fin 4 → ℝ) : ℝ := ∑ μ, (dJ μ μ + ∑ l, chrP U dg μ μ l * J l)
noncomputable def divP2 (T : Fin 4 → Fin 4 → ℝ) (dT : Fin 4 → Fin 4 → Fin 4 → ℝ) (ν : Fin 4) : ℝ :=
  ∑ μ, (dT μ ν μ + ∑ l, (chrP U dg μ μ l * T l ν + chrP U dg ν μ l * T μ l))
end

section
variable {U g T : Fin 4 → Fin 4 → ℝ} {dg dT : Fin 4 → Fin 4 → Fin 4 → ℝ} (hU : ∀ a b, U a b = U b a) (hdg : ∀ a b c, dg a b c = dg b a c)
include hU hdg in
theorem chrP_trace (l : Fin 4) : ∑ μ, chrP U dg μ μ l = 1 / 2 * ∑ μ, ∑ σ, U μ σ * dg μ σ l := by
  have h1 : ∑ μ, ∑ σ, U μ σ * dg σ l μ = ∑ μ, ∑ σ, U μ σ * dg μ l σ := by
    rw [Finset.sum_comm]
    exact Finset.sum_congr rfl fun a _ => Finset.sum_congr rfl fun b _ => by rw [hU]
  have h2 : ∑ μ, chrP U dg μ μ l = 1 / 2 * (∑ μ, ∑ σ, U μ σ * dg μ σ l) +
      1 / 2 * (∑ μ, ∑ σ, U μ σ * dg σ l μ) - 1 / 2 * (∑ μ, ∑ σ, U μ σ * dg μ l σ) := by
    simp only [chrP, Finset.mul_sum, ← Finset.sum_add_distrib, ← Finset.sum_sub_distrib]
    exact Finset.sum_congr rfl fun a _ => Finset.sum_congr rfl fun b _ => by rw [hdg b a l]; ring
  rw [h2, h1]; ring

theorem lower_chrP (h : ∀ a b, ∑ σ, g a σ * U σ b = if a = b then 1 else 0) (κ μ l : Fin 4) :
    ∑ ν, g κ ν * chrP U dg ν μ l = 1 / 2 * (dg κ μ l + dg κ l μ - dg μ l κ) := by
  have : ∑ ν, g κ ν * chrP U dg ν μ l = ∑ σ, (∑ ν, g κ ν * U ν σ) * (1 / 2 * (dg σ μ l + dg σ l μ - dg μ l σ)) := by
    simp only [chrP, Finset.mul_sum, Finset.sum_mul]
    rw [Finset.sum_comm]
    exact Finset.sum_congr rfl fun a _ => Finset.sum_congr rfl fun b _ => by ring
  rw [this]; simp [h]

include hU hdg in
theorem divP1_eq (J : Fin 4 → ℝ) (dJ : Fin 4 → Fin 4 → ℝ) :
    divP1 U dg J dJ = ∑ μ, dJ μ μ + ∑ l, (1 / 2 * ∑ μ, ∑ σ, U μ σ * dg μ σ l) * J l := by
  simp only [divP1, Finset.sum_add_distrib]
  congr 1
  rw [Finset.sum_comm]
  exact Finset.sum_congr rfl fun l _ => by rw [← Finset.sum_mul, chrP_trace hU hdg]

include hU hdg in
theorem divP2_eq (ν : Fin 4) : divP2 U dg T dT ν = ∑ μ, dT μ ν μ + ∑ l, (1 / 2 * ∑ μ, ∑ σ, U μ σ * dg μ σ l) * T l ν +
    ∑ μ, ∑ l, chrP U dg ν μ l * T μ l := by
  simp only [divP2, Finset.sum_add_distrib, ← add_assoc]
  congr 2
  rw [Finset.sum_comm]
  exact Finset.sum_congr rfl fun l _ => by rw [← Finset.sum_mul, chrP_trace hU hdg]

include hU hdg in
theorem lower_divP2 (h : ∀ a b, ∑ σ, g a σ * U σ b = if a = b then 1 else 0) (hT : ∀ a b, T a b = T b a) (κ : Fin 4) :
    ∑ ν, g κ ν * divP2 U dg T dT ν = ∑ μ, ∑ ν, g κ ν * dT μ ν μ +
      ∑ l, (1 / 2 * ∑ μ, ∑ σ, U μ σ * dg μ σ l) * (∑ ν, g κ ν * T l ν) + ∑ μ, ∑ l, (dg κ μ l - 1 / 2 * dg μ l κ) * T μ l := by
  have e1 : ∑ ν, g κ ν * ∑ μ, dT μ ν μ = ∑ μ, ∑ ν, g κ ν * dT μ ν μ := by
    simp only [Finset.mul_sum]; exact Finset.sum_comm
  have e2 : ∑ ν, g κ ν * ∑ l, (1 / 2 * ∑ μ, ∑ σ, U μ σ * dg μ σ l) * T l ν =
      ∑ l, (1 / 2 * ∑ μ, ∑ σ, U μ σ * dg μ σ l) * (∑ ν, g κ ν * T l ν) := by
    generalize (fun l => 1 / 2 * ∑ μ, ∑ σ, U μ σ * dg μ σ l) = c
    simp only [Finset.mul_sum]
    rw [Finset.sum_comm]
    exact Finset.sum_congr rfl fun a _ => Finset.sum_congr rfl fun b _ => by simp only [Finset.sum_mul, Finset.mul_sum]; exact Finset.sum_congr rfl fun c _ => Finset.sum_congr rfl fun d _ => by ring
  have e3 : ∑ ν, g κ ν * ∑ μ, ∑ l, chrP U dg ν μ l * T μ l = ∑ μ, ∑ l, (dg κ μ l - 1 / 2 * dg μ l κ) * T μ l := by
    have a1 : ∑ ν, g κ ν * ∑ μ, ∑ l, chrP U dg ν μ l * T μ l = ∑ μ, ∑ l, (∑ ν, g κ ν * chrP U dg ν μ l) * T μ l := by
      simp only [Finset.mul_sum, Finset.sum_mul]
      rw [Finset.sum_comm]
      refine Finset.sum_congr rfl fun a _ => ?_
      rw [Finset.sum_comm]
      exact Finset.sum_congr rfl fun b _ => Finset.sum_congr rfl fun c _ => by ring
    rw [a1]
    simp only [lower_chrP h]
    have a2 : ∑ μ, ∑ l, dg κ l μ * T μ l = ∑ μ, ∑ l, dg κ μ l * T μ l := by
      rw [Finset.sum_comm]
      exact Finset.sum_congr rfl fun a _ => Finset.sum_congr rfl fun b _ => by rw [hT]
    have a3 : ∑ μ, ∑ l, 1 / 2 * (dg κ μ l + dg κ l μ - dg μ l κ) * T μ l = 1 / 2 * (∑ μ, ∑ l, dg κ μ l * T μ l) +
        1 / 2 * (∑ μ, ∑ l, dg κ l μ * T μ l) - ∑ μ, ∑ l, 1 / 2 * dg μ l κ * T μ l := by
      simp only [Finset.mul_sum, ← Finset.sum_add_distrib, ← Finset.sum_sub_distrib]
      exact Finset.sum_congr rfl fun a _ => Finset.sum_congr rfl fun b _ => by ring
    rw [a3, a2]
    simp only [Finset.mul_sum, ← Finset.sum_add_distrib, ← Finset.sum_sub_distrib]
    exact Finset.sum_congr rfl fun a _ => Finset.sum_congr rfl fun b _ => by ring
  simp only [divP2_eq hU hdg, mul_add, Finset.sum_add_distrib]
  rw [e1, e2, e3]
end

/-! ## The 3+1 split -/

/-- The derivative of the components of `coordMetric`. -/
noncomputable def dCoord (γ dγ : Fin 3 → Fin 3 → ℝ) (α dα : ℝ) (β dβ : Fin 3 → ℝ) : Fin 4 → Fin 4 → ℝ :=
  Fin.cons (Fin.cons (-(2 * α * dα) + ∑ i, ∑ j, (dγ i j * β i * β j + γ i j * dβ i * β j + γ i j * β i * dβ j))
    fun j => ∑ i, (dγ i j * β i + γ i j * dβ i)) fun i => Fin.cons (∑ j, (dγ i j * β j + γ i j * dβ j)) (dγ i)

section
variable {γ u : Fin 3 → Fin 3 → ℝ} {α : ℝ} {β : Fin 3 → ℝ} {dγ : Fin 3 → Fin 3 → Fin 4 → ℝ} {dα : Fin 4 → ℝ} {dβ : Fin 3 → Fin 4 → ℝ}
  {dg : Fin 4 → Fin 4 → Fin 4 → ℝ} {T : Fin 4 → Fin 4 → ℝ} {dT : Fin 4 → Fin 4 → Fin 4 → ℝ}
  (hα : α ≠ 0) (hγ : ∀ i j, γ i j = γ j i) (hdγ : ∀ i j μ, dγ i j μ = dγ j i μ)
  (hdg : ∀ a b μ, dg a b μ = dCoord γ (fun i j => dγ i j μ) α (dα μ) β (fun i => dβ i μ) a b)

include hα hγ hdγ hdg in
theorem split_trace (l : Fin 4) : 1 / 2 * ∑ μ, ∑ σ, split4 u α β μ σ * dg μ σ l = dα l / α + 1 / 2 * ∑ i, ∑ j, u i j * dγ i j l := by
  simp only [hdg, split4, dCoord, Fin.sum_univ_succ (n := 3), Fin.cons_zero, Fin.cons_succ]
  simp only [Fin.sum_univ_three, hγ 1 0, hγ 2 0, hγ 2 1, hdγ 1 0, hdγ 2 0, hdγ 2 1]
  field_simp
  ring

include hγ hdγ hdg in
/-- `½ T^{μν} ∂g_{μν}` in terms of the 3+1 variables. -/
theorem split_force (hT : ∀ a b, T a b = T b a) (l : Fin 4) : 1 / 2 * ∑ μ, ∑ σ, dg μ σ l * T μ σ = -(T 0 0 * α * dα l) +
    (∑ k, (∑ σ, T 0 σ * coordMetric γ α β σ k.succ) * dβ k l) +
    ∑ j, ∑ k, 1 / 2 * dγ j k l * (T 0 0 * β j * β k + 2 * T 0 j.succ * β k + T j.succ k.succ) := by
  have t : ∀ i : Fin 3, T i.succ 0 = T 0 i.succ := fun i => hT _ _
  simp only [hdg, coordMetric, dCoord, Fin.sum_univ_succ (n := 3), Fin.cons_zero, Fin.cons_succ, t]
  simp only [Fin.sum_univ_three, hγ 1 0, hγ 2 0, hγ 2 1, hdγ 1 0, hdγ 2 0, hdγ 2 1, hT (Fin.succ 1) (Fin.succ 0), hT (Fin.succ 2) (Fin.succ 0),
    hT (Fin.succ 2) (Fin.succ 1)]
  ring

section
variable {K : Fin 3 → Fin 3 → ℝ} (hK : ∀ i j, K i j = K j i)
  (hkin : ∀ i j, dγ i j 0 = -2 * α * K i j + ∑ k, (β k * dγ i j k.succ + γ k j * dβ k i.succ + γ i k * dβ k j.succ))
include hα hγ hdγ hdg hkin

theorem chr_0ij (i j : Fin 3) : chrP (split4 u α β) dg 0 i.succ j.succ = -K i j / α := by
  have h : dγ i j 0 = -2 * α * K i j + ∑ k, (β k * dγ i j k.succ + γ k j * dβ k i.succ + γ k i * dβ k j.succ) := by
    rw [hkin]
    exact congrArg _ (Finset.sum_congr rfl fun k _ => by rw [hγ i k])
  simp only [chrP, hdg, split4, dCoord, Fin.sum_univ_succ (n := 3), Fin.cons_zero, Fin.cons_succ]
  simp only [Fin.sum_univ_three] at h ⊢
  rw [h]
  field_simp
  ring

theorem chr_00i (i : Fin 3) : chrP (split4 u α β) dg 0 0 i.succ = (dα i.succ - ∑ j, K j i * β j) / α := by
  have h := fun k => hkin k i
  simp only [chrP, hdg, split4, dCoord, Fin.sum_univ_succ (n := 3), Fin.cons_zero, Fin.cons_succ, h]
  simp only [Fin.sum_univ_three, hγ 1 0, hγ 2 0, hγ 2 1, hdγ 1 0, hdγ 2 0, hdγ 2 1]
  field_simp
  ring

theorem chr_000 : chrP (split4 u α β) dg 0 0 0 = (dα 0 + ∑ i, β i * dα i.succ - ∑ i, ∑ j, K i j * β i * β j) / α := by
  simp only [chrP, hdg, split4, dCoord, Fin.sum_univ_succ (n := 3), Fin.cons_zero, Fin.cons_succ, hkin]
  simp only [Fin.sum_univ_three, hγ 1 0, hγ 2 0, hγ 2 1, hdγ 1 0, hdγ 2 0, hdγ 2 1]
  field_simp
  ring

include hK
/-- `∂_μα T^{0μ} - α Γ^0_{μν} T^{μν}` in terms of the 3+1 variables. -/
theorem split_work (hT : ∀ a b, T a b = T b a) :
    ∑ μ, dα μ * T 0 μ - α * ∑ μ, ∑ l, chrP (split4 u α β) dg 0 μ l * T μ l =
      (∑ i, ∑ j, (T 0 0 * β i * β j + 2 * T 0 i.succ * β j + T i.succ j.succ) * K i j) +
      ∑ i, -(T 0 0 * β i + T 0 i.succ) * dα i.succ := by
  have t : ∀ i : Fin 3, T i.succ 0 = T 0 i.succ := fun i => hT _ _
  have c : ∀ i : Fin 3, chrP (split4 u α β) dg 0 i.succ 0 = chrP (split4 u α β) dg 0 0 i.succ := fun i => by
    simp only [chrP]
    refine Finset.sum_congr rfl fun σ _ => ?_
    have : dg i.succ 0 σ = dg 0 i.succ σ := by
      simp only [hdg, dCoord, Fin.cons_zero, Fin.cons_succ]
      exact Finset.sum_congr rfl fun k _ => by rw [hdγ i k, hγ i k]
    rw [this]; ring
  simp only [Fin.sum_univ_succ (n := 3), t, c, chr_0ij hα hγ hdγ hdg hkin, chr_00i hα hγ hdγ hdg hkin, chr_000 hα hγ hdγ hdg hkin]
  simp only [Fin.sum_univ_three, hK 1 0, hK 2 0, hK 2 1]
  field_simp
  ring
end
end
end Verif.Hydro
