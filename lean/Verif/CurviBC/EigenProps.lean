import Verif.CurviBC.Eigen
import Verif.CurviBC.Apply
import Verif.RefMetric.CoordsClaims

/-! # Partners of grid points: lemmas -/
namespace Verif.CurviBC
open Verif.Py Verif.RefMetric Real

/-! ### From a coordinate to a grid index -/

/-- A coordinate less than half a cell from a grid point gives its index. -/
theorem inbounds_near {G : Grid} {c : Coords} {d : Fin 3} (hdx : 0 < dxx G c d) {j : ℤ} (hj : 0 ≤ j) {y : ℝ}
    (h : |y - xx G c d j| < dxx G c d / 2) : inbounds G c d y = j := by
  have e : (y - (xx G c d 0 - (((0 - G.g : ℤ) : ℝ) + 1 / 2) * dxx G c d) - 1 / 2 * dxx G c d + (G.g : ℝ) * dxx G c d) /
      dxx G c d + 1 / 2 = (y - xx G c d j) / dxx G c d + (j : ℝ) + 1 / 2 := by
    unfold xx
    push_cast
    field_simp
    ring
  have hb : |(y - xx G c d j) / dxx G c d| < 1 / 2 := by
    rw [abs_div, abs_of_pos hdx, div_lt_iff₀ hdx]; linarith
  obtain ⟨b1, b2⟩ := abs_lt.1 hb
  have hj' : (0 : ℝ) ≤ j := by exact_mod_cast hj
  unfold inbounds
  simp only []
  rw [e]
  unfold truncate
  rw [if_pos (by linarith), Int.floor_eq_iff]
  constructor <;> linarith

theorem inbounds_xx {G : Grid} {c : Coords} {d : Fin 3} (hdx : 0 < dxx G c d) {j : ℤ} (hj : 0 ≤ j) :
    inbounds G c d (xx G c d j) = j :=
  inbounds_near hdx hj (by rw [sub_self, abs_zero]; linarith)

theorem not_mismatch_self {eps : ℝ} (he : 0 < eps) (a : Vec) : ¬ mismatch eps a a := by
  unfold mismatch
  have : 0 ≤ eps * (√(a 0 * a 0 + a 1 * a 1 + a 2 * a 2) + 1 / 10 ^ 15) := by positivity
  simp only [sub_self, abs_zero, gt_iff_lt, or_self, not_lt]
  exact this

/-- The partner is `q` if the eigencoordinates of the point are those of `q` and both points are the same point of
space. -/
theorem partner_of {eps : ℝ} (he : 0 < eps) {G : Grid} {orig eig : Coords} (hdx : ∀ d, 0 < dxx G orig d) {g : Vec → Vec}
    (hg : eig.ofCart = some g) {p q : Idx} (hq : G.Has q) (h1 : g (eig.toCart (xxAt G orig p)) = xxAt G orig q)
    (h2 : orig.toCart (xxAt G orig q) = orig.toCart (xxAt G orig p)) : partner eps G orig eig p = some q := by
  have e : (![inbounds G orig 0 (g (eig.toCart (xxAt G orig p)) 0), inbounds G orig 1 (g (eig.toCart (xxAt G orig p)) 1),
      inbounds G orig 2 (g (eig.toCart (xxAt G orig p)) 2)] : Idx) = q := by
    rw [h1]
    exact idx_ext (inbounds_xx (hdx 0) (hq 0).1) (inbounds_xx (hdx 1) (hq 1).1) (inbounds_xx (hdx 2) (hq 2).1)
  have hm := not_mismatch_self he (orig.toCart (xxAt G orig p))
  have hq' : ∀ d, 0 ≤ q d ∧ q d < G.n d := hq
  unfold partner
  rw [hg, Option.bind_some]
  simp only []
  rw [e, if_pos hq', h2, if_neg hm]

/-! ### Angles of cell-centred grids -/

/-- Polar angle of the point `b` of a grid of `N` points over `[0, π]`. -/
noncomputable def polar (N b : ℤ) : ℝ := ((b : ℝ) + 1 / 2) * (π / N)

/-- Azimuth of the point `c` of a grid of `N` points over `[-π, π]`. -/
noncomputable def azimuth (N c : ℤ) : ℝ := -π + ((c : ℝ) + 1 / 2) * (2 * π / N)

theorem polar_mod {N : ℤ} (hN : 0 < N) (b : ℤ) : polar N b = polar N (b % (2 * N)) + ((b / (2 * N) : ℤ) : ℝ) * (2 * π) := by
  have hN' : (N : ℝ) ≠ 0 := by exact_mod_cast hN.ne'
  have e : (b : ℝ) = ((b % (2 * N) : ℤ) : ℝ) + 2 * N * ((b / (2 * N) : ℤ) : ℝ) := by
    have := Int.emod_add_mul_ediv b (2 * N)
    exact_mod_cast this.symm
  unfold polar
  rw [e]
  field_simp
  ring

theorem azimuth_mod {N : ℤ} (hN : 0 < N) (c : ℤ) : azimuth N c = azimuth N (c % N) + ((c / N : ℤ) : ℝ) * (2 * π) := by
  have hN' : (N : ℝ) ≠ 0 := by exact_mod_cast hN.ne'
  have e : (c : ℝ) = ((c % N : ℤ) : ℝ) + N * ((c / N : ℤ) : ℝ) := by
    have := Int.emod_add_mul_ediv c N
    exact_mod_cast this.symm
  unfold azimuth
  rw [e]
  field_simp
  ring

theorem polar_turn {N : ℤ} (hN : 0 < N) (b : ℤ) : polar N (N - 1 - b) = π - polar N b := by
  have hN' : (N : ℝ) ≠ 0 := by exact_mod_cast hN.ne'
  unfold polar
  push_cast
  field_simp
  ring

theorem polar_flip {N : ℤ} (hN : 0 < N) (b : ℤ) : polar N (2 * N - 1 - b) = 2 * π - polar N b := by
  have hN' : (N : ℝ) ≠ 0 := by exact_mod_cast hN.ne'
  unfold polar
  push_cast
  field_simp
  ring

theorem azimuth_half {N : ℤ} (hN : 0 < N) (he : N % 2 = 0) (c : ℤ) : azimuth N (c + N / 2) = azimuth N c + π := by
  have hN' : (N : ℝ) ≠ 0 := by exact_mod_cast hN.ne'
  have e : ((N / 2 : ℤ) : ℝ) = (N : ℝ) / 2 := by
    rw [eq_div_iff (by norm_num)]
    exact_mod_cast Int.ediv_mul_cancel (Int.dvd_of_emod_eq_zero he)
  unfold azimuth
  push_cast
  rw [e]
  field_simp
  ring

theorem polar_mem {N b : ℤ} (h0 : 0 ≤ b) (hb : b < N) : 0 < polar N b ∧ polar N b < π := by
  have hN : (0 : ℝ) < N := by exact_mod_cast lt_of_le_of_lt h0 hb
  have h0' : (0 : ℝ) ≤ b := by exact_mod_cast h0
  have hb' : (b : ℝ) + 1 ≤ N := by exact_mod_cast hb
  have hπ := pi_pos
  unfold polar
  refine ⟨by positivity, ?_⟩
  rw [mul_div_assoc', div_lt_iff₀ hN]
  nlinarith

theorem azimuth_mem {N c : ℤ} (h0 : 0 ≤ c) (hc : c < N) : -π < azimuth N c ∧ azimuth N c < π := by
  have hN : (0 : ℝ) < N := by exact_mod_cast lt_of_le_of_lt h0 hc
  have h0' : (0 : ℝ) ≤ c := by exact_mod_cast h0
  have hc' : (c : ℝ) + 1 ≤ N := by exact_mod_cast hc
  have hπ := pi_pos
  unfold azimuth
  have h1 : 0 < ((c : ℝ) + 1 / 2) * (2 * π / N) := by positivity
  have h2 : ((c : ℝ) + 1 / 2) * (2 * π / N) < 2 * π := by
    rw [mul_div_assoc', div_lt_iff₀ hN]
    nlinarith
  constructor <;> linarith

/-! ### Index map at the axis and the origin -/

/-- `-1` or `1`. -/
def sgn (b : Bool) : ℝ := if b then -1 else 1

theorem sgn_sq (b : Bool) : sgn b * sgn b = 1 := by cases b <;> norm_num [sgn]

/-- Polar angle folded into `[0, N)`: index, and whether the azimuth turns by half a circle. -/
def foldPolar (N b : ℤ) : ℤ × Bool :=
  if N ≤ b % (2 * N) then (2 * N - 1 - b % (2 * N), true) else (b % (2 * N), false)

theorem foldPolar_mem {N : ℤ} (hN : 0 < N) (b : ℤ) : 0 ≤ (foldPolar N b).1 ∧ (foldPolar N b).1 < N := by
  have h1 := Int.emod_nonneg b (show 2 * N ≠ 0 by omega)
  have h2 := Int.emod_lt_of_pos b (show 0 < 2 * N by omega)
  unfold foldPolar
  split <;> constructor <;> simp <;> omega

theorem foldPolar_id {N b : ℤ} (h0 : 0 ≤ b) (hb : b < N) : foldPolar N b = (b, false) := by
  unfold foldPolar
  rw [Int.emod_eq_of_lt h0 (by omega), if_neg (by omega)]

theorem foldPolar_trig {N : ℤ} (hN : 0 < N) (b : ℤ) :
    sin (polar N (foldPolar N b).1) = sgn (foldPolar N b).2 * sin (polar N b) ∧
    cos (polar N (foldPolar N b).1) = cos (polar N b) := by
  rw [polar_mod hN b, sin_add_int_mul_two_pi, cos_add_int_mul_two_pi]
  unfold foldPolar
  split
  · simp only [polar_flip hN, sgn, if_true]
    rw [sin_two_pi_sub, cos_two_pi_sub]
    exact ⟨by ring, rfl⟩
  · simp [sgn]

/-- Azimuth after `k` half turns, folded into `[0, N)`. -/
def foldAzimuth (N c : ℤ) (s t : Bool) : ℤ := (c + (if s then N / 2 else 0) + (if t then N / 2 else 0)) % N

theorem foldAzimuth_mem {N : ℤ} (hN : 0 < N) (c : ℤ) (s t : Bool) : 0 ≤ foldAzimuth N c s t ∧ foldAzimuth N c s t < N :=
  ⟨Int.emod_nonneg _ hN.ne', Int.emod_lt_of_pos _ hN⟩

theorem foldAzimuth_id {N c : ℤ} (h0 : 0 ≤ c) (hc : c < N) : foldAzimuth N c false false = c := by
  unfold foldAzimuth
  simp only [Bool.false_eq_true, if_false, add_zero]
  exact Int.emod_eq_of_lt h0 hc

theorem foldAzimuth_trig {N : ℤ} (hN : 0 < N) (he : N % 2 = 0) (c : ℤ) (s t : Bool) :
    sin (azimuth N (foldAzimuth N c s t)) = sgn s * sgn t * sin (azimuth N c) ∧
    cos (azimuth N (foldAzimuth N c s t)) = sgn s * sgn t * cos (azimuth N c) := by
  have key : ∀ k : ℤ, sin (azimuth N (k % N)) = sin (azimuth N k) ∧ cos (azimuth N (k % N)) = cos (azimuth N k) := by
    intro k
    rw [azimuth_mod hN k, sin_add_int_mul_two_pi, cos_add_int_mul_two_pi]
    exact ⟨rfl, rfl⟩
  have k2 := key (c + (if s then N / 2 else 0) + (if t then N / 2 else 0))
  unfold foldAzimuth
  rw [k2.1, k2.2]
  cases s <;> cases t <;> simp [sgn, azimuth_half hN he]

end Verif.CurviBC
