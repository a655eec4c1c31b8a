import Verif.Reader.GridClaims

/-!
# C103: from a place in space to the nearest grid point

`Cart_to_xx_and_nearest_i0i1i2` and `xx_to_Cart` (BHaH/xx_tofrom_Cart.py).
-/
namespace Verif.Reader
open Verif.Py Verif.RefMetric Verif.CurviBC Real

/-- `Cart_to_i0i1i2[d]` (lines 95-97) for the coordinate `y`. -/
noncomputable def nearestIdx (G : Grid) (c : Coords) (d : Fin 3) (y : ℝ) : ℤ := truncate ((y - c.xxmin d) / dxx G c d + (G.g : ℝ))

/-- `Cart_to_xx_and_nearest_i0i1i2` (lines 53-99): the coordinates and the indices.  `none`: the system has no
`Cart_to_xx`. -/
noncomputable def nearest (G : Grid) (c : Coords) (origin xCart : Vec) : Option (Vec × Idx) :=
  c.ofCart.map fun g => (g fun i => xCart i - origin i, fun d => nearestIdx G c d (g (fun i => xCart i - origin i) d))

/-- Text (lines 53-60), without comments. -/
def setXyz : Str := (c% "\n  REAL Cartx = xCart[0];\n  REAL Carty = xCart[1];\n  REAL Cartz = xCart[2];\n")
/-- Text (lines 61-68), without comments. -/
def unshift : Str := (c% "\n  Cartx -= Cart_originx;\n  Carty -= Cart_originy;\n  Cartz -= Cart_originz;\n  {\n")
/-- Text (lines 83-99), without comments. -/
def setIdx : Str := (c% "\n      Cart_to_i0i1i2[0] = (int)( ( xx[0] - params->xxmin0 ) / params->dxx0 + (REAL)NGHOSTS );\n      Cart_to_i0i1i2[1] = (int)( ( xx[1] - params->xxmin1 ) / params->dxx1 + (REAL)NGHOSTS );\n      Cart_to_i0i1i2[2] = (int)( ( xx[2] - params->xxmin2 ) / params->dxx2 + (REAL)NGHOSTS );\n  }\n")

/-- The body of the C function (lines 53-99); `code` is the text of `c_codegen`, without braces around
it.  The branch for `theta_adj`, which no coordinate system has, is left out. -/
def nearestBody (relativeTo code : Str) : Str :=
  setXyz ++
  (if relativeTo = (c% "local_grid_center") then
    unshift else []) ++
  code ++
  setIdx

/-- The text has as many opening as closing braces. -/
def Balanced (t : Str) : Prop := t.count '{' = t.count '}'

theorem xx_step (G : Grid) (c : Coords) (d : Fin 3) (i j : ℤ) : xx G c d i - xx G c d j = ((i - j : ℤ) : ℝ) * dxx G c d := by
  unfold xx
  push_cast
  ring

section
variable {G : Grid} {c : Coords} {d : Fin 3} (hdx : 0 < dxx G c d)
include hdx

/-- Every coordinate from the outer face of the first ghost point on is within half a step of the point found; up to the
outer face of the last one, this point is in the grid. -/
theorem C103_within {y : ℝ} (hy : c.xxmin d - G.g * dxx G c d ≤ y) :
    |y - xx G c d (nearestIdx G c d y)| ≤ dxx G c d / 2 ∧ 0 ≤ nearestIdx G c d y ∧
      (y < c.xxmin d + ((G.n d - G.g : ℤ) : ℝ) * dxx G c d → nearestIdx G c d y < G.n d) := by
  set t := (y - c.xxmin d) / dxx G c d + (G.g : ℝ) with ht
  have h0 : 0 ≤ t := by
    have : 0 ≤ (y - c.xxmin d + G.g * dxx G c d) / dxx G c d := div_nonneg (by linarith) hdx.le
    rw [ht]
    have e : (y - c.xxmin d + G.g * dxx G c d) / dxx G c d = (y - c.xxmin d) / dxx G c d + G.g := by field_simp
    rwa [e] at this
  have hi : nearestIdx G c d y = ⌊t⌋ := by
    unfold nearestIdx truncate
    rw [if_pos h0]
  have hy' : y = c.xxmin d + (t - G.g) * dxx G c d := by rw [ht]; field_simp; ring
  have f1 := Int.floor_le t
  have f2 := Int.lt_floor_add_one t
  rw [hi]
  refine ⟨?_, Int.floor_nonneg.2 h0, fun hlt => ?_⟩
  · have e : y - xx G c d ⌊t⌋ = (t - ⌊t⌋ - 1 / 2) * dxx G c d := by
      unfold xx
      rw [hy']
      push_cast
      ring
    rw [e, abs_mul, abs_of_pos hdx]
    have : |t - ⌊t⌋ - 1 / 2| ≤ 1 / 2 := abs_le.2 ⟨by linarith, by linarith⟩
    nlinarith
  · rw [Int.floor_lt]
    rw [hy'] at hlt
    have : (t - G.g) * dxx G c d < ((G.n d - G.g : ℤ) : ℝ) * dxx G c d := by linarith
    have := lt_of_mul_lt_mul_right this hdx.le
    push_cast at this
    linarith

/-- No grid point is nearer, in this coordinate. -/
theorem C103_nearest {y : ℝ} (hy : c.xxmin d - G.g * dxx G c d ≤ y) (j : ℤ) :
    |y - xx G c d (nearestIdx G c d y)| ≤ |y - xx G c d j| := by
  obtain ⟨h, -⟩ := C103_within hdx hy
  by_cases e : j = nearestIdx G c d y
  · rw [e]
  · have h1 : (1 : ℝ) ≤ |((nearestIdx G c d y - j : ℤ) : ℝ)| := by
      rw [← Int.cast_abs]
      exact_mod_cast Int.one_le_abs (by omega)
    have h2 : dxx G c d ≤ |xx G c d (nearestIdx G c d y) - xx G c d j| := by
      rw [xx_step, abs_mul, abs_of_pos hdx]
      nlinarith
    have h3 := abs_sub_le (xx G c d (nearestIdx G c d y)) y (xx G c d j)
    rw [abs_sub_comm (xx G c d (nearestIdx G c d y)) y] at h3
    linarith

/-- At a grid point it is this point. -/
theorem C103_at_point {j : ℤ} (hj : 0 ≤ j) : nearestIdx G c d (xx G c d j) = j := by
  have e : (xx G c d j - c.xxmin d) / dxx G c d + (G.g : ℝ) = j + 1 / 2 := by
    unfold xx
    push_cast
    field_simp
    ring
  unfold nearestIdx
  have h0 : (0 : ℝ) ≤ j := by exact_mod_cast hj
  rw [e]
  unfold truncate
  rw [if_pos (by linarith), Int.floor_intCast_add, show ⌊(1 / 2 : ℝ)⌋ = 0 by norm_num [Int.floor_eq_iff]]
  omega

end

/-- Of the place where a point of the interior or of the outer boundary is, the function finds the coordinates and the
indices: it inverts `xx_to_Cart`. -/
theorem C103_round_trip {P : CoordParams} (hP : ValidParams P) {name : Str} {c : Coords} (h : choose P name = .sys c) {e : Str}
    {eig : Coords} (he : eigenName name = some e) (hE : choose P e = .sys eig) {eps : ℝ} (hε : 0 < eps) {G : Grid}
    (hG : GoodGrid name c G) (hv : c.ofCart.isSome) (hn : name ≠ (c% "SinhSymTP")) (hw : containsSub (c% "Wedge") name = false)
    (origin : Vec) {p : Idx} (hp : G.Has p) (ho : G.Ghost p → Outer G (mapsOf eps G c eig) p) :
    nearest G c origin (xxToCart c origin (xxAt G c p)) = some (xxAt G c p, p) := by
  have hr := regular_settled hP h he hE hε hG hv hw hp ho
  obtain ⟨g, hg⟩ := Option.isSome_iff_exists.1 hv
  have e : (fun i => xxToCart c origin (xxAt G c p) i - origin i) = c.toCart (xxAt G c p) := by
    funext i; simp [xxToCart]
  unfold nearest
  rw [hg, Option.map_some, e, regular_inv hP h hn hr hg]
  congr 2
  funext d
  exact C103_at_point (dxx_pos (hG.size d) (hG.range d)) (hp d).1

/-- Of the place where any other ghost point is, it finds the partner of the ghost point. -/
theorem C103_ghost {P : CoordParams} (hP : ValidParams P) {name : Str} {c : Coords} (h : choose P name = .sys c) {e : Str}
    {eig : Coords} (he : eigenName name = some e) (hE : choose P e = .sys eig) {eps : ℝ} (hε : 0 < eps) {G : Grid}
    (hG : GoodGrid name c G) (hv : c.ofCart.isSome) (hn : name ≠ (c% "SinhSymTP")) (hw : containsSub (c% "Wedge") name = false)
    (origin : Vec) {p : Idx} (hp : G.Has p) : ∃ q, partner eps G c eig p = some q ∧
      nearest G c origin (xxToCart c origin (xxAt G c p)) = some (xxAt G c q, q) := by
  obtain ⟨q, h1, h2, h3, h4, -⟩ := C67_partner hP h he hE hε hG hp
  refine ⟨q, h1, ?_⟩
  rw [← C103_round_trip hP h he hE hε hG hv hn hw origin h3 h4]
  congr 1
  unfold xxToCart
  rw [h2]

theorem count_texts : (setXyz.count '{' = 0 ∧ setXyz.count '}' = 0) ∧ (unshift.count '{' = 1 ∧ unshift.count '}' = 0) ∧
    setIdx.count '{' = 0 ∧ setIdx.count '}' = 1 := by decide +kernel

/-- With the default `relative_to` the braces of the C function match. -/
theorem C103_braces_partial {code : Str} (h : Balanced code) : Balanced (nearestBody (c% "local_grid_center") code) := by
  obtain ⟨⟨a, b⟩, ⟨d, e⟩, f, g⟩ := count_texts
  unfold Balanced nearestBody at *
  rw [if_pos rfl, List.count_append, List.count_append, List.count_append, List.count_append, List.count_append,
    List.count_append, a, b, d, e, f, g, h]
  omega

/-- With `relative_to="global_grid_center"` they do not: the C function has a closing brace too many, whatever the
coordinate system. -/
theorem C103_braces_violation {code : Str} (h : Balanced code) : ¬ Balanced (nearestBody (c% "global_grid_center") code) := by
  obtain ⟨⟨a, b⟩, -, f, g⟩ := count_texts
  unfold Balanced nearestBody at *
  rw [if_neg (by decide), List.count_append, List.count_append, List.count_append, List.count_append, List.count_append,
    List.count_append, a, b, f, g, h, List.count_nil, List.count_nil]
  omega

/-- The first interior point of the spherical grid. -/
example : nearest demoGrid (spherical demo.rmax) ![1, 2, 3] (xxToCart (spherical demo.rmax) ![1, 2, 3]
    (xxAt demoGrid (spherical demo.rmax) ![2, 2, 2])) = some (xxAt demoGrid (spherical demo.rmax) ![2, 2, 2], ![2, 2, 2]) :=
  C103_round_trip (eps := 1 / 10 ^ 8) demo_valid (choose_spherical demo) (by decide) (choose_spherical demo) (by positivity) demo_good rfl
    (by decide) (by decide) _ (by intro d; fin_cases d <;> simp [demoGrid])
    (fun h => absurd (by intro d; fin_cases d <;> simp [demoGrid]) h.2)

example : Balanced (c% "xx[0] = sqrt(Cartx*Cartx);\n") := by unfold Balanced; decide

end Verif.Reader
