import Verif.SWSH.Model

/-!
# Model of the decomposition of psi4 into modes

`register_CFunction_psi4_spinweightm2_decomposition_on_sphlike_grids` of BHaH/general_relativity/BSSN_C_codegen_library.py.  `REAL` is `ℝ`;
the reduction of OpenMP is a sum in the order of the loop.  The files are not modelled, only the numbers in their rows.
-/
namespace Verif.SWSH

/-- `l0i__times__w0i_inv[i]` (BSSN_C_codegen_library.py:959-967); the two loops over `l` each multiply a numerator and an integer
denominator.  `xs l` is `xx[0][closest_i0 - N0/2 + l]` and `x` is `closest_xx[0]`. -/
noncomputable def weight (N0 : ℕ) (dxx0 x : ℝ) (xs : ℕ → ℝ) (i : ℕ) : ℝ :=
  let denom : ℤ := (∏ l ∈ Finset.range i, ((i : ℤ) - l)) * ∏ l ∈ Finset.Ico (i + 1) (N0 + 1), ((i : ℤ) - l)
  let numer : ℝ := (∏ l ∈ Finset.range i, (x - xs l)) * ∏ l ∈ Finset.Ico (i + 1) (N0 + 1), (x - xs l)
  numer / (dxx0 ^ N0 * denom)

/-- The loop over the stencil for one gridfunction (BSSN_C_codegen_library.py:978-986). -/
noncomputable def radial (N0 : ℕ) (w : ℕ → ℝ) (gf : ℕ → ℝ) (closest : ℕ) : ℝ :=
  ∑ i ∈ Finset.range (N0 + 1), gf (i + closest - N0 / 2) * w i

/-- The loops over `i1` and `i2` that store the interpolated values to an array with two-dimensional storage
(BSSN_C_codegen_library.py:972-992).  `a0` is what the array held before. -/
noncomputable def store (NG N1 N2 : ℕ) (v : ℕ → ℕ → ℝ) (a0 : ℕ → ℝ) : ℕ → ℝ :=
  (List.range' NG (N1 - NG - NG)).foldl (fun a i1 =>
    (List.range' NG (N2 - NG - NG)).foldl (fun a i2 => Function.update a ((i1 - NG) * (N2 - 2 * NG) + (i2 - NG)) (v i1 i2)) a) a0

/-- The same loops, for the arrays of the angles: `th_array[i1-NGHOSTS] = xx[1][i1]` and so on (BSSN_C_codegen_library.py:973-976). -/
noncomputable def store1 (NG N : ℕ) (v : ℕ → ℝ) (a0 : ℕ → ℝ) : ℕ → ℝ :=
  (List.range' NG (N - NG - NG)).foldl (fun a i => Function.update a (i - NG) (v i)) a0

/-- The two integration loops of `lowlevel_decompose_psi4_into_swm2_modes` for one pair `(l, m)` (BSSN_C_codegen_library.py:890-911). -/
noncomputable def modeSum (maxl : ℤ) (NG N1 N2 : ℕ) (dxx1 dxx2 : ℝ) (th sinth ph psi4r psi4i : ℕ → ℝ) (l m : ℤ) : Except String (ℝ × ℝ) :=
  (List.range (N1 - 2 * NG)).foldlM (fun acc i1 =>
    (List.range (N2 - 2 * NG)).foldlM (fun (acc : ℝ × ℝ) i2 => do
      let (c, d) ← swm2 maxl l m (th i1) (ph i2)
      let idx2d := i1 * (N2 - 2 * NG) + i2
      let a := psi4r idx2d
      let b := psi4i idx2d
      pure (acc.1 + (a * c + b * d) * dxx2 * sinth i1 * dxx1, acc.2 + (b * c - a * d) * dxx2 * sinth i1 * dxx1)) acc) (0, 0)

/-- The row of numbers that is appended to the file for one `l` (BSSN_C_codegen_library.py:884-916). -/
noncomputable def modeRow (maxl : ℤ) (NG N1 N2 : ℕ) (dxx1 dxx2 R_ext : ℝ) (th sinth ph psi4r psi4i : ℕ → ℝ) (l : ℤ) :
    Except String (List (ℝ × ℝ)) :=
  (List.range (2 * l + 1).toNat).mapM fun (k : ℕ) => do
    let s ← modeSum maxl NG N1 N2 dxx1 dxx2 th sinth ph psi4r psi4i l (-l + k)
    pure (R_ext * s.1, R_ext * s.2)

/-- The body of the C function for one extraction radius whose nearest grid point is in the interior
(BSSN_C_codegen_library.py:936-998): the rows for `l = 2, …, swm2sh_maximum_l_mode_to_compute`.  `xx0`, `xx1` and `xx2` are the arrays of the
coordinates, `x` and `closest` the results of `Cart_to_xx_and_nearest_i0i1i2`. -/
noncomputable def decompose (maxl lmax : ℤ) (NG N1 N2 : ℕ) (dxx0 dxx1 dxx2 R_ext x : ℝ) (closest : ℕ) (xx0 xx1 xx2 : ℕ → ℝ)
    (re im : ℕ → ℕ → ℕ → ℝ) (a0 : ℕ → ℝ) : Except String (List (List (ℝ × ℝ))) :=
  let N0 := 2 * min 2 (NG - 1)
  let w := weight N0 dxx0 x fun l => xx0 (closest - N0 / 2 + l)
  let th := store1 NG N1 xx1 a0
  let sinth := store1 NG N1 (fun i => Real.sin (xx1 i)) a0
  let ph := store1 NG N2 xx2 a0
  let psi4r := store NG N1 N2 (fun i1 i2 => radial N0 w (fun i0 => re i0 i1 i2) closest) a0
  let psi4i := store NG N1 N2 (fun i1 i2 => radial N0 w (fun i0 => im i0 i1 i2) closest) a0
  (List.range (lmax + 1 - 2).toNat).mapM fun (k : ℕ) => modeRow maxl NG N1 N2 dxx1 dxx2 R_ext th sinth ph psi4r psi4i (2 + k)

end Verif.SWSH
