import Verif.CurviBC.Eigen
import Verif.BSSN.Model
import Verif.Equations.Jacobians

/-!
# Model of the initial data reader (BHaH/general_relativity/ADM_Initial_Data_Reader__BSSN_Converter.py)

The C functions that the module generates, with real numbers for `REAL`; the generated assignments of an array of
expressions are a function of the values of their symbols.  The sorting of the outputs, the `ID_persist_struct` argument,
the texts of the structures and the registration are left out.  Line numbers without a file name are those of this module.
-/
namespace Verif.Reader
open Verif.Py Verif.RefMetric Verif.BSSN Verif.Equations Verif.CurviBC

/-- `initial_data_struct` (lines 533-554) and, with Cartesian components, `ADM_Cart_basis_struct` (lines 585-592). -/
structure IDData where
  alpha : ℝ
  adm : Adm
  T4UU : Fin 4 → Fin 4 → ℝ

/-- `BSSN_Cart_basis_struct` (lines 596-604). -/
structure BssnCart where
  alpha : ℝ
  betaU : V1
  BU : V1
  cf : ℝ
  trK : ℝ
  gammabarDD : V2
  AbarDD : V2
  T4UU : Fin 4 → Fin 4 → ℝ

/-- `rescaled_BSSN_rfm_basis_struct` (lines 608-616). -/
structure Rescaled where
  alpha : ℝ
  cf : ℝ
  trK : ℝ
  vetU : V1
  betU : V1
  hDD : V2
  aDD : V2
  T4UU : Fin 4 → Fin 4 → ℝ

/-- `register_CFunction_exact_ADM_ID_function` (lines 28-113): the function it registers evaluates the expressions `e` of
the coordinates; the values of `Spherical` coordinates are those of `Cart_to_xx`.  `none`: `ValueError`. -/
noncomputable def exactID (P : CoordParams) (IDCoordSystem : Str) (e : Vec → IDData) : Option (Vec → IDData) :=
  if IDCoordSystem = (c% "Spherical") then (spherical P.rmax).ofCart.map fun g xCart => e (g xCart)
  else if IDCoordSystem = (c% "Cartesian") then some fun xCart => e ![xCart 0, xCart 1, xCart 2]
  else none

/-- `Jac_dUCart_dDrfmUD` (reference_metric.py:207-215). -/
noncomputable def jacobian (c : Coords) (x : Vec) : Arr3 := fun i j => pd j (fun y => c.toCart y i) x

/-- The values of `xx0,xx1,xx2` in `ADM_SphorCart_to_Cart` (lines 155-174).  In the Cartesian system no expression
contains them.  `none`: there is no `Cart_to_xx`. -/
noncomputable def sourceXx (name : Str) (c : Coords) (xCart : Vec) : Option Vec :=
  if name = (c% "Cartesian") then some 0 else c.ofCart.map fun g => g xCart

/-- `ADM_SphorCart_to_Cart` (lines 116-243).  `none`: a division by zero. -/
noncomputable def admToCart (name : Str) (c : Coords) (xCart : Vec) (d : IDData) : Option IDData :=
  (sourceXx name c xCart).bind fun x => (jacPair (jacobian c x)).map fun J =>
    { alpha := d.alpha
      adm := {
        gammaDD := tensDDToCart J d.adm.gammaDD
        KDD := tensDDToCart J d.adm.KDD
        betaU := vecUToCart J d.adm.betaU
        BU := vecUToCart J d.adm.BU }
      T4UU := tens4ToCart J d.T4UU }

/-- The reference metric of the Cartesian system, which no coordinate occurs in. -/
noncomputable def cartRfm : Rfm := rfmAt (cartesian 0 0).scale 0

/-- `ADM_Cart_to_BSSN_Cart` (lines 246-317). -/
noncomputable def toBssnCart (cf : CF) (d : IDData) : BssnCart where
  alpha := d.alpha
  betaU := d.adm.betaU
  BU := d.adm.BU
  cf := FromADM.cf cartRfm d.adm cf
  trK := FromADM.trK d.adm
  gammabarDD := FromADM.gammabarDD cartRfm d.adm
  AbarDD := FromADM.AbarDD cartRfm d.adm
  T4UU := d.T4UU

/-- `xx` set by `Cart_to_xx_and_nearest_i0i1i2` (BHaH/xx_tofrom_Cart.py:53-99; the indices of the nearest point are not
used), in the Cartesian system not called (lines 340-349). -/
noncomputable def gridXx (name : Str) (c : Coords) (origin xCart : Vec) : Option Vec :=
  if name = (c% "Cartesian") then some 0 else c.ofCart.map fun g => g fun i => xCart i - origin i

/-- The basis transformation and the rescaling at the point `x` (lines 355-397). -/
noncomputable def rescale (c : Coords) (x : Vec) (b : BssnCart) : Option Rescaled :=
  (jacPair (jacobian c x)).map fun J =>
    let R := rfmAt c.scale x
    { alpha := b.alpha
      cf := b.cf
      trK := b.trK
      vetU := fun i => vecUToRfm J b.betaU i / R.ReU i
      betU := fun i => vecUToRfm J b.BU i / R.ReU i
      hDD := fun i j => (tensDDToRfm J b.gammabarDD i j - R.ghatDD i j) / R.ReDD i j
      aDD := fun i j => tensDDToRfm J b.AbarDD i j / R.ReDD i j
      T4UU := tens4ToRfm J b.T4UU }

/-- `BSSN_Cart_to_rescaled_BSSN_rfm` (lines 320-438). -/
noncomputable def toRescaled (name : Str) (c : Coords) (origin xCart : Vec) (b : BssnCart) : Option Rescaled :=
  (gridXx name c origin xCart).bind fun x => rescale c x b

/-- `xx_to_Cart` (BHaH/xx_tofrom_Cart.py:146-165). -/
noncomputable def xxToCart (c : Coords) (origin x : Vec) : Vec := fun i => c.toCart x i + origin i

/-- What a call of the reader is made with: the coordinate systems of the grid and of the initial data, the origin of the
grid, the evolved conformal factor and `ID_function`. -/
structure Setup where
  name : Str
  sys : Coords
  idName : Str
  idSys : Coords
  origin : Vec
  cf : CF
  ID : Vec → IDData

/-- The body of the loop over all grid points (lines 645-661), for the point with coordinates `x`.  `none`: a division
by zero. -/
noncomputable def convert (S : Setup) (x : Vec) : Option Rescaled :=
  let xCart := xxToCart S.sys S.origin x
  (admToCart S.idName S.idSys xCart (S.ID xCart)).bind fun d =>
    toRescaled S.name S.sys S.origin xCart (toBssnCart S.cf d)

/-- The gridfunctions set. -/
inductive Var
  | alpha | cf | trK
  | vetU (i : Fin 3) | betU (i : Fin 3)
  | hDD (i j : Fin 3) | aDD (i j : Fin 3)
  | lambdaU (i : Fin 3)
  deriving DecidableEq

/-- `gf_list` (lines 665-669). -/
def gfList : List Var :=
  [.alpha, .trK, .cf] ++ ([0, 1, 2] : List (Fin 3)).flatMap fun i => [.vetU i, .betU i] ++
    (([0, 1, 2] : List (Fin 3)).filter fun j => i ≤ j).flatMap fun j => [.hDD i j, .aDD i j]

/-- The member of `rescaled_BSSN_rfm_basis` with the name of the gridfunction (line 671). -/
def Rescaled.get (r : Rescaled) : Var → ℝ
  | .alpha => r.alpha
  | .cf => r.cf
  | .trK => r.trK
  | .vetU i => r.vetU i
  | .betU i => r.betU i
  | .hDD i j => r.hDD i j
  | .aDD i j => r.aDD i j
  | .lambdaU _ => 0

/-- The loop over all grid points (lines 645-682).  `num` gives the number of a gridfunction (`…GF`).  Where the
conversion divides by zero the value stored is `nan p v`, of which nothing is known.  The stress-energy tensor, stored in
another array, is left out. -/
noncomputable def storeAsgs (G : Grid) (num : Var → ℕ) (S : Setup) (nan : Idx → Var → ℝ) : List Asg :=
  (loop ![0, 0, 0] G.n).flatMap fun p =>
    (gfList.map fun v => (⟨G.pt (num v) (G.at p), [],
      fun _ => ((convert S (xxAt G S.sys p)).map fun r => r.get v).getD (nan p v)⟩ : Asg)) ++
    ([0, 1, 2] : List (Fin 3)).map fun i => (⟨G.pt (num (.lambdaU i)) (G.at p), [], fun _ => 0⟩ : Asg)

/-- An assignment whose right-hand side is the expression `e` of the array; only the elements in `reads` are read. -/
def readsAsg (dst : ℤ) (reads : List ℤ) (e : Mem → ℝ) : Asg :=
  ⟨dst, reads, fun v => e fun a => ((reads.zip v).lookup a).getD 0⟩

/-- The gridfunction of a component of the symmetric tensor. -/
def hVar (i j : Fin 3) : Var := if i ≤ j then .hDD i j else .hDD j i

/-- The point `k` steps from `p` in direction `d`. -/
def move (p : Idx) (d : Fin 3) (k : ℤ) : Idx := fun e => if e = d then p e + k else p e

/-- Centred finite differences: radius of the stencil and weights. -/
structure Stencil where
  n : ℕ
  w : ℤ → ℝ

/-- A finite-difference derivative (nrpy/finite_difference.py) of a function on the grid points. -/
noncomputable def Stencil.diff (W : Stencil) (dx : Fin 3 → ℝ) (f : Idx → ℝ) (d : Fin 3) (p : Idx) : ℝ :=
  ((counter (-W.n) (W.n + 1)).map fun k => W.w k * f (move p d k)).sum / dx d

/-- No symbol has a value. -/
def blank : Gfs where
  hDD _ _ := 0
  hDD_dD _ _ _ := 0
  hDD_dupD _ _ _ := 0
  hDD_dDD _ _ _ _ := 0
  aDD _ _ := 0
  aDD_dD _ _ _ := 0
  aDD_dupD _ _ _ := 0
  lambdaU _ := 0
  lambdaU_dD _ _ := 0
  lambdaU_dupD _ _ := 0
  vetU _ := 0
  vetU_dD _ _ := 0
  vetU_dupD _ _ := 0
  vetU_dDD _ _ _ := 0
  betU _ := 0
  betU_dupD _ _ := 0
  trK := 0
  trK_dD _ := 0
  trK_dupD _ := 0
  cf := 0
  cf_dD _ := 0
  cf_dupD _ := 0
  cf_dDD _ _ := 0
  alpha := 0
  alpha_dD _ := 0
  alpha_dupD _ := 0
  alpha_dDD _ _ := 0

/-- The symbols in the expressions for `lambdaU` at the point `p` (`enable_fd_codegen`): the functions `f i j` on the grid
points and their finite differences. -/
noncomputable def hSymbols (W : Stencil) (dx : Fin 3 → ℝ) (f : Fin 3 → Fin 3 → Idx → ℝ) (p : Idx) : Gfs :=
  { blank with
    hDD := fun i j => f i j p
    hDD_dD := fun i j k => W.diff dx (f i j) k p }

/-- `LambdabarU` (lines 471-477). -/
noncomputable def LambdabarExpr (R : Rfm) (G : Gfs) : V1 := fun i =>
  ∑ j, ∑ k, gammabarUU R G j k * (GammabarUDD R G i j k - R.GammahatUDD i j k)

/-- `lambdaU` (lines 479-483). -/
noncomputable def lambdaExpr (R : Rfm) (G : Gfs) : V1 := fun i => LambdabarExpr R G i / R.ReU i

/-- The elements of the array read at the point `p`. -/
def hReads (G : Grid) (num : Var → ℕ) (W : Stencil) (p : Idx) : List ℤ :=
  ([0, 1, 2] : List (Fin 3)).flatMap fun i => ([0, 1, 2] : List (Fin 3)).flatMap fun j =>
    G.pt (num (hVar i j)) (G.at p) :: ([0, 1, 2] : List (Fin 3)).flatMap fun d =>
      (counter (-W.n) (W.n + 1)).map fun k => G.pt (num (hVar i j)) (G.at (move p d k))

/-- `initial_data_lambdaU_grid_interior` (lines 443-509). -/
noncomputable def lambdaAsgs (G : Grid) (num : Var → ℕ) (c : Coords) (W : Stencil) : List Asg :=
  (loop ![G.g, G.g, G.g] fun d => G.n d - G.g).flatMap fun p => ([0, 1, 2] : List (Fin 3)).map fun i =>
    readsAsg (G.pt (num (.lambdaU i)) (G.at p)) (hReads G num W p) fun s =>
      lambdaExpr (rfmAt c.scale (xxAt G c p))
        (hSymbols W (dxx G c) (fun a b q => s (G.pt (num (hVar a b)) (G.at q))) p) i

/-- `initial_data_reader__convert_ADM_…_to_BSSN` (lines 640-694): the parallel loops in order. -/
noncomputable def reader (G : Grid) (bc : BcStruct) (nGfs : ℕ) (types : ℕ → Fin 10) (num : Var → ℕ) (S : Setup)
    (W : Stencil) (nan : Idx → Var → ℝ) : List (List Asg) :=
  [storeAsgs G num S nan, innerAsgs G bc nGfs types, lambdaAsgs G num S.sys W]

end Verif.Reader
