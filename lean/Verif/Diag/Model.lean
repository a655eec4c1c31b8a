import Verif.CurviBC.Eigen

/-!
# Model of the diagnostics at the grid centre, along an axis, and in a plane

BHaH/diagnostics/output_0d_1d_2d_nearest_gridpoint_slices.py and the functions `simple_loop_1D` and `simple_loop_2D` of
BHaH/simple_loop.py: which grid points the generated C code visits, what it writes for each, and the `fprintf` statements.
Simplifications: `REAL` is the real numbers; C integers do not overflow; a diagnostic quantity is a function of `idx3`;
opening and closing of the file is not modelled.
-/
namespace Verif.Diag
open Verif.Py Verif.RefMetric Verif.CurviBC

/-- The SymPy expressions for an index (simple_loop.py:252-318, 460-513); `none` is the number -1. -/
inductive Pt
  /-- `Nxx_plus_2NGHOSTS / 2` -/
  | half
  /-- `NGHOSTS + Rational(1, 4) * Nxx - Rational(1, 2)` -/
  | quarter
  /-- `NGHOSTS + Rational(3, 4) * Nxx - Rational(1, 2)` -/
  | threeQuarters
  /-- `NGHOSTS` -/
  | first
  /-- `Nxx_plus_2NGHOSTS - NGHOSTS - 1` -/
  | last
  /-- `-1` -/
  | none
deriving DecidableEq

/-- The value of `(int)(expression)` in direction `d`; `sp.ccode` writes the rational numbers as quotients of `double`s. -/
noncomputable def Pt.eval (G : Grid) (d : Fin 3) : Pt → ℤ
  | .half => truncate (1 / 2 * (G.n d : ℝ))
  | .quarter => truncate ((G.g : ℝ) + 1 / 4 * ((G.n d - 2 * G.g : ℤ) : ℝ) - 1 / 2)
  | .threeQuarters => truncate ((G.g : ℝ) + 3 / 4 * ((G.n d - 2 * G.g : ℤ) : ℝ) - 1 / 2)
  | .first => G.g
  | .last => G.n d - G.g - 1
  | .none => -1

/-- `i0_pts`, `i1_pts`, `i2_pts` of `simple_loop_1D` (simple_loop.py:239-318); `none` is `ValueError`. -/
def pts1D (name axis : Str) : Option (Fin 3 → List Pt) :=
  if axis = (c% "y") then
    if containsSub (c% "Cartesian") name then some ![[.half], [], [.half]]
    else if containsSub (c% "Spherical") name then some ![[], [.half], [.quarter, .threeQuarters]]
    else if containsSub (c% "Cylindrical") name then some ![[], [.quarter, .threeQuarters], [.half]]
    else if containsSub (c% "SymTP") name then some ![[], [.half], [.quarter, .threeQuarters]]
    else if containsSub (c% "Wedge") name then some ![[.none], [.none], [.none]]
    else none
  else if axis = (c% "z") then
    if containsSub (c% "Cartesian") name then some ![[.half], [.half], []]
    else if containsSub (c% "Spherical") name then
      if containsSub (c% "Ring") name then some ![[.none], [.none], [.none]]
      else some ![[], [.first, .last], [.first]]
    else if containsSub (c% "Cylindrical") name then some ![[.first], [.first], []]
    else if containsSub (c% "SymTP") name then some ![[], [.first, .last], [.first]]
    else if containsSub (c% "Wedge") name then some ![[], [.half], [.half]]
    else none
  else none

/-- `i012_pts` of `max_numpts__i012_pts__numpts_2D` (simple_loop.py:447-513); `none` is `ValueError`. -/
def pts2D (name plane : Str) : Option (Fin 3 → List Pt) :=
  if plane = (c% "xy") then
    if containsSub (c% "Cartesian") name || containsSub (c% "Cylindrical") name then some ![[], [], [.half]]
    else if containsSub (c% "Spherical") name || containsSub (c% "SymTP") name then some ![[], [.half], []]
    else if containsSub (c% "Wedge") name then some ![[], [], [.quarter, .threeQuarters]]
    else none
  else if plane = (c% "yz") then
    if containsSub (c% "Cartesian") name then some ![[.half], [], []]
    else if containsSub (c% "Cylindrical") name then some ![[], [.quarter, .threeQuarters], []]
    else if containsSub (c% "Spherical") name || containsSub (c% "SymTP") name then some ![[], [], [.quarter, .threeQuarters]]
    else if containsSub (c% "Wedge") name then some ![[], [.half], []]
    else none
  else none

/-- Some list begins with -1 (simple_loop.py:322-326). -/
def noPoints (L : Fin 3 → List Pt) : Bool :=
  decide ((L 0).head? = some .none ∨ (L 1).head? = some .none ∨ (L 2).head? = some .none)

/-- `numpts` (simple_loop.py:320-331, 515-523): the sizes of the arrays `i0_pts`, `i1_pts`, `i2_pts` of the C code. -/
def numpts (G : Grid) (L : Fin 3 → List Pt) (d : Fin 3) : ℤ :=
  if noPoints L then 0 else if L d = [] then G.n d - 2 * G.g else (L d).length

/-- The assignments to the array of direction `d`: place and value (simple_loop.py:355-365, 559-564). -/
noncomputable def ptWrites (G : Grid) (L : Fin 3 → List Pt) (d : Fin 3) : List (ℤ × ℤ) :=
  if noPoints L then
    if d = 0 then [] else (L d).zipIdx.map fun (e : Pt × ℕ) => ((e.2 : ℤ), e.1.eval G d)
  else if L d = [] then (counter G.g (G.n d - 2 * G.g + G.g)).map fun (i : ℤ) => (i - G.g, i)
  else (L d).zipIdx.map fun (e : Pt × ℕ) => ((e.2 : ℤ), e.1.eval G d)

/-- The array after the assignments; `junk` is what it contained. -/
noncomputable def ptArray (G : Grid) (L : Fin 3 → List Pt) (junk : ℤ → ℤ) (d : Fin 3) : ℤ → ℤ :=
  (ptWrites G L d).foldl (fun m w => Function.update m w.1 w.2) junk

/-- The grid points in the order of the main loop (simple_loop.py:366-368, 566-568). -/
noncomputable def points (G : Grid) (L : Fin 3 → List Pt) (junk : ℤ → ℤ) : List Idx :=
  (loop ![0, 0, 0] (numpts G L)).map fun (k : Idx) => fun d => ptArray G L junk d (k d)

/-- `xx_to_Cart` (BHaH/xx_tofrom_Cart.py:155-223) with the origin of the grid. -/
noncomputable def xCart (G : Grid) (c : Coords) (origin : Vec) (p : Idx) : Vec := fun i => c.toCart (xxAt G c p) i + origin i

/-- The index of the Cartesian coordinate of an axis (simple_loop.py:348). -/
def axisIdx (axis : Str) : Fin 3 := if axis = (c% "y") then 1 else 2

/-- `data_points` after the main loop (simple_loop.py:342-375): coordinate along the axis and values. -/
noncomputable def data1D (G : Grid) (c : Coords) (origin : Vec) (axis : Str) (L : Fin 3 → List Pt) (junk : ℤ → ℤ)
    (val : ℤ → List ℝ) : List (ℝ × List ℝ) :=
  (points G L junk).map fun (p : Idx) => (xCart G c origin p (axisIdx axis), val (G.at p))

/-- `compare` (simple_loop.py:387-391). -/
noncomputable def compare (l r : ℝ × List ℝ) : ℤ := (if l.1 > r.1 then 1 else 0) - if l.1 < r.1 then 1 else 0

/-- What `qsort` with `compare` may leave in the array. -/
def Qsort (l out : List (ℝ × List ℝ)) : Prop := out.Perm l ∧ out.Pairwise fun a b => compare a b ≤ 0

/-- The lines written by `diagnostics_nearest_1d_*_axis`: `none` is `ValueError` when the code is generated. -/
def Prints1D (G : Grid) (c : Coords) (origin : Vec) (name axis : Str) (junk : ℤ → ℤ) (val : ℤ → List ℝ) :
    Option (List (ℝ × List ℝ) → Prop) :=
  (pts1D name axis).map fun L => Qsort (data1D G c origin axis L junk val)

/-- The lines written by `diagnostics_nearest_2d_*_plane` (simple_loop.py:566-593). -/
noncomputable def lines2D (G : Grid) (c : Coords) (origin : Vec) (name plane : Str) (junk : ℤ → ℤ) (val : ℤ → List ℝ) :
    Option (List (ℝ × ℝ × List ℝ)) :=
  (pts2D name plane).map fun L => (points G L junk).map fun (p : Idx) =>
    let x := xCart G c origin p
    if plane = (c% "xy") then (x 0, x 1, val (G.at p)) else (x 1, x 2, val (G.at p))

/-- `i0_center`, `i1_center`, `i2_center` (output_0d_1d_2d_nearest_gridpoint_slices.py:84-96, 126-128); `str` writes the
quotients as quotients of C integers, here numbers that are not negative. -/
def center (name : Str) (G : Grid) : Option Idx :=
  if containsSub (c% "Spherical") name || containsSub (c% "Cylindrical") name || containsSub (c% "SymTP") name then
    some ![G.g, G.n 1 / 2, G.n 2 / 2]
  else if containsSub (c% "Cartesian") name then some ![G.n 0 / 2, G.n 1 / 2, G.n 2 / 2]
  else none

/-- The line written by `diagnostics_nearest_grid_center` (lines 129-133). -/
noncomputable def line0D (name : Str) (G : Grid) (time : ℝ) (val : ℤ → List ℝ) : Option (Option (ℝ × List ℝ)) :=
  (center name G).map fun i => if i 0 ≠ -1 ∧ i 1 ≠ -1 ∧ i 2 ≠ -1 then some (time, val (G.at i)) else none

/-! ### The `fprintf` statements -/

/-- `out_quantities_dict` without the expressions: type and name. -/
abbrev Keys := List (Str × Str)

/-- `s[:-n]`. -/
def dropEnd (n : ℕ) (s : Str) : Str := s.take (s.length - n)

/-- The loops that append a conversion and a blank for each key (simple_loop.py:400-402, 579-581; slices:103-105). -/
def addFormats (keys : Keys) (s : Str) : Str :=
  keys.foldl (fun s k => s ++ (if k.1 ≠ (c% "int") then (c% "%.15e") else (c% "%d")) ++ [' ']) s

/-- The loops that append an argument, a comma and a blank (simple_loop.py:408-409, 590-591; slices:107-108). -/
def addArgs (pre : Str) (keys : Keys) (s : Str) : Str := keys.foldl (fun s k => s ++ pre ++ k.2 ++ (c% ", ")) s

/-- `fprintf` of the 0D output (slices:102-109). -/
def print0D (keys : Keys) : Str :=
  let s := addFormats keys (c% "fprintf(outfile, \"%e ")
  let s := dropEnd 1 s ++ (c% "\\n\", time, ")
  dropEnd 2 (addArgs [] keys s) ++ (c% ");\n")

/-- `fprintf` of the 1D output (simple_loop.py:398-411), without the text in front of it. -/
def print1D (keys : Keys) : Str :=
  let s := addFormats keys (c% "  fprintf(outfile, \"%.15e ")
  let s := dropEnd 1 s ++ (c% "\\n\", data_points[i].xCart_axis, ")
  dropEnd 2 (addArgs (c% "data_points[i].") keys s) ++ (c% ");\n}\n")

/-- `fprintf` of the 2D output (simple_loop.py:577-593), without the text in front of it. -/
def print2D (plane : Str) (keys : Keys) : Str :=
  let s := addFormats keys (c% "fprintf(outfile, \"%.15e %.15e ")
  let s := dropEnd 1 s ++ (c% "\\n\", ")
  let s := if plane = (c% "xy") then s ++ (c% "xCart[0], xCart[1], ")
    else if plane = (c% "yz") then s ++ (c% "xCart[1], xCart[2], ") else s
  dropEnd 2 (addArgs [] keys s) ++ (c% ");\n}\n}\n")

end Verif.Diag
