import Verif.Loop.Model
import Verif.Py.Num

/-!
# Model of the grid loops: BHaH/simple_loop.py, ETLegacy/simple_loop.py, and the index macros

Simplification: the strings that read precomputed reference-metric quantities
(`ReferenceMetricPrecompute.readvr_str` and the SIMD variants) are an argument.
-/
namespace Verif.Loop
open Verif.Py

/-- Arguments of `simple_loop` (BHaH/simple_loop.py:18-28).  `rfmp` is `some [r0, r1, r2]` when
`enable_rfm_precompute` is set: the three strings selected in lines 159-170. -/
structure SimpleArgs where
  body : Str
  simd : Bool
  region : Str
  readXxs : Bool
  rfmp : Option (Str × Str × Str)
  openMP : Bool
  customPragma : Str
  collapse : Int

/-- Bounds of the region, or ValueError (BHaH/simple_loop.py:117-134). -/
def bounds (region : Str) : Except Err (List Str × List Str) :=
  if region = (c% "all points") then
    .ok ([(c% "0"), (c% "0"), (c% "0")],
      [(c% "Nxx_plus_2NGHOSTS2"), (c% "Nxx_plus_2NGHOSTS1"), (c% "Nxx_plus_2NGHOSTS0")])
  else if region = (c% "interior") then
    .ok ([(c% "NGHOSTS"), (c% "NGHOSTS"), (c% "NGHOSTS")],
      [(c% "NGHOSTS+Nxx2"), (c% "NGHOSTS+Nxx1"), (c% "NGHOSTS+Nxx0")])
  else if region = (c% "interior plus one upper") then
    .ok ([(c% "NGHOSTS"), (c% "NGHOSTS"), (c% "NGHOSTS")],
      [(c% "NGHOSTS+Nxx2+1"), (c% "NGHOSTS+Nxx1+1"), (c% "NGHOSTS+Nxx0+1")])
  else .error .valueError

/-- `read_rfm_xx_arrays` (BHaH/simple_loop.py:136-168). -/
def reads (a : SimpleArgs) : Except Err (Str × Str × Str) := do
  let r ← (if a.readXxs then
      (if a.simd then .error .valueError
       else .ok ((c% "MAYBE_UNUSED const REAL xx0 = xx[0][i0];"), (c% "MAYBE_UNUSED const REAL xx1 = xx[1][i1];"),
        (c% "MAYBE_UNUSED const REAL xx2 = xx[2][i2];")))
    else .ok ([], [], []) : Except Err (Str × Str × Str))
  match a.rfmp with
  | none => return r
  | some s => if a.readXxs then .error .valueError else return s

/-- The OpenMP pragma (BHaH/simple_loop.py:169-179; ETLegacy/simple_loop.py:79-89). -/
def pragmaOf (openMP : Bool) (custom : Str) (collapse : Int) : Str :=
  if openMP ∨ custom ≠ [] then
    (if custom = [] then
      (if collapse > 1 then (c% "#pragma omp parallel for collapse(") ++ intStr collapse ++ (c% ")")
       else (c% "#pragma omp parallel for"))
     else custom)
  else []

/-- The increments (BHaH/simple_loop.py:180; ETLegacy/simple_loop.py:90). -/
def increments (simd : Bool) : List Str :=
  if simd then [(c% "1"), (c% "1"), (c% "simd_width")] else [(c% "1"), (c% "1"), (c% "1")]

/-- Where the reads go (BHaH/simple_loop.py:182-197): what precedes each loop, and what precedes the
body. -/
def placeReads (pragma : Str) (r : Str × Str × Str) (collapse : Int) : List Str × Str :=
  if collapse = 2 then ([pragma, [], r.2.2 ++ r.2.1], r.1)
  else if collapse = 3 then ([pragma, [], []], r.2.2 ++ r.2.1 ++ r.1)
  else ([pragma, r.2.2, r.2.1], r.1)

/-- `simple_loop` (BHaH/simple_loop.py:117-208). -/
def simpleLoop (a : SimpleArgs) : Except Err Str := do
  if a.region = [] then return a.body
  let (mins, maxs) ← bounds a.region
  let r ← reads a
  let (prefixes, pre) := placeReads (pragmaOf a.openMP a.customPragma a.collapse) r a.collapse
  loopText [(c% "i2"), (c% "i1"), (c% "i0")] mins maxs (increments a.simd) prefixes [] (pre ++ a.body)

/-- Bounds of the Einstein-Toolkit loop (ETLegacy/simple_loop.py:59-77). -/
def boundsET (region : Str) : Except Err (List Str × List Str) :=
  if region = (c% "all points") then
    .ok ([(c% "0"), (c% "0"), (c% "0")], [(c% "cctk_lsh[2]"), (c% "cctk_lsh[1]"), (c% "cctk_lsh[0]")])
  else if region = (c% "interior") then
    .ok ([(c% "cctk_nghostzones[2]"), (c% "cctk_nghostzones[1]"), (c% "cctk_nghostzones[0]")],
      [(c% "cctk_lsh[2]-cctk_nghostzones[2]"), (c% "cctk_lsh[1]-cctk_nghostzones[1]"),
        (c% "cctk_lsh[0]-cctk_nghostzones[0]")])
  else .error .valueError

/-- `simple_loop` of ETLegacy (ETLegacy/simple_loop.py:58-101; the empty region is an error here). -/
def simpleLoopET (a : SimpleArgs) : Except Err Str := do
  let (mins, maxs) ← boundsET a.region
  loopText [(c% "i2"), (c% "i1"), (c% "i0")] mins maxs (increments a.simd)
    [pragmaOf a.openMP a.customPragma a.collapse, [], []] [] a.body

/-- `IDX3` (BHaH/BHaH_defines_h.py:354), also `IDX3GENERAL` (superB/superB/superB.h:22). -/
def idx3 (N0 N1 : Int) (i j k : Int) : Int := i + N0 * (j + N1 * k)

/-- `IDX4` (BHaH/BHaH_defines_h.py:351-352). -/
def idx4 (N0 N1 N2 : Int) (gf i j k : Int) : Int := i + N0 * (j + N1 * (k + N2 * gf))

/-- `IDX4pt` (BHaH/BHaH_defines_h.py:353). -/
def idx4pt (N0 N1 N2 : Int) (gf idx : Int) : Int := idx + N0 * N1 * N2 * gf

end Verif.Loop
