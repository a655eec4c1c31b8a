import Verif.SIMD.Props
import Mathlib.Algebra.BigOperators.Fin

/-!
# Model of the intrinsics headers

nrpy/helpers/simd_intrinsics.h and nrpy/helpers/cuda_intrinsics.h define the same macros for each
instruction set.  A vector register is a function from lanes to numbers; the machine intrinsics used by
the macros are lane-wise operations (Intel Intrinsics Guide; trusted).

Simplifications: lanes hold real numbers, so rounding (and hence the difference between fused and unfused
operations) is not modelled.  `AbsSIMD` and `UPWIND_ALG` work on the bits of doubles; they are
modelled separately on 64-bit words (`absBits`, `upwindBits`).  In a CUDA build the names end with `CUDA`
instead of `SIMD`.  `_mm*_exp_pd`, `_mm*_sin_pd`, `_mm*_cos_pd` are not hardware instructions but
functions of Intel's vector math library; they are taken to exist.
-/
namespace Verif.SIMD
open Verif.Py Verif.Sympy Verif.Sympy.Expr

/-- The branches of the two headers: simd_intrinsics.h:12-55 (`__AVX512F__`), 58-123 (`__AVX__`, with and
without `__FMA__`), 126-197 (`__SSE2__`, with and without `__FMA__` and `__SSE3__`), 199-237 (none);
cuda_intrinsics.h:2-40 (`__NVCC__`), 43-81 (otherwise). -/
inductive Isa
  | avx512
  | avx (fma : Bool)
  | sse2 (fma sse3 : Bool)
  | scalar
  | cuda
  | cudaScalar
  deriving DecidableEq, Repr

/-- `simd_width`, `CUDA_width` (simd_intrinsics.h:17, 61, 129, 202; cuda_intrinsics.h:5, 46). -/
def Isa.width : Isa → Nat
  | .avx512 => 8
  | .avx _ => 4
  | .sse2 .. => 2
  | .scalar => 1
  | .cuda => 1
  | .cudaScalar => 1

/-- `REAL_SIMD_ARRAY` (simd_intrinsics.h:16, 60, 128, 201; cuda_intrinsics.h:4, 45). -/
abbrev Isa.Vec (i : Isa) : Type := Fin i.width → ℝ

/-! ## Machine intrinsics (lane by lane) -/

section
variable {n : Nat}

def mmAdd (a b : Fin n → ℝ) : Fin n → ℝ := fun i => a i + b i
def mmSub (a b : Fin n → ℝ) : Fin n → ℝ := fun i => a i - b i
def mmMul (a b : Fin n → ℝ) : Fin n → ℝ := fun i => a i * b i
noncomputable def mmDiv (a b : Fin n → ℝ) : Fin n → ℝ := fun i => a i / b i
/-- `_mm*_fmadd_pd`, `__fma_rn` -/
def mmFmadd (a b c : Fin n → ℝ) : Fin n → ℝ := fun i => a i * b i + c i
/-- `_mm*_fmsub_pd` -/
def mmFmsub (a b c : Fin n → ℝ) : Fin n → ℝ := fun i => a i * b i - c i
/-- `_mm*_fnmadd_pd` -/
def mmFnmadd (a b c : Fin n → ℝ) : Fin n → ℝ := fun i => -(a i * b i) + c i
/-- `_mm*_fnmsub_pd` -/
def mmFnmsub (a b c : Fin n → ℝ) : Fin n → ℝ := fun i => -(a i * b i) - c i
/-- `_mm*_set1_pd` -/
def mmSet1 (x : ℝ) : Fin n → ℝ := fun _ => x
/-- `_mm*_sqrt_pd`, `_mm*_exp_pd`, ... -/
def mmMap (f : ℝ → ℝ) (a : Fin n → ℝ) : Fin n → ℝ := fun i => f (a i)
/-- unary minus of the scalar branches -/
def mmNeg (a : Fin n → ℝ) : Fin n → ℝ := fun i => -(a i)

end

/-! ## Fused operations -/

/-- `FusedMulAddSIMD` (simd_intrinsics.h:39, 97, 104, 162, 168, 213; cuda_intrinsics.h:16, 57). -/
def Isa.fma : (i : Isa) → (a b c : i.Vec) → i.Vec
  | .avx512, a, b, c => mmFmadd a b c
  | .avx true, a, b, c => mmFmadd a b c
  | .avx false, a, b, c => mmAdd (mmMul a b) c
  | .sse2 true _, a, b, c => mmFmadd a b c
  | .sse2 false _, a, b, c => mmAdd (mmMul a b) c
  | .scalar, a, b, c => mmAdd (mmMul a b) c
  | .cuda, a, b, c => mmFmadd a b c
  | .cudaScalar, a, b, c => mmAdd (mmMul a b) c

/-- `FusedMulSubSIMD` (simd_intrinsics.h:40, 98, 105, 163, 169, 214; cuda_intrinsics.h:17, 58). -/
def Isa.fms : (i : Isa) → (a b c : i.Vec) → i.Vec
  | .avx512, a, b, c => mmFmsub a b c
  | .avx true, a, b, c => mmFmsub a b c
  | .avx false, a, b, c => mmSub (mmMul a b) c
  | .sse2 true _, a, b, c => mmFmsub a b c
  | .sse2 false _, a, b, c => mmSub (mmMul a b) c
  | .scalar, a, b, c => mmSub (mmMul a b) c
  | .cuda, a, b, c => mmFmadd a b (mmMul (mmSet1 (-1)) c)
  | .cudaScalar, a, b, c => mmSub (mmMul a b) c

/-- `NegFusedMulAddSIMD` (simd_intrinsics.h:41, 99, 106, 164, 170, 215; cuda_intrinsics.h:18, 59). -/
def Isa.nfma : (i : Isa) → (a b c : i.Vec) → i.Vec
  | .avx512, a, b, c => mmFnmadd a b c
  | .avx true, a, b, c => mmFnmadd a b c
  | .avx false, a, b, c => mmSub c (mmMul a b)
  | .sse2 true _, a, b, c => mmSub c (mmMul a b)
  | .sse2 false _, a, b, c => mmSub c (mmMul a b)
  | .scalar, a, b, c => mmSub c (mmMul a b)
  | .cuda, a, b, c => mmSub c (mmMul a b)
  | .cudaScalar, a, b, c => mmSub c (mmMul a b)

/-- `NegFusedMulSubSIMD` (simd_intrinsics.h:42, 100, 111, 165, 174, 216; cuda_intrinsics.h:19, 60). -/
def Isa.nfms : (i : Isa) → (a b c : i.Vec) → i.Vec
  | .avx512, a, b, c => mmFnmsub a b c
  | .avx true, a, b, c => mmFnmsub a b c
  | .avx false, a, b, c => mmSub c (mmAdd c (mmAdd (mmMul a b) c))
  | .sse2 true _, a, b, c => mmSub c (mmSub c (mmSub (mmMul a b) c))
  | .sse2 false _, a, b, c => mmSub c (mmAdd c (mmAdd (mmMul a b) c))
  | .scalar, a, b, c => mmNeg (mmAdd (mmMul a b) c)
  | .cuda, a, b, c => mmMul (mmSet1 (-1)) (mmFmadd a b c)
  | .cudaScalar, a, b, c => mmNeg (mmAdd (mmMul a b) c)

/-! ## Horizontal sum -/

/-- `HorizAddSIMD` (simd_intrinsics.h:50, 117-123, 183-187, 191-196, 237; cuda_intrinsics.h:40, 81).
`_mm512_reduce_add_pd` adds the two halves until one lane is left. -/
def Isa.horizAdd : (i : Isa) → i.Vec → ℝ
  | .avx512, v =>
    let h4 : Fin 4 → ℝ := fun j => v ⟨j + 4, by have := j.2; show _ < 8; omega⟩ +
      v ⟨j, by have := j.2; show _ < 8; omega⟩
    let h2 : Fin 2 → ℝ := fun j => h4 ⟨j + 2, by omega⟩ + h4 ⟨j, by omega⟩
    h2 0 + h2 1
  | .avx _, v =>
    let low : Fin 2 → ℝ := fun j => v ⟨j, by have := j.2; show _ < 4; omega⟩
    let high : Fin 2 → ℝ := fun j => v ⟨j + 2, by have := j.2; show _ < 4; omega⟩
    let sum := mmAdd low high
    sum 0 + sum 1
  | .sse2 _ true, v =>
    let hadd : Fin 2 → ℝ := fun _ => v (0 : Fin 2) + v (1 : Fin 2)
    hadd 0
  | .sse2 _ false, v =>
    let temp : Fin 2 → ℝ := fun j => v (1 - j : Fin 2)
    mmAdd (n := 2) v temp 0
  | .scalar, v => v (0 : Fin 1)
  | .cuda, v => v (0 : Fin 1)
  | .cudaScalar, v => v (0 : Fin 1)

/-! ## Operations on bits -/

/-- `AbsSIMD` on the bits of a lane (simd_intrinsics.h:45, 74, 132).  The scalar branches call `fabs`,
which clears the sign bit (IEEE 754). -/
def Isa.absBits : Isa → BitVec 64 → BitVec 64
  | .avx512, a => a &&& 0x7FFFFFFFFFFFFFFF#64
  | .avx _, a => ~~~0x8000000000000000#64 &&& a
  | .sse2 .., a => ~~~0x8000000000000000#64 &&& a
  | .scalar, a => a &&& 0x7FFFFFFFFFFFFFFF#64
  | .cuda, a => a &&& 0x7FFFFFFFFFFFFFFF#64
  | .cudaScalar, a => a &&& 0x7FFFFFFFFFFFFFFF#64

/-- `UPWIND_ALG` on the bits of a lane (simd_intrinsics.h:55, 71, 157, 232; cuda_intrinsics.h:35, 76): `gt`
says whether the lane is greater than `zero` (= `upwind_Integer_0`), `one` is `upwind_Integer_1`.  The
comparison of AVX and SSE2 yields all ones or all zeros; AVX512 adds `zero` and `one` (here: keeps `one`)
under a mask and takes `zero` elsewhere; the scalar branches ignore the two constants. -/
def Isa.upwindBits : Isa → (gt : Bool) → (zero one : BitVec 64) → BitVec 64
  | .avx512, gt, zero, one => if gt then one else zero
  | .avx _, gt, _, one => (if gt then BitVec.allOnes 64 else 0#64) &&& one
  | .sse2 .., gt, _, one => (if gt then BitVec.allOnes 64 else 0#64) &&& one
  | .scalar, gt, _, _ => if gt then 0x3FF0000000000000#64 else 0#64
  | .cuda, gt, _, _ => if gt then 0x3FF0000000000000#64 else 0#64
  | .cudaScalar, gt, _, _ => if gt then 0x3FF0000000000000#64 else 0#64

/-! ## The macros of the header -/

/-- A macro with one, two or three arguments. -/
inductive Macro (i : Isa) where
  | one (f : i.Vec → i.Vec)
  | two (f : i.Vec → i.Vec → i.Vec)
  | three (f : i.Vec → i.Vec → i.Vec → i.Vec)

/-- The macros that can occur in expressions; any other name is not defined by the header.  (`AbsSIMD` is
taken with the meaning that `absBits` has on doubles, see `C54_abs`.) -/
noncomputable def Isa.macros (i : Isa) : List (Str × Macro i) :=
  [((c% "AbsSIMD"), .one (mmMap abs)),
   ((c% "AddSIMD"), .two mmAdd), ((c% "SubSIMD"), .two mmSub),
   ((c% "MulSIMD"), .two mmMul), ((c% "DivSIMD"), .two mmDiv),
   ((c% "SqrtSIMD"), .one (mmMap Real.sqrt)), ((c% "ExpSIMD"), .one (mmMap Real.exp)),
   ((c% "SinSIMD"), .one (mmMap Real.sin)), ((c% "CosSIMD"), .one (mmMap Real.cos)),
   ((c% "FusedMulAddSIMD"), .three i.fma), ((c% "FusedMulSubSIMD"), .three i.fms),
   ((c% "NegFusedMulAddSIMD"), .three i.nfma), ((c% "NegFusedMulSubSIMD"), .three i.nfms)]

/-- Expansion of a macro call; `none` if there is no such macro or the number of arguments is wrong. -/
noncomputable def Isa.call (i : Isa) (n : Str) (args : List i.Vec) : Option i.Vec :=
  match i.macros.find? (fun p => p.1 = n), args with
  | some (_, .one f), [a] => some (f a)
  | some (_, .two f), [a, b] => some (f a b)
  | some (_, .three f), [a, b, c] => some (f a b c)
  | _, _ => none

mutual
/-- Value of a generated right-hand side: symbols are vector variables; only macros of the header may be
called.  `none`: the code does not compile (a number where a vector is needed, an unknown function) or
uses `+`, `*`, `pow` on vectors. -/
noncomputable def evalVec (i : Isa) (ρ : Str → i.Vec) : Expr → Option i.Vec
  | .sym s => some (ρ s)
  | .num _ => none
  | .app (.fn n) l => match evalVecs i ρ l with
    | some args => i.call n args
    | none => none
  | .app _ _ => none
noncomputable def evalVecs (i : Isa) (ρ : Str → i.Vec) : List Expr → Option (List i.Vec)
  | [] => some []
  | e :: l => match evalVec i ρ e, evalVecs i ρ l with
    | some v, some vs => some (v :: vs)
    | _, _ => none
end

end Verif.SIMD
