import Mathlib.Logic.Function.Basic
import Mathlib.Data.Nat.Basic

/-!
# Reductions on graphics cards

Model of the kernels and host functions generated by `CUDA_reductions`
(`nrpy/helpers/gpu/cuda_utilities.py` 458-680): sum, minimum and maximum of an array.

Simplifications: memory of the card and of the host are values; calls of the CUDA library succeed; the launch limits of a
card are not modelled. Numbers are arbitrary for the sum. For minimum and maximum they are bit patterns of the type
`double`.
-/
namespace Verif.GPU

/-- `cuda_utilities.py` 458-506, 545-557: the statement that combines a number into the accumulator, the initial value
converted to `REAL`, and the atomic operation on the result (old content, new number). -/
structure Red (V : Type*) where
  op : V → V → V
  lim : V
  atomic : V → V → V

/-- The type `uint` has 32 bits. -/
def uintSize : ℕ := 2 ^ 32

/-- `warpSize` of CUDA. -/
def warpSize : ℕ := 32

/-- `cuda_utilities.py` 587, 604-609: the indices that a thread visits, `while(idx < data_length) { …; idx += gridDim.x * blockDim.x; }`,
in the arithmetic of `uint`. A loop that never ends has no list. -/
inductive Visits (n stride : ℕ) : ℕ → List ℕ → Prop
  | done {idx : ℕ} : n ≤ idx → Visits n stride idx []
  | step {idx : ℕ} {l : List ℕ} : idx < n → Visits n stride ((idx + stride) % uintSize) l → Visits n stride idx (idx :: l)

variable {V : Type*}

/-- `cuda_utilities.py` 593, 605-606: the accumulator of a thread after its loop. -/
def threadAcc (R : Red V) (data : ℕ → V) (visited : List ℕ) : V := visited.foldl (fun acc i => R.op acc (data i)) R.lim

/-- `cuda_utilities.py` 612-613: one pass of the shuffle: `__shfl_down_sync` gives to each lane the number of the lane
`offset` above it, and its own number if there is none. -/
def shuffleStep (R : Red V) (offset : ℕ) (v : ℕ → V) : ℕ → V :=
  fun lane => R.op (v lane) (if lane + offset < warpSize then v (lane + offset) else v lane)

/-- `cuda_utilities.py` 611-614: `for(offset = …; offset > 0; offset >>= 1)`. -/
def shuffle (R : Red V) (offset : ℕ) (v : ℕ → V) : ℕ → V :=
  if _h : offset = 0 then v else shuffle R (offset / 2) (shuffleStep R offset v)
termination_by offset
decreasing_by omega

/-- `cuda_utilities.py` 599-602, 611-618: what lane 0 of a warp puts into `shared_data`. `acc` is the accumulator of each
thread of the block. -/
def warpResult (R : Red V) (acc : ℕ → V) (warp : ℕ) : V := shuffle R (warpSize / 2) (fun lane => acc (warp * warpSize + lane)) 0

/-- `cuda_utilities.py` 581, 616-618: `shared_data` at the barrier. The warps write in any order, into memory with any
content. -/
def sharedData (R : Red V) (acc : ℕ → V) (order : List ℕ) (start : ℕ → V) : ℕ → V :=
  order.foldl (fun s w => Function.update s w (warpResult R acc w)) start

/-- `cuda_utilities.py` 625-638: what thread 0 of a block gives to the atomic operation. -/
def blockResult (R : Red V) (threads : ℕ) (acc : ℕ → V) (order : List ℕ) (start : ℕ → V) : V :=
  shuffle R (warpSize / 2) (fun lane => if lane < threads / warpSize then sharedData R acc order start lane else R.lim) 0

/-- `cuda_utilities.py` 649-650: the number of blocks, `(data_length + threadCount - 1) / threadCount`, in `uint`. -/
def blockCount (n threads : ℕ) : ℕ := ((n + threads - 1) % uintSize) / threads

/-- What is left open by the program: the order in which the blocks reach the atomic operation, the order of the warps in each
block and the content of the shared memory. -/
structure Sched (V : Type*) where
  blocks : List ℕ
  warps : ℕ → List ℕ
  shared : ℕ → ℕ → V

/-- Each block and each warp has its turn once. -/
def Sched.Ok (S : Sched V) (n threads : ℕ) : Prop :=
  S.blocks.Perm (List.range (blockCount n threads)) ∧ ∀ b, (S.warps b).Perm (List.range (threads / warpSize))

/-- `cuda_utilities.py` 587, 639, 646-678: the value returned. `vis t` is the list of indices that the thread with global number `t`
visits; `threads` is `threadCount`. -/
def findGlobal (R : Red V) (n threads : ℕ) (data : ℕ → V) (vis : ℕ → List ℕ) (S : Sched V) : V :=
  S.blocks.foldl (fun d b => R.atomic d (blockResult R threads (fun t => threadAcc R data (vis (t + threads * b))) (S.warps b) (S.shared b))) R.lim

/-- All threads of the launch visit the indices that the loop gives them. -/
def Runs (n threads : ℕ) (vis : ℕ → List ℕ) : Prop :=
  ∀ t < threads * blockCount n threads, Visits n (blockCount n threads * threads % uintSize) t (vis t)

/-- `cuda_utilities.py` 647: the number of threads in a block. -/
def threadCount : ℕ := 32

/-! ### Numbers -/

/-- The bit of the sign in a `double`. -/
def signBit : ℕ := 2 ^ 63

/-- The bits of infinity in a `double`; larger magnitudes are NaN. -/
def infBits : ℕ := 0x7FF0000000000000

/-- The bits without the sign. -/
def mag (b : ℕ) : ℕ := if b < signBit then b else b - signBit

/-- The number is NaN. -/
def NaN (b : ℕ) : Prop := infBits < mag b

instance (b : ℕ) : Decidable (NaN b) := inferInstanceAs (Decidable (_ < _))

/-- The place of a number in the order of `double`; both zeros have place 0. -/
def key (b : ℕ) : ℤ := if b < signBit then (b : ℤ) else -((b : ℤ) - signBit)

/-- The comparison `a < b` of C on `double`; false if one of them is NaN. -/
def FLt (a b : ℕ) : Prop := ¬NaN a ∧ ¬NaN b ∧ key a < key b

instance (a b : ℕ) : Decidable (FLt a b) := inferInstanceAs (Decidable (_ ∧ _ ∧ _))

/-- The bits of `(double) 0xFFFFFFFFU`, that is 4294967295. -/
def bigLimit : ℕ := 0x41EFFFFFFFE00000

/-- `cuda_utilities.py` 458-470, 548, 556, 639: the minimum; `atomicMin` compares the bits as `unsigned long long int`. -/
def minRed : Red ℕ where
  op red cmp := if FLt cmp red then cmp else red
  lim := bigLimit
  atomic old new := if new < old then new else old

/-- `cuda_utilities.py` 473-485, 547, 557, 639: the maximum; the initial value is 0, and `atomicMax` compares the bits. -/
def maxRed : Red ℕ where
  op red cmp := if FLt red cmp then cmp else red
  lim := 0
  atomic old new := if old < new then new else old

/-- `cuda_utilities.py` 488-496, 546, 555: the sum, for any addition and zero. -/
def sumRed (V : Type*) [Add V] [Zero V] : Red V where
  op red cmp := red + cmp
  lim := 0
  atomic old new := old + new

end Verif.GPU
