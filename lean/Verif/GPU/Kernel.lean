import Mathlib.Logic.Function.Basic
import Mathlib.Data.Nat.Basic

/-!
# Kernels and copies between host and graphics card

Model of `GPU_Kernel` (`nrpy/helpers/gpu/gpu_kernel.py` 83-210) and of the functions that copy gridfunctions
(`nrpy/helpers/gpu/cuda_utilities.py` 317-442).

Simplifications: the text of the function itself (`CFunction`) is not modelled beyond its parameters; entries of the launch settings are texts.
-/
namespace Verif.GPU.Kernel

/-- Text. -/
abbrev Text := List Char

/-- `gpu_kernel.py` 92, 130, 139, 154-170: the entries of `launch_dict`; `none` if a key is absent. -/
structure Launch where
  threads : List Text
  blocks : List Text
  stream : Option Text
  sm : Option Text
  deriving DecidableEq

/-- `gpu_kernel.py` 83-95: the arguments of the class; parameters are a dictionary from names to types. -/
structure Args where
  name : Text
  params : List (Text × Text)
  decorators : Text
  launch : Option Launch
  streamidParam : Bool
  check : Bool

/-- `gpu_kernel.py` 98-100: `{"streamid": "const size_t", **params_dict}`. -/
def Args.allParams (a : Args) : List (Text × Text) :=
  if a.decorators ≠ "__host__".toList ∧ a.streamidParam then
    match a.params.lookup "streamid".toList with
    | some ty => ("streamid".toList, ty) :: a.params.filter fun p => p.1 ≠ "streamid".toList
    | none => ("streamid".toList, "const size_t".toList) :: a.params
  else a.params

/-- `gpu_kernel.py` 131-132, 141-142: a list filled up to three entries with 1. -/
def pad3 (l : List Text) : List Text := l ++ List.replicate (3 - l.length) "1".toList

/-- An entry of the list filled up. -/
def entry (l : List Text) (i : ℕ) : Text := (pad3 l).getD i []

/-- `gpu_kernel.py` 122, 143: `",".join(...)`. -/
def commas (l : List Text) : Text := (l.intersperse [',']).flatten

/-- `gpu_kernel.py` 133-137: the number of threads. -/
def threadsText (l : List Text) : Text :=
  "\nconst size_t threads_in_x_dir = ".toList ++ entry l 0 ++ ";\nconst size_t threads_in_y_dir = ".toList ++ entry l 1 ++
    ";\nconst size_t threads_in_z_dir = ".toList ++ entry l 2 ++ ";\ndim3 threads_per_block(threads_in_x_dir, threads_in_y_dir, threads_in_z_dir);".toList

/-- `gpu_kernel.py` 139-150: the number of blocks. -/
def blocksText (l : List Text) : Text :=
  if 0 < l.length then "dim3 blocks_per_grid(".toList ++ commas (pad3 l) ++ ");".toList
  else ("dim3 blocks_per_grid(\n    (Nxx_plus_2NGHOSTS0 + threads_in_x_dir - 1) / threads_in_x_dir,\n" ++
    "    (Nxx_plus_2NGHOSTS1 + threads_in_y_dir - 1) / threads_in_y_dir,\n    (Nxx_plus_2NGHOSTS2 + threads_in_z_dir - 1) / threads_in_z_dir\n);").toList

/-- A setting is empty or the word `default`. -/
def isDefault (t : Text) : Prop := t = [] ∨ t = "default".toList

instance (t : Text) : Decidable (isDefault t) := inferInstanceAs (Decidable (_ ∨ _))

/-- `gpu_kernel.py` 153-161: the declaration of the stream. -/
def streamText : Option Text → Option Text
  | none => none
  | some t => some (if isDefault t then "size_t streamid = params->grid_idx % nstreams;".toList else "size_t streamid = ".toList ++ t ++ ";".toList)

/-- `gpu_kernel.py` 165-175: the declaration of the shared memory and the entry `sm` afterwards. -/
def smText (stream sm : Option Text) : Option Text × Option Text :=
  if sm.isSome ∨ (streamText stream).isSome then
    match sm with
    | none => (some "size_t sm = 0;".toList, some "0".toList)
    | some t => if isDefault t then (some "size_t sm = 0;".toList, some "0".toList) else (some ("size_t sm = ".toList ++ t ++ ";".toList), some t)
  else (none, sm)

/-- `gpu_kernel.py` 177-183: `launch_block`. -/
def launchBlock (L : Launch) : Text :=
  threadsText L.threads ++ "\n".toList ++ blocksText L.blocks ++ "\n".toList ++ ((smText L.stream L.sm).1.getD []) ++ ((streamText L.stream).getD [])

/-- `gpu_kernel.py` 185-190: `launch_settings`. -/
def launchSettings (L : Launch) : Text :=
  "<<<blocks_per_grid,threads_per_block".toList ++ (if (smText L.stream L.sm).1.isSome then ",sm".toList else []) ++
    (if (streamText L.stream).isSome then ",streams[streamid]".toList else []) ++ ">>>(".toList

/-- `gpu_kernel.py` 131-132, 141-142, 173: the dictionary of the caller afterwards; its lists are filled up in place. -/
def launchAfter (L : Launch) : Launch :=
  ⟨pad3 L.threads, if 0 < L.blocks.length then pad3 L.blocks else L.blocks, L.stream, (smText L.stream L.sm).2⟩

/-- What the class holds. -/
structure Made where
  block : Text
  settings : Text
  params : List (Text × Text)
  launch : Option Launch

/-- `gpu_kernel.py` 96-124: the constructor; `none` is the exception. -/
def make (a : Args) : Option Made :=
  match a.launch with
  | none => if a.decorators = "__global__".toList then none else some ⟨[], "(".toList, a.allParams, none⟩
  | some L => some ⟨launchBlock L, launchSettings L, a.allParams, some (launchAfter L)⟩

/-- `gpu_kernel.py` 116-122: the parameters of the function, `type name` with commas. -/
def declared (m : Made) : Text := commas (m.params.map fun p => p.2 ++ " ".toList ++ p.1)

/-- Python's `s[:-2]`. -/
def dropLast2 (t : Text) : Text := t.take (t.length - 2)

/-- `gpu_kernel.py` 192-210: `c_function_call`. -/
def call (a : Args) (m : Made) : Text :=
  dropLast2 (a.name ++ m.settings ++ m.params.flatMap fun p => p.1 ++ ", ".toList) ++ ");\n".toList ++
    (if a.check then "cudaCheckErrors(cudaKernel, \"".toList ++ a.name ++ " failure\");\n".toList else [])

/-- `gpu_kernel.py` 147-149: blocks in a direction with `n` points and `t` threads, `(n + t - 1) / t`. -/
def blocksIn (n t : ℕ) : ℕ := (n + t - 1) / t

/-! ### Copies -/

variable {V : Type*}

/-- `cudaMemcpyAsync(&dst[to], &src[from], len, …)`, once it is finished. -/
def memcpy (dst src : ℕ → V) (to frm len : ℕ) : ℕ → V := fun k => if to ≤ k ∧ k < to + len then src (frm + (k - to)) else dst k

/-- `cuda_utilities.py` 352-366: `cpyDevicetoHost__gf`; `tot` is the number of points. The host memory afterwards. -/
def copyToHost (tot : ℕ) (host gpu : ℕ → V) (hostIdx gpuIdx : ℕ) : ℕ → V :=
  let offsetGpu := tot * gpuIdx
  let offsetHost := tot * hostIdx
  memcpy host gpu offsetHost offsetGpu tot

/-- `cuda_utilities.py` 416-430: `cpyHosttoDevice__gf`. The memory of the card afterwards; the offsets are used as they are written there:
`&gf_gpu[offset_host]` and `&gf_host[offset_gpu]`. -/
def copyToDevice (tot : ℕ) (host gpu : ℕ → V) (hostIdx gpuIdx : ℕ) : ℕ → V :=
  let offsetGpu := tot * gpuIdx
  let offsetHost := tot * hostIdx
  memcpy gpu host offsetHost offsetGpu tot

/-- `cuda_utilities.py` 358, 422: the stream of a copy. -/
def streamOf (gridIdx gpuIdx nstreams : ℕ) : ℕ := (gridIdx + gpuIdx) % nstreams

end Verif.GPU.Kernel
