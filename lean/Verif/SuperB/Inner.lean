import Verif.SuperB.Chares
import Mathlib.Data.Real.Basic
import Mathlib.Logic.Function.Basic

/-!
# Model of the inner boundary conditions on a distributed grid

superB/CurviBoundaryConditions.py:25-270 (`apply_bcs_inner_only_nonlocal`, the inner part of `bcstruct_chare_set_up`),
superB/timestepping_chare.py:29-66, 1078-1186, 1257-1272 (messages).  Simplifications: a gridfunction is a function of its number and
of the local index of the point (the layout is C08); memory that is not set is `none`; an access outside an array ends the
program (`none`).
-/
namespace Verif.SuperB.Inner

/-- An entry of `inner_bc_array` (BHaH/CurviBoundaryConditions/CurviBoundaryConditions.py, `innerpt_bc_struct`). -/
structure Entry where
  dst : ℕ
  src : ℕ
  parity : Fin 10 → ℤ

/-- `tot_num_chares`, `globalidx3pt_to_chareidx3` and `globalidx3pt_to_localidx3pt` (C44). -/
structure Own where
  tot : ℕ
  chare : ℕ → ℕ
  loc : ℕ → ℕ

/-- The gridfunctions of a chare. -/
abbrev GFs := ℕ → ℕ → ℝ

def bump (a : ℕ → ℕ) (i : ℕ) : ℕ → ℕ := Function.update a i (a i + 1)

section
variable (O : Own) (this : ℕ) (pts : List Entry)

/-- `inner_bc_array` of the chare (lines 138-147). -/
def localEntries : List Entry :=
  pts.filterMap fun e =>
    if O.chare e.dst = this then
      if O.chare e.src = this then some ⟨O.loc e.dst, O.loc e.src, e.parity⟩ else none
    else none

/-- `num_inner_chare_nonlocal` (lines 107-120). -/
def numNonlocal : ℕ :=
  pts.foldl (fun n e => if O.chare e.dst = this then if O.chare e.src = this then n else n + 1 else n) 0

/-- `count_nonlocalinnerbc_srcpt_eachchare` (lines 132-151). -/
def srcCount : ℕ → ℕ :=
  pts.foldl (fun a e => if O.chare e.dst = this then if O.chare e.src = this then a else bump a (O.chare e.src) else a) fun _ => 0

/-- `count_nonlocalinnerbc_dstpt_eachchare` (lines 132-158). -/
def dstCount : ℕ → ℕ :=
  pts.foldl (fun a e => if O.chare e.dst = this then a else if O.chare e.src = this then bump a (O.chare e.dst) else a) fun _ => 0

end

/-- `idx3_of_src_chares`, `num_srcpts_each_chare`, `idx3chare_to_src_chare_id` (`none` is -1), and the same for destinations. -/
structure Table where
  idx : List ℕ
  num : List ℕ
  id : ℕ → Option ℕ

/-- The loop that sets them (lines 163-193, 231-257). -/
def table (tot : ℕ) (cnt : ℕ → ℕ) : Table :=
  (List.range tot).foldl (fun t c =>
    if 0 < cnt c then ⟨t.idx ++ [c], t.num ++ [cnt c], Function.update t.id c (some t.idx.length)⟩ else t) ⟨[], [], fun _ => none⟩

/-- `map_srcchare_and_srcpt_id_to_linear_id` (lines 195-203); `cur` is `current_index`. -/
def linear : ℕ → List ℕ → List (List ℕ)
  | _, [] => []
  | cur, n :: ns => (List.range n).map (fun k => cur + k) :: linear (cur + n) ns

/-- State of the loop of lines 210-229: `count_nonlocalinnerbc_srcpt_each_src_chare`, `globalidx3_srcpts`, `inner_bc_array_nonlocal` (local index of
the point and parities). -/
structure Fill where
  cnt : ℕ → ℕ
  pts : ℕ → ℕ → Option ℕ
  bc : ℕ → Option (ℕ × (Fin 10 → ℤ))

/-- The body of the loop.  `n` is the length of `inner_bc_array_nonlocal`; a row of `globalidx3_srcpts` is as long as the row of `lin`. -/
def fillStep (O : Own) (this : ℕ) (T : Table) (lin : List (List ℕ)) (n : ℕ) (f : Fill) (e : Entry) : Option Fill :=
  if O.chare e.dst = this then
    if O.chare e.src ≠ this then do
      let s ← T.id (O.chare e.src)
      let row ← lin[s]?
      let l ← row[f.cnt s]?
      if l < n then
        some ⟨bump f.cnt s, Function.update f.pts s (Function.update (f.pts s) (f.cnt s) (some e.src)),
          Function.update f.bc l (some (O.loc e.dst, e.parity))⟩
      else none
    else some f
  else some f

/-- What a chare knows after `bcstruct_chare_set_up`. -/
structure Bc where
  locals : List Entry
  src : Table
  lin : List (List ℕ)
  pts : ℕ → ℕ → Option ℕ
  bc : ℕ → Option (ℕ × (Fin 10 → ℤ))
  dst : Table

/-- The inner part of `bcstruct_chare_set_up` (lines 104-264). -/
def setUp (O : Own) (pts : List Entry) (this : ℕ) : Option Bc := do
  let T := table O.tot (srcCount O this pts)
  let lin := linear 0 T.num
  let f ← pts.foldlM (fillStep O this T lin (numNonlocal O this pts)) ⟨fun _ => 0, fun _ _ => none, fun _ => none⟩
  some ⟨localEntries O this pts, T, lin, f.pts, f.bc, table O.tot (dstCount O this pts)⟩

/-! ### Messages at the start -/

/-- `send_nonlocalinnerbc_idx3srcpts_toreceiv` (timestepping_chare.py:1079-1101): for each source chare the message (index of the sender, indices
of points). -/
def requests (this : ℕ) (B : Bc) : Option (List (ℕ × (ℕ × List ℕ))) :=
  (List.range B.src.idx.length).mapM fun s => do
    let c ← B.src.idx[s]?
    let n ← B.src.num[s]?
    let l ← (List.range n).mapM (B.pts s)
    some (c, this, l)

/-- `process_nonlocalinnerbc_idx3srcpt_tosend` (timestepping_chare.py:1105-1115) on `globalidx3_srcpts_tosend`. -/
def processRequest (B : Bc) (a : ℕ → ℕ → Option ℕ) (m : ℕ × List ℕ) : Option (ℕ → ℕ → Option ℕ) := do
  let d ← B.dst.id m.1
  let n ← B.dst.num[d]?
  if m.2.length ≤ n then some (Function.update a d fun k => if k < m.2.length then m.2[k]? else a d k) else none

/-- The loop over the messages that have arrived, in the order of arrival (timestepping_chare.py:1264-1272). -/
def processRequests (B : Bc) (ms : List (ℕ × List ℕ)) : Option (ℕ → ℕ → Option ℕ) :=
  ms.foldlM (processRequest B) fun _ _ => none

/-! ### A round -/

/-- `apply_bcs_inner_only` on the chare (BHaH/CurviBoundaryConditions/CurviBoundaryConditions.py:729-790; C66) for the gridfunctions `gfs`. -/
noncomputable def applyLocal (gfs : List ℕ) (types : ℕ → Fin 10) (l : List Entry) (y : GFs) : GFs :=
  gfs.foldl (fun y g => l.foldl (fun y e =>
    Function.update y g (Function.update (y g) e.dst ((e.parity (types g) : ℝ) * y g e.src))) y) y

/-- A message with data: sender, type of the gridfunctions, length, values. -/
structure Msg where
  sender : ℕ
  type : ℕ
  len : ℕ
  vals : ℕ → ℝ

/-- The loop that fills `tmpBuffer_innerbc_send` for destination `d` (timestepping_chare.py:1144-1151). -/
def packLoop (O : Own) (a : ℕ → Option ℕ) (n : ℕ) (y : GFs) (buf : ℕ → ℝ) : List (ℕ × ℕ × ℕ) → Option (ℕ → ℝ)
  | [] => some buf
  | (w, g, k) :: l => do
    let p ← a k
    packLoop O a n y (Function.update buf (k + n * w) (y g (O.loc p))) l

/-- Indices (`which_gf`, `gfs_to_sync[which_gf]`, `which_srcpt`) in the order of the loops. -/
def gfLoop (sync : List ℕ) (n : ℕ) : List (ℕ × ℕ × ℕ) :=
  sync.zipIdx.flatMap fun gw => (List.range n).map fun k => (gw.2, gw.1, k)

/-- `send_nonlocalinnerbc_data` (timestepping_chare.py:1119-1157): the messages with their receivers; `buf d` is what the buffer held before. -/
def sendData (O : Own) (this : ℕ) (B : Bc) (tosend : ℕ → ℕ → Option ℕ) (type : ℕ) (sync : List ℕ) (y : GFs) (buf : ℕ → ℕ → ℝ) :
    Option (List (ℕ × Msg)) :=
  (List.range B.dst.idx.length).mapM fun d => do
    let c ← B.dst.idx[d]?
    let n ← B.dst.num[d]?
    let b ← packLoop O (tosend d) n y (buf d) (gfLoop sync n)
    some (c, ⟨this, type, sync.length * n, b⟩)

/-- `set_tmpBuffer_innerbc_receiv` (timestepping_chare.py:1162-1169). -/
def receive (B : Bc) (bufs : ℕ → ℕ → ℝ) (m : Msg) : Option (ℕ → ℕ → ℝ) := do
  let s ← B.src.id m.sender
  some (Function.update bufs s fun i => if i < m.len then m.vals i else bufs s i)

/-- `apply_bcs_inner_only_nonlocal` for source `s` (CurviBoundaryConditions.py:48-58). -/
noncomputable def applyFrom (B : Bc) (types : ℕ → Fin 10) (row : List ℕ) (n : ℕ) (buf : ℕ → ℝ) (y : GFs) : List (ℕ × ℕ × ℕ) → Option GFs
  | [] => some y
  | (w, g, k) :: l => do
    let lid ← row[k]?
    let (p, par) ← B.bc lid
    applyFrom B types row n buf (Function.update y g (Function.update (y g) p ((par (types g) : ℝ) * buf (k + n * w)))) l

/-- `apply_bcs_inner_only_nonlocal` (CurviBoundaryConditions.py:39-59). -/
noncomputable def applyNonlocal (B : Bc) (types : ℕ → Fin 10) (sync : List ℕ) (bufs : ℕ → ℕ → ℝ) (y : GFs) : Option GFs :=
  (List.range B.src.idx.length).foldlM (fun y s => do
    let row ← B.lin[s]?
    let n ← B.src.num[s]?
    applyFrom B types row n (bufs s) y (gfLoop sync n)) y

/-- A round on a chare once the messages `ms` have been taken in this order (timestepping_chare.py:45-66, 1173-1184). -/
noncomputable def finishRound (B : Bc) (types : ℕ → Fin 10) (sync : List ℕ) (bufs : ℕ → ℕ → ℝ) (ms : List Msg) (y : GFs) : Option GFs := do
  let b ← ms.foldlM (receive B) bufs
  applyNonlocal B types sync b y

end Verif.SuperB.Inner
