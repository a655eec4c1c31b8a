import Verif.SuperB.Chares

/-!
# Model of the ghost-zone exchange (superB/timestepping_chare.py)

`V` is the type of values.  Memory is a function from offsets; a message is a list, and reading past its end
gives the arbitrary value `junk`.  Loops with a decremented or incremented index are modelled by giving the
index as a function of `which_inner`.
-/
namespace Verif.SuperB

abbrev Mem (V : Type) := Nat → V

/-- A sequence of assignments to memory. -/
def writeAll {V : Type} (ws : List (Nat × V)) (m : Mem V) : Mem V :=
  ws.foldl (fun m w => fun k => if k = w.1 then w.2 else m k) m

/-- The local grid of a chare: `Nxx0/1/2` of the chare and `NGHOSTS`. -/
structure Box where
  n : Fin 3 → Nat
  G : Nat

/-- `Nxx_plus_2NGHOSTS` of the chare. -/
def Box.N (B : Box) (i : Fin 3) : Nat := B.n i + 2 * B.G

/-- `IDX4` (BHaH/BHaH_defines_h.py:351-352). -/
def Box.idx4 (B : Box) (g : Nat) (l : Fin 3 → Nat) : Nat :=
  l 0 + B.N 0 * (l 1 + B.N 1 * (l 2 + B.N 2 * g))

/-- The two directions of a face, first the one that varies fastest. -/
def faceA : Fin 3 → Fin 3
  | 0 => 1
  | 1 => 0
  | 2 => 0

def faceB : Fin 3 → Fin 3
  | 0 => 2
  | 1 => 2
  | 2 => 1

/-- `IDXFACES0`, `IDXFACES1`, `IDXFACES2` (superB/superB/superB.h:39-41). -/
def Box.idxFace (B : Box) (dir : Fin 3) (g inner a b : Nat) : Nat :=
  a + B.N (faceA dir) * (b + B.N (faceB dir) * (inner + B.G * g))

/-- The point with index `i` along `dir` and face indices `a`, `b`. -/
def point (dir : Fin 3) (i a b : Nat) : Fin 3 → Nat :=
  match dir with
  | 0 => vec i a b
  | 1 => vec a i b
  | 2 => vec a b i

/-- Towards lower or higher index of the chare. -/
inductive Side
  | low
  | high
  deriving DecidableEq, Repr

/-- The other side. -/
def Side.flip : Side → Side
  | .low => .high
  | .high => .low

/-- Index along `dir` of the `inner`-th plane sent to the lower or higher neighbour
(timestepping_chare.py:813-823, 828-838, and the same for the other directions up to 902). -/
def Box.sendPlane (B : Box) (dir : Fin 3) (s : Side) (inner : Nat) : Nat :=
  match s with
  | .low => 2 * B.G - 1 - inner
  | .high => B.n dir + inner

/-- Index along `dir` of the `inner`-th plane filled by `process_ghost`: `high` is `EAST_GHOST`, `NORTH_GHOST`,
`TOP_GHOST`; `low` is `WEST_GHOST`, `SOUTH_GHOST`, `BOTTOM_GHOST` (timestepping_chare.py:928-1006). -/
def Box.recvPlane (B : Box) (dir : Fin 3) (s : Side) (inner : Nat) : Nat :=
  match s with
  | .low => inner
  | .high => B.n dir + 2 * B.G - 1 - inner

/-- The four nested loops over grid functions, planes and the two face directions. -/
def Box.faces {α : Type} (B : Box) (dir : Fin 3) (num : Nat) (f : Nat → Nat → Nat → Nat → α) : List α :=
  (List.range num).flatMap fun g => (List.range B.G).flatMap fun inner =>
    (List.range (B.N (faceB dir))).flatMap fun b => (List.range (B.N (faceA dir))).map fun a => f g inner a b

/-- Number of values sent (timestepping_chare.py:824, 839, 856, 871, 888, 903). -/
def Box.len (B : Box) (dir : Fin 3) (num : Nat) : Nat := num * B.G * B.N (faceA dir) * B.N (faceB dir)

/-- `gfs_to_sync`: the numbers of the grid functions to exchange; `NUM_GFS` is its length. -/
abbrev Sync := List Nat

/-- The message sent to the neighbour on side `s` (timestepping_chare.py:789-909): the buffer is filled, then
its first `len` values are copied into the message.  `buf` is the previous content of the buffer. -/
def Box.pack {V : Type} (B : Box) (dir : Fin 3) (s : Side) (sync : Sync) (buf gfs : Mem V) : List V :=
  let buf' := writeAll (B.faces dir sync.length fun g inner a b =>
    (B.idxFace dir g inner a b, gfs (B.idx4 (sync.getD g 0) (point dir (B.sendPlane dir s inner) a b)))) buf
  (List.range (B.len dir sync.length)).map buf'

/-- `process_ghost` (timestepping_chare.py:912-1008). -/
def Box.unpack {V : Type} (B : Box) (junk : V) (dir : Fin 3) (s : Side) (sync : Sync) (vals : List V)
    (gfs : Mem V) : Mem V :=
  writeAll (B.faces dir sync.length fun g inner a b =>
    (B.idx4 (sync.getD g 0) (point dir (B.recvPlane dir s inner) a b),
      vals.getD (B.idxFace dir g inner a b) junk)) gfs

/-- The grid of a chare. -/
def Params.box (P : Params) : Box := ⟨fun i => (P.d i).chNxx, P.G⟩

/-- The neighbour of a chare in a direction. -/
def Params.nbr (P : Params) (ch : Fin 3 → Nat) (dir : Fin 3) : Side → Option (Fin 3 → Nat)
  | .low => if 0 < ch dir then some (fun i => if i = dir then ch i - 1 else ch i) else none
  | .high => if ch dir + 1 < (P.d dir).Nchare then some (fun i => if i = dir then ch i + 1 else ch i) else none

/-- Processing the message of the neighbour on side `s`, if there is one (timestepping_chare.py:134-164); the
neighbour has sent it to its other side. -/
def Params.receive {V : Type} (P : Params) (junk : V) (buf : Mem V) (dir : Fin 3) (sync : Sync) (s : Side)
    (D : (Fin 3 → Nat) → Mem V) (ch : Fin 3 → Nat) (m : Mem V) : Mem V :=
  match P.nbr ch dir s, s with
  | some c, .high => P.box.unpack junk dir .high sync (P.box.pack dir .low sync buf (D c)) m
  | some c, .low => P.box.unpack junk dir .low sync (P.box.pack dir .high sync buf (D c)) m
  | none, _ => m

/-- One exchange along a direction, all chares at once: messages are made from the data before the exchange;
the message of the higher neighbour is processed first (timestepping_chare.py:134-164). -/
def Params.exchange {V : Type} (P : Params) (junk : V) (buf : Mem V) (dir : Fin 3) (sync : Sync)
    (D : (Fin 3 → Nat) → Mem V) : (Fin 3 → Nat) → Mem V := fun ch =>
  P.receive junk buf dir sync .low D ch (P.receive junk buf dir sync .high D ch (D ch))

end Verif.SuperB
