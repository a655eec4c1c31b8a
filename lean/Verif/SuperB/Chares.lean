import Verif.Loop.Simple
import Mathlib.Data.Rat.Defs

/-!
# Model of the distributed grid: superB/chare_communication_maps.py, superB/numerical_grids.py, superB.h

C `int` arithmetic is modelled by natural numbers without overflow; loops `for (i = a; i <= b; i++)` by lists
of the values of `i`.
-/
namespace Verif.SuperB

/-- `IDX3GENERAL` (superB/superB/superB.h:22), and `IDX3_OF_CHARE` (line 21) with the numbers of chares. -/
def idx3 (i j k Ni Nj : Nat) : Nat := i + Ni * (j + Nj * k)

/-- `REVERSE_IDX3GENERAL` (superB/superB/superB.h:23-29). -/
def reverseIdx3 (index Ni Nj : Nat) : Nat × Nat × Nat :=
  let k := index / (Ni * Nj)
  let temp := index % (Ni * Nj)
  (temp % Ni, temp / Ni, k)

/-- `MAP_LOCAL_TO_GLOBAL_IDX0/1/2` (superB/superB/superB.h:31-33). -/
def localToGlobal (chare loc Nxxchare : Nat) : Nat := chare * Nxxchare + loc

/-- `MAP_GLOBAL_TO_LOCAL_IDX0/1/2` (superB/superB/superB.h:35-37). -/
def globalToLocal (chare glob Nxxchare : Nat) : Int := (glob : Int) - chare * Nxxchare

/-- One direction of the global grid: interior points, number of chares. -/
structure Dir where
  Nxx : Nat
  Nchare : Nat

/-- Parameters of the global grid: three directions, number of ghost zones. -/
structure Params where
  d : Fin 3 → Dir
  G : Nat

/-- `Nxx_plus_2NGHOSTS` of the global grid. -/
def Dir.tot (G : Nat) (d : Dir) : Nat := d.Nxx + 2 * G

/-- `Nxx` of a chare (numerical_grids.py:61-62). -/
def Dir.chNxx (d : Dir) : Nat := d.Nxx / d.Nchare

/-- `Nxx_plus_2NGHOSTS` of a chare (numerical_grids.py:67-69). -/
def Dir.chTot (G : Nat) (d : Dir) : Nat := d.chNxx + 2 * G

/-- The checks made before the grid of a chare is set up (numerical_grids.py:33-60): the program exits if
`Nxx % Nchare != 0`, or if `Nchare > 1` and `Nxx / Nchare < NGHOSTS`. -/
def Dir.check (G : Nat) (d : Dir) : Bool :=
  d.Nxx % d.Nchare = 0 && !(decide (1 < d.Nchare) && decide (d.chNxx < G))

/-- `startlocal` (chare_communication_maps.py:57-61, 68-72, 79-83). -/
def Dir.startLocal (G : Nat) (_d : Dir) (ch : Nat) : Nat := if ch = 0 then 0 else G

/-- `endlocal` plus one (chare_communication_maps.py:62-66, 73-77, 84-88). -/
def Dir.endLocal (G : Nat) (d : Dir) (ch : Nat) : Nat :=
  if ch + 1 = d.Nchare then d.chTot G else d.chNxx + G

/-- The values of a local index in the loop of a chare (chare_communication_maps.py:89-91). -/
def Dir.locals (G : Nat) (d : Dir) (ch : Nat) : List Nat :=
  List.range' (d.startLocal G ch) (d.endLocal G ch - d.startLocal G ch)

/-- One assignment of the loop: index of the global point, index of the chare, index of the local point. -/
structure Write where
  glob : Nat
  chare : Nat
  loc : Nat
  deriving DecidableEq, Repr

/-- Index of a local point of a chare (chare_communication_maps.py:92, 118). -/
def Params.locIdx (P : Params) (l : Fin 3 → Nat) : Nat :=
  idx3 (l 0) (l 1) (l 2) ((P.d 0).chTot P.G) ((P.d 1).chTot P.G)

/-- Index of the global point of a local point (chare_communication_maps.py:93-96, 119-122). -/
def Params.globIdx (P : Params) (ch l : Fin 3 → Nat) : Nat :=
  idx3 (localToGlobal (ch 0) (l 0) (P.d 0).chNxx) (localToGlobal (ch 1) (l 1) (P.d 1).chNxx)
    (localToGlobal (ch 2) (l 2) (P.d 2).chNxx) ((P.d 0).tot P.G) ((P.d 1).tot P.G)

/-- Index of a chare (chare_communication_maps.py:97). -/
def Params.chIdx (P : Params) (ch : Fin 3 → Nat) : Nat :=
  idx3 (ch 0) (ch 1) (ch 2) (P.d 0).Nchare (P.d 1).Nchare

def vec (x y z : Nat) : Fin 3 → Nat := fun i => if i = 0 then x else if i = 1 then y else z

/-- The assignments to `globalidx3pt_to_chareidx3` and `globalidx3pt_to_localidx3pt`, in order
(chare_communication_maps.py:56-104). -/
def Params.writes (P : Params) : List Write :=
  (List.range (P.d 2).Nchare).flatMap fun ck => (List.range (P.d 1).Nchare).flatMap fun cj =>
    (List.range (P.d 0).Nchare).flatMap fun ci => ((P.d 2).locals P.G ck).flatMap fun lk =>
      ((P.d 1).locals P.G cj).flatMap fun lj => ((P.d 0).locals P.G ci).map fun li =>
        ⟨P.globIdx (vec ci cj ck) (vec li lj lk), P.chIdx (vec ci cj ck), P.locIdx (vec li lj lk)⟩

/-- The assignments to `localidx3pt_to_globalidx3pt` of a chare: local index, global index
(chare_communication_maps.py:106-126). -/
def Params.localWrites (P : Params) (ch : Fin 3 → Nat) : List (Nat × Nat) :=
  (List.range ((P.d 2).chTot P.G)).flatMap fun lk => (List.range ((P.d 1).chTot P.G)).flatMap fun lj =>
    (List.range ((P.d 0).chTot P.G)).map fun li =>
      (P.locIdx (vec li lj lk), P.globIdx ch (vec li lj lk))

/-- An array of size `n` after a sequence of assignments; `none` = never assigned or out of bounds. -/
def store {α : Type} (n : Nat) (ws : List (Nat × α)) : Nat → Option α := fun g =>
  if g < n then ws.foldl (fun acc w => if w.1 = g then some w.2 else acc) none else none

/-- Number of points of the global grid, `ntot` (chare_communication_maps.py:46). -/
def Params.ntot (P : Params) : Nat := (P.d 0).tot P.G * (P.d 1).tot P.G * (P.d 2).tot P.G

/-- Number of points of a chare, `ntotchare` (chare_communication_maps.py:107). -/
def Params.ntotchare (P : Params) : Nat := (P.d 0).chTot P.G * (P.d 1).chTot P.G * (P.d 2).chTot P.G

/-- `globalidx3pt_to_chareidx3`. -/
def Params.chareOf (P : Params) : Nat → Option Nat := store P.ntot (P.writes.map fun w => (w.glob, w.chare))

/-- `globalidx3pt_to_localidx3pt`. -/
def Params.localOf (P : Params) : Nat → Option Nat := store P.ntot (P.writes.map fun w => (w.glob, w.loc))

/-- `localidx3pt_to_globalidx3pt` of chare `ch`. -/
def Params.globalOf (P : Params) (ch : Fin 3 → Nat) : Nat → Option Nat := store P.ntotchare (P.localWrites ch)

/-- Coordinate of point `j` of the global grid (BHaH/numerical_grids_and_timestep.py:152-154). -/
def coord (G : Nat) (xxmin dxx : ℚ) (j : Nat) : ℚ := xxmin + (((j : ℤ) - G : ℤ) + 1 / 2) * dxx

/-- Coordinate of point `j` of a chare (superB/numerical_grids.py:97-102). -/
def coordChare (G : Nat) (xxmin dxx : ℚ) (d : Dir) (ch j : Nat) : ℚ :=
  xxmin + (((j : ℤ) - G + d.chNxx * ch : ℤ) + 1 / 2) * dxx

end Verif.SuperB
