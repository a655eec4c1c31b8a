import Verif.SuperB.Halo
import Mathlib.Logic.Function.Basic

/-!
# Model of the schedule of the distributed time stepping (superB/timestepping_chare.py)

Every chare runs the same program: a sequence of computations and ghost-zone exchanges.  Chares run
asynchronously; a message first is in flight, then in the inbox of the receiver, then consumed by a `when`.
Not modelled: the messages of the nonlocal inner boundary conditions, diagnostics, checkpoints and reductions.
The loop `while (commondata.time < commondata.t_final)` is unrolled: all chares hold the same time and so make
the same number of turns.
-/
namespace Verif.SuperB

/-- One step of the program: a `serial` block that computes (timestepping_chare.py:1539-1544), or an exchange of
the grid functions of type `ty` along `dir` (timestepping_chare.py:1563-1577). -/
inductive Instr (C Ty D : Type) where
  | comp (f : C → D → D)
  | exch (dir : Fin 3) (ty : Ty)

/-- What the exchange consists of: the neighbours of chares, making a message for the neighbour on a side
(`send_neighbor_data`), processing a message from the neighbour on a side (`process_ghost`; the type of grid
functions comes with the message). -/
structure Net (C Ty D M : Type) where
  nbr : C → Fin 3 → Side → Option C
  pack : Fin 3 → Side → Ty → D → M
  unpack : Fin 3 → Side → M → D → D

/-- Where a chare is in an exchange: before the sends, or at the `when` for the neighbour on a side. -/
inductive Stage
  | start
  | wait (s : Side)
  deriving DecidableEq, Repr

/-- `flight c dir s` and `inbox c dir s` hold the messages to chare `c` for entry methods `east_ghost` (`dir` = 0,
`s` = high), `west_ghost` (0, low), `north_ghost`, `south_ghost`, `top_ghost`, `bottom_ghost`. -/
structure St (C D M : Type) where
  pc : C → Nat
  stage : C → Stage
  data : C → D
  flight : C → Fin 3 → Side → List M
  inbox : C → Fin 3 → Side → List M

variable {C Ty D M : Type} [DecidableEq C]

/-- After the `when` for a side: first the higher neighbour, then the lower one
(timestepping_chare.py:151-164). -/
def St.advance (st : St C D M) (c : C) (s : Side) : St C D M :=
  match s with
  | .high => { st with stage := Function.update st.stage c (.wait .low) }
  | .low => { st with stage := Function.update st.stage c .start, pc := Function.update st.pc c (st.pc c + 1) }

/-- Steps.  With `fifo` each channel delivers messages in the order they were sent; without, in any order. -/
inductive Step (N : Net C Ty D M) (fifo : Prop) (prog : List (Instr C Ty D)) : St C D M → St C D M → Prop
  /-- A `serial` block. -/
  | comp (st : St C D M) (c : C) (f : C → D → D) (hi : prog[st.pc c]? = some (.comp f))
      (hs : st.stage c = .start) :
      Step N fifo prog st { st with
        pc := Function.update st.pc c (st.pc c + 1)
        data := Function.update st.data c (f c (st.data c)) }
  /-- `send_neighbor_data` (timestepping_chare.py:789-909). -/
  | send (st : St C D M) (c : C) (dir : Fin 3) (ty : Ty) (hi : prog[st.pc c]? = some (.exch dir ty))
      (hs : st.stage c = .start) :
      Step N fifo prog st { st with
        stage := Function.update st.stage c (.wait .high)
        flight := fun c' d s =>
          if d = dir ∧ N.nbr c dir s.flip = some c' then
            st.flight c' d s ++ [N.pack dir s.flip ty (st.data c)]
          else st.flight c' d s }
  /-- A message arrives. -/
  | deliver (st : St C D M) (c : C) (dir : Fin 3) (s : Side) (l1 l2 : List M) (m : M)
      (hq : st.flight c dir s = l1 ++ m :: l2) (hf : fifo → l1 = []) :
      Step N fifo prog st { st with
        flight := fun c' d s' => if c' = c ∧ d = dir ∧ s' = s then l1 ++ l2 else st.flight c' d s'
        inbox := fun c' d s' => if c' = c ∧ d = dir ∧ s' = s then st.inbox c dir s ++ [m] else st.inbox c' d s' }
  /-- A `when` with its message at hand (timestepping_chare.py:151-164).  Charm++ takes the oldest message that
  has arrived. -/
  | recv (st : St C D M) (c : C) (dir : Fin 3) (ty : Ty) (s : Side) (m : M) (rest : List M)
      (hi : prog[st.pc c]? = some (.exch dir ty)) (hs : st.stage c = .wait s) (hn : (N.nbr c dir s).isSome)
      (hq : st.inbox c dir s = m :: rest) :
      Step N fifo prog st (St.advance { st with
        data := Function.update st.data c (N.unpack dir s m (st.data c))
        inbox := fun c' d s' => if c' = c ∧ d = dir ∧ s' = s then rest else st.inbox c' d s' } c s)
  /-- No neighbour on a side: the `if` around the `when`. -/
  | skip (st : St C D M) (c : C) (dir : Fin 3) (ty : Ty) (s : Side)
      (hi : prog[st.pc c]? = some (.exch dir ty)) (hs : st.stage c = .wait s) (hn : N.nbr c dir s = none) :
      Step N fifo prog st (st.advance c s)

/-- The state at the beginning of the program. -/
def St.init (D0 : C → D) : St C D M := ⟨fun _ => 0, fun _ => .start, D0, fun _ _ _ => [], fun _ _ _ => []⟩

/-- The net of the chares of a decomposition: `sync ty` lists the synchronized grid functions of the storage of
type `ty` (`gfs_to_sync`, timestepping_chare.py:803-807, 921-926). -/
def Params.net (P : Params) {V Ty : Type} [DecidableEq Ty] (junk : V) (buf : Mem V) (sync : Ty → Sync) :
    Net (Fin 3 → Nat) Ty (Ty → Mem V) (Ty × List V) where
  nbr := P.nbr
  pack dir s ty D := (ty, P.box.pack dir s (sync ty) buf (D ty))
  unpack dir s m D := Function.update D m.1 (P.box.unpack junk dir s (sync m.1) m.2 (D m.1))

end Verif.SuperB
