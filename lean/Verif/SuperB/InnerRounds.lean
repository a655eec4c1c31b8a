import Verif.SuperB.Inner
import Mathlib.Logic.Relation

/-!
# Model of consecutive rounds of messages between chares, and of moving a chare

superB/timestepping_chare.py:29-116 (two rounds follow each other without other messages in between), superB/superB/superB_pup.py:380-423.
-/
namespace Verif.SuperB.Inner

/-- State of all chares and of the network.  Messages from one chare to another stay in order (the strongest network; Charm++ promises less). -/
structure Net where
  /-- rounds a chare has begun -/
  started : ℕ → ℕ
  /-- the chare is in the loop over `iter` (lines 52-60) -/
  waiting : ℕ → Bool
  /-- messages taken in this loop: sender, and the round in which they were sent -/
  got : ℕ → List (ℕ × ℕ)
  /-- rounds of the messages on their way, by sender and receiver -/
  q : ℕ → ℕ → List ℕ
  /-- calls of `process_nonlocalinnerbc`: chare, round, messages it uses -/
  log : List (ℕ × ℕ × List (ℕ × ℕ))

def Net.init : Net := ⟨fun _ => 0, fun _ => false, fun _ => [], fun _ _ => [], []⟩

/-- The steps; `src c` are the chares in `idx3_of_src_chares` of `c`. -/
inductive Step (src : ℕ → List ℕ) : Net → Net → Prop where
  /-- `send_nonlocalinnerbc_data` (line 39), then the loop begins -/
  | start (N : Net) (c : ℕ) : N.waiting c = false →
    Step src N { N with
      started := Function.update N.started c (N.started c + 1)
      waiting := Function.update N.waiting c true
      got := Function.update N.got c []
      q := Function.update N.q c fun d => if c ∈ src d then N.q c d ++ [N.started c] else N.q c d }
  /-- `when receiv_nonlocalinnerbc_data` (lines 53-58): no reference number, so any message will do -/
  | take (N : Net) (c b r : ℕ) (l : List ℕ) : N.waiting c = true → (N.got c).length < (src c).length → N.q b c = r :: l →
    Step src N { N with
      got := Function.update N.got c (N.got c ++ [(b, r)])
      q := Function.update N.q b (Function.update (N.q b) c l) }
  /-- `process_nonlocalinnerbc` (lines 61-63) -/
  | finish (N : Net) (c : ℕ) : N.waiting c = true → (N.got c).length = (src c).length →
    Step src N { N with
      waiting := Function.update N.waiting c false
      log := N.log ++ [(c, N.started c - 1, N.got c)] }

/-- States that can be reached from the start of the program. -/
def Reachable (src : ℕ → List ℕ) (N : Net) : Prop := Relation.ReflTransGen (Step src) Net.init N

/-- What `pup_nonlocalinnerbc_struct` brings to the new place (superB_pup.py:385-404): the arrays indexed by chare are allocated and copied with
the number of sources (destinations) as length. -/
def migrate (B : Bc) : Bc :=
  { B with
    src := { B.src with id := fun c => if c < B.src.idx.length then B.src.id c else none }
    dst := { B.dst with id := fun c => if c < B.dst.idx.length then B.dst.id c else none } }

end Verif.SuperB.Inner
