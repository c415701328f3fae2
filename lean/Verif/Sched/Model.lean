import Verif.Store.Model
import Mathlib.Logic.Relation
/-!
# Parallel diagonalisation

The MPI protocol and scheduler (`c++/diag_mpi.hpp`, `c++/nrg-lib.cc:43-67`), the
OpenMP loop (`c++/diag_openmp.hpp:30-60`) and the serial loop
(`c++/diag_serial.hpp:17-34`).
-/

namespace Verif.Sched
open Verif.Invar (Label)
open Verif.Store (mapSet)

/-! ## Messages -/

/-- Message tags (`c++/diag_mpi.hpp:31`) with their payloads. `R` is the scalar
type, `DP` the diagonalisation parameters (sent by a broadcast that follows the
`sync` message; both are one message here). -/
inductive Msg (R DP : Type)
  | exit
  | diag
  | sync (dp : DP)
  | invar (I : Label)
  | size (n : Nat)
  | part (row : List R)
  | vec (v : List R)
  deriving DecidableEq

/-- A dense row-major matrix as it is in memory (`c++/traits.hpp:20`). -/
structure Mem (R : Type) where
  size1 : Nat
  size2 : Nat
  data : List R
  deriving DecidableEq

def Mem.WF {R : Type} (m : Mem R) : Prop := m.data.length = m.size1 * m.size2

variable {R DP : Type}

/-- `send_matrix` (`c++/diag_mpi.hpp:60-72`): both sizes, then `size1` pieces of
length `size2` starting at `data() + i*size2`. -/
def sendMatrix (m : Mem R) : List (Msg R DP) :=
  .size m.size1 :: .size m.size2 ::
    (List.range m.size1).map fun i => .part ((m.data.drop (i * m.size2)).take m.size2)

/-- `mpiw.recv(source, TAG_MATRIX_SIZE, …)`. MPI delivers messages from one
source with one tag in order; the model is stricter and requires the message at
the head of the channel to have the expected tag (anything else is failure). -/
def recvSize : List (Msg R DP) → Option (Nat × List (Msg R DP))
  | .size n :: r => some (n, r)
  | _ => none
def recvPart (len : Nat) : List (Msg R DP) → Option (List R × List (Msg R DP))
  | .part p :: r => if p.length = len then some (p, r) else none
  | _ => none
def recvInvar : List (Msg R DP) → Option (Label × List (Msg R DP))
  | .invar I :: r => some (I, r)
  | _ => none
def recvVec : List (Msg R DP) → Option (List R × List (Msg R DP))
  | .vec v :: r => some (v, r)
  | _ => none

/-- The receive loop: `n` pieces of length `len`, written one after another. -/
def recvParts (len : Nat) : Nat → List (Msg R DP) → Option (List R × List (Msg R DP))
  | 0, s => some ([], s)
  | n + 1, s => do
    let (p, s) ← recvPart len s
    let (d, s) ← recvParts len n s
    pure (p ++ d, s)

/-- `receive_matrix` (`c++/diag_mpi.hpp:73-86`). -/
def receiveMatrix (s : List (Msg R DP)) : Option (Mem R × List (Msg R DP)) := do
  let (a, s) ← recvSize s
  let (b, s) ← recvSize s
  let (d, s) ← recvParts b a s
  pure (⟨a, b, d⟩, s)

/-- `RawEigen`. -/
structure Raw (R : Type) where
  val : List R
  vec : Mem R
  deriving DecidableEq

/-- What a worker sends back (`send_raweigen` 87-91, then `TAG_INVAR`, 123-124). -/
def sendResult (e : Raw R) (I : Label) : List (Msg R DP) := .vec e.val :: sendMatrix e.vec ++ [.invar I]

/-- `read_from` (`c++/diag_mpi.hpp:100-107`, `receive_raweigen` 92-98). -/
def readFrom (s : List (Msg R DP)) : Option ((Label × Raw R) × List (Msg R DP)) := do
  let (v, s) ← recvVec s
  let (m, s) ← receiveMatrix s
  let (I, s) ← recvInvar s
  pure ((I, ⟨v, m⟩), s)

/-- What the master sends for a job (`c++/diag_mpi.hpp:152-154`). -/
def sendJob (I : Label) (h : Mem R) : List (Msg R DP) := .diag :: .invar I :: sendMatrix h

/-- The worker loop (`run_nrg_slave_impl`, `c++/nrg-lib.cc:43-67`, with
`slave_diag`, `c++/diag_mpi.hpp:110-125`) on the sequence of messages from the
master. The result is the list of messages sent back and whether the loop ended
with `TAG_EXIT`; `none` if a message with an unexpected tag arrives (the worker
would block for ever in `recv`). `fuel` bounds the number of requests handled. -/
def worker (diagonalise : DP → Mem R → Raw R) : Nat → DP → List (Msg R DP) → Option (List (Msg R DP) × Bool)
  | 0, _, _ => none
  | _ + 1, _, [] => some ([], false)
  | _ + 1, _, .exit :: _ => some ([], true)
  | fuel + 1, _, .sync dp :: s => worker diagonalise fuel dp s
  | fuel + 1, dp, .diag :: s => do
    let (I, s) ← recvInvar s
    let (m, s) ← receiveMatrix s
    let (out, e) ← worker diagonalise fuel dp s
    pure (sendResult (diagonalise dp m) I ++ out, e)
  | _ + 1, _, _ => none

/-! ## The MPI scheduler -/

/-- Where the master is. -/
inductive Phase
  /-- in the scheduling loop (141-168) -/
  | scheduling
  /-- in the final loop (170-175) -/
  | draining
  /-- returned -/
  | returned
  /-- `my_assert` failed or a list was empty in `get_back`/`get_front` -/
  | failed
  deriving DecidableEq

/-- State of the parallel run. `E` is the result type of a diagonalisation. -/
structure St (E : Type) where
  phase : Phase
  /-- `tasks_todo`, largest first -/
  todo : List (Nat × Label)
  /-- `nodes_available` -/
  avail : List Nat
  /-- jobs on workers whose results have not reached the master -/
  running : List (Nat × Label)
  /-- results that have arrived at the master and have not been read -/
  ready : List (Nat × Label)
  /-- `tasks_done` -/
  done : List Label
  /-- `diagnew` -/
  diag : List (Label × E)

/-- Beginning of `diagonalisations` (131-140): tasks sorted by size, all nodes available. -/
def start {E : Type} (tasks : List (Nat × Label)) (nodes : Nat) : St E :=
  ⟨.scheduling, tasks, List.range nodes, [], [], [], []⟩

/-- One turn of the scheduling loop up to the point where results are polled
(142-155): choose the node and the task, run the task on the master or send it
to the worker. `eig I` is the result of diagonalising subspace `I`. -/
def dispatch {E : Type} (eig : Label → E) (s : St E) : St E :=
  match s.avail.getLast? with
  | none => { s with phase := .failed }
  | some back =>
    let i := if s.todo.length ≠ 1 then back else 0
    let avail := if s.todo.length ≠ 1 then s.avail.dropLast else s.avail
    if i = 0 then
      match s.todo.getLast? with
      | none => { s with phase := .failed }
      | some (_, I) => { s with todo := s.todo.dropLast, avail := avail ++ [0], done := s.done ++ [I],
                                diag := mapSet I (eig I) s.diag }
    else
      match s.todo with
      | [] => { s with phase := .failed }
      | (_, I) :: t => { s with todo := t, avail := avail, running := (i, I) :: s.running }

/-- Reading one result (158-165 and 171-175). In the scheduling loop the node
becomes available again. -/
def receive {E : Type} (eig : Label → E) (s : St E) (r : Nat × Label) : St E :=
  { s with ready := s.ready.erase r, done := s.done ++ [r.2], diag := mapSet r.2 (eig r.2) s.diag,
           avail := if s.phase = .scheduling then s.avail ++ [r.1] else s.avail }

/-- All interleavings. `nTasks` is `tasks.size()`. -/
inductive Step {E : Type} (eig : Label → E) (nTasks : Nat) : St E → St E → Prop
  /-- the next turn of the scheduling loop; polling may stop at any time, since
  a message may be under way -/
  | dispatch (s) (h : s.phase = .scheduling) (ht : s.todo ≠ []) : Step eig nTasks s (dispatch eig s)
  /-- a worker finishes its job; workers finish in any order -/
  | finish (s) (r) (h : r ∈ s.running) :
      Step eig nTasks s { s with running := s.running.erase r, ready := s.ready ++ [r] }
  /-- a poll finds a result from any source -/
  | poll (s) (r) (h : s.phase = .scheduling) (hr : r ∈ s.ready) : Step eig nTasks s (receive eig s r)
  /-- nothing left to schedule -/
  | drain (s) (h : s.phase = .scheduling) (ht : s.todo = []) : Step eig nTasks s { s with phase := .draining }
  /-- the final loop reads one more result (a blocking probe) -/
  | collect (s) (r) (h : s.phase = .draining) (hn : s.done.length ≠ nTasks) (hr : r ∈ s.ready) :
      Step eig nTasks s (receive eig s r)
  /-- the final loop ends -/
  | finished (s) (h : s.phase = .draining) (hn : s.done.length = nTasks) :
      Step eig nTasks s { s with phase := .returned }

/-- Reachable states for given tasks and number of nodes. -/
def Reaches {E : Type} (eig : Label → E) (tasks : List (Nat × Label)) (nodes : Nat) (s : St E) : Prop :=
  Relation.ReflTransGen (Step eig tasks.length) (start tasks nodes) s

/-! ## The serial and the OpenMP loop -/

/-- `DiagSerial::diagonalisations` (`c++/diag_serial.hpp:20-32`). -/
def serial {E : Type} (eig : Label → E) (tasks : List (Nat × Label)) : List (Label × E) :=
  tasks.foldl (fun d t => mapSet t.2 (eig t.2) d) []

/-- State of the OpenMP loop with dynamic scheduling: next loop index, tasks
being worked on, results. -/
structure OmpSt (E : Type) where
  next : Nat
  active : List Label
  diag : List (Label × E)

/-- `DiagOpenMP::diagonalisations` (`c++/diag_openmp.hpp:36-58`): a free thread
takes the next index; a thread that has finished inserts its result inside the
critical section (so insertions are atomic). `threads` bounds the number of
tasks in progress. -/
inductive OmpStep {E : Type} (eig : Label → E) (tasks : List (Nat × Label)) (threads : Nat) :
    OmpSt E → OmpSt E → Prop
  | take (s) (d) (I) (h : tasks[s.next]? = some (d, I)) (ht : s.active.length < threads) :
      OmpStep eig tasks threads s { s with next := s.next + 1, active := I :: s.active }
  | insert (s) (I) (h : I ∈ s.active) :
      OmpStep eig tasks threads s { s with active := s.active.erase I, diag := mapSet I (eig I) s.diag }

/-- The loop is over (implicit barrier): all indices taken, no task in progress. -/
def OmpDone {E : Type} (tasks : List (Nat × Label)) (s : OmpSt E) : Prop :=
  tasks.length ≤ s.next ∧ s.active = []

def ompStart (E : Type) : OmpSt E := ⟨0, [], []⟩

end Verif.Sched
