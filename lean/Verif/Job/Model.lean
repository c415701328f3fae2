import Verif.Sched.Model
/-!
# A parallel job from start to end

Message-level model of all processes of an MPI job: the start-up (`c++/nrg.cc:220-254`), the loop of the workers (`c++/nrg-lib.cc:43-67`), the
parallel diagonalisations (`c++/diag_mpi.hpp`) one after another, and the end (`c++/diag_mpi.hpp:43-46`).

Point-to-point messages from one process to another are delivered in the order in which they were sent; a receive with a tag takes the first message with this
tag. A blocking send returns when at most `cap` messages are on the way in the channel: with `cap = 0` it waits until the message has been received (as MPI may do
for long messages), with a large `cap` everything is buffered. Collective operations are matched in order and separately from point-to-point messages; the broadcast
returns on the root when at most `cap` broadcasts are on the way to every process. Failures of the network or of processes are not modelled, nor are exceptions thrown
by the calculation. Process `0` is the master.
-/

namespace Verif.Job
open Verif.Invar (Label)
open Verif.Store (mapSet)
open Verif.Sched

variable {R DP : Type}

abbrev Msg (R : Type) := Sched.Msg R Unit

/-- `TAG` (`c++/diag_mpi.hpp:31`). -/
inductive Tag
  | exit
  | diag
  | sync
  | invar
  | size
  | part
  | vec
  deriving DecidableEq

def tagOf : Msg R → Tag
  | .exit => .exit
  | .diag => .diag
  | .sync _ => .sync
  | .invar _ => .invar
  | .size _ => .size
  | .part _ => .part
  | .vec _ => .vec

/-- `recv(source, tag, …)`: the first message with the tag, and the other messages. -/
def recvTag (t : Tag) : List (Msg R) → Option (Msg R × List (Msg R))
  | [] => none
  | m :: l => if tagOf m = t then some (m, l) else (recvTag t l).map fun r => (r.1, m :: r.2)

/-- What is broadcast: the status at the start (`none` to continue, or the exit code), and the parameters of a diagonalisation. -/
inductive Coll (DP : Type)
  | status (c : Option Nat)
  | params (dp : DP)

/-- Where a worker is (`run_nrg_slave_impl`, `c++/nrg-lib.cc:43-67`; `slave_diag`, `c++/diag_mpi.hpp:110-125`). -/
inductive W (R DP : Type)
  /-- in the broadcast of the status -/
  | startup
  /-- at the head of the loop -/
  | idle (dp : DP)
  /-- in the broadcast of the parameters -/
  | params
  /-- expects the subspace -/
  | getI (dp : DP)
  /-- expects the number of rows -/
  | getA (dp : DP) (I : Label)
  /-- expects the number of columns -/
  | getB (dp : DP) (I : Label) (a : Nat)
  /-- expects `n` more rows -/
  | rows (dp : DP) (I : Label) (a b : Nat) (d : List R) (n : Nat)
  /-- before the diagonalisation -/
  | work (dp : DP) (I : Label) (m : Mem R)
  /-- sends the messages in the list; if the flag is set, the first one is on the way and the send has not returned -/
  | reply (dp : DP) (l : List (Msg R)) (posted : Bool)
  /-- has returned from `main` -/
  | ended (c : Nat)
  /-- a message or a broadcast of the wrong kind -/
  | bad

/-- A worker with its channels: messages from the master, broadcasts, messages to the master. -/
structure Cfg (R DP : Type) where
  w : W R DP
  dn : List (Msg R)
  bc : List (Coll DP)
  out : List (Msg R)

/-- After the row counters are known (the loop of `receive_matrix`, `c++/diag_mpi.hpp:83-84`). -/
def W.next (dp : DP) (I : Label) (a b : Nat) (d : List R) : Nat → W R DP
  | 0 => .work dp I ⟨a, b, d⟩
  | n + 1 => .rows dp I a b d (n + 1)

/-- What a worker does with a message. -/
def W.eat (w : W R DP) (m : Msg R) : W R DP :=
  match w, m with
  | .idle _, .exit => .ended 0
  | .idle _, .sync _ => .params
  | .idle dp, .diag => .getI dp
  | .getI dp, .invar I => .getA dp I
  | .getA dp I, .size a => .getB dp I a
  | .getB dp I a, .size b => W.next dp I a b [] a
  | .rows dp I a b d (n + 1), .part p => if p.length = b then W.next dp I a b (d ++ p) n else .bad
  | _, _ => .bad

/-- The message that a worker waits for: none, any, or one with a tag. -/
def W.want : W R DP → Option (Option Tag)
  | .idle _ => some none
  | .getI _ => some (some .invar)
  | .getA _ _ => some (some .size)
  | .getB _ _ _ => some (some .size)
  | .rows _ _ _ _ _ _ => some (some .part)
  | _ => none

/-- Takes a message from a channel. -/
def takeMsg (t : Option Tag) (l : List (Msg R)) : Option (Msg R × List (Msg R)) :=
  match t with
  | some t => recvTag t l
  | none => match l with | [] => none | m :: l => some (m, l)

variable (dg : DP → Mem R → Raw R) (dp0 : DP)

/-- One step of a worker; `none` if it has to wait for a message or has ended. `dg` is `diagonalise`; `dp0` the parameters before the first broadcast. -/
def wstep (c : Cfg R DP) : Option (Cfg R DP) :=
  match c.w with
  | .startup =>
    match c.bc with
    | [] => none
    | .status none :: r => some { c with w := .idle dp0, bc := r }
    | .status (some e) :: r => some { c with w := .ended e, bc := r }
    | .params _ :: r => some { c with w := .bad, bc := r }
  | .params =>
    match c.bc with
    | [] => none
    | .params dp :: r => some { c with w := .idle dp, bc := r }
    | .status _ :: r => some { c with w := .bad, bc := r }
  | .work dp I m => some { c with w := .reply dp (sendResult (dg dp m) I) false }
  | .reply dp (m :: l) false => some { c with w := .reply dp (m :: l) true, out := c.out ++ [m] }
  | .reply dp (_ :: l) true => some { c with w := if l = [] then .idle dp else .reply dp l false }
  | .reply dp [] _ => some { c with w := .idle dp }
  | .ended _ => none
  | .bad => none
  | w =>
    match w.want with
    | none => none
    | some t =>
      match takeMsg t c.dn with
      | none => none
      | some (m, r) => some { c with w := w.eat m, dn := r }

/-- Whether a send of the worker may return. -/
def Cfg.free (cap : Nat) (c : Cfg R DP) : Prop :=
  match c.w with
  | .reply _ _ true => c.out.length ≤ cap
  | _ => True

/-! ## The master -/

/-- Reading a result (`read_from`, `c++/diag_mpi.hpp:100-107`). -/
inductive Rd (R : Type)
  | start
  | gotV (v : List R)
  | gotA (v : List R) (a : Nat)
  | rows (v : List R) (a b : Nat) (d : List R) (n : Nat)
  | gotM (v : List R) (m : Mem R)
  | fin (I : Label) (e : Raw R)

def Rd.next (v : List R) (a b : Nat) (d : List R) : Nat → Rd R
  | 0 => .gotM v ⟨a, b, d⟩
  | n + 1 => .rows v a b d (n + 1)

def Rd.want : Rd R → Tag
  | .start => .vec
  | .gotV _ => .size
  | .gotA _ _ => .size
  | .rows _ _ _ _ _ => .part
  | .gotM _ _ => .invar
  | .fin _ _ => .invar

def Rd.step (r : Rd R) (m : Msg R) : Option (Rd R) :=
  match r, m with
  | .start, .vec v => some (.gotV v)
  | .gotV v, .size a => some (.gotA v a)
  | .gotA v a, .size b => some (Rd.next v a b [] a)
  | .rows v a b d (n + 1), .part p => if p.length = b then some (Rd.next v a b (d ++ p) n) else none
  | .gotM v m, .invar I => some (.fin I ⟨v, m⟩)
  | _, _ => none

/-- Where the master is. Flags say that a message is on the way and the send has not returned. -/
inductive Ph (R : Type)
  /-- before the broadcast of the status -/
  | start
  | starting
  /-- between two diagonalisations -/
  | plan
  /-- `send_params`: the message to worker `i` -/
  | sync (i : Nat) (posted : Bool)
  | bcast (posted : Bool)
  /-- head of the scheduling loop -/
  | sched
  /-- the messages of a job to worker `i` -/
  | send (i : Nat) (l : List (Msg R)) (posted : Bool)
  /-- the check for terminated jobs -/
  | poll
  /-- reading from worker `i`, in the final loop or before -/
  | read (i : Nat) (r : Rd R) (final : Bool)
  /-- the final loop -/
  | drain
  /-- the destructor: the message to worker `i` -/
  | exit (i : Nat) (posted : Bool)
  | ended (c : Nat)
  | bad

/-- One call of `diagonalisations`: parameters, subspaces from large to small, Hamiltonians. -/
structure Round (R DP : Type) where
  dp : DP
  tasks : List (Nat × Label)
  ham : Label → Mem R

structure Mst (R DP : Type) where
  ph : Ph R
  /-- the results so far -/
  hist : List (List (Label × Raw R))
  /-- the parameters sent last -/
  dp : DP
  round : Round R DP
  /-- the variables of the scheduler; `running` (which the program does not have) are the jobs whose results have not been read; `ready` is not used -/
  st : St (Raw R)

structure Sys (R DP : Type) where
  m : Mst R DP
  c : Nat → Cfg R DP

/-- The choice in the scheduling loop (`c++/diag_mpi.hpp:142-149`): node, subspace, tasks and nodes left. -/
def pick (s : St (Raw R)) : Option (Nat × Label × List (Nat × Label) × List Nat) :=
  match s.avail.getLast? with
  | none => none
  | some back =>
    let i := if s.todo.length ≠ 1 then back else 0
    let avail := if s.todo.length ≠ 1 then s.avail.dropLast else s.avail
    if i = 0 then
      match s.todo.getLast? with
      | none => none
      | some (_, I) => some (0, I, s.todo.dropLast, avail)
    else
      match s.todo with
      | [] => none
      | (_, I) :: t => some (i, I, t, avail)

/-- One turn of the scheduling loop up to the check for results (`c++/diag_mpi.hpp:141-155`). -/
def turn (m : Mst R DP) : Mst R DP :=
  match pick m.st with
  | none => { m with ph := .bad }
  | some (i, I, todo, avail) =>
    if i = 0 then
      { m with ph := .poll, st := { m.st with todo := todo, avail := avail ++ [0], done := m.st.done ++ [I],
                                              diag := mapSet I (dg m.dp (m.round.ham I)) m.st.diag } }
    else { m with ph := .send i (sendJob I (m.round.ham I)) false, st := { m.st with todo := todo, avail := avail, running := (i, I) :: m.st.running } }

/-- After the result for `I` has been read from worker `i` (`c++/diag_mpi.hpp:158-165`, `171-175`). -/
def Mst.store (m : Mst R DP) (i : Nat) (I : Label) (e : Raw R) (final : Bool) : Mst R DP :=
  { m with ph := if final then .drain else .poll,
           st := { m.st with done := m.st.done ++ [I], diag := mapSet I e m.st.diag, avail := if final then m.st.avail else m.st.avail ++ [i],
                             running := m.st.running.erase (i, I) } }

/-- Reading one message of a result. -/
def Mst.reads (m : Mst R DP) (i : Nat) (r : Rd R) (final : Bool) (x : Msg R) : Mst R DP :=
  match r.step x with
  | none => { m with ph := .bad }
  | some (.fin I e) => m.store i I e final
  | some r' => { m with ph := .read i r' final }

/-- A change of one process. -/
def upd {α : Type} (f : Nat → α) (i : Nat) (x : α) : Nat → α := fun j => if j = i then x else f j

/-- `send`. -/
def Sys.put (s : Sys R DP) (i : Nat) (x : Msg R) (p : Ph R) : Sys R DP :=
  ⟨{ s.m with ph := p }, upd s.c i { s.c i with dn := (s.c i).dn ++ [x] }⟩

/-- `broadcast` on the root, with `n` workers. -/
def castTo (n : Nat) (c : Nat → Cfg R DP) (x : Coll DP) : Nat → Cfg R DP :=
  fun i => if 1 ≤ i ∧ i ≤ n then { c i with bc := (c i).bc ++ [x] } else c i

/-- There is a message with `TAG_VEC` from worker `i`. -/
def probe (c : Nat → Cfg R DP) (i : Nat) : Prop := ∃ r, recvTag .vec (c i).out = some r

/-- The steps of the job: `n` workers; the status at the start (`none` to continue); `plan` is the next call of `diagonalisations`, given the results of the earlier
ones, or `none` at the end of the calculation. -/
inductive Step (n cap : Nat) (status : Option Nat) (plan : List (List (Label × Raw R)) → Option (Round R DP)) : Sys R DP → Sys R DP → Prop
  /-- a worker -/
  | worker (s) (i) (c) (h1 : 1 ≤ i) (hn : i ≤ n) (hw : wstep dg dp0 (s.c i) = some c) (hf : (s.c i).free cap) :
      Step n cap status plan s ⟨s.m, upd s.c i c⟩
  /-- `broadcast(mpiw, startup_status, 0)` (`c++/nrg.cc:243`) -/
  | start (s) (h : s.m.ph = .start) : Step n cap status plan s ⟨{ s.m with ph := .starting }, castTo n s.c (.status status)⟩
  | started (s) (h : s.m.ph = .starting) (hc : ∀ i, 1 ≤ i → i ≤ n → (s.c i).bc.length ≤ cap) :
      Step n cap status plan s ⟨{ s.m with ph := match status with | none => .plan | some e => .ended e }, s.c⟩
  /-- the calculation continues -/
  | next (s) (r) (h : s.m.ph = .plan) (hp : plan s.m.hist = some r) : Step n cap status plan s ⟨{ s.m with ph := .sync 1 false, round := r }, s.c⟩
  | last (s) (h : s.m.ph = .plan) (hp : plan s.m.hist = none) : Step n cap status plan s ⟨{ s.m with ph := .exit 1 false }, s.c⟩
  /-- `send_params` (`c++/diag_mpi.hpp:47-52`) -/
  | syncPut (s) (i) (h : s.m.ph = .sync i false) (hn : i ≤ n) : Step n cap status plan s (s.put i (.sync ()) (.sync i true))
  | syncRet (s) (i) (h : s.m.ph = .sync i true) (hc : (s.c i).dn.length ≤ cap) : Step n cap status plan s ⟨{ s.m with ph := .sync (i + 1) false }, s.c⟩
  | syncEnd (s) (i) (h : s.m.ph = .sync i false) (hn : n < i) : Step n cap status plan s ⟨{ s.m with ph := .bcast false }, s.c⟩
  | castPut (s) (h : s.m.ph = .bcast false) :
      Step n cap status plan s ⟨{ s.m with ph := .bcast true, dp := s.m.round.dp }, castTo n s.c (.params s.m.round.dp)⟩
  | castRet (s) (h : s.m.ph = .bcast true) (hc : ∀ i, 1 ≤ i → i ≤ n → (s.c i).bc.length ≤ cap) :
      Step n cap status plan s ⟨{ s.m with ph := .sched, st := Sched.start s.m.round.tasks (n + 1) }, s.c⟩
  /-- the scheduling loop (`c++/diag_mpi.hpp:141-168`) -/
  | turn (s) (h : s.m.ph = .sched) (ht : s.m.st.todo ≠ []) : Step n cap status plan s ⟨turn dg s.m, s.c⟩
  | sched (s) (h : s.m.ph = .sched) (ht : s.m.st.todo = []) :
      Step n cap status plan s ⟨{ s.m with ph := .drain, st := { s.m.st with phase := .draining } }, s.c⟩
  | sendPut (s) (i x l) (h : s.m.ph = .send i (x :: l) false) : Step n cap status plan s (s.put i x (.send i (x :: l) true))
  | sendRet (s) (i x l) (h : s.m.ph = .send i (x :: l) true) (hc : (s.c i).dn.length ≤ cap) :
      Step n cap status plan s ⟨{ s.m with ph := if l = [] then .poll else .send i l false }, s.c⟩
  /-- no result is found; there may be one on the way -/
  | pollNone (s) (h : s.m.ph = .poll) : Step n cap status plan s ⟨{ s.m with ph := .sched }, s.c⟩
  | pollSome (s) (i) (h : s.m.ph = .poll) (h1 : 1 ≤ i) (hn : i ≤ n) (hp : probe s.c i) :
      Step n cap status plan s ⟨{ s.m with ph := .read i .start false }, s.c⟩
  | read (s) (i r f x l) (h : s.m.ph = .read i r f) (hx : recvTag r.want (s.c i).out = some (x, l)) :
      Step n cap status plan s ⟨s.m.reads i r f x, upd s.c i { s.c i with out := l }⟩
  /-- the final loop (`c++/diag_mpi.hpp:170-175`) -/
  | collect (s) (i) (h : s.m.ph = .drain) (hd : s.m.st.done.length ≠ s.m.round.tasks.length) (h1 : 1 ≤ i) (hn : i ≤ n) (hp : probe s.c i) :
      Step n cap status plan s ⟨{ s.m with ph := .read i .start true }, s.c⟩
  | ret (s) (h : s.m.ph = .drain) (hd : s.m.st.done.length = s.m.round.tasks.length) :
      Step n cap status plan s ⟨{ s.m with ph := .plan, hist := s.m.hist ++ [s.m.st.diag], st := { s.m.st with phase := .returned } }, s.c⟩
  /-- `~DiagMPI` (`c++/diag_mpi.hpp:43-46`) -/
  | exitPut (s) (i) (h : s.m.ph = .exit i false) (hn : i ≤ n) : Step n cap status plan s (s.put i .exit (.exit i true))
  | exitRet (s) (i) (h : s.m.ph = .exit i true) (hc : (s.c i).dn.length ≤ cap) : Step n cap status plan s ⟨{ s.m with ph := .exit (i + 1) false }, s.c⟩
  | exitEnd (s) (i) (h : s.m.ph = .exit i false) (hn : n < i) : Step n cap status plan s ⟨{ s.m with ph := .ended 0 }, s.c⟩

/-- All processes in `main`, nothing sent. -/
def init (r : Round R DP) : Sys R DP := ⟨⟨.start, [], dp0, r, ⟨.returned, [], [], [], [], [], []⟩⟩, fun _ => ⟨.startup, [], [], []⟩⟩

/-- The states of a job, under all interleavings. -/
def Reach (n cap : Nat) (status : Option Nat) (plan : List (List (Label × Raw R)) → Option (Round R DP)) (s : Sys R DP) : Prop :=
  ∃ r, Relation.ReflTransGen (Step dg dp0 n cap status plan) (init dp0 r) s

end Verif.Job
