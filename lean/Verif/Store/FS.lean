import Verif.Store.Model
import Mathlib.Logic.Relation
/-!
# Writing and reading checkpoint files

`DiagInfo::save`/`load` (`c++/eigen.hpp:569-620`) and
`DensMatElements::save`/`load` (`c++/operators.hpp:92-145`), which have the
same structure, as operations on a file system that may fail or be cut short
at any point.

Assumptions about the operating system, stated once: a successful `rename`
replaces the target atomically and a failed one changes nothing; operations on
one path do not affect other paths; data acknowledged by a successful flush is
what a later reader sees (loss of acknowledged data in a power failure is not
modelled: the code does not call `fsync`).
-/

namespace Verif.Store

variable {D : Type}

/-- Contents of a directory: data by path. -/
abbrev FS (P D : Type) := P → Option (List D)

def FS.set {P D : Type} [DecidableEq P] (fs : FS P D) (p : P) (x : Option (List D)) : FS P D :=
  fun q => if q = p then x else fs q

/-- Control state of `save` (`c++/eigen.hpp:569-598`, `c++/operators.hpp:92-122`). -/
inductive Pc (D : Type)
  /-- before `std::ofstream MATRIXF(tmp_fn, …)` -/
  | start
  /-- in the archive loop; chunks still to be written -/
  | writing (rest : List (List D))
  /-- archive finished, before `flush` -/
  | flushing
  /-- flushed and checked, before `close` -/
  | closing
  /-- closed and checked, before `rename` -/
  | renaming
  /-- returned normally -/
  | returned
  /-- an exception is propagating; the guard has not run yet -/
  | unwinding
  /-- the exception has left `save` -/
  | threw
  /-- the process is gone -/
  | crashed

/-- State during `save`. `pending` is data handed to the stream and not yet in
the file; `bad` is the stream's sticky error state. -/
structure SaveState (P D : Type) where
  fs : FS P D
  pending : List D
  bad : Bool
  pc : Pc D

/-- The name of the temporary file is `fn + ".tmp"`; only that it differs from
`fn` matters. -/
structure Names (P : Type) where
  fn : P
  tmp : P
  ne : tmp ≠ fn

/-- Append to the temporary file. -/
def appendTmp {P D : Type} [DecidableEq P] (n : Names P) (fs : FS P D) (x : List D) : FS P D :=
  fs.set n.tmp (some ((fs n.tmp).getD [] ++ x))

/-- One step of `save`, including everything that can go wrong. `chunks` are
the writes of the archive loop. -/
inductive SaveStep {P D : Type} [DecidableEq P] (n : Names P) (chunks : List (List D)) :
    SaveState P D → SaveState P D → Prop
  /-- the file is opened and emptied (577-578) -/
  | openOk (s) (h : s.pc = .start) :
      SaveStep n chunks s ⟨s.fs.set n.tmp (some []), [], false, .writing chunks⟩
  /-- it cannot be opened -/
  | openFail (s) (h : s.pc = .start) : SaveStep n chunks s { s with pc := .unwinding }
  /-- the operating system takes part of the buffered data -/
  | drain (s) (k : Nat) (hp : s.bad = false)
      (h : (∃ r, s.pc = .writing r) ∨ s.pc = .flushing ∨ s.pc = .closing ∨ s.pc = .unwinding) :
      SaveStep n chunks s
        { s with fs := appendTmp n s.fs (s.pending.take k), pending := s.pending.drop k }
  /-- a chunk is accepted by the stream; if the stream has already failed the
  data are dropped -/
  | write (s) (c : List D) (r : List (List D)) (h : s.pc = .writing (c :: r)) :
      SaveStep n chunks s
        { s with pending := if s.bad then s.pending else s.pending ++ c, pc := .writing r }
  /-- a write (or a drain) fails: the sticky error is set, data are lost -/
  | writeFail (s) (lost : List D) (c : List D) (r : List (List D)) (h : s.pc = .writing (c :: r)) :
      SaveStep n chunks s { s with pending := lost, bad := true, pc := .writing r }
  /-- the check after a write sees the error, or the archive throws (590-591) -/
  | writeThrow (s) (r : List (List D)) (h : s.pc = .writing r) (hb : s.bad = true) :
      SaveStep n chunks s { s with pc := .unwinding }
  /-- the loop is over -/
  | writeDone (s) (h : s.pc = .writing []) : SaveStep n chunks s { s with pc := .flushing }
  /-- `flush` succeeds, all data are in the file (593-594) -/
  | flushOk (s) (h : s.pc = .flushing) (hb : s.bad = false) :
      SaveStep n chunks s
        { s with fs := appendTmp n s.fs s.pending, pending := [], pc := .closing }
  /-- `flush` fails, or the stream had failed before -/
  | flushFail (s) (h : s.pc = .flushing) : SaveStep n chunks s { s with bad := true, pc := .unwinding }
  /-- `close` (595-596) -/
  | closeOk (s) (h : s.pc = .closing) (hb : s.bad = false) : SaveStep n chunks s { s with pc := .renaming }
  | closeFail (s) (h : s.pc = .closing) : SaveStep n chunks s { s with bad := true, pc := .unwinding }
  /-- `std::filesystem::rename(tmp_fn, fn)` (597), then `guard.active = false` -/
  | renameOk (s) (h : s.pc = .renaming) :
      SaveStep n chunks s { s with fs := (s.fs.set n.fn (s.fs n.tmp)).set n.tmp none, pc := .returned }
  | renameFail (s) (h : s.pc = .renaming) : SaveStep n chunks s { s with pc := .unwinding }
  /-- the guard removes the temporary file (574-579) … -/
  | guardOk (s) (h : s.pc = .unwinding) :
      SaveStep n chunks s { s with fs := s.fs.set n.tmp none, pc := .threw }
  /-- … or fails to, which is ignored -/
  | guardFail (s) (h : s.pc = .unwinding) : SaveStep n chunks s { s with pc := .threw }
  /-- the process is killed, at any point -/
  | crash (s) : SaveStep n chunks s { s with pc := .crashed }

/-- The start of `save`. -/
def saveStart {P D : Type} (fs : FS P D) : SaveState P D := ⟨fs, [], false, .start⟩

/-- `s` can be reached while saving. -/
def SaveReaches {P D : Type} [DecidableEq P] (n : Names P) (chunks : List (List D)) (fs : FS P D)
    (s : SaveState P D) : Prop :=
  Relation.ReflTransGen (SaveStep n chunks) (saveStart fs) s

/-- What can go wrong while loading. -/
structure LoadFaults where
  /-- the file cannot be opened -/
  openFails : Bool
  /-- reading stops with an error after this many items -/
  cutAfter : Option Nat
  /-- the stream is in an error state after `close` -/
  closeFails : Bool
  /-- the file cannot be removed -/
  removeFails : Bool

/-- `load` (`c++/eigen.hpp:599-620`, `c++/operators.hpp:123-145`): outcome
(`true` = returned normally), the file system and the object afterwards.
`decode` reads a local object from the data. -/
def load {P D α : Type} [DecidableEq P] (decode : List D → Option (α × List D)) (fn : P) (removeFiles : Bool)
    (f : LoadFaults) (fs : FS P D) (self : α) : Bool × FS P D × α :=
  match fs fn with
  | none => (false, fs, self)
  | some data =>
    if f.openFails then (false, fs, self)
    else
      match decode (match f.cutAfter with | none => data | some k => data.take k) with
      | none => (false, fs, self)
      | some (loaded, _) =>
        if f.closeFails then (false, fs, self)
        else if removeFiles then
          if f.removeFails then (false, fs, self)
          else (true, fs.set fn none, loaded)
        else (true, fs, loaded)

end Verif.Store
