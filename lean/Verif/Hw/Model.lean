import Verif.Raw.Model
import Verif.Cmd.Model
import Verif.Mx.Model
/-!
# The program `h5write`

Model of `tools/h5write/h5write.hpp` from its command line on. HDF5 files and text files are kept apart: the name of the HDF5 file is not that of the input. What
the library does is as in `Verif.Raw.Model`; opening without truncation fails if there is no such file. The value of a scalar is exact.
-/

namespace Verif.Hw
open Verif.Text
open Verif.Raw (File comps dump get)

variable {K : Type}

/-- What is stored: a number or a matrix. -/
inductive Val (K : Type)
  | scalar (x : ℚ)
  | matrix (t : Mx.Tab K)
  deriving DecidableEq

/-- The files. -/
structure World (K : Type) where
  texts : Mx.Files
  h5 : Str → Option (File (Val K))

/-- How a run ends. -/
inductive End
  | done
  | command (e : Cmd.Stop)
  | noFile
  | input (e : Mx.RErr)
  | taken
  deriving DecidableEq

/-- The HDF5 file `f` gets the contents `h`. -/
def World.put (w : World K) (f : Str) (h : File (Val K)) : World K := { w with h5 := fun g => if g = f then some h else w.h5 g }

/-- The number or the matrix (`tools/h5write/h5write.hpp:16-19, 63-66`; `atof` of `c++/misc.hpp:196`). -/
def value (F : Mx.Fmt K) (scalar : Bool) (fs : Mx.Files) (input : Str) : Except Mx.RErr (Val K) :=
  if scalar then .ok (.scalar (Cmd.num input))
  else
    match Mx.readMatrix F false fs input with
    | .error e => .error e
    | .ok t => .ok (.matrix t)

/-- The file after it is opened (`tools/h5write/h5write.hpp:62`). -/
def opened (truncate : Bool) (w : World K) (f : Str) : Option (File (Val K)) := if truncate then some [] else w.h5 f

/-- `run` (`tools/h5write/h5write.hpp:61-67`). -/
def work (F : Mx.Fmt K) (s : Cmd.H5Set) (f p i : Str) (w : World K) : End × World K :=
  match opened s.truncate w f with
  | none => (.noFile, w)
  | some h =>
    match value F s.scalar w.texts i with
    | .error e => (.input e, w.put f h)
    | .ok v =>
      match dump h p v with
      | none => (.taken, w.put f h)
      | some h => (.done, w.put f h)

/-- The program (`tools/h5write/h5write.cc:3-6`). -/
def run (F : Mx.Fmt K) (argv : List Str) (w : World K) : End × World K :=
  match Cmd.h5write.main argv with
  | .error e => (.command e, w)
  | .ok r => work F r.1 r.2.1 r.2.2.1 r.2.2.2 w

end Verif.Hw
