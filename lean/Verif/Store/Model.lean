import Verif.Invar.Model
import Mathlib.Data.List.Basic
/-!
# Stored spectra and density matrices

`Values`, `Vectors`, `Blocks`, `Eigen`, `DiagInfo` (`c++/eigen.hpp`),
`DensMatElements` (`c++/operators.hpp:85-145`) and the dense matrix format
(`c++/numerics_Eigen.hpp:43-65`).

Boost's binary archive is modelled as a stream of tokens: one token for each
arithmetic value, and for a `std::vector` the number of elements followed by
the elements. The archive header and the byte layout are not modelled. Scalars
are elements of an arbitrary type `R` (the archive stores the bytes of a
`double`, so nothing is rounded).
-/

namespace Verif.Store
open Verif.Invar (Label)

/-- One value in a binary archive. -/
inductive Tok (R : Type)
  | size (n : Nat)
  | int (i : Int)
  | flag (b : Bool)
  | real (x : R)
  deriving DecidableEq

variable {R : Type}

/-- A reader: consumes tokens, or fails (`boost::archive::archive_exception` at
end of file). -/
abbrev Reader (R α : Type) := List (Tok R) → Option (α × List (Tok R))

/-- `read_one<size_t>(ia)` (`c++/io.hpp`); reading a value of another type gives
an unpredictable number in C++, which is treated as failure here. -/
def readSize : Reader R Nat
  | .size n :: r => some (n, r)
  | _ => none
def readInt : Reader R Int
  | .int n :: r => some (n, r)
  | _ => none
def readFlag : Reader R Bool
  | .flag n :: r => some (n, r)
  | _ => none
def readReal : Reader R R
  | .real n :: r => some (n, r)
  | _ => none

/-- `for (range0(n)) …` reading one item per turn. -/
def readN {α} (f : Reader R α) : Nat → Reader R (List α)
  | 0, s => some ([], s)
  | n + 1, s => do
    let (x, s) ← f s
    let (xs, s) ← readN f n s
    pure (x :: xs, s)

/-- `oa << std::vector<double>` and back. -/
def saveVec (v : List R) : List (Tok R) := .size v.length :: v.map .real
def loadVec : Reader R (List R) := fun s => do
  let (n, s) ← readSize s
  readN readReal n s

/-- `Invar::serialize` (`c++/invar.hpp:46`): the vector of integers. -/
def saveLabel (I : Label) : List (Tok R) := .size I.length :: I.map .int
def loadLabel : Reader R Label := fun s => do
  let (n, s) ← readSize s
  readN readInt n s

/-- A dense matrix with its two dimensions (rows may be empty and the number of
columns is still stored). -/
structure Mat (R : Type) where
  rows : Nat
  cols : Nat
  data : List (List R)
  deriving DecidableEq

/-- The storage matches the dimensions. -/
def Mat.WF (m : Mat R) : Prop := m.data.length = m.rows ∧ ∀ r ∈ m.data, r.length = m.cols

/-- `NRG::save(oa, m)` (`c++/numerics_Eigen.hpp:43-51`). -/
def saveMat (m : Mat R) : List (Tok R) :=
  .size m.rows :: .size m.cols :: m.data.flatMap fun r => r.map .real

/-- `load_Eigen` (`c++/numerics_Eigen.hpp:53-62`). -/
def loadMat : Reader R (Mat R) := fun s => do
  let (r, s) ← readSize s
  let (c, s) ← readSize s
  let (d, s) ← readN (readN readReal c) r s
  pure (⟨r, c, d⟩, s)

/-- `Values` (`c++/eigen.hpp:68-80`). -/
structure Values (R : Type) where
  v : List R
  scale : R
  shift : R
  tShift : R
  absGS : R
  corrected : List R
  c : List R
  cShift : R
  deriving DecidableEq

/-- `Values::save` (`c++/eigen.hpp:151-153`). `c_shift` is not stored. -/
def saveValues (x : Values R) : List (Tok R) :=
  saveVec x.v ++ [.real x.scale, .real x.shift, .real x.tShift, .real x.absGS] ++ saveVec x.corrected ++ saveVec x.c

/-- `Values::load` (`c++/eigen.hpp:154-156`) into a default-constructed object,
whose `c_shift` is `nan`. -/
def loadValues (nan : R) : Reader R (Values R) := fun s => do
  let (v, s) ← loadVec s
  let (scale, s) ← readReal s
  let (shift, s) ← readReal s
  let (tShift, s) ← readReal s
  let (absGS, s) ← readReal s
  let (corrected, s) ← loadVec s
  let (c, s) ← loadVec s
  pure (⟨v, scale, shift, tShift, absGS, corrected, c, nan⟩, s)

/-- `Eigen` (`c++/eigen.hpp:324-430`): values, eigenvector matrix with stored
dimension, blocks, and the counters `nrpost`, `nrstored`, `last`. -/
structure Eig (R : Type) where
  values : Values R
  m : Mat R
  dim : Nat
  blocks : List (Mat R)
  nrpost : Int
  nrstored : Int
  last : Bool
  deriving DecidableEq

/-- `Blocks::save` (`c++/eigen.hpp:253-256`). -/
def saveBlocks (b : List (Mat R)) : List (Tok R) := .size b.length :: b.flatMap saveMat

/-- `Blocks::load` (`c++/eigen.hpp:257-260`). -/
def loadBlocks : Reader R (List (Mat R)) := fun s => do
  let (n, s) ← readSize s
  readN loadMat n s

/-- `Eigen::save` (`c++/eigen.hpp:419-424`, `Vectors::save` 196-199). -/
def saveEig (e : Eig R) : List (Tok R) :=
  saveValues e.values ++ saveMat e.m ++ [.size e.dim] ++ saveBlocks e.blocks
    ++ [.int e.nrpost, .int e.nrstored, .flag e.last]

/-- `Eigen::load` (`c++/eigen.hpp:425-430`, `Vectors::load` 200-203). -/
def loadEig (nan : R) : Reader R (Eig R) := fun s => do
  let (values, s) ← loadValues nan s
  let (m, s) ← loadMat s
  let (dim, s) ← readSize s
  let (blocks, s) ← loadBlocks s
  let (nrpost, s) ← readInt s
  let (nrstored, s) ← readInt s
  let (last, s) ← readFlag s
  pure (⟨values, m, dim, blocks, nrpost, nrstored, last⟩, s)

/-- `std::map` insertion or assignment `loaded[inv] = …`; the map is the list of
its entries in increasing order of the key. -/
def mapSet {β} (k : Label) (x : β) : List (Label × β) → List (Label × β)
  | [] => [(k, x)]
  | (k', x') :: l =>
    if Invar.lt k k' then (k, x) :: (k', x') :: l
    else if k = k' then (k, x) :: l
    else (k', x') :: mapSet k x l

/-- The body of the save loop: number of entries, then key and value of each
(`c++/eigen.hpp:585-592`, `c++/operators.hpp:108-115`). Each list is one
write, after which the stream state may be inspected. -/
def saveMapChunks {β} (saveItem : β → List (Tok R)) (m : List (Label × β)) : List (List (Tok R)) :=
  [.size m.length] :: m.map fun p => saveLabel p.1 ++ saveItem p.2

def saveMap {β} (saveItem : β → List (Tok R)) (m : List (Label × β)) : List (Tok R) :=
  (saveMapChunks saveItem m).flatten

/-- The load loop (`c++/eigen.hpp:606-613`, `c++/operators.hpp:129-136`). -/
def loadItems {β} (loadItem : Reader R β) : Nat → List (Label × β) → Reader R (List (Label × β))
  | 0, acc, s => some (acc, s)
  | n + 1, acc, s => do
    let (k, s) ← loadLabel s
    let (x, s) ← loadItem s
    loadItems loadItem n (mapSet k x acc) s

def loadMap {β} (loadItem : Reader R β) : Reader R (List (Label × β)) := fun s => do
  let (n, s) ← readSize s
  loadItems loadItem n [] s

/-- `DiagInfo::save`/`load` and `DensMatElements::save`/`load`. -/
def saveDiag (d : List (Label × Eig R)) : List (Tok R) := saveMap saveEig d
def loadDiag (nan : R) : Reader R (List (Label × Eig R)) := loadMap (loadEig nan)
def saveRho (d : List (Label × Mat R)) : List (Tok R) := saveMap saveMat d
def loadRho : Reader R (List (Label × Mat R)) := loadMap loadMat

end Verif.Store
