import Verif.Text.Model
/-!
# Extra columns of the thermodynamic table

For each symmetry class, the columns declared in the constructor and those set in
`calculate_TD`, in the order of the source.
-/

namespace Verif.Out
open Verif.Text

structure TdClass where
  name : String
  declared : List Str
  assigned : List Str

def tdClasses : List TdClass := [
  -- `c++/symmetry/sym-DBLISOSZ-impl.hpp:13,92-95`
  ⟨"DBLISOSZ", ["<Sz^2>".toList, "<Sz>".toList, "<Q1^2>".toList, "<Q2^2>".toList], ["<Sz>".toList, "<Sz^2>".toList, "<Q1^2>".toList, "<Q2^2>".toList]⟩,
  -- `c++/symmetry/sym-DBLQSZ-impl.hpp:13,62-67`
  ⟨"DBLQSZ", ["<Sz^2>".toList, "<Sz>".toList, "<Q1>".toList, "<Q1^2>".toList, "<Q2>".toList, "<Q2^2>".toList], ["<Sz>".toList, "<Sz^2>".toList, "<Q1>".toList, "<Q1^2>".toList, "<Q2>".toList, "<Q2^2>".toList]⟩,
  -- `c++/symmetry/sym-DBLSU2-impl.hpp:13,60-61`
  ⟨"DBLSU2", ["<Q1^2>".toList, "<Q2^2>".toList], ["<Q1^2>".toList, "<Q2^2>".toList]⟩,
  -- `c++/symmetry/sym-ISO-impl.hpp:11,60-61`
  ⟨"ISO", ["<Sz^2>".toList, "<Q^2>".toList], ["<Sz^2>".toList, "<Q^2>".toList]⟩,
  -- `c++/symmetry/sym-ISOLR-impl.hpp:10,53-54`
  ⟨"ISOLR", ["<Sz^2>".toList, "<Q^2>".toList], ["<Sz^2>".toList, "<Q^2>".toList]⟩,
  -- `c++/symmetry/sym-ISOSZ-impl.hpp:12,65-67`
  ⟨"ISOSZ", ["<Sz^2>".toList, "<Sz>".toList, "<Q^2>".toList], ["<Sz>".toList, "<Sz^2>".toList, "<Q^2>".toList]⟩,
  -- `c++/symmetry/sym-ISOSZLR-impl.hpp:12,55-57`
  ⟨"ISOSZLR", ["<Sz^2>".toList, "<Sz>".toList, "<Q^2>".toList], ["<Sz>".toList, "<Sz^2>".toList, "<Q^2>".toList]⟩,
  -- `c++/symmetry/sym-NONE-impl.hpp:12`
  ⟨"NONE", [], []⟩,
  -- `c++/symmetry/sym-P-impl.hpp:13`
  ⟨"P", [], []⟩,
  -- `c++/symmetry/sym-PP-impl.hpp:12`
  ⟨"PP", [], []⟩,
  -- `c++/symmetry/sym-QJ-impl.hpp:15,49-51`
  ⟨"QJ", ["<Jz^2>".toList, "<Q>".toList, "<Q^2>".toList], ["<Jz^2>".toList, "<Q>".toList, "<Q^2>".toList]⟩,
  -- `c++/symmetry/sym-QS-impl.hpp:13,82-84`
  ⟨"QS", ["<Sz^2>".toList, "<Q>".toList, "<Q^2>".toList], ["<Sz^2>".toList, "<Q>".toList, "<Q^2>".toList]⟩,
  -- `c++/symmetry/sym-QSC3-impl.hpp:13,66-68`
  ⟨"QSC3", ["<Sz^2>".toList, "<Q>".toList, "<Q^2>".toList], ["<Sz^2>".toList, "<Q>".toList, "<Q^2>".toList]⟩,
  -- `c++/symmetry/sym-QSLR-impl.hpp:13,64-66`
  ⟨"QSLR", ["<Sz^2>".toList, "<Q>".toList, "<Q^2>".toList], ["<Sz^2>".toList, "<Q>".toList, "<Q^2>".toList]⟩,
  -- `c++/symmetry/sym-QST-impl.hpp:13,97-100`
  ⟨"QST", ["<Sz^2>".toList, "<Tz^2>".toList, "<Q>".toList, "<Q^2>".toList], ["<Sz^2>".toList, "<Tz^2>".toList, "<Q>".toList, "<Q^2>".toList]⟩,
  -- `c++/symmetry/sym-QSTZ-impl.hpp:13,69-72`
  ⟨"QSTZ", ["<Sz^2>".toList, "<Tz^2>".toList, "<Q>".toList, "<Q^2>".toList], ["<Sz^2>".toList, "<Tz^2>".toList, "<Q>".toList, "<Q^2>".toList]⟩,
  -- `c++/symmetry/sym-QSZ-impl.hpp:13,71-74`
  ⟨"QSZ", ["<Sz^2>".toList, "<Sz>".toList, "<Q>".toList, "<Q^2>".toList], ["<Sz^2>".toList, "<Sz>".toList, "<Q>".toList, "<Q^2>".toList]⟩,
  -- `c++/symmetry/sym-QSZLR-impl.hpp:13,52-55`
  ⟨"QSZLR", ["<Sz^2>".toList, "<Sz>".toList, "<Q>".toList, "<Q^2>".toList], ["<Sz^2>".toList, "<Sz>".toList, "<Q>".toList, "<Q^2>".toList]⟩,
  -- `c++/symmetry/sym-QSZTZ-impl.hpp:12,45-50`
  ⟨"QSZTZ", ["<Sz>".toList, "<Sz^2>".toList, "<Tz>".toList, "<Tz^2>".toList, "<Q>".toList, "<Q^2>".toList], ["<Sz>".toList, "<Sz^2>".toList, "<Tz>".toList, "<Tz^2>".toList, "<Q>".toList, "<Q^2>".toList]⟩,
  -- `c++/symmetry/sym-SL-impl.hpp:13,48-51`
  ⟨"SL", ["<Q>".toList, "<Q^2>".toList, "<sQ^2>".toList], ["<Q>".toList, "<Q^2>".toList, "<sQ^2>".toList]⟩,
  -- `c++/symmetry/sym-SL3-impl.hpp:13,47-55`
  ⟨"SL3", ["<Q1>".toList, "<Q1^2>".toList, "<sQ1^2>".toList, "<Q2>".toList, "<Q2^2>".toList, "<sQ2^2>".toList, "<Q3>".toList, "<Q3^2>".toList, "<sQ3^2>".toList], ["<Q1>".toList, "<Q1^2>".toList, "<sQ1^2>".toList, "<Q2>".toList, "<Q2^2>".toList, "<sQ2^2>".toList, "<Q3>".toList, "<Q3^2>".toList, "<sQ3^2>".toList]⟩,
  -- `c++/symmetry/sym-SPSU2-impl.hpp:13,75-75`
  ⟨"SPSU2", ["<Sz^2>".toList], ["<Sz^2>".toList]⟩,
  -- `c++/symmetry/sym-SPSU2C3-impl.hpp:13,54-54`
  ⟨"SPSU2C3", ["<Sz^2>".toList], ["<Sz^2>".toList]⟩,
  -- `c++/symmetry/sym-SPSU2LR-impl.hpp:13,56-56`
  ⟨"SPSU2LR", ["<Sz^2>".toList], ["<Sz^2>".toList]⟩,
  -- `c++/symmetry/sym-SPSU2T-impl.hpp:13,74-75`
  ⟨"SPSU2T", ["<Sz^2>".toList, "<Tz^2>".toList], ["<Sz^2>".toList, "<Tz^2>".toList]⟩,
  -- `c++/symmetry/sym-SPU1-impl.hpp:13,60-61`
  ⟨"SPU1", ["<Sz^2>".toList, "<Sz>".toList], ["<Sz^2>".toList, "<Sz>".toList]⟩,
  -- `c++/symmetry/sym-SPU1LR-impl.hpp:13,55-56`
  ⟨"SPU1LR", ["<Sz^2>".toList, "<Sz>".toList], ["<Sz^2>".toList, "<Sz>".toList]⟩,
  -- `c++/symmetry/sym-SU2-impl.hpp:13,60-60`
  ⟨"SU2", ["<Q^2>".toList], ["<Q^2>".toList]⟩,
  -- `c++/symmetry/sym-U1-impl.hpp:13,47-48`
  ⟨"U1", ["<Q>".toList, "<Q^2>".toList], ["<Q>".toList, "<Q^2>".toList]⟩]

end Verif.Out
