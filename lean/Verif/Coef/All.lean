import Verif.Coef.RunsISO
import Verif.Coef.RunsQJ
import Verif.Coef.RunsQS
import Verif.Coef.RunsQST
import Verif.Coef.RunsRest
import Verif.Coef.RunsSPSU2T
import Verif.Oper.Spec
/-!
# The factors of all recalculation tables

Generated by `scripts/gen_coef_all.py`.
-/

namespace Verif.Coef
open Verif.Invar Verif.Symm Verif.Oper

/-- Tables whose factors have not been evaluated: their evaluation takes too long (QST),
or the checker cannot bring a sum into normal form (QJ). -/
def unevaluated : List (String × Nat × Kind) := [("QJ", 3, .quadruplet), ("QST", 3, .doublet)]

/-- Multiplicities of the bra (position in the label, values) for which some factors of
a table are not finite. -/
def singular : List ((String × Nat × Kind) × Nat × List Int) := [
  (("QS", 3, .triplet), 1, [2]), (("QS", 4, .triplet), 1, [2]), (("QSTZ", 3, .triplet), 1, [1, 2]),
  (("SPSU2T", 3, .triplet), 0, [1, 2])]

/-- The function as it is named in these lists. -/
def _root_.Verif.Oper.OpTable.id (T : OpTable) : String × Nat × Kind :=
  (T.builtin.symtype, T.builtin.channels, T.kind)

/-- The bra label is none of those with factors that are not finite. -/
def Regular (T : OpTable) (I : Label) : Prop :=
  ∀ e ∈ singular, e.1 = T.id → ∀ x, I[e.2.1]? = some x → x ∉ e.2.2

theorem notEx_QS_3ch_triplet {I : Label} (h : Regular op_QS_3ch_triplet I) :
    NotEx op_QS_3ch_triplet.builtin.sym.fields [[2]] I := by
  have h := h _ (by decide : ((("QS", 3, .triplet), 1, [2]) : (String × Nat × Kind) × Nat × List Int) ∈ singular) rfl
  match I, h with
  | [], _ => exact trivial
  | [_], _ => exact trivial
  | [_, x], h => exact ⟨h x rfl, trivial⟩
  | _ :: x :: _ :: _, h => exact ⟨h x rfl, trivial⟩

theorem notEx_QS_4ch_triplet {I : Label} (h : Regular op_QS_4ch_triplet I) :
    NotEx op_QS_4ch_triplet.builtin.sym.fields [[2]] I := by
  have h := h _ (by decide : ((("QS", 4, .triplet), 1, [2]) : (String × Nat × Kind) × Nat × List Int) ∈ singular) rfl
  match I, h with
  | [], _ => exact trivial
  | [_], _ => exact trivial
  | [_, x], h => exact ⟨h x rfl, trivial⟩
  | _ :: x :: _ :: _, h => exact ⟨h x rfl, trivial⟩

theorem notEx_QSTZ_3ch_triplet {I : Label} (h : Regular op_QSTZ_3ch_triplet I) :
    NotEx op_QSTZ_3ch_triplet.builtin.sym.fields [[1, 2]] I := by
  have h := h _ (by decide : ((("QSTZ", 3, .triplet), 1, [1, 2]) : (String × Nat × Kind) × Nat × List Int) ∈ singular) rfl
  match I, h with
  | [], _ => exact trivial
  | [_], _ => exact trivial
  | [_, x], h => exact ⟨h x rfl, trivial⟩
  | _ :: x :: _ :: _, h => exact ⟨h x rfl, trivial⟩

theorem notEx_SPSU2T_3ch_triplet {I : Label} (h : Regular op_SPSU2T_3ch_triplet I) :
    NotEx op_SPSU2T_3ch_triplet.builtin.sym.fields [[1, 2], []] I := by
  have h := h _ (by decide : ((("SPSU2T", 3, .triplet), 0, [1, 2]) : (String × Nat × Kind) × Nat × List Int) ∈ singular) rfl
  match I, h with
  | [], _ => exact trivial
  | [x], h => exact ⟨h x rfl, by trivial⟩
  | x :: _ :: _, h => exact ⟨h x rfl, by simp [NotEx]⟩

/-- The factors of every function that works are orthonormal. -/
theorem tables_orthonormal : ∀ T ∈ opTables, T.Works → T.id ∉ unevaluated →
    ∀ I, Valid (types T.builtin.sym.fields) I → (T.builtin.symtype = "NONE" → I = [0]) → Regular T I →
      Orthonormal T (T.factor I) I := by
  intro T hT
  simp only [opTables, List.mem_cons, List.not_mem_nil, or_false] at hT
  rcases hT with rfl | rfl | rfl | rfl | rfl | rfl | rfl | rfl | rfl | rfl | rfl | rfl | rfl | rfl | rfl | rfl |
    rfl | rfl | rfl | rfl | rfl | rfl | rfl | rfl | rfl | rfl | rfl | rfl | rfl | rfl | rfl | rfl |
    rfl | rfl | rfl | rfl | rfl | rfl | rfl | rfl | rfl | rfl | rfl | rfl | rfl | rfl | rfl | rfl |
    rfl | rfl | rfl | rfl | rfl | rfl | rfl | rfl | rfl | rfl | rfl | rfl | rfl | rfl | rfl | rfl |
    rfl | rfl | rfl | rfl | rfl | rfl | rfl | rfl | rfl | rfl | rfl | rfl | rfl | rfl | rfl
  · exact fun _ _ I hI hz _ => orthonormal_DBLISOSZ_2ch_doublet I hI hz
  · exact fun _ _ I hI hz _ => orthonormal_DBLQSZ_2ch_doublet I hI hz
  · exact fun h => absurd h (by decide)
  · exact fun _ _ I hI hz _ => orthonormal_ISO_1ch_doublet I hI hz
  · exact fun _ _ I hI hz _ => orthonormal_ISO_2ch_doublet I hI hz
  · exact fun h => absurd h (by decide)
  · exact fun _ _ I hI hz _ => orthonormal_ISO_1ch_triplet I hI hz
  · exact fun _ _ I hI hz _ => orthonormal_ISO_2ch_triplet I hI hz
  · exact fun h => absurd h (by decide)
  · exact fun _ _ I hI hz _ => orthonormal_ISO2_1ch_doublet I hI hz
  · exact fun _ _ I hI hz _ => orthonormal_ISO2_2ch_doublet I hI hz
  · exact fun _ _ I hI hz _ => orthonormal_ISO2_1ch_triplet I hI hz
  · exact fun _ _ I hI hz _ => orthonormal_ISO2_2ch_triplet I hI hz
  · exact fun _ _ I hI hz _ => orthonormal_ISOLR_2ch_doublet I hI hz
  · exact fun _ _ I hI hz _ => orthonormal_ISOLR_2ch_triplet I hI hz
  · exact fun _ _ I hI hz _ => orthonormal_ISO2LR_2ch_doublet I hI hz
  · exact fun _ _ I hI hz _ => orthonormal_ISO2LR_2ch_triplet I hI hz
  · exact fun _ _ I hI hz _ => orthonormal_ISOSZ_1ch_doublet I hI hz
  · exact fun _ _ I hI hz _ => orthonormal_ISOSZ_2ch_doublet I hI hz
  · exact fun _ _ I hI hz _ => orthonormal_ISOSZ_1ch_triplet I hI hz
  · exact fun _ _ I hI hz _ => orthonormal_ISOSZ_2ch_triplet I hI hz
  · exact fun _ _ I hI hz _ => orthonormal_ISOSZLR_2ch_doublet I hI hz
  · exact fun _ _ I hI hz _ => orthonormal_ISOSZLR_2ch_triplet I hI hz
  · exact fun _ _ I hI hz _ => orthonormal_NONE_1ch_doublet I hI hz
  · exact fun _ _ I hI hz _ => orthonormal_NONE_2ch_doublet I hI hz
  · exact fun _ _ I hI hz _ => orthonormal_P_1ch_doublet I hI hz
  · exact fun _ _ I hI hz _ => orthonormal_P_2ch_doublet I hI hz
  · exact fun _ _ I hI hz _ => orthonormal_QJ_3ch_doublet I hI hz
  · exact fun _ h => absurd (by decide) h
  · exact fun _ _ I hI hz _ => orthonormal_QS_1ch_doublet I hI hz
  · exact fun _ _ I hI hz _ => orthonormal_QS_2ch_doublet I hI hz
  · exact fun _ _ I hI hz _ => orthonormal_QS_3ch_doublet I hI hz
  · exact fun _ _ I hI hz _ => orthonormal_QS_4ch_doublet I hI hz
  · exact fun _ _ I hI hz _ => orthonormal_QS_1ch_triplet I hI hz
  · exact fun _ _ I hI hz _ => orthonormal_QS_2ch_triplet I hI hz
  · exact fun _ _ I hI hz hr => orthonormal_QS_3ch_triplet I hI hz (notEx_QS_3ch_triplet hr)
  · exact fun _ _ I hI hz hr => orthonormal_QS_4ch_triplet I hI hz (notEx_QS_4ch_triplet hr)
  · exact fun _ _ I hI hz _ => orthonormal_QSLR_2ch_doublet I hI hz
  · exact fun _ _ I hI hz _ => orthonormal_QSLR_2ch_triplet I hI hz
  · exact fun _ h => absurd (by decide) h
  · exact fun _ _ I hI hz _ => orthonormal_QST_3ch_triplet I hI hz
  · exact fun _ _ I hI hz _ => orthonormal_QST_3ch_orbTriplet I hI hz
  · exact fun _ _ I hI hz _ => orthonormal_QSTZ_3ch_doublet I hI hz
  · exact fun _ _ I hI hz hr => orthonormal_QSTZ_3ch_triplet I hI hz (notEx_QSTZ_3ch_triplet hr)
  · exact fun _ _ I hI hz _ => orthonormal_QSZ_1ch_doublet I hI hz
  · exact fun _ _ I hI hz _ => orthonormal_QSZ_2ch_doublet I hI hz
  · exact fun _ _ I hI hz _ => orthonormal_QSZ_3ch_doublet I hI hz
  · exact fun _ _ I hI hz _ => orthonormal_QSZ_1ch_triplet I hI hz
  · exact fun _ _ I hI hz _ => orthonormal_QSZ_2ch_triplet I hI hz
  · exact fun h => absurd h (by decide)
  · exact fun _ _ I hI hz _ => orthonormal_QSZTZ_3ch_doublet I hI hz
  · exact fun h => absurd h (by decide)
  · exact fun _ _ I hI hz _ => orthonormal_SL_1ch_doublet I hI hz
  · exact fun _ _ I hI hz _ => orthonormal_SL_2ch_doublet I hI hz
  · exact fun _ _ I hI hz _ => orthonormal_SL_3ch_doublet I hI hz
  · exact fun _ _ I hI hz _ => orthonormal_SL3_3ch_doublet I hI hz
  · exact fun _ _ I hI hz _ => orthonormal_SPSU2_1ch_doublet I hI hz
  · exact fun _ _ I hI hz _ => orthonormal_SPSU2_2ch_doublet I hI hz
  · exact fun _ _ I hI hz _ => orthonormal_SPSU2_3ch_doublet I hI hz
  · exact fun _ _ I hI hz _ => orthonormal_SPSU2_1ch_triplet I hI hz
  · exact fun _ _ I hI hz _ => orthonormal_SPSU2_2ch_triplet I hI hz
  · exact fun h => absurd h (by decide)
  · exact fun h => absurd h (by decide)
  · exact fun h => absurd h (by decide)
  · exact fun h => absurd h (by decide)
  · exact fun _ _ I hI hz hr => orthonormal_SPSU2T_3ch_triplet I hI hz (notEx_SPSU2T_3ch_triplet hr)
  · exact fun _ _ I hI hz _ => orthonormal_SPU1_1ch_doublet I hI hz
  · exact fun _ _ I hI hz _ => orthonormal_SPU1_2ch_doublet I hI hz
  · exact fun _ _ I hI hz _ => orthonormal_SPU1_1ch_triplet I hI hz
  · exact fun _ _ I hI hz _ => orthonormal_SPU1_2ch_triplet I hI hz
  · exact fun h => absurd h (by decide)
  · exact fun h => absurd h (by decide)
  · exact fun h => absurd h (by decide)
  · exact fun h => absurd h (by decide)
  · exact fun _ _ I hI hz _ => orthonormal_SU2_1ch_doublet I hI hz
  · exact fun _ _ I hI hz _ => orthonormal_SU2_2ch_doublet I hI hz
  · exact fun _ _ I hI hz _ => orthonormal_U1_1ch_doublet I hI hz
  · exact fun _ _ I hI hz _ => orthonormal_U1_2ch_doublet I hI hz
  · exact fun _ _ I hI hz _ => orthonormal_U1_3ch_doublet I hI hz

end Verif.Coef
