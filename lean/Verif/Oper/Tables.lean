import Verif.Oper.TablesQS
import Verif.Oper.TablesQST
import Verif.Oper.TablesSPSU2T
import Verif.Oper.TablesRest
/-!
# All operator recalculation tables (generated by `scripts/gen_opers.py`)
-/

namespace Verif.Oper

/-- Every `recalc_doublet`, `recalc_triplet`, `recalc_orb_triplet` and
`recalc_quadruplet` function, for every number of channels the class is loaded with. -/
def opTables : List OpTable := [
  op_DBLISOSZ_2ch_doublet,
  op_DBLQSZ_2ch_doublet,
  op_DBLSU2_2ch_doublet,
  op_ISO_1ch_doublet,
  op_ISO_2ch_doublet,
  op_ISO_3ch_doublet,
  op_ISO_1ch_triplet,
  op_ISO_2ch_triplet,
  op_ISO_3ch_triplet,
  op_ISO2_1ch_doublet,
  op_ISO2_2ch_doublet,
  op_ISO2_1ch_triplet,
  op_ISO2_2ch_triplet,
  op_ISOLR_2ch_doublet,
  op_ISOLR_2ch_triplet,
  op_ISO2LR_2ch_doublet,
  op_ISO2LR_2ch_triplet,
  op_ISOSZ_1ch_doublet,
  op_ISOSZ_2ch_doublet,
  op_ISOSZ_1ch_triplet,
  op_ISOSZ_2ch_triplet,
  op_ISOSZLR_2ch_doublet,
  op_ISOSZLR_2ch_triplet,
  op_NONE_1ch_doublet,
  op_NONE_2ch_doublet,
  op_P_1ch_doublet,
  op_P_2ch_doublet,
  op_QJ_3ch_doublet,
  op_QJ_3ch_quadruplet,
  op_QS_1ch_doublet,
  op_QS_2ch_doublet,
  op_QS_3ch_doublet,
  op_QS_4ch_doublet,
  op_QS_1ch_triplet,
  op_QS_2ch_triplet,
  op_QS_3ch_triplet,
  op_QS_4ch_triplet,
  op_QSLR_2ch_doublet,
  op_QSLR_2ch_triplet,
  op_QST_3ch_doublet,
  op_QST_3ch_triplet,
  op_QST_3ch_orbTriplet,
  op_QSTZ_3ch_doublet,
  op_QSTZ_3ch_triplet,
  op_QSZ_1ch_doublet,
  op_QSZ_2ch_doublet,
  op_QSZ_3ch_doublet,
  op_QSZ_1ch_triplet,
  op_QSZ_2ch_triplet,
  op_QSZ_3ch_triplet,
  op_QSZTZ_3ch_doublet,
  op_QSZTZ_3ch_triplet,
  op_SL_1ch_doublet,
  op_SL_2ch_doublet,
  op_SL_3ch_doublet,
  op_SL3_3ch_doublet,
  op_SPSU2_1ch_doublet,
  op_SPSU2_2ch_doublet,
  op_SPSU2_3ch_doublet,
  op_SPSU2_1ch_triplet,
  op_SPSU2_2ch_triplet,
  op_SPSU2_3ch_triplet,
  op_SPSU2LR_2ch_doublet,
  op_SPSU2LR_2ch_triplet,
  op_SPSU2T_3ch_doublet,
  op_SPSU2T_3ch_triplet,
  op_SPU1_1ch_doublet,
  op_SPU1_2ch_doublet,
  op_SPU1_1ch_triplet,
  op_SPU1_2ch_triplet,
  op_SPU1LR_1ch_doublet,
  op_SPU1LR_2ch_doublet,
  op_SPU1LR_1ch_triplet,
  op_SPU1LR_2ch_triplet,
  op_SU2_1ch_doublet,
  op_SU2_2ch_doublet,
  op_U1_1ch_doublet,
  op_U1_2ch_doublet,
  op_U1_3ch_doublet]

end Verif.Oper
