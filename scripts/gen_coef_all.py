#!/usr/bin/env python3
"""Generate lean/Verif/Coef/All.lean from the results in Runs*.lean."""
import os
import re
L = os.path.join(os.path.dirname(os.path.abspath(__file__)), '..', 'lean', 'Verif')
names=re.findall(r'^  op_(\w+?)[,\]]', open(f'{L}/Oper/Tables.lean').read(), re.M)
have=set(re.findall(r'theorem orthonormal_(\w+)', ''.join(open(f'{L}/Coef/Runs{g}.lean').read() for g in ['QS','ISO','QST','QJ','SPSU2T','Rest'])))
EX={'QS_3ch_triplet':[2],'QS_4ch_triplet':[2],'QSTZ_3ch_triplet':[1,2],'SPSU2T_3ch_triplet':[1,2]}
SK=['QJ_3ch_quadruplet','QST_3ch_doublet']
o='''import Verif.Coef.RunsISO
import Verif.Coef.RunsQJ
import Verif.Coef.RunsQS
import Verif.Coef.RunsQST
import Verif.Coef.RunsRest
import Verif.Coef.RunsSPSU2T
import Verif.Oper.Spec
/-!
# The factors of all recalculation tables

Generated by `scripts/gen_coef_all.py`.
-/

namespace Verif.Coef
open Verif.Invar Verif.Symm Verif.Oper

/-- Tables whose factors have not been evaluated: their evaluation takes too long (QST),
or the checker cannot bring a sum into normal form (QJ). -/
def unevaluated : List (String × Nat × Kind) := [("QJ", 3, .quadruplet), ("QST", 3, .doublet)]

/-- Multiplicities of the bra (position in the label, values) for which some factors of
a table are not finite. -/
def singular : List ((String × Nat × Kind) × Nat × List Int) := [
  (("QS", 3, .triplet), 1, [2]), (("QS", 4, .triplet), 1, [2]), (("QSTZ", 3, .triplet), 1, [1, 2]),
  (("SPSU2T", 3, .triplet), 0, [1, 2])]

/-- The function as it is named in these lists. -/
def _root_.Verif.Oper.OpTable.id (T : OpTable) : String × Nat × Kind :=
  (T.builtin.symtype, T.builtin.channels, T.kind)

/-- The bra label is none of those with factors that are not finite. -/
def Regular (T : OpTable) (I : Label) : Prop :=
  ∀ e ∈ singular, e.1 = T.id → ∀ x, I[e.2.1]? = some x → x ∉ e.2.2

/-- The factors of every function that works are orthonormal. -/
theorem tables_orthonormal : ∀ T ∈ opTables, T.Works → T.id ∉ unevaluated →
    ∀ I, Valid (types T.builtin.sym.fields) I → (T.builtin.symtype = "NONE" → I = [0]) → Regular T I →
      Orthonormal T (T.factor I) I := by
  intro T hT
  simp only [opTables, List.mem_cons, List.not_mem_nil, or_false] at hT
'''
o+='  rcases hT with '+' |\n    '.join(' | '.join(['rfl']*min(16,len(names)-i)) for i in range(0,len(names),16))+'\n'
for n in names:
    if n in EX:
        o+=f'  · exact fun _ _ I hI hz hr => orthonormal_{n} I hI hz (notEx_{n} hr)\n'
    elif n in have:
        o+=f'  · exact fun _ _ I hI hz _ => orthonormal_{n} I hI hz\n'
    elif n in SK:
        o+=f'  · exact fun _ h => absurd (by decide) h\n'
    else:
        o+=f'  · exact fun h => absurd h (by decide)\n'
o+='\nend Verif.Coef\n'
ex=''
for n in EX:
    cls=n.split('_')[0]
    pos=0 if cls=='SPSU2T' else 1
    ex+=f'''theorem notEx_{n} {{I : Label}} (h : Regular op_{n} I) :
    NotEx op_{n}.builtin.sym.fields {'[['+', '.join(map(str,EX[n]))+']'+(', []' if cls=='SPSU2T' else '')+']'} I := by
  have h := h _ (by decide : ((("{cls}", {n.split('_')[1][0]}, .triplet), {pos}, {EX[n]}) : (String × Nat × Kind) × Nat × List Int) ∈ singular) rfl
  match I, h with
'''
    if pos==1:
        ex+='''  | [], _ => exact trivial
  | [_], _ => exact trivial
  | [_, x], h => exact ⟨h x rfl, trivial⟩
  | _ :: x :: _ :: _, h => exact ⟨h x rfl, trivial⟩

'''
    else:
        ex+='''  | [], _ => exact trivial
  | [x], h => exact ⟨h x rfl, by trivial⟩
  | x :: _ :: _, h => exact ⟨h x rfl, by simp [NotEx]⟩

'''
o=o.replace('/-- The factors of every function that works are',ex+'/-- The factors of every function that works are')
open(f'{L}/Coef/All.lean', 'w').write(o)
