#!/usr/bin/env python3
"""Generate lean/Verif/Coef/Runs*.lean: the evaluation of the identities between the
factors of the operator recalculation tables."""
import collections
import gen_plans as G
L = G.L
GROUP = {'ISO': 'ISO', 'ISO2': 'ISO', 'ISOLR': 'ISO', 'ISO2LR': 'ISO', 'DBLISOSZ': 'ISO', 'QS': 'QS', 'QST': 'QST',
         'QJ': 'QJ', 'SPSU2T': 'SPSU2T'}
PLAN = {'QST': 'PlanQST', 'SPSU2T': 'PlanSPSU2T', 'QJ': 'PlanQJ', 'QS': 'PlanQS'}
# tables whose identities fail for some multiplicities of the first spin
EXCEPT = {'QS_3ch_triplet': [2], 'QS_4ch_triplet': [2], 'QSTZ_3ch_triplet': [1, 2], 'SPSU2T_3ch_triplet': [1, 2]}
# not evaluated
SKIP = ['QJ_3ch_quadruplet', 'QST_3ch_doublet']
def info(name):
    cls, n, kind, ts, fs, types, inst, base, loc = G.plan('op_' + name)
    y = []
    for i, f in enumerate(fs):
        if f[0] not in ('spin', 'angmom'): y.append(None)
        else:
            mx = max(abs(a[i]) for t in types for a in t[1])
            c = max(abs(iop[i]) for _, iop, _ in ts)
            y.append((f[0], mx + c))
    return cls, n, y

def regimes(y, ex):
    sp = [x for x in y if x]
    us, proof = [], 'usOk_nil'
    for j, x in enumerate(sp):
        e = ex if j == 0 else []
        v = 'U' if x[0] == 'spin' and j < len(sp) - 1 else 'VT' if x[0] == 'angmom' else 'V'
        reg, pr = f'regs{v} {x[1]}', f'usOk_{v} {x[1]} rfl' + ('' if v == 'VT' else ' (by norm_num)')
        if e: reg, pr = f'({reg}).filter (keepReg {e})', f'usOk_{v}E {x[1]} {e} rfl (by norm_num)'
        us.append(('false' if v == 'U' else 'true', reg, pr, e))
    k = len(us)
    for x in reversed(y):
        if x is None: proof = f'usOk_skip rfl ({proof})' if ' ' in proof else f'usOk_skip rfl {proof}'
        else:
            k -= 1
            proof = f'{us[k][2]} ({proof})' if ' ' in proof else f'{us[k][2]} {proof}'
    return us, proof

def emit(name):
    cls, n, y = info(name)
    fs = G.classes[(cls, n)][0]
    ex = EXCEPT.get(name, [])
    us, proof = regimes(y, ex)
    ul = '[' + ', '.join(f'({a}, {b})' for a, b, _, _ in us) + ']'
    el = '[' + ', '.join(str(e) for _, _, _, e in us) + ']'
    o = f"""theorem plan_ok_{name} : planOk op_{name} plan_{name} = true := by decide +kernel

"""
    o += f"""theorem run_ok_{name} : runOk op_{name} plan_{name} {fs} factors_{cls}
    (regsOf {fs} (List.map Prod.snd ({ul} : List (Bool × List Reg)))) = true := by decide +kernel

"""
    run = f'(runOk_holds run_ok_{name})'
    if ex:
        o += f"""theorem orthonormal_{name} : OrthonormalUnless op_{name} {el} :=
  orthonormalUnless_of plan_ok_{name} {run} (by decide)
    ({proof}) rfl factorsOf_{cls}
"""
    else:
        o += f"""theorem orthonormal_{name} : AllOrthonormal op_{name} :=
  allOrthonormal_of (ex := {el}) plan_ok_{name} {run} (by decide)
    ({proof}) (by simp) rfl factorsOf_{cls}
"""
    return o

def header(mods, title):
    return ''.join(f'import Verif.Coef.{m}\n' for m in mods) + f"""/-!
# The identities between the factors, evaluated ({title})

Generated by `scripts/gen_runs.py`.
-/

set_option maxRecDepth 100000

namespace Verif.Coef
open Verif.Symm Verif.Oper

"""

if __name__ == '__main__':
    groups = collections.defaultdict(list)
    for op in G.order:
        cls, n, kind, ts = G.optable(op)
        name = op[3:]
        if not G.works(cls, n, kind) or name in SKIP: continue
        g = GROUP.get(cls, 'Rest')
        groups[g].append((name, cls))
    for g, names in groups.items():
        mods = sorted({PLAN.get(c, 'PlanRest') for _, c in names})
        with open(f'{L}/Coef/Runs{g}.lean', 'w') as f:
            f.write(header(mods + ['Regimes'], g))
            f.write('\n'.join(emit(x) for x, _ in names))
            f.write('\nend Verif.Coef\n')
