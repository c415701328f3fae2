#!/usr/bin/env python3
"""Generate lean/Verif/Coef/Plan*.lean: the kinds of site multiplets in the operator
recalculation tables, from the tables in lean/Verif/Oper and lean/Verif/Symm."""
import re, collections, sys
L = '/verif/lean/Verif'
CL = open(f'{L}/Symm/Classes.lean').read(); TB = open(f'{L}/Symm/Tables.lean').read()
OP = ''.join(open(f'{L}/Oper/Tables{x}.lean').read() for x in ['QS', 'QST', 'SPSU2T', 'Rest'])
classes = {(a, int(n)): (f, t) for a, n, f, t in re.findall(r'⟨"(\w+)", (\d+), (fields_\w+), (tab_\w+)⟩', CL)}
order = re.findall(r'op_\w+', re.search(r'def opTables.*?\]', open(f'{L}/Oper/Tables.lean').read(), re.S).group(0))

def fields(cls, n):
    m = re.search(r'def ' + classes[(cls, n)][0] + r'\b.*?:= \[(.*?)\]\n', CL, re.S)
    s = m.group(1).replace('⟨"II", .additive, .su2, .val, .any⟩', 'spin "II"')
    return re.findall(r'(charge|spin|parity|free|c3|angmom) "(\w+)"', s)

def table(cls, n):
    m = re.search(r'def ' + classes[(cls, n)][1] + r' : List \(Label × Label\) := \[(.*?)\]\n\n', TB, re.S)
    return [(eval('[' + a + ']'), eval('[' + b + ']')) for a, b in re.findall(r'\(\[([^\]]*)\], \[([^\]]*)\]\)', m.group(1) + ']')]

LOSING = {('DBLSU2', 'doublet'), ('QSZTZ', 'triplet'), ('SPSU2LR', 'doublet'), ('SPSU2LR', 'triplet'),
          ('SPSU2T', 'doublet'), ('SPU1LR', 'doublet'), ('SPU1LR', 'triplet')}
UNF = {('ISO', 3, 'doublet'), ('ISO', 3, 'triplet'), ('QSZ', 3, 'triplet'), ('SPSU2', 3, 'triplet')}


def optable(name):
    m = re.search(r'def ' + name + r' : OpTable where\n(.*?)(?=\n\n|\nend)', OP, re.S)
    body = m.group(1)
    cls, n = re.search(r'builtin := ⟨"(\w+)", (\d+)', body).groups()
    kind = re.search(r'kind := \.(\w+)', body).group(1)
    ts = []
    for t in re.finditer(r'⟨\[(\.[^\]]*)\], \[([^\]]*)\], (none|some \[(.*?)\])⟩', body, re.S):
        shift = [(k, int(c.strip('()'))) for k, c in re.findall(r'\.(plus|times|const) (\(?-?\d+\)?)', t.group(1))]
        iop = eval('[' + t.group(2) + ']')
        rows = None if t.group(3) == 'none' else [tuple(map(int, x)) for x in
            re.findall(r'⟨(\d+), (\d+), (\d+), (\d+), (\d+)⟩', t.group(4))]
        ts.append((shift, iop, rows))
    return cls, int(n), kind, ts

def plan(name):
    cls, n, kind, ts = optable(name)
    fs, tab = fields(cls, n), table(cls, n)
    N = len(tab)
    par = list(range(N + 1))
    def find(i):
        while par[i] != i: i = par[i]
        return i
    for _, _, rows in ts:
        for r in rows:
            a, b = find(r[0]), find(r[1])
            if a != b: par[max(a, b)] = min(a, b)
    comp = collections.defaultdict(list)
    for i in range(1, N + 1): comp[find(i)].append(i)
    mem = [comp[a] for a in sorted(comp)]
    loc = {i: (a, l) for a, c in enumerate(mem) for l, i in enumerate(c)}
    neutral = [1 if f[0] == 'parity' else 0 for f in fs]
    spin = [f[0] in ('spin', 'angmom') for f in fs]
    sp = lambda x: tuple(v if s else e for v, s, e in zip(x, spin, neutral))
    types, inst = [], []
    local = [[[] for _ in ts] for _ in mem]
    for t, (_, _, rows) in enumerate(ts):
        for i1, ip, a, b, k in rows:
            assert loc[i1][0] == loc[ip][0]
            local[loc[i1][0]][t].append((loc[i1][1], loc[ip][1], k))
    for a, c in enumerate(mem):
        ty = (sp(tab[c[0] - 1][1]), tuple(sp(tab[i - 1][0]) for i in c), tuple(tuple(sorted(x)) for x in local[a]))
        for i in c:
            assert sp(tab[i - 1][1]) == ty[0]
            assert [x for x, s in zip(tab[i - 1][0], spin) if not s] == [x for x, s in zip(tab[c[0] - 1][0], spin) if not s]
        if ty not in types: types.append(ty)
        inst.append(types.index(ty))
    base = [[e if s else v for v, s, e in zip(tab[c[0] - 1][0], spin, neutral)] for c in mem]
    assert all(l < 64 for _, l in loc.values()) and len(mem) < 1024
    return cls, n, kind, ts, fs, types, inst, base, loc

def works(cls, n, kind): return (cls, kind) not in LOSING and (cls, n, kind) not in UNF

def wrap(items, ind, close):
    out, cur = [], ind
    for k, x in enumerate(items):
        y = x + (', ' if k < len(items) - 1 else close)
        if len(cur) + len(y.rstrip()) > 110: out.append(cur.rstrip()); cur = ind
        cur += y
    out.append(cur.rstrip())
    return '\n'.join(out)

def il(x): return '[' + ', '.join(map(str, x)) + ']'
def mtype(ty):
    qn, ins, rows = ty
    return '⟨' + il(qn) + ', [' + ', '.join(map(il, ins)) + '], [' + ', '.join(
        '[' + ', '.join('(%d, %d, %d)' % x for x in r) + ']' for r in rows) + ']⟩'

def emit(name):
    cls, n, kind, ts, fs, types, inst, base, loc = plan(name)
    o = [f'/-- The kinds of site multiplets in `{name}`. -/', f'def {name.replace("op_", "plan_")} : Plan where']
    o.append('  mts := [\n' + wrap([mtype(t) for t in types], '    ', ']'))
    o.append('  inst := [\n' + wrap(['(%d, %s)' % (x, il(b)) for x, b in zip(inst, base)], '    ', ']'))
    o.append('  loc := 0x%x' % sum((loc[i][0] * 64 + loc[i][1]) << (16 * (i - 1)) for i in loc))
    return '\n'.join(o) + '\n'

if __name__ == '__main__':
    groups = collections.defaultdict(list)
    for name in order:
        cls, n, kind, ts = optable(name)
        if not works(cls, n, kind): continue
        g = 'QST' if cls == 'QST' else 'SPSU2T' if cls == 'SPSU2T' else 'QJ' if cls == 'QJ' else 'QS' if cls == 'QS' else 'Rest'
        groups[g].append(name)
    for g, names in groups.items():
        with open(f'{L}/Coef/Plan{g}.lean', 'w') as f:
            f.write(f"""import Verif.Coef.Plan
/-!
# The site multiplets in the operator tables ({g})

Generated by `scripts/gen_plans.py`.
-/

namespace Verif.Coef

""")
            f.write('\n'.join(emit(x) for x in names))
            f.write('\nend Verif.Coef\n')
