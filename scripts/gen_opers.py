#!/usr/bin/env python3
"""Generate lean/Verif/Oper/Tables*.lean from /repo/c++/symmetry/nrg-recalc-*.hpp
and the files they include from /repo/c++/symmetry/coefnew."""
import re, os, collections, json, sys
root = '/repo/c++/symmetry'
out = '/verif/lean/Verif/Oper'

def split_args(s):
    res, d, cur = [], 0, ''
    for c in s:
        if c == '(': d += 1
        if c == ')': d -= 1
        if c == ',' and d == 0:
            res.append(cur.strip()); cur = ''
        else: cur += c
    res.append(cur.strip())
    return res

def rows(fn):
    t = re.sub(r'//.*', '', open(f'{root}/coefnew/{fn}').read())
    res, cur, depth = [], '', 0
    for ch in t:
        if ch == '{': depth, cur = 1, ''; continue
        if ch == '}': res.append(split_args(cur)); depth = 0; continue
        if depth: cur += ch
    return res

def functions(cls):
    """[(function, first line, [(channels, target, file, Iop, line)])]; substeps
    variants are marked by channels = 's'."""
    t = open(f'{root}/nrg-recalc-{cls}.hpp').read()
    res = []
    ms = list(re.finditer(r'Symmetry\w+<SC>::(recalc_\w+)\(', t))
    for m, nxt in zip(ms, ms[1:] + [None]):
        name = m.group(1)
        if name.startswith('recalc_irreduc') or name == 'recalc_global': continue
        body = t[m.end(): nxt.start() if nxt else len(t)]
        line0 = t[:m.start()].count('\n') + 1
        case = tgt = fn = None; sw = False; bl = []; sub = False
        for k in re.finditer(r'case (?P<case>\d+):|Ip\s*=\s*Invar\((?P<tgt>[^;]*)\);|#include "(?P<fn>[^"]*)"|recalc_table, Invar\((?P<iop>[^)]*)\)|(?P<els>\} else \{)|(?P<sw>switch)|(?P<nr>default: my_assert_not_reached)', body):
            line = line0 + body[:k.start()].count('\n')
            if k.group('els'): sub = True
            elif k.group('sw'): sw = True; case = None
            elif k.group('case'): case = int(k.group('case'))
            elif k.group('tgt') is not None: tgt = k.group('tgt'); case = None; sw = False
            elif k.group('fn'): fn = k.group('fn')
            elif k.group('iop') is not None:
                bl.append(('s' if sub else (case if sw else None), tgt, fn, k.group('iop'), line))
        res.append((name, line0, bl))
    return res

classes = {}   # (cls, n) in the order of Classes.lean
for m in re.finditer(r'⟨"(\w+)", (\d+), (fields_\w+), (tab_\w+)⟩', open('/verif/lean/Verif/Symm/Classes.lean').read()):
    classes[(m.group(1), int(m.group(2)))] = (m.group(3), m.group(4))
fielddefs = {}
names = {'QS': ['q1', 'ss1']}

def comp(x):
    x = x.replace(' ', '')
    m = re.fullmatch(r'-([a-z]+\d*)', x)
    if m: return '.times (-1)', m.group(1)
    m = re.fullmatch(r'(-?\d+)\+([a-z]+\d*)', x)
    if m: return f'.plus {par(int(m.group(1)))}', m.group(2)
    m = re.fullmatch(r'([a-z]+\d*)([+-]\d+)', x)
    if m: return f'.plus {par(int(m.group(2)))}', m.group(1)
    m = re.fullmatch(r'[a-z]+\d*', x)
    if m: return ('.times 1' if x == 'p1' else '.plus 0'), x
    return f'.const {par(int(x))}', None

def par(n): return f'({n})' if n < 0 else str(n)

def params(cls):
    """order of variables: by name in Invar::get and the order in the class."""
    t = open(f'{root}/nrg-recalc-{cls}.hpp').read()
    return dict(re.findall(r'int (\w+)\s*=\s*I1\.get\("(\w+)"\)', t))

def fieldnames(cls):
    t = open('/verif/lean/Verif/Symm/Classes.lean').read()
    m = re.search(r'def ' + classes[[k for k in classes if k[0] == cls][0]][0] + r' :?.*?:= \[(.*?)\]', t)
    return re.findall(r'"(\w+)"', m.group(1))

def lexpr(cls, s):
    if s.strip() == '': return '[.const 0]'   # Invar() of the class NONE
    p = params(cls); fn = fieldnames(cls)
    cs = []
    for i, x in enumerate(split_args(s)):
        c, v = comp(x)
        assert v is None or p[v] == fn[i], (cls, s, p, fn)
        cs.append(c)
    return '[' + ', '.join(cs) + ']'

def label(s):
    if s.strip() == '': return '[0]'
    return '[' + ', '.join(str(int(x)) for x in split_args(s)) + ']'

exprs = {}      # cls -> {expr: index}
labs = {}       # cls -> {lexpr: index}
tables = collections.OrderedDict()   # (cls, n, kind) -> [(tgt, iop, rows or None, fn, line)]
done = []
for cls in dict.fromkeys(k[0] for k in classes):
    ns = [k[1] for k in classes if k[0] == cls]
    for fun, line0, bl in functions(cls):
        kind = {'recalc_doublet': 'doublet', 'recalc_triplet': 'triplet', 'recalc_orb_triplet': 'orbTriplet', 'recalc_quadruplet': 'quadruplet'}[fun]
        norm = lambda s: s.replace(' ', '')
        order = list(dict.fromkeys((norm(b[1]), norm(b[3])) for b in bl))
        for n in ns:
            ts = []
            for tg, io in order:
                c = [b for b in bl if (norm(b[1]), norm(b[3])) == (tg, io) and b[0] in (None, n)]
                assert len(c) <= 1
                # the 1-channel tables are also those of the substeps variant
                for b in bl:
                    if b[0] == 's' and n == 1 and (norm(b[1]), norm(b[3])) == (tg, io): assert c and c[0][2] == b[2], (cls, b)
                anyb = [b for b in bl if (norm(b[1]), norm(b[3])) == (tg, io)][0]
                if c:
                    R = []
                    for r in rows(c[0][2]):
                        assert len(r) == 5, (cls, r)
                        L = labs.setdefault(cls, {}); E = exprs.setdefault(cls, {})
                        ids = []
                        for s in r[2:4]:
                            m = re.fullmatch(r'Invar\((.*)\)', s)
                            ids.append(L.setdefault(lexpr(cls, m.group(1)), len(L)))
                        k = E.setdefault(norm(' '.join(r[4].split())), len(E))
                        R.append((int(r[0]), int(r[1]), ids[0], ids[1], k))
                    ts.append((lexpr(cls, tg), label(io), R, c[0][2], c[0][4]))
                else: ts.append((lexpr(cls, tg), label(io), None, None, anyb[4]))
            tables[(cls, n, kind)] = (fun, line0, ts)

groups = [('QS', ['QS']), ('QST', ['QST']), ('SPSU2T', ['SPSU2T']),
          ('Rest', [c for c in dict.fromkeys(k[0] for k in classes) if c not in ('QS', 'QST', 'SPSU2T')])]
for g, cl in groups:
    s = f'''import Verif.Oper.Model
/-!
# The shipped operator recalculation tables, {"class " + cl[0] if len(cl) == 1 else "other classes"}

Generated by `scripts/gen_opers.py` from `c++/symmetry/nrg-recalc-*.hpp` and the
files they include from `c++/symmetry/coefnew`.
-/

namespace Verif.Oper
open Verif.Symm
'''
    for cls in cl:
        if cls not in labs: continue
        ls = list(labs[cls])
        s += f'\n/-- The label expressions in the operator tables of `{cls}`. -/\ndef labs_{cls} : List LabelExpr := [\n  ' + ',\n  '.join(ls) + ']\n'
        for (c, n, kind), (fun, line0, ts) in tables.items():
            if c != cls: continue
            files = [os.path.basename(t[3]) for t in ts if t[3]]
            f, tab = classes[(cls, n)]
            s += f'\n/-- `{fun}` in `nrg-recalc-{cls}.hpp:{line0}-`, {n} channel(s)' + (': ' + ', '.join(f'`{x}`' for x in files) if files else '') + '. -/\n'
            s += f'def op_{cls}_{n}ch_{kind} : OpTable where\n  builtin := ⟨"{cls}", {n}, {f}, {tab}⟩\n  kind := .{kind}\n  labs := labs_{cls}\n  targets := [\n'
            tt = []
            for tg, io, R, fn, line in ts:
                if R is None: tt.append(f'    ⟨{tg}, {io}, none⟩')
                else:
                    lines, cur = [], '      '
                    for i, r in enumerate(R):
                        x = '⟨' + ', '.join(map(str, r)) + '⟩' + (', ' if i + 1 < len(R) else '')
                        if len(cur) + len(x) > 98: lines.append(cur.rstrip()); cur = '      '
                        cur += x
                    lines.append(cur.rstrip())
                    tt.append(f'    ⟨{tg}, {io}, some [\n' + '\n'.join(lines) + ']⟩')
            s += ',\n'.join(tt) + ']\n'
    s += '\nend Verif.Oper\n'
    open(f'{out}/Tables{g}.lean', 'w').write(s)
s = 'import Verif.Oper.TablesQS\nimport Verif.Oper.TablesQST\nimport Verif.Oper.TablesSPSU2T\nimport Verif.Oper.TablesRest\n/-!\n# All operator recalculation tables (generated by `scripts/gen_opers.py`)\n-/\n\nnamespace Verif.Oper\n\n/-- Every `recalc_doublet`, `recalc_triplet`, `recalc_orb_triplet` and\n`recalc_quadruplet` function, for every number of channels the class is loaded with. -/\ndef opTables : List OpTable := [\n  '
s += ',\n  '.join(f'op_{c}_{n}ch_{k}' for c, n, k in tables) + ']\n\nend Verif.Oper\n'
open(f'{out}/Tables.lean', 'w').write(s)
json.dump({c: list(e) for c, e in exprs.items()}, open('/root/work/hop/exprs.json', 'w'), indent=1)
print(len(tables), sum(len(t[2]) for v in tables.values() for t in v[2] if t[2]), {c: len(e) for c, e in exprs.items()}, {c: len(e) for c, e in labs.items()})
