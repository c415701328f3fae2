#!/usr/bin/env python3
"""Generate lean/Verif/Hop/Tables.lean from the Hamiltonian and recalc tables.

Usage: gen_hops.py /repo/c++/symmetry OUT.lean

For every symmetry class and number of channels:
 * the hopping and occupation tables included in the make_matrix functions of
   sym-X-impl.hpp, with the macro definitions in force at the point of inclusion
   (which fix the channel `ch` and the matrix index `fnr`);
 * the blocks of the irreducible matrix elements computed in recalc_irreduc of
   nrg-recalc-X.hpp: label shift, channel, matrix index and the pairs (i1, ip).
The factors are not extracted.  Variants for `substeps` are skipped.
"""
import re, sys, os, collections
from fractions import Fraction
sys.path.insert(0, os.path.dirname(os.path.abspath(__file__)))
root, out = sys.argv[1:3]
sys.argv = [sys.argv[0], root, '/dev/null']
sys.dont_write_bytecode = True
import gen_tables as gt
classes = open(os.path.join(os.path.dirname(os.path.abspath(__file__)), '..', 'lean', 'Verif', 'Symm', 'Classes.lean')).read()

def split_args(s):
    res, d, cur = [], 0, ''
    for c in s:
        d += (c == '(') - (c == ')')
        if c == ',' and d == 0: res.append(cur.strip()); cur = ''
        else: cur += c
    return res + [cur.strip()]

def calls(fn):
    t = re.sub(r'//.*', '', open(fn).read())
    for st in t.split(';'):
        st = ' '.join(st.split())
        if not st: continue
        m = re.fullmatch(r'(\w+)\((.*)\)', st)
        assert m, (fn, st)
        yield m.group(1), split_args(m.group(2))

def impl_uses(cls):
    t = open(f'{root}/sym-{cls}-impl.hpp').read().replace('\\\n', ' ')
    defs, func, res = {}, None, []
    for ln, line in enumerate(t.split('\n'), 1):
        m = re.match(r'\s*#define (\w+)\(([^)]*)\)\s*(.*)', line)
        if m: defs[m.group(1)] = (m.group(2), m.group(3)); continue
        m = re.match(r'void Symmetry\w+<SC>::(\w+)\(', line)
        if m: func = m.group(1)
        m = re.match(r'\s*#include "([^"]*\.dat)"', line)
        if m and func and func.startswith('make_matrix'): res.append((func, m.group(1), dict(defs)))
    return res

def entries(fn, defs):
    for mac, args in calls(f'{root}/coefnew/{fn}'):
        par, body = defs[mac]
        par = [p.strip() for p in par.split(',')]
        assert len(par) == len(args), (fn, mac, args)
        env = dict(zip(par, args))
        m = re.match(r'(?:this->)?(\w+)\((.*)\)\s*;?$', body)
        f, a = m.group(1), [env.get(x, x) for x in split_args(m.group(2))]
        if f in ('offdiag_function', 'offdiag_function_QJ'):
            yield ('hop', mac, int(a[1]), int(a[2]), a[3], int(a[4]))
        elif f in ('offdiag_qst', 'offdiag_spsu2t'):
            yield ('hop', mac, int(a[0]), int(a[1]), a[2], int(a[3]))
        elif f in ('diag_function', 'diag_function_half'):
            yield ('diag', mac, int(a[1]), env.get('ch', '0'), a[2], body)
        else:
            assert f == 'diag_offdiag_function', (f, mac)
            yield ('diagoff', mac, int(a[1]), int(a[2]), env.get('ch', '0'), body)

def irreduc(cls):
    t = open(f'{root}/nrg-recalc-{cls}.hpp').read()
    t = t[t.index('::recalc_irreduc('):]
    t = t[:t.index('return opch')]
    I1 = fn = None; res = []
    for m in re.finditer(r'I1\s*=\s*Invar\((?P<I1>[^;]*)\);|#include "(?P<fn>[^"]*)"|opch\[(?P<ch>\d)\]\[(?P<n>\d)\]\[II\]', t):
        if m.group('I1') is not None: I1 = m.group('I1')
        elif m.group('fn'): fn = m.group('fn')
        else: res.append((I1, fn, int(m.group('ch')), int(m.group('n'))))
    return res

TY = {'charge': 'add', 'spin': 'add', 'parity': 'mul', 'free': 'add', 'c3': 'mod3', 'angmom': 'add'}
fields = {}
for m in re.finditer(r'def fields_(\w+)[^=]*:= \[(.*)\]', classes):
    fields[m.group(1)] = [TY[a] if a else 'add' for a in re.findall(r'(charge|spin|parity|free|c3|angmom) "\w+"|⟨"', m.group(2))]
builtins = re.findall(r'⟨"(\w+)", (\d), fields_(\w+), tab_(\w+)⟩', classes)
base = {(c, n): b for c, b, n in gt.TABLES}

def shift(cls, expr, tys):
    if cls == 'NONE': return [0]
    d = []
    for e, ty in zip(split_args(expr), tys):
        m = re.fullmatch(r'\(?(-?)(\w+?)([+-]\d+)?\)?(%3)?', e.replace(' ', ''))
        assert m, e
        if ty == 'mul':
            assert not m.group(3); d.append(-1 if m.group(1) else 1)
        else:
            assert not m.group(1); d.append(int(m.group(3) or 0))
            assert ty != 'mod3' or 0 <= d[-1] <= 2
    assert len(d) == len(tys)
    return d

def rows(fn):
    t = re.sub(r'//.*', '', open(f'{root}/coefnew/{fn}').read())
    r = re.findall(r'\{\s*(\d+)\s*,\s*(\d+)\s*,', t)
    assert len(r) == t.count('{'), fn
    return [(int(a), int(b)) for a, b in r]

VAR = {'make_matrix': '.plain', 'make_matrix_nonpolarized': '.nonpolarized',
       'make_matrix_polarized': '.polarized', 'make_matrix_pol2x2': '.pol2x2'}
SPIN = {'DIAG': '.both', 'DIAG_UP': '.up', 'DIAG_DOWN': '.down'}
MAC = {'OFFDIAG': '.offdiag', 'OFFDIAG_MIX': '.mix', 'OFFDIAG_UP': '.up', 'OFFDIAG_DOWN': '.down', 'OFFDIAG_DO': '.down',
       'OFFDIAG_UPDO': '.updo', 'OFFDIAG_DOUP': '.doup', 'OFFDIAG_CR_UP': '.crUp', 'OFFDIAG_CR_DO': '.crDo',
       'OFFDIAG_AN_UP': '.anUp', 'OFFDIAG_AN_DO': '.anDo', 'OFFDIAG_1': '.type1', 'OFFDIAG_2': '.type2', 'ANOMALOUS': '.anomalous'}

def pairs(l):
    s = ''; col = 0; o = []
    for a, b in l: o.append(f'({a},{b})')
    lines = [', '.join(o[k:k + 14]) for k in range(0, len(o), 14)]
    return '[' + (',\n    '.join(lines)) + ']'

L = ["import Verif.Hop.Model", "/-!", "# The shipped Hamiltonian tables", "",
     "Generated by `scripts/gen_hops.py` from `c++/symmetry/sym-*-impl.hpp`,",
     "`c++/symmetry/nrg-recalc-*.hpp` and the files they include from",
     "`c++/symmetry/coefnew`.", "-/", "", "namespace Verif.Hop", "open Verif.Symm", ""]
names = []
for c, n, fc, t in builtins:
    n = int(n); b = base[(c, n)]
    impl = {'ISO2': 'ISO', 'ISO2LR': 'ISOLR'}.get(c, c)
    variants = collections.OrderedDict(); files = collections.OrderedDict()
    for func, fn, defs in impl_uses(impl):
        if not fn.startswith(b): continue
        es = list(entries(fn, defs))
        if any(e[0] == 'hop' and e[4] == 'M' for e in es) or any(re.search(r'\bM\b', defs[e[1]][1]) for e in es): continue
        H, D, X = variants.setdefault(func, (collections.OrderedDict(), collections.OrderedDict(), []))
        files.setdefault(func, []).append(fn)
        for e in es:
            if e[0] == 'hop': H.setdefault((e[1], int(e[4]), e[5]), []).append((e[2], e[3]))
            elif e[0] == 'diag':
                x = Fraction(e[4]) * 2; assert x.denominator == 1
                D.setdefault((e[1], int(e[3])), []).append((e[2], int(x)))
            else: X.append((e[2], e[3]))
    blocks = [(shift(c, I1, fields[fc]), fn, ch, k) for I1, fn, ch, k in irreduc(c) if fn.startswith(b)]
    inv = {'QST': 'some [1, 2, 1]', 'SPSU2T': 'some [2, 1]'}.get(c, 'none')
    guard = {'QJ': '.qj', 'QST': '.qst', 'SPSU2T': '.spsu2t'}.get(c, '.plain')
    name = f'ham_{t}'; names.append(name)
    L.append(f"/-- `recalc_irreduc` in `nrg-recalc-{c}.hpp`: " + ', '.join(f'`{os.path.basename(x[1])}`' for x in blocks) + ". -/")
    L.append(f"def fblocks_{t} : List FBlock := [")
    L.append(',\n'.join(f"  ⟨[{', '.join(map(str, d))}], {ch}, {k}, {pairs(rows(fn))}⟩" for d, fn, ch, k in blocks) + ']')
    L.append('')
    for func, (H, D, X) in variants.items():
        v = VAR[func]
        L.append(f"/-- `{func}` in `sym-{impl}-impl.hpp`: " + ', '.join(f'`{x}`' for x in files[func]) + ". -/")
        L.append(f"def ham_{t}_{v[1:]} : HamTable where\n  variant := {v}\n  hops := [")
        L.append(',\n'.join(f"    ⟨{MAC[m]}, {ch}, {k}, {pairs(l)}⟩" for (m, ch, k), l in H.items()) + ']')
        L.append(f"  siteHops := {pairs(X)}")
        L.append("  occupations := [\n" + ',\n'.join(f"    ⟨{SPIN[m]}, {ch}, {pairs(l)}⟩" for (m, ch), l in D.items()) + ']')
        L.append('')
    L.append(f"/-- Class `Symmetry{c}` with {n} channel(s). -/")
    L.append(f"def {name} : Ham where\n  builtin := ⟨\"{c}\", {n}, fields_{fc}, tab_{t}⟩\n  blocks := fblocks_{t}\n  invarF := {inv}\n  guard := {guard}")
    L.append("  variants := [" + ', '.join(f"ham_{t}_{VAR[x][1:]}" for x in variants) + "]\n")
L.append("/-- All built-in classes and channel numbers. -/\ndef hams : List Ham := [")
L.append(',\n'.join('  ' + x for x in names) + ']\n')
L.append("end Verif.Hop")
open(out, 'w').write('\n'.join(L) + '\n')
