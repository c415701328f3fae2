#!/usr/bin/env python3
"""Generate lean/Verif/Coef/Factors*.lean: the factors in the operator recalculation
tables, numbered as in the tables that scripts/gen_opers.py writes."""
import os, ast, re
from fractions import Fraction
here = os.path.dirname(os.path.abspath(__file__))
src = open(here + '/gen_opers.py').read()
src = src.split("groups = [('QS', ['QS'])")[0]
exec(src)

VARS = {'II1': ['ii11'], 'II2': ['ii21'], 'II': ['ii1'], 'SS': ['ss1', 'S'], 'JJ': ['jj1'], 'T': ['T']}

def lean(t, pos):
    def num(q):
        q = Fraction(q)
        if isinstance(q, Fraction): q = q.limit_denominator(100)
        n, d = q.numerator, q.denominator
        return f'.num {par(n)} {d}'
    def a(t): return '(' + go(t) + ')'
    def go(t):
        if isinstance(t, ast.Constant): return num(t.value)
        if isinstance(t, ast.Name): return f'.var {pos[t.id]}'
        if isinstance(t, ast.UnaryOp) and isinstance(t.op, ast.USub): return '.neg ' + a(t.operand)
        if isinstance(t, ast.BinOp):
            op = {ast.Add: 'add', ast.Sub: 'sub', ast.Mult: 'mul', ast.Div: 'div'}[type(t.op)]
            return f'.{op} {a(t.left)} {a(t.right)}'
        if isinstance(t, ast.Call):
            f = t.func.id
            if f == 'sqrt': return '.sqrt ' + a(t.args[0])
            if f in ('S', 'ISO', 'J'): return f'.var {pos[t.args[0].id]}'
            if f == 'Power':
                e = Fraction(ast.literal_eval(t.args[1]))
                if e.denominator == 1: return (f'.pow {a(t.args[0])} {e}' if e > 0 else f'.ipow {a(t.args[0])} {-e}')
                assert e.denominator == 2 and e > 0
                return f'.hpow {a(t.args[0])} {e - Fraction(1, 2)}'
        raise Exception(ast.dump(t))
    return go(t)

big = ['QJ', 'QST', 'SPSU2T']
groups = [('', [c for c in exprs if c not in big])] + [(c, [c]) for c in big]
for g, cl in groups:
    s = f'''import Verif.Coef.Model
/-!
# The factors in the operator recalculation tables{', class ' + g if g else ''}

Generated by `scripts/gen_factors.py` from `c++/symmetry/coefnew/*/*.dat`.  The position of
an expression is the number `k` of `Verif.Oper.OpRow`.  `var i` is the quantum number at
position `i` of the label.  Decimal numbers are read as the fraction with a denominator up to
100 they stand for (`1.6666666666666667` as 5/3).
-/

namespace Verif.Coef
'''
    for cls in cl:
        fn = fieldnames(cls)
        pos = {v: i for i, f in enumerate(fn) for v in VARS.get(f, [])}
        if cls in big: s += '\nset_option maxRecDepth 20000 in'
        s += f'\n/-- The factors of class `{cls}`. -/\ndef factors_{cls} : List Ex := [\n'
        s += ',\n'.join('  ' + lean(ast.parse(e, mode='eval').body, pos) for e in exprs[cls]) + ']\n'
    s += '\nend Verif.Coef\n'
    open(f'/verif/lean/Verif/Coef/Factors{g}.lean', 'w').write(s)
