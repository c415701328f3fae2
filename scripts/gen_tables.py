#!/usr/bin/env python3
"""Turn the In/QN tables of the built-in symmetries into Lean source.

usage: gen_tables.py /repo/c++/symmetry /verif/lean/Verif/Symm/Tables.lean
For each table named in the load() function of a sym-*-impl.hpp file, the lines
`In[k] = Invar(a, b, ...);` and `QN[k] = Invar(...);` become the k-th pair.
"""
import re, sys, os
root, out = sys.argv[1], sys.argv[2]
# (Lean class name, table base, channels, number of states of the added site)
TABLES = [
 ("DBLISOSZ","dblisosz/dblisosz-2ch",2),("DBLQSZ","dblqsz/dblqsz-2ch",2),("DBLSU2","dblsu2/dblsu2-2ch",2),
 ("ISO","iso/iso-1ch",1),("ISO","iso/iso-2ch",2),("ISO","iso/iso-3ch",3),
 ("ISO2","iso2/iso2-1ch",1),("ISO2","iso2/iso2-2ch",2),
 ("ISOLR","isolr/isolr-2ch",2),("ISO2LR","iso2lr/iso2lr-2ch",2),
 ("ISOSZ","isosz/isosz-1ch",1),("ISOSZ","isosz/isosz-2ch",2),("ISOSZLR","isoszlr/isoszlr-2ch",2),
 ("NONE","none/none-1ch",1),("NONE","none/none-2ch",2),
 ("P","p/p-1ch",1),("P","p/p-2ch",2),("PP","pp/pp-2ch",2),
 ("QJ","qj/qj",3),
 ("QS","qs/qs-1ch",1),("QS","qs/qs-2ch",2),("QS","qs/qs-3ch",3),("QS","qs/qs-4ch",4),
 ("QSC3","qsc3/qsc3",3),("QSLR","qslr/qslr-2ch",2),("QST","qst/qst",3),("QSTZ","qstz/qstz",3),
 ("QSZ","qsz/qsz-1ch",1),("QSZ","qsz/qsz-2ch",2),("QSZ","qsz/qsz-3ch",3),
 ("QSZLR","qszlr/qszlr-2ch",2),("QSZTZ","qsztz/qsztz",3),
 ("SL","sl/sl-1ch",1),("SL","sl/sl-2ch",2),("SL","sl/sl-3ch",3),("SL3","sl3/sl3-3ch",3),
 ("SPSU2","spsu2/spsu2-1ch",1),("SPSU2","spsu2/spsu2-2ch",2),("SPSU2","spsu2/spsu2-3ch",3),
 ("SPSU2C3","spsu2c3/spsu2c3",3),("SPSU2LR","spsu2lr/spsu2lr-2ch",2),("SPSU2T","spsu2t/spsu2t",3),
 ("SPU1","spu1/spu1-1ch",1),("SPU1","spu1/spu1-2ch",2),
 ("SPU1LR","spu1lr/spu1lr-1ch",1),("SPU1LR","spu1lr/spu1lr-2ch",2),
 ("SU2","su2/su2-1ch",1),("SU2","su2/su2-2ch",2),
 ("U1","u1/u1-1ch",1),("U1","u1/u1-2ch",2),("U1","u1/u1-3ch",3),
]
def used():
    s=set()
    for f in os.listdir(root):
        if f.startswith("sym-") and f.endswith("-impl.hpp"):
            for m in re.finditer(r'#include "([^"]*)-In2\.dat"', open(os.path.join(root,f)).read()): s.add(m.group(1))
    return s
def read(fn,var):
    d={}
    for l in open(fn):
        l=l.strip()
        if not l or l.startswith("//"): continue
        m=re.fullmatch(r'(\w+)\[(\d+)\] = Invar\(([^)]*)\);',l)
        assert m and m.group(1)==var,(fn,l)
        k=int(m.group(2)); assert k not in d,(fn,k)
        d[k]=[int(x) for x in m.group(3).split(',')]
    assert sorted(d)==list(range(1,len(d)+1)),fn
    return [d[k] for k in range(1,len(d)+1)]
def name(c,b,n): return f"tab_{c}_{n}ch"
if __name__=="__main__":
    assert used()=={b for _,b,_ in TABLES},(used()^{b for _,b,_ in TABLES})
    o=["import Verif.Invar.Model","/-!","# Tables of the built-in symmetries (generated)","",
    "Generated by `scripts/gen_tables.py` from `c++/symmetry/coefnew/*/*-In2.dat` and",
    "`*-QN.dat`.  Row `k` (0-based) is `(In[k+1], QN[k+1])` of the C++ text; the shift",
    "is `Symmetry::erase_first`, `c++/symmetry.hpp:74-77`.","-/","","namespace Verif.Symm","open Verif.Invar (Label)",""]
    for c,b,n in TABLES:
        I=read(f"{root}/coefnew/{b}-In2.dat","In"); Q=read(f"{root}/coefnew/{b}-QN.dat","QN")
        assert len(I)==len(Q)
        o.append(f"/-- `c++/symmetry/coefnew/{b}-In2.dat:1-{len(I)}`, `{b}-QN.dat:1-{len(Q)}`. -/")
        o.append(f"def {name(c,b,n)} : List (Label × Label) := [")
        rows=[f"({a}, {q})" for a,q in zip(I,Q)]
        line="  "
        for k,r in enumerate(rows):
            t=r+(", " if k<len(rows)-1 else "]")
            if len(line)+len(t)>100: o.append(line.rstrip()); line="  "
            line+=t
        o.append(line); o.append("")
    o.append("end Verif.Symm")
    open(out,"w").write("\n".join(o)+"\n")
