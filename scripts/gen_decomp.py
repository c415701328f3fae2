#!/usr/bin/env python3
"""Generate lean/Verif/Symm/Decomp.lean: for each table the list of site
multiplets and a kernel-checked proof that the table is their expansion.

usage: gen_decomp.py /repo/c++/symmetry /verif/lean/Verif/Symm/Decomp.lean
"""
import sys, os
sys.path.insert(0, os.path.dirname(os.path.abspath(__file__)))
import gen_tables as g
from collections import Counter
root, out = sys.argv[1], sys.argv[2]
K={'QS':'us','QSZ':'uu','U1':'u','SU2':'s','SPSU2':'s','SPU1':'u','ISO':'ss','ISO2':'ss','ISOSZ':'su','P':'z','PP':'zz','NONE':'n','SL':'n','SL3':'nnn','QSLR':'usz','QSZLR':'uuz','ISOLR':'ssz','ISO2LR':'ssz','ISOSZLR':'suz','SPSU2LR':'sz','SPU1LR':'uz','QSC3':'us3','SPSU2C3':'s3','QST':'usT','QSTZ':'usu','QSZTZ':'uuu','SPSU2T':'sT','QJ':'us','DBLSU2':'ss','DBLISOSZ':'ssu','DBLQSZ':'uuu'}
FN={'ISO2':'ISO','ISO2LR':'ISOLR'}
def dim(q,c):
    d=1
    for x,k in zip(q,K[c]):
        if k=='s': d*=x
        if k=='T': d*=2*x+1
    return d
o=["import Verif.Symm.Count","/-!","# Site multiplets encoded by each table (generated)","",
"Generated by `scripts/gen_decomp.py`.  Each theorem is a kernel evaluation over the",
"whole (finite) table; it is lifted to all labels by `sum_table`.","-/","","namespace Verif.Symm",""]
names=[]
for c,b,n in g.TABLES:
    Q=g.read(f"{root}/coefnew/{b}-QN.dat","QN")
    ms=[]
    for q,m in Counter(tuple(x) for x in Q).items():
        assert m%dim(q,c)==0
        ms+= [list(q)]*(m//dim(q,c))
    nm=f"{c}_{n}ch"
    o.append(f"def mul_{nm} : List Verif.Invar.Label := [")
    line="  "
    for k,r in enumerate(ms):
        t=str(r)+(", " if k<len(ms)-1 else "]")
        if len(line)+len(t)>100: o.append(line.rstrip()); line="  "
        line+=t
    o.append(line); o.append("")
    o.append(f"theorem dec_{nm} : decomposes ⟨fields_{FN.get(c,c)}, tab_{nm}⟩ mul_{nm} = true := by decide +kernel")
    o.append("")
    names.append(nm)
o.append("/-- Every built-in table is the expansion of a list of site multiplets. -/")
o.append("theorem builtins_decompose : ∀ b ∈ builtins, ∃ ms, decomposes b.sym ms = true := by")
o.append("  simp only [builtins, List.forall_mem_cons, List.not_mem_nil, false_imp_iff, implies_true, and_true]")
o.append("  exact ⟨"+", ".join(f"⟨_, dec_{n}⟩" for n in names)+"⟩")
o.append("")
o.append("end Verif.Symm")
open(out,"w").write("\n".join(o)+"\n")
