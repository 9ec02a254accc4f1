#!/usr/bin/env python3
"""Compute LL(1) tables (nullable, FIRST, FOLLOW, look-ahead costs) and write Verif/Grammar/LLData.lean. The tables are
untrusted: the kernel checks them (Verif/Grammar/LLCert.lean)."""
import sys
sys.path.insert(0,'/verif/tools')
from gen_grammar import *
from gen_cert import null,first,nl,fi,mk,items,tree
follow={k:set() for k in FN}
follow["QueryUnit"]={0}; follow["UpdateUnit"]={0}
def prop(r,Fo):
    ch=False
    t=r[0]
    if t=="Node":
        if not Fo<=follow[r[1]]: follow[r[1]]|=Fo; ch=True
    elif t=="Seq":
        for x in reversed(r[1]):
            ch|=prop(x,Fo)
            Fo=fi(x)|(Fo if nl(x) else set())
    elif t=="Alt":
        for x in r[1]: ch|=prop(x,Fo)
    elif t=="Opt": ch|=prop(r[1],Fo)
    elif t=="Rep": ch|=prop(r[1],Fo|fi(r[1]))
    return ch
while True:
    ch=False
    for k in FN: ch|=prop(RULES[k],follow[k])
    if not ch: break
ec={k:0 for k in FN}; xc={k:0 for k in FN}
def snull(b): return all(snull1(x) for x in b)
def snull1(x):
    t=x[0]
    if t=="expect": return False
    if t=="call": return null[x[1]]
    if t=="alt": return any(snull(b) for _,b in x[1])
    return True
def zc(b): return sum(zc1(x) for x in b)
def zc1(x): return 0 if x[0]=="expect" else 1
def E(b):
    if not b: return 0
    if len(b)==1: return E1(b[0])
    return max(E1(b[0]), zc1(b[0])+E(b[1:]) if snull1(b[0]) else 0)
def E1(x):
    t=x[0]
    if t in("expect","sync"): return 1
    if t=="call": return ec[x[1]]
    if t in("opt","rep"): return 1+E(x[2])
    return 1+max(E(b) for _,b in x[1])
def X(b):
    if not b: return 0
    if len(b)==1: return X1(b[0])
    return max(X(b[1:]), X1(b[0])+zc(b[1:]) if snull(b[1:]) else 0)
def X1(x):
    t=x[0]
    if t in("expect","sync"): return 0
    if t=="call": return xc[x[1]]
    if t=="opt": return X(x[2])
    if t=="rep": return X(x[2])+1
    return max(X(b) for _,b in x[1])
for it in range(3000):
    ch=False
    for k in FN:
        g,b,sw=FN[k]
        e=E(b)+(1 if g is not None else 0); x=X(b)
        if e>ec[k] or x>xc[k]: ch=True; ec[k]=max(e,ec[k]); xc[k]=max(x,xc[k])
    if not ch: break
    if max(max(ec.values()),max(xc.values()))>2000: print("DIVERGES"); break
if __name__=="__main__":
    print(max(ec.values()),max(xc.values()))
    with open("/verif/lean/Verif/Grammar/LLData.lean","w") as f:
        f.write("-- GENERATED by /verif/tools/gen_ll.py; do not edit.\nimport Verif.Grammar.LL\nimport Verif.Grammar.CertData\n/-!\n# LL(1) tables (data)\n\nNot part of the code; checked by the kernel in `Verif.Grammar.LLCert`.\n-/\nnamespace Verif.Grammar\n\n")
        f.write("def nullTree : KTree Bool :=\n"+tree(items,lambda n:"true" if null[n] else "false")+"\n\n")
        f.write("def followTree : KTree Mask :=\n"+tree(items,lambda n:mk(follow[n]))+"\n\n")
        f.write("def ecTree : KTree Nat :=\n"+tree(items,lambda n:str(ec[n]))+"\n\n")
        f.write("def xcTree : KTree Nat :=\n"+tree(items,lambda n:str(xc[n]))+"\n\n")
        f.write("def sparqlLL : LL where\n  null k := (nullTree.find k).getD false\n  first k := (firstTree.find k).getD 0\n  follow k := (followTree.find k).getD 0\n  ec k := (ecTree.find k).getD 0\n  xc k := (xcTree.find k).getD 0\n\nend Verif.Grammar\n")
