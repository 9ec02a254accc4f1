#!/usr/bin/env python3
"""Which operation keyword can come first in a sentence of a rule; writes Verif/Grammar/FirstKwData.lean (untrusted, checked
by the kernel in Verif/Grammar/FirstKw.lean). Bits: 1 query keyword, 2 update keyword, 4 none."""
import sys
sys.path.insert(0,'/verif/tools')
from gen_grammar import *
from gen_cert import items,tree
Q={"SELECT","CONSTRUCT","ASK","DESCRIBE"}
U={"LOAD","CLEAR","DROP","CREATE","ADD","MOVE","COPY","INSERT","INSERT_DATA","DELETE","DELETE_DATA","DELETE_WHERE"}
fk={k:0 for k in FN}
def ev(r):
    t=r[0]
    if t=="Node": return fk[r[1]]
    if t=="Token": return 1 if r[1] in Q else 2 if r[1] in U else 4
    if t=="Seq":
        m=4
        for x in r[1]:
            if m&4: m=(m&3)|ev(x)
        return m
    if t=="Alt":
        m=0
        for x in r[1]: m|=ev(x)
        return m
    return ev(r[1])|4
ch=True
while ch:
    ch=False
    for k in FN:
        v=ev(RULES[k])
        if v!=fk[k]: fk[k]=v; ch=True
if __name__=="__main__":
    print(fk["QueryUnit"],fk["UpdateUnit"])
    with open("/verif/lean/Verif/Grammar/FirstKwData.lean","w") as f:
        f.write("-- GENERATED by /verif/tools/gen_fk.py; do not edit.\nimport Verif.Grammar.Kinds\n/-!\n# First operation keyword of a rule (data)\n\nNot part of the code; checked by the kernel in `Verif.Grammar.FirstKw`.\n-/\nnamespace Verif.Grammar\n\n")
        f.write("def fkTree : KTree Nat :=\n"+tree(items,lambda n:str(fk[n]))+"\n\nend Verif.Grammar\n")
