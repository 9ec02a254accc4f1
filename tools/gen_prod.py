#!/usr/bin/env python3
"""Heights of derivations of the empty word / of some word; writes Verif/Grammar/ProdData.lean (untrusted, checked by the
kernel in Verif/Grammar/Sparql.lean)."""
import sys
sys.path.insert(0,'/verif/tools')
from gen_grammar import *
from gen_cert import null,items,tree
INF=10**6
dn={k:INF for k in FN}; dp={k:INF for k in FN}
def hn(r):
    t=r[0]
    if t=="Node": return dn[r[1]]+1
    if t=="Token": return INF
    if t=="Seq": return max(hn(x) for x in r[1])
    if t=="Alt": return min(hn(x) for x in r[1])
    return 0
def hp(r):
    t=r[0]
    if t=="Node": return dp[r[1]]+1
    if t=="Token": return 0
    if t=="Seq": return max(hp(x) for x in r[1])
    if t=="Alt": return min(hp(x) for x in r[1])
    return 0
ch=True
while ch:
    ch=False
    for k in FN:
        a=min(hn(RULES[k]),INF); b=min(hp(RULES[k]),INF)
        if a<dn[k] or b<dp[k]: dn[k]=min(a,dn[k]); dp[k]=min(b,dp[k]); ch=True
assert all((dn[k]<INF)==null[k] for k in FN) and all(dp[k]<INF for k in FN)
if __name__=="__main__":
    with open("/verif/lean/Verif/Grammar/ProdData.lean","w") as f:
        f.write("-- GENERATED by /verif/tools/gen_prod.py; do not edit.\nimport Verif.Grammar.Sound\n/-!\n# Heights of derivations (data)\n\nNot part of the code; checked by the kernel in `Verif.Grammar.Sparql`.\n-/\nnamespace Verif.Grammar\n\n")
        f.write("def dnTree : KTree Nat :=\n"+tree(items,lambda n:str(dn[n]))+"\n\n")
        f.write("def dpTree : KTree Nat :=\n"+tree(items,lambda n:str(dp[n]))+"\n\n")
        f.write("def sparqlProd : Prod where\n  dn k := (dnTree.find k).getD 0\n  dp k := (dpTree.find k).getD 0\n\nend Verif.Grammar\n")
