#!/usr/bin/env python3
"""Compute the termination certificate for the parser functions and write Verif/Grammar/CertData.lean. The certificate
is untrusted: the kernel checks it (Verif/Grammar/Cert.lean)."""
import sys
sys.path.insert(0,'/verif/tools')
from gen_grammar import *
ALL=set(range(len(names)))
EOF=0
REC={kid[x] for x in("WHERE","LCurly","RCurly")}
def K_(ks): return {kid[k] for k in ks}
# FIRST/nullable from rules
null={};first={k:set() for k in FN}
for k in FN: null[k]=False
def nl(r):
    t=r[0]
    if t=="Node": return null[r[1]]
    if t=="Token": return False
    if t=="Seq": return all(nl(x) for x in r[1])
    if t=="Alt": return any(nl(x) for x in r[1])
    return True
def fi(r):
    t=r[0]
    if t=="Node": return first[r[1]]
    if t=="Token": return {kid[r[1]]}
    if t=="Alt": return set().union(*[fi(x) for x in r[1]])
    if t=="Seq":
        s=set()
        for x in r[1]:
            s|=fi(x)
            if not nl(x): break
        return s
    return fi(r[1])
ch=True
while ch:
    ch=False
    for k in FN:
        a=nl(RULES[k])or null[k]
        b=fi(RULES[k])|first[k]
        if a!=null[k] or b!=first[k]: ch=True; null[k]=a; first[k]=b
post={k:set() for k in FN}
calls=None
def left(b,S):
    for x in b: S=left1(x,S)
    return S
def left1(x,S):
    t=x[0]
    if t=="expect": return S-{kid[x[1]]}
    if t=="call":
        g=x[1]
        if calls is not None:
            gd=FN[g][0]
            E=S if gd is None else S&K_(gd)
            if E&first[g]: calls.add((g,1))
            if E-first[g]: calls.add((g,0))
        return S&post[g]
    if t=="sync": return S&(K_(x[1])|{EOF})
    if t=="opt" or t=="rep": 
        ks=K_(x[1]); return (S-ks)|left(x[2],S&ks)
    if t=="alt":
        r=set(); rest=S
        for ks,b in x[1]:
            ks=K_(ks)
            r|=left(b,rest&ks); rest=rest-ks
        rest=rest-{EOF}
        return r|(rest if x[2] is None else rest&REC)
def fpost(k):
    gd,b,sw=FN[k]
    r=left(b,ALL if gd is None else K_(gd))
    if gd is not None: r|=ALL-K_(gd)
    if True: r=r|{EOF}   # ret at Eof
    return r
ch=True
while ch:
    ch=False
    for k in FN:
        p=fpost(k)
        if p!=post[k]: ch=True; post[k]=p
edges={}
for k in FN:
    gd,b,sw=FN[k]
    E=ALL if gd is None else K_(gd)
    for c,S in((1,E&first[k]),(0,E-first[k])):
        calls=set(); left(b,S); edges[(k,c)]=calls
calls=None
rank={}
state={}
def dfs(v,path):
    if state.get(v)==1:
        print("CYCLE",path[path.index(v):]+[v]); return 0
    if v in rank: return rank[v]
    state[v]=1
    r=0
    for w in edges[v]: r=max(r,dfs(w,path+[v])+1)
    state[v]=2
    rank[v]=r
    return r
for v in edges: dfs(v,[])
def mk(s): return str(sum(1<<c for c in s))
items=sorted((kid[n],n) for n in FN)
if __name__=="__main__":
    R=max(rank.values())+1
    with open("/verif/lean/Verif/Grammar/CertData.lean","w") as f:
        f.write("-- GENERATED by /verif/tools/gen_cert.py; do not edit.\nimport Verif.Grammar.Term\n/-!\n# Termination certificate (data)\n\nFor every parse function: the kinds at which it may finish without consuming a token, its FIRST set, its ranks.\nNot part of the code; checked by the kernel in `Verif.Grammar.Cert`.\n-/\nnamespace Verif.Grammar\n\n")
        f.write("def postTree : KTree Mask :=\n"+tree(items,lambda n:mk(post[n]))+"\n\n")
        f.write("def firstTree : KTree Mask :=\n"+tree(items,lambda n:mk(first[n]))+"\n\n")
        f.write("def rinTree : KTree Nat :=\n"+tree(items,lambda n:str(rank[(n,1)]))+"\n\n")
        f.write("def routTree : KTree Nat :=\n"+tree(items,lambda n:str(rank[(n,0)]))+"\n\n")
        f.write("def sparqlCert : Cert where\n  post k := (postTree.find k).getD 0\n  first k := (firstTree.find k).getD 0\n  rin k := (rinTree.find k).getD 0\n  rout k := (routTree.find k).getD 0\n\n/-- Bound on ranks. -/\ndef rankBound : Nat := %d\n\nend Verif.Grammar\n"%R)
