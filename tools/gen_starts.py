#!/usr/bin/env python3
import re,sys
src=open('/verif/lean/Verif/Grammar/Table.lean').read()
fns={}
for m in re.finditer(r"def fn_(\w+) : FnDef where\n  guard := (.*)\n  kind := K\.(\w+)\n  body := (.*)\n  swallow := (\w+)",src):
    fns[m.group(1)]=dict(guard=m.group(2),body=m.group(4))
def parse(s):
    toks=re.findall(r"\(|\)|\[|\]|,|[\w.]+",s); i=0
    def p():
        nonlocal i
        t=toks[i]
        if t=='(':
            i+=1; l=[]
            while toks[i]!=')': l.append(p())
            i+=1; return tuple(l)
        if t=='[':
            i+=1; l=[]
            while toks[i]!=']':
                if toks[i]==',': i+=1; continue
                l.append(p())
            i+=1; return frozenset(l)
        i+=1; return t
    return p()
for f in fns.values():
    f['b']=parse(f['body']); g=f['guard']
    f['g']=None if g=='none' else parse(g[5:])
A={k:frozenset() for k in fns}  # frozenset or None(unknown)
for k in ('QueryUnit','UpdateUnit'): A[k]=None
changed=True
def walk(known,s):
    global changed
    if isinstance(s,str): s=(s,)
    op=s[0]
    if op=='.seq': walk(known,s[1]); walk(None,s[2])
    elif op=='.call':
        k=s[1][2:]
        if A[k] is None: return
        if known is None: A[k]=None; changed=True
        elif not known<=A[k]: A[k]=A[k]|known; changed=True
    elif op in('.opt','.rep'): walk(s[1],s[2])
    elif op=='.alt': walk(known,s[1])
    elif op=='.arm':
        walk(s[1],s[2]); walk(known,s[3])
while changed:
    changed=False
    for k,f in fns.items():
        walk(f['g'] if f['g'] is not None else A[k],f['b'])

"""Which tokens a node of a kind can start with (untrusted; checked by the kernel in Verif/Grammar/Starts.lean)."""
if __name__=="__main__":
    with open("/verif/lean/Verif/Grammar/StartsData.lean","w") as f:
        f.write("-- GENERATED by /verif/tools/gen_starts.py; do not edit.\nimport Verif.Grammar.Kinds\n/-!\n# The tokens a node can start with\n\nSpecification data, not part of the code: for node kinds whose parse function is only entered on certain tokens, these\ntokens. Checked by the kernel in `Verif.Grammar.Starts`.\n-/\nnamespace Verif.Grammar\n\n")
        f.write("def nodeStarts : List (Kind × List Kind) := [\n")
        rows=[]
        for k,fn in fns.items():
            v=fn['g'] if fn['g'] is not None else A[k]
            if v is not None: rows.append("  (K.%s, [%s])"%(k,", ".join(sorted(v))))
        f.write(",\n".join(rows)+"]\n\nend Verif.Grammar\n")
