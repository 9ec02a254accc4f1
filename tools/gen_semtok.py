#!/usr/bin/env python3
"""Generates lean/Verif/Features/SemTokTable.lean from semantic_tokens/mod.rs."""
import re
src=open('/repo/src/server/message_handler/semantic_tokens/mod.rs').read().split('\n')
types=['Keyword','Function','Variable','String','Number','Comment','Operator','Namespace']
hdr='\n'.join(src)
order=re.findall(r'SemanticTokenTypes::(\w+),', hdr[hdr.index('TOKEN_TYPES'):hdr.index('];')])
start=next(i for i,l in enumerate(src) if '&& let Some(semantic_token_type) = match' in l)
end=next(i for i,l in enumerate(src) if '_ => None,' in l)
out=[]
cur=[];first=None
for i in range(start+1,end):
    l=src[i]
    for k in re.findall(r'SyntaxKind::(\w+)',l):
        if first is None: first=i+1
        cur.append(k)
    m=re.search(r'Some\(SemanticTokenTypes::(\w+)\)',l)
    if m:
        out.append((m.group(1),cur,first,i+1)); cur=[];first=None
known=set(re.findall(r'abbrev (\S+) : Kind',open('/verif/lean/Verif/Grammar/Kinds.lean').read()))
def nm(k):
    for c in (k,'«%s»'%k):
        if c in known: return 'K.'+c
    raise Exception(k)
s='''-- GENERATED by /verif/tools/gen_semtok.py from /repo; do not edit.
import Verif.Grammar.Kinds
/-!
# Which token kinds are highlighted, and as what (`semantic_tokens/mod.rs` L14-23, L85-264)
-/
namespace Verif.Features
open Verif.Grammar

'''
for (t,ks,a,b) in out:
    s+=f'/-- Kinds highlighted as {t} (semantic_tokens/mod.rs L{a}-{b}). -/\ndef kinds{t} : List Kind := [\n  '
    line=''
    items=[nm(k) for k in ks]
    rows=[];row=''
    for it in items:
        if len(row)+len(it)+2>110: rows.append(row.rstrip()); row=''
        row+=it+', '
    rows.append(row.rstrip().rstrip(','))
    s+='\n  '.join(rows)+']\n\n'
s+='''/-- The `match` (semantic_tokens/mod.rs L85-264): index into `TOKEN_TYPES` (L14-23). -/
def tokenType (k : Kind) : Option Nat :=
'''
for n,(t,_,_,_) in enumerate(out):
    s+=f"  {'if' if n==0 else 'else if'} k ∈ kinds{t} then some {order.index(t)}\n"
s+='  else none\n\nend Verif.Features\n'
open('/verif/lean/Verif/Features/SemTokTable.lean','w').write(s)
print(order,[(t,len(k),a,b) for t,k,a,b in out])
