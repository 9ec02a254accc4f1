#!/usr/bin/env python3
"""Translate /repo/crates/sparql-parser/src/{parser/grammar.rs,rules.rs,syntax_kind/generated.rs} into Lean
tables (Verif/Grammar/Kinds.lean, Table.lean, Rules.lean).  The parser below accepts exactly the statement
forms that occur in grammar.rs and fails on anything else."""
import re, sys, os
R = "/repo/crates/sparql-parser/src/"
# ---------- kinds
src = open(R + "syntax_kind/generated.rs").read()
body = src[src.index("pub enum SyntaxKind"):]
body = body[body.index("{")+1:]
# strip attributes and comments, keep identifiers followed by ',' at enum level
def strip_attrs(s):
    out=[];i=0
    while i < len(s):
        if s.startswith("//", i):
            i = s.index("\n", i)
        elif s[i]=='#' and s[i+1]=='[':
            # attribute, honour raw strings
            i+=2; depth=1
            while depth:
                if s.startswith('r#"', i):
                    i = s.index('"#', i+3)+2
                elif s[i]=='"':
                    i+=1
                    while s[i]!='"':
                        i += 2 if s[i]=='\\' else 1
                    i+=1
                elif s[i]=='[': depth+=1; i+=1
                elif s[i]==']': depth-=1; i+=1
                else: i+=1
        else:
            out.append(s[i]); i+=1
    return "".join(out)
b = strip_attrs(body)
b = b[:b.index("}")]
names=[]
for part in b.split(","):
    part=part.strip()
    if not part: continue
    m=re.fullmatch(r"(\w+)(\s*=\s*0)?",part)
    assert m, part
    names.append(m.group(1))
assert len(set(names))==len(names)
kid={n:i for i,n in enumerate(names)}
# ---------- tokenizer for rust
g = open(R+"parser/grammar.rs").read()
TOK=re.compile(r"\s+|//[^\n]*|(\w+)|(::|=>|==|&&|[{}()\[\];:,.&!_|=#<>&*-])")
def toks(s):
    i=0;res=[];line=1
    while i<len(s):
        m=TOK.match(s,i)
        assert m,(s[i:i+40])
        if m.group(1) or m.group(2): res.append((m.group(0),line))
        line+=m.group(0).count("\n")
        i=m.end()
    return res
T=toks(g); pos=0
def pk(k=0): return T[pos+k][0] if pos+k<len(T) else None
def ex(*xs):
    global pos
    for x in xs:
        assert pk()==x,(x,T[pos-5:pos+10]); pos+=1
def sq(s): ex(*[t for t,_ in toks(s)])
def looking(s):
    ts=[t for t,_ in toks(s)]
    return all(pk(i)==t for i,t in enumerate(ts))
def kind():
    global pos
    ex("SyntaxKind","::"); k=pk(); pos+=1; assert k in kid,k; return k
def kinds(close):
    ks=[]
    while pk()!=close:
        ks.append(kind())
        if pk()==",": ex(",")
    ex(close)
    return ks
def stmts(fn):
    res=[]
    while pk()!="}":
        res.append(stmt(fn))
    return res
def stmt(fn):
    global pos
    if looking("p.expect("):
        sq("p.expect("); k=kind(); sq(");"); return ("expect",k)
    if looking("match p.nth(0) {"):
        sq("match p.nth(0) {"); arms=[]
        while True:
            if looking("SyntaxKind::Eof => {"):
                sq("SyntaxKind::Eof => { p.close(marker, SyntaxKind::%s); let marker = p.open(); p.close(marker, SyntaxKind::Error); return; }"%fn)
                break
            ks=[kind()]
            while pk()=="|": ex("|"); ks.append(kind())
            sq("=> {"); b=stmts(fn); ex("}")
            arms.append((ks,b))
        if looking("_ => {}"):
            sq("_ => {}"); exp=None
        else:
            sq("_ => { p.advance_with_error(vec!["); exp=kinds("]"); sq("); }")
        sq("};")
        return ("alt",arms,exp)
    if looking("while ["):
        sq("while ["); ks=kinds("]"); sq(".contains(&p.nth(0)) { let checkpoint = p.pos();")
        b=[]
        while not looking("if p.pos() == checkpoint"): b.append(stmt(fn))
        sq("if p.pos() == checkpoint { break; } }")
        return ("rep",ks,b)
    if looking("if p.at_any(&["):
        sq("if p.at_any(&["); ks=kinds("]"); sq(") {"); b=stmts(fn); ex("}")
        return ("opt",ks,b)
    if looking("if !p.at_any(&["):
        sq("if !p.at_any(&["); ks=kinds("]"); sq(") && !p.eof() { p.error_until( vec![")
        k2=kinds("]"); sq(", &["); k3=kinds("]")
        if pk()==",": ex(",")
        sq("); }")
        assert ks==k2==k3
        return ("sync",ks)
    m=re.fullmatch(r"parse_(\w+)",pk() or "")
    assert m,T[pos:pos+12]
    pos+=1; sq("(p);")
    return ("call",m.group(1))
# skip header
pos=0
while not looking("pub(super) fn"): pos+=1
FN={}; order=[]; lines={}
UNIT="if !p.at(SyntaxKind::Eof) { let error_marker = p.open(); while !p.at(SyntaxKind::Eof) { p.advance(); } p.close(error_marker, SyntaxKind::Error); }"
while pos<len(T):
    l0=T[pos][1]
    sq("pub(super) fn"); fn=re.fullmatch(r"parse_(\w+)",pk()).group(1); pos+=1
    sq("(p: &mut Parser) {")
    guard=None
    if looking("if !p.at_any(&["):
        sq("if !p.at_any(&["); guard=kinds("]"); sq(") { return; }")
    sq("let marker = p.open();")
    b=[]; swallow=False
    while not looking("p.close(marker"):
        if looking("if !p.at(SyntaxKind::Eof)"): sq(UNIT); swallow=True
        else:
            assert not swallow
            b.append(stmt(fn))
    sq("p.close(marker, SyntaxKind::%s); }"%fn)
    assert fn not in FN
    FN[fn]=(guard,b,swallow); order.append(fn); lines[fn]=(l0,T[pos-1][1])
# ---------- rules.rs
rsrc=open(R+"rules.rs").read()
rt=rsrc[rsrc.index("fn from_node_kind"):]
off=rsrc[:rsrc.index("fn from_node_kind")].count("\n")
T=toks(rt); pos=0
while not looking("match kind {"): pos+=1
sq("match kind {")
def rule():
    ex("Rule","::")
    global pos
    c=pk(); pos+=1
    if c in("Node","Token"):
        ex("("); k=kind()
        if pk()==",": ex(",")
        ex(")"); return (c,k)
    if c in("Seq","Alt"):
        ex("(","vec","!","["); rs=[]
        while pk()!="]":
            rs.append(rule())
            if pk()==",": ex(",")
        ex("]")
        if pk()==",": ex(",")
        ex(")"); return (c,rs)
    assert c in("Opt","Rep")
    ex("(","Box","::","new","("); r=rule()
    if pk()==",": ex(",")
    ex(")")
    if pk()==",": ex(",")
    ex(")"); return (c,r)
RULES={};rlines={}
while pk()!="_":
    l0=T[pos][1]+off
    k=kind(); ex("=>")
    br = pk()=="{"
    if br: ex("{")
    ex("Some","("); r=rule()
    if pk()==",": ex(",")
    ex(")")
    if br: ex("}")
    if pk()==",": ex(",")
    RULES[k]=r; rlines[k]=(l0,T[pos-1][1]+off)
TOKENS=[n for n in names if n not in FN]
if __name__=="__main__":
    print(len(names),"kinds",len(FN),"functions",len(RULES),"rules")
    print("fn without rule:",[f for f in FN if f not in RULES]," rule without fn:",[f for f in RULES if f not in FN])
    print("Nodes = enum tail:", [n for n in names if n in FN]==names[-len(FN):], names[-len(FN)-3:-len(FN)+1])

# ---------------------------------------------------------------- Lean output
def lk(k): return "K."+LN[k]
LEANKW={"Prefix","from","where","at","by","if","then","else","fun","let","have","show","match","with","do","in","end","import","open"}
LN={n:n for n in names}
def ks_(ks): return "["+", ".join(lk(k) for k in ks)+"]"
def seq_(b):
    if not b: return ".skip"
    if len(b)==1: return st_(b[0])
    return "(.seq %s %s)"%(st_(b[0]),seq_(b[1:]))
def st_(x):
    t=x[0]
    if t=="expect": return "(.expect %s)"%lk(x[1])
    if t=="call": return "(.call %s)"%lk(x[1])
    if t=="sync": return "(.sync %s)"%ks_(x[1])
    if t=="opt": return "(.opt %s %s)"%(ks_(x[1]),seq_(x[2]))
    if t=="rep": return "(.rep %s %s)"%(ks_(x[1]),seq_(x[2]))
    if t=="alt":
        s="(.altEnd %s)"%("none" if x[2] is None else "(some %s)"%ks_(x[2]))
        for ks,b in reversed(x[1]): s="(.arm %s %s %s)"%(ks_(ks),seq_(b),s)
        return "(.alt %s)"%s
def rl_(r):
    t=r[0]
    if t=="Node": return "(.node %s)"%lk(r[1])
    if t=="Token": return "(.tok %s)"%lk(r[1])
    if t in("Seq","Alt"):
        c=".seq" if t=="Seq" else ".alt"
        if len(r[1])==1: return rl_(r[1][0])
        return "(%s %s %s)"%(c,rl_(r[1][0]),rl_((t,r[1][1:])))
    return "(%s %s)"%(".opt" if t=="Opt" else ".rep",rl_(r[1]))
def tree(items,render,ind="  "):
    # items: sorted list of (id,text); balanced search tree
    if len(items)==1: return ind+"(.leaf %d %s)"%(items[0][0],render(items[0][1]))
    m=len(items)//2
    return ind+"(.br %d\n"%items[m][0]+tree(items[:m],render,ind+" ")+"\n"+tree(items[m:],render,ind+" ")+")"
HDR="-- GENERATED by /verif/tools/gen_grammar.py from /repo; do not edit.\n"
def main():
    out="/verif/lean/Verif/Grammar/"
    os.makedirs(out,exist_ok=True)
    with open(out+"Kinds.lean","w") as f:
        f.write(HDR+"/-!\n# `SyntaxKind`\n\nModels `crates/sparql-parser/src/syntax_kind/generated.rs` (enum `SyntaxKind`, `repr(u16)`): a kind is its\ndiscriminant. Kinds below 184 are tokens, the others tree nodes.\n-/\nnamespace Verif.Grammar\n\n/-- A `SyntaxKind` discriminant (crates/sparql-parser/src/syntax_kind/generated.rs). -/\nabbrev Kind := Nat\n\nnamespace K\n")
        for n in names: f.write("abbrev %s : Kind := %d\n"%(LN[n],kid[n]))
        f.write("end K\n\n/-- Search trees for tables indexed by kind (representation of Rust's `match kind`/function names). -/\ninductive KTree (α : Type)\n  | leaf (k : Nat) (v : α)\n  | br (m : Nat) (l r : KTree α)\n\ndef KTree.find {α : Type} : KTree α → Kind → Option α\n  | .leaf k v, i => if i = k then some v else none\n  | .br m l r, i => if i < m then l.find i else r.find i\n\ndef KTree.toList {α : Type} : KTree α → List (Kind × α)\n  | .leaf k v => [(k, v)]\n  | .br _ l r => l.toList ++ r.toList\n\ntheorem KTree.find_mem {α : Type} (t : KTree α) (i : Kind) (v : α) (h : t.find i = some v) : (i, v) ∈ t.toList := by\n  induction t with\n  | leaf k w =>\n    simp only [find] at h\n    split at h\n    · next hk => subst hk; simp at h; subst h; simp [toList]\n    · simp at h\n  | br m l r ihl ihr =>\n    simp only [find] at h\n    simp only [toList, List.mem_append]\n    split at h\n    · exact Or.inl (ihl h)\n    · exact Or.inr (ihr h)\n\nend Verif.Grammar\n")
    with open(out+"Table.lean","w") as f:
        f.write(HDR+"import Verif.Grammar.Stmt\n/-!\n# The recursive-descent functions\n\nModels `crates/sparql-parser/src/parser/grammar.rs`, one definition per `parse_X` function. Generated mechanically\nby `tools/gen_grammar.py`, whose Rust reader accepts only the statement forms of `Verif.Grammar.Stmt`.\n-/\nnamespace Verif.Grammar\n\n")
        for n in order:
            gd,b,sw=FN[n]
            f.write("/-- `parse_%s` (crates/sparql-parser/src/parser/grammar.rs L%d-%d). -/\ndef fn_%s : FnDef where\n  guard := %s\n  kind := %s\n  body := %s\n  swallow := %s\n\n"%(n,lines[n][0],lines[n][1],n,"none" if gd is None else "some "+ks_(gd),lk(n),seq_(b),"true" if sw else "false"))
        items=sorted((kid[n],n) for n in order)
        f.write("/-- The function parsing a node kind, by binary search on the discriminant\n(the names `parse_X` of crates/sparql-parser/src/parser/grammar.rs L1-6500). -/\ndef sparqlTree : KTree FnDef :=\n"+tree(items,lambda n:"fn_"+n)+"\n\n/-- The function parsing a node kind (crates/sparql-parser/src/parser/grammar.rs L1-6500). -/\ndef sparql : Grammar := sparqlTree.find\n\n")
        f.write("end Verif.Grammar\n")
    with open(out+"Rules.lean","w") as f:
        f.write(HDR+"import Verif.Grammar.Rule\n/-!\n# The SPARQL grammar as data\n\nModels the table `Rule::from_node_kind` of `crates/sparql-parser/src/rules.rs`. `Seq`/`Alt` vectors are nested to\nthe right.\n-/\nnamespace Verif.Grammar\n\n")
        for n in order:
            f.write("/-- `%s` (crates/sparql-parser/src/rules.rs L%d-%d). -/\ndef rule_%s : Rule := %s\n\n"%(n,rlines[n][0],rlines[n][1],n,rl_(RULES[n])))
        f.write("/-- `Rule::from_node_kind` (crates/sparql-parser/src/rules.rs L41-1579). -/\ndef sparqlRulesTree : KTree Rule :=\n"+tree(items,lambda n:"rule_"+n)+"\n\n/-- `Rule::from_node_kind` (crates/sparql-parser/src/rules.rs L41-1579). -/\ndef sparqlRules : Kind → Option Rule := sparqlRulesTree.find\n\nend Verif.Grammar\n")
if __name__=="__main__" and len(sys.argv)>1: main()
