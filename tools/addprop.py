#!/usr/bin/env python3
"""Adds a property: addprop.py FILE.json with keys title, statement, quantifier, why, anchors, note, plan_model, plan_proof, import."""
import json,sys,os,re
root=os.path.dirname(os.path.dirname(os.path.abspath(__file__)))
x=json.load(open(sys.argv[1]))
gp=root+"/tools/gen_props.py"
s=open(gp).read()
i=s.index("out = os.path")
s=s[:i]+"p(%s,\n  %s,\n  %s, %s, %s)\n"%tuple(json.dumps(x[k],ensure_ascii=False) for k in ("title","statement","quantifier","why","anchors"))+s[i:]
open(gp,"w").write(s)
os.system("cd %s && python3 tools/gen_props.py"%root)
n=[json.loads(l)["id"] for l in open(root+"/properties.jsonl")][-1]
N=json.load(open(root+"/tools/notes.json"))
N[n]={"note":x["note"]}
if "status" in x: N[n]["status"]=x["status"]
json.dump(N,open(root+"/tools/notes.json","w"),indent=1,ensure_ascii=False)
d=open(root+"/DESIGN.md").read()
rows=[m for m in re.finditer(r"^\| C36-C38 .*\n",d,re.M)]
j=rows[0].start()
d=d[:j]+"| %s | %s | %s |\n"%(n,x["plan_model"],x["plan_proof"])+d[j:]
open(root+"/DESIGN.md","w").write(d)
v=open(root+"/lean/Verif.lean").read()
if x.get("import") and x["import"] not in v:
    v=v.rstrip("\n")+"\nimport "+x["import"]+"\n"
    open(root+"/lean/Verif.lean","w").write(v)
os.system("cd %s && python3 tools/gen_manifest.py"%root)
