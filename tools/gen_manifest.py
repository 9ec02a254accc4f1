#!/usr/bin/env python3
"""MANIFEST.json from the theorem names cNN_... in Verif/Props and the notes below."""
import re,glob,json,os
root=os.path.dirname(os.path.dirname(os.path.abspath(__file__)))
props=[json.loads(l) for l in open(root+"/properties.jsonl")]
thms={}
for f in sorted(glob.glob(root+"/lean/Verif/Props/*.lean")):
    for m in re.finditer(r"^theorem (c(\d+)_\w+)",open(f).read(),re.M):
        thms.setdefault("C"+m.group(2),[]).append("Verif.Props."+m.group(1))
NOTES=json.load(open(root+"/tools/notes.json"))
claims=[]
for x in props:
    i=x["id"]; n=NOTES.get(i,{})
    t=thms.get(i,[])
    st=n.get("status") or ("proved" if t else None)
    if st is None: continue
    claims.append({"property":i,"status":st,"theorems":t,"note":n.get("note","")})
json.dump({"claims":claims},open(root+"/MANIFEST.json","w"),indent=1)
print(len(claims),sum(len(c["theorems"]) for c in claims), [x["id"] for x in props if x["id"] not in {c["property"] for c in claims}])
