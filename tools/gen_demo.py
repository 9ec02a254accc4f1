#!/usr/bin/env python3
"""Writes lean/Verif/Features/Demo.lean: concrete documents, their trees and a kernel-checked proof that the parser gives them."""
import subprocess, textwrap
docs = [
 ("exT", "exText", "SELECT ?x {<a> a ?x}"),
 ("two", None, "SELECT ?x ?y {}"),
 ("sub", None, "SELECT ?x {{SELECT ?y {?x ?p ?y}}}"),
]
import json, os
extra = os.path.join(os.path.dirname(__file__), "demos.json")
if os.path.exists(extra):
    docs += [(n, None, d) for n, d in json.load(open(extra))]
out = ['''import Verif.Features.Code
import Verif.Props.Lexer
/-!
# Trees of concrete documents (examples only; generated by tools/gen_demo.py)
-/
namespace Verif.Features
open Verif Verif.Grammar Verif.Lexer Verif.Props

theorem parse_of_code {e : Text → Nat} {t : Text} {g errs}
    (h : (parseSource e t).map (fun p => (Green.code p.1, p.2)) = some (Green.code g, errs)) :
    parseSource e t = some (g, errs) := by
  cases hp : parseSource e t with
  | none => rw [hp] at h; cases h
  | some p =>
    rw [hp] at h
    simp only [Option.map_some, Option.some.injEq, Prod.mk.injEq] at h
    rw [← code_inj h.1, ← h.2]
''']
for name, tname, doc in docs:
    r = subprocess.run(["/verif/tools/tree.sh", doc], capture_output=True, text=True).stdout
    i = r.index("]\n.node") + 1
    txt = " ".join(r[:i].split()); lines = r[i:].strip().split("\n"); tree = lines[0]; errs = " ".join(" ".join(lines[1:]).split())
    errs = errs.replace("{ start :=", "{ start :=")
    shown = doc.replace("\n", "\\n").replace("`", "'")
    if tname is None:
        tname = name + "Text"
        out.append(f"/-- `{shown}` -/\ndef {tname} : Text :=\n" + textwrap.fill(txt.replace("' '","'\x00'"), 118, initial_indent="  ", subsequent_indent="  ", break_long_words=False).replace("\x00"," ") + "\n")
    t = "Tree" if name != "exT" else "ree"
    tn = name + t
    out.append(f"/-- The tree of `{shown}`. -/\ndef {tn} : Green :=\n" + "\n".join(textwrap.wrap(tree.replace("' '","'\x00'"), 118, initial_indent="  ", subsequent_indent="  ", break_long_words=False)).replace("\x00"," ") + "\n")
    out.append(f"theorem {tn}_parse : parseSource (fun _ => 1) {tname} = some ({tn}, {errs}) := parse_of_code (by decide +kernel)\n")
out.append("end Verif.Features\n")
open("/verif/lean/Verif/Features/Demo.lean", "w").write("\n".join(out))
