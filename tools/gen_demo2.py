#!/usr/bin/env python3
"""Writes lean/Verif/Features/DemoActions.lean from demos2.json: valid documents for the code actions, like gen_demo.py.
usage: gen_demo2.py [demos.json Module]"""
import subprocess, sys, textwrap, json
source, target = sys.argv[1:3] if len(sys.argv) > 2 else ("demos2.json", "DemoActions")
docs = json.load(open(f"/verif/tools/{source}"))
out = ['''import Verif.Features.Demo
import Verif.Props.ParserLang
/-!
# Trees of valid documents (examples only; generated by tools/gen_demo2.py)
-/
namespace Verif.Features
open Verif Verif.Grammar Verif.Lexer Verif.Props
''']
w = lambda s: "\n".join(textwrap.wrap(s.replace("' '","'\x00'"), 118, initial_indent="  ", subsequent_indent="  ", break_long_words=False)).replace("\x00"," ")
for d in docs:
    name, doc = d[0], d[1]
    unit = d[2] if len(d) > 2 else "query"
    r = subprocess.run(["/verif/tools/tree.sh", doc], capture_output=True, text=True).stdout
    i = r.index("]\n.node") + 1
    txt = " ".join(r[:i].split()); lines = r[i:].strip().split("\n"); tree = lines[0]; errs = " ".join(" ".join(lines[1:]).split())
    shown = doc.replace("\n", "\\n").replace("`", "'")
    out.append(f"/-- `{shown}` -/\ndef {name}Text : Text :=\n" + w(txt) + "\n")
    out.append(f"/-- The tree of `{shown}`. -/\ndef {name}Tree : Green :=\n" + w(tree) + "\n")
    out.append(f"theorem {name}Tree_parse : parseSource (fun _ => 1) {name}Text = some ({name}Tree, {errs}) := parse_of_code (by decide +kernel)\n")
    if unit != "bad": out.append(f"""theorem {name}_derives : Derives sparqlRules (.node {name}Tree.kind) (kinds (lex (fun _ => 1) {name}Text)) :=
  (c42_accept_iff .{unit} _ (by decide +kernel) (by decide +kernel)).mp
    ⟨_, (Option.some_get (x := parseTokens .{unit} (kinds (lex (fun _ => 1) {name}Text))) (by decide +kernel)).symm, by
      have : ((parseTokens .{unit} (kinds (lex (fun _ => 1) {name}Text))).get (by decide +kernel)).all
        (fun e => match e with | .error _ => false | _ => true) = true := by decide +kernel
      intro x hx
      have := List.all_eq_true.mp this _ hx
      simp at this, by decide +kernel⟩
""")
out.append("end Verif.Features\n")
open(f"/verif/lean/Verif/Features/{target}.lean", "w").write("\n".join(out))
