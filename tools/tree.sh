#!/bin/sh
# Prints the tree the model gives for a document, as a Lean term (used to write the examples).
cat > /tmp/tree_gen.lean <<'L'
import Verif.Props.Lexer
open Verif Verif.Lexer Verif.Grammar
partial def pr : Green → String
  | .tok k t => s!".tok {k} {repr t}"
  | .node k cs => s!".node {k} [{String.intercalate ", " (cs.map pr)}]"
def main (args : List String) : IO Unit := do
  let t := (args.getD 0 "").toList
  IO.println (repr t)
  match parseSource (fun _ => 1) t with
  | none => IO.println "none"
  | some (g, e) => IO.println (pr g); IO.println s!"{repr e}"
L
cd /verif/lean && lake env lean --run /tmp/tree_gen.lean "$1"
