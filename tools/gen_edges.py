#!/usr/bin/env python3
"""Generates lean/Verif/Format/EdgeData.lean: tables of what nodes begin with and what may stand behind them.
The tables are checked in Format/Edge.lean; nothing here is trusted."""
import subprocess, os, tempfile
here = os.path.dirname(os.path.abspath(__file__))
lean = os.path.join(here, '..', 'lean')
SRC = r'''
import Verif.Format.Relex
import Verif.Format.Walker
import Verif.Grammar.Edges
open Verif Verif.Grammar Verif.Lexer Verif.Format
def rules : List (Kind × Rule) := sparqlRulesTree.toList
def nullIter : Nat → List Kind → List Kind
  | 0, N => N
  | n+1, N => nullIter n ((rules.filter (fun p => nullRule N p.2)).map (·.1))
def NL := nullIter 10 []
def okOf (cl : Class) : Nat := Id.run do
  let mut m := 0
  for (r : LexRule) in lexRules do
    if subClass (firsts r.re) cl && lexRules.all (fun r' => r'.kind != r.kind || subClass (firsts r'.re) cl) then m := m ||| (1 <<< r.kind)
  return m
def wordEnds : List Kind := [K.PNAME_NS, K.PNAME_LN, K.a, K.VAR1, K.VAR2, K.LANG_DIR, K.INTEGER, K.DECIMAL, K.DOUBLE, K.True, K.False, K.UNDEF,
  K.BLANK_NODE_LABEL, K.GRAPH, K.NOT, K.Plus, K.Minus, K.STRING_LITERAL1, K.STRING_LITERAL2] ++ signed
def wordStarts : List Kind := [K.PNAME_NS, K.PNAME_LN, K.INTEGER, K.DECIMAL, K.DOUBLE, K.True, K.False, K.BLANK_NODE_LABEL, K.UNDEF, K.a, K.EXISTS,
  K.STRING_LITERAL1, K.STRING_LITERAL2, K.STRING_LITERAL_LONG1, K.STRING_LITERAL_LONG2] ++ signed
def maskOf (l : List Kind) : Nat := l.foldl (fun m k => m ||| (1 <<< k)) 0
def okM (k : Kind) : Nat := okOf (safeOf k) ||| (if k == K.LParen then maskOf [K.RParen, K.RParenDoubleMore] else 0) ||| (if k == K.LBrack then maskOf [K.RBrack] else 0)
def okArr : Array Nat := (Array.range 184).map okM
def all : Nat := 2^184 - 1
def reach : Nat → List Kind → List Kind
  | 0, l => l
  | n+1, l => reach n (l ++ (l.flatMap (fun k => match (rules.find? (·.1 == k)) with
      | some (_, r) => syms r | none => [])).filter (fun k => !l.contains k)).eraseDups
where syms : Rule → List Kind
  | .tok _ => [] | .node k => [k] | .seq a b => syms a ++ syms b | .alt a b => syms a ++ syms b | .opt r => syms r | .rep r => syms r
def iter (n : Nat) (init : Nat) (f : (Kind → Nat) → Rule → Nat) : Array Nat := Id.run do
  let mut t := Array.replicate 400 init
  for _ in [0:n] do
    for p in rules do
      let cur := t
      t := t.set! p.1 (f (fun k => cur[k]!) p.2)
  return t
def fT := iter 60 0 (fun F r => (headSyms NL r).foldl (fun m s => m ||| (match s with | .tok k => 1 <<< k | .node k => F k)) 0)
def aT := iter 60 all (fun A r => (tailSyms NL r).foldl (fun m s => m &&& (match s with | .tok k => okArr[k]! | .node k => A k)) all)
def bT := iter 60 all (fun A r => (tailSyms NL r).foldl (fun m s => m &&& (match s with | .tok k => okArr[k]! ||| (if wordEnds.contains k then maskOf wordStarts else 0) | .node k => A k)) all)
partial def tree (l : Array (Nat × Nat)) : String :=
  if l.size == 1 then s!".leaf {l[0]!.1} {l[0]!.2}"
  else
    let m := l.size / 2
    s!".br {l[m]!.1} ({tree (l.extract 0 m)}) ({tree (l.extract m l.size)})"
#eval show IO Unit from do
  let sorted := (rules.map (·.1)).toArray.qsort (· < ·)
  IO.println s!"/-- The nodes that can be empty. -/\ndef nullNodes : List Kind := {NL}\n"
  IO.println s!"/-- The nodes of queries. -/\ndef queryNodes : Nat := {maskOf (reach 40 [K.QueryUnit])}\n"
  IO.println s!"/-- What a node can begin with, as a set of kinds. -/\ndef firstTree : KTree Nat :=\n  {tree (sorted.map (fun k => (k, fT[k]!)))}\n"
  IO.println s!"/-- What may be written directly behind a node. -/\ndef behindTree : KTree Nat :=\n  {tree (sorted.map (fun k => (k, aT[k]!)))}\n"
  IO.println s!"/-- What may be written directly behind a node if no words run into each other. -/\ndef behindTree2 : KTree Nat :=\n  {tree (sorted.map (fun k => (k, bT[k]!)))}\n"
  IO.println s!"/-- The kinds whose tokens begin with characters of the classes of `safeTable`. -/\ndef okClasses : List Nat := {safeTable.map (fun p => okOf p.2)}\n"
  IO.println s!"/-- Those that begin with characters that cannot continue a word. -/\ndef okWord : Nat := {okOf wordSafe}"
'''
with tempfile.NamedTemporaryFile('w', suffix='.lean', delete=False) as f:
    f.write(SRC)
out = subprocess.run(['lake', 'env', 'lean', f.name], cwd=lean, capture_output=True, text=True)
if out.returncode: print(out.stdout[-3000:], out.stderr[-2000:]); raise SystemExit(1)
with open(os.path.join(lean, 'Verif/Format/EdgeData.lean'), 'w') as f:
    f.write('import Verif.Grammar.Kinds\n/-!\n# Tables for neighbouring tokens (generated by tools/gen_edges.py)\n-/\nnamespace Verif.Format\nopen Verif.Grammar\n\n' + out.stdout + '\nend Verif.Format\n')
