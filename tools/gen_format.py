#!/usr/bin/env python3
"""Writes lean/Verif/Format/Tables.lean from formatting/utils.rs and formatting/core.rs."""
import re, os, textwrap
R = '/repo/src/server/message_handler/formatting/'
ks = re.findall(r'SyntaxKind::(\w+),', open(R + 'utils.rs').read().split('];')[0])
core = open(R + 'core.rs').read()
body = core[core.index('fn get_separator'):]; body = body[:body.index('\n}\n')]
sep = {n: re.findall(r'SyntaxKind::(\w+)', p) for p, n in re.findall(r'((?:\s*\|?\s*SyntaxKind::\w+)+)\s*=>\s*Seperator::(\w+)', body)}
fmt = lambda l: textwrap.fill(', '.join('K.' + k for k in l), 110, initial_indent='  [', subsequent_indent='   ') + ']'
out = '''import Verif.Grammar.Kinds
/-!
# Tables of the formatter (generated by tools/gen_format.py)
-/
namespace Verif.Format
open Verif.Grammar

/-- `KEYWORDS` (formatting/utils.rs L4-114). -/
def keywords : List Kind :=
%s

/-- The kinds `get_separator` (core.rs L1078-1174) maps to `LineBreak`. -/
def lineBreakKinds : List Kind :=
%s

/-- The kinds it maps to `Empty`. -/
def emptyKinds : List Kind :=
%s

/-- The kinds it maps to `Space`; all others are `Unknown`. -/
def spaceKinds : List Kind :=
%s

end Verif.Format
''' % (fmt(ks), fmt(sep['LineBreak']), fmt(sep['Empty']), fmt(sep['Space']))
p = os.path.join(os.path.dirname(os.path.dirname(os.path.abspath(__file__))), 'lean/Verif/Format/Tables.lean')
open(p, 'w').write(out)
