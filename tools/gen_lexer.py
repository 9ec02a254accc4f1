#!/usr/bin/env python3
"""Generate lean/Verif/Lexer/Table.lean from crates/sparql-parser/src/syntax_kind/generated.rs."""
import re, sys, unicodedata
SRC = '/repo/crates/sparql-parser/src/syntax_kind/generated.rs'
MAX = 0x10FFFF

def ranges_of(pred):
    out, start = [], None
    for c in range(MAX + 2):
        ok = c <= MAX and not (0xD800 <= c <= 0xDFFF) and pred(c)
        if ok and start is None: start = c
        if not ok and start is not None:
            out.append((start, c - 1)); start = None
    return out

DIGIT = ranges_of(lambda c: unicodedata.category(chr(c)) == 'Nd')
SPACE = [(9, 13), (32, 32), (0x85, 0x85), (0xA0, 0xA0), (0x1680, 0x1680), (0x2000, 0x200A), (0x2028, 0x2029),
         (0x202F, 0x202F), (0x205F, 0x205F), (0x3000, 0x3000)]

def norm(rs):
    rs = sorted(rs); out = []
    for a, b in rs:
        if out and a <= out[-1][1] + 1: out[-1] = (out[-1][0], max(out[-1][1], b))
        else: out.append((a, b))
    return out
def negate(rs):
    out, p = [], 0
    for a, b in norm(rs):
        if p < a: out.append((p, a - 1))
        p = b + 1
    if p <= MAX: out.append((p, MAX))
    return out
def fold(rs):
    out = list(rs)
    for a, b in rs:
        for c in range(a, b + 1):
            if c < 128 and chr(c).isalpha(): out.append((ord(chr(c).swapcase()),) * 2)
    return norm(out)

class P:
    """Parser for the subset of regex syntax used in generated.rs."""
    def __init__(s, t): s.t, s.i, s.ci = t, 0, False
    def peek(s): return s.t[s.i] if s.i < len(s.t) else None
    def alt(s):
        xs = [s.cat()]
        while s.peek() == '|': s.i += 1; xs.append(s.cat())
        return xs[0] if len(xs) == 1 else ('alt', xs)
    def cat(s):
        xs = []
        while s.peek() not in (None, '|', ')'): xs.append(s.post())
        return xs[0] if len(xs) == 1 else ('seq', xs)
    def post(s):
        x = s.atom()
        while s.peek() in ('*', '+', '?', '{'):
            c = s.peek()
            if c == '{':
                m = re.compile(r'\{(\d+)\}').match(s.t, s.i); s.i = m.end(); x = ('times', int(m.group(1)), x)
            else:
                s.i += 1; x = ({'*': 'star', '+': 'plus', '?': 'opt'}[c], x)
        return x
    def esc(s):
        """after a backslash: a list of ranges"""
        c = s.t[s.i]; s.i += 1
        if c == 'u':
            m = re.compile(r'\{([0-9A-Fa-f]+)\}').match(s.t, s.i); s.i = m.end(); v = int(m.group(1), 16); return [(v, v)]
        if c == 'x': v = int(s.t[s.i:s.i+2], 16); s.i += 2; return [(v, v)]
        if c == 'd': return DIGIT
        if c == 's': return SPACE
        v = {'t': 9, 'n': 10, 'r': 13, 'f': 12}.get(c)
        if v is None:
            assert not c.isalnum(), c
            v = ord(c)
        return [(v, v)]
    def atom(s):
        c = s.t[s.i]
        if c == '(':
            s.i += 1; old = s.ci
            m = re.compile(r'\?(i|i-u|-u)?:').match(s.t, s.i)
            if m:
                s.i = m.end()
                if m.group(1) and 'i' in m.group(1): s.ci = True
            x = s.alt(); assert s.t[s.i] == ')'; s.i += 1; s.ci = old; return x
        if c == '[':
            s.i += 1; neg = False
            if s.peek() == '^': neg = True; s.i += 1
            rs = []
            while s.peek() != ']':
                a = s.one()
                if s.peek() == '-' and s.t[s.i+1] != ']':
                    s.i += 1; b = s.one(); assert len(a) == len(b) == 1; rs.append((a[0][0], b[0][1]))
                else: rs += a
            s.i += 1
            rs = norm(rs)
            return ('cls', negate(rs) if neg else rs)
        if c == '\\':
            if s.t[s.i+1] == 'b': s.i += 2; return ('bound',)
            s.i += 1; return ('cls', s.esc())
        s.i += 1
        assert c not in '.^$', c
        r = [(ord(c), ord(c))]
        return ('cls', fold(r) if s.ci else r)
    def one(s):
        if s.peek() == '\\': s.i += 1; return s.esc()
        c = s.t[s.i]; s.i += 1; return [(ord(c), ord(c))]

named = {}
def cls(rs):
    rs = norm(rs)
    if rs == DIGIT: return 'digit'
    if rs == norm(SPACE): return 'space'
    return '[' + ', '.join('(0x%X, 0x%X)' % r for r in rs) + ']'
def lean(x):
    k = x[0]
    if k == 'cls':
        return '.cls ' + cls(x[1])
    if k == 'alt':
        ys = []
        acc = []
        # merge adjacent single-character classes: [A-Z]|[a-z] is [A-Za-z]
        for y in x[1]:
            if y[0] == 'cls' : acc += y[1]
            else:
                if acc: ys.append(('cls', norm(acc))); acc = []
                ys.append(y)
        if acc: ys.append(('cls', norm(acc)))
        if len(ys) == 1: return lean(ys[0])
        return 'alts [' + ', '.join(lean(y) for y in ys) + ']'
    if k == 'seq':
        return 'seqs [' + ', '.join(lean(y) for y in x[1]) + ']'
    if k == 'times': return 'times %d (%s)' % (x[1], lean(x[2]))
    if k == 'star': return '.star (%s)' % lean(x[1])
    return '%s (%s)' % (k, lean(x[1]))

text = open(SRC).read().split('\n')
rules = []
i = 0
end = next(j for j, l in enumerate(text) if 'Composite nodes' in l)
pend = []
while i < end:
    l = text[i].strip()
    if l.startswith('//'): i += 1; continue
    if l.startswith('#[regex(') or l.startswith('#[token('):
        j = i; s = l
        while not s.endswith(')]'): j += 1; s += text[j].strip()
        kind = 'regex' if l.startswith('#[regex') else 'token'
        m = re.match(r'#\[(?:regex|token)\((r?)(#*)"(.*)"(\2)(.*)\)\]$', s)
        raw, body, rest = m.group(1), m.group(3), m.group(5)
        assert raw or '\\' not in body, body
        pend.append((kind, body, 'ignore(case)' in rest, i + 1, j + 1)); i = j + 1; continue
    m = re.match(r'(\w+)( = 0)?,$', l)
    if m:
        for (kind, body, ci, a, b) in pend: rules.append((m.group(1), kind, body, ci, a, b))
        pend = []
    i += 1

out = ['''-- GENERATED by /verif/tools/gen_lexer.py from /repo; do not edit.
import Verif.Lexer.Regex
import Verif.Grammar.Kinds
/-!
# The lexer rules as data

Models the `#[token]` and `#[regex]` attributes of `crates/sparql-parser/src/syntax_kind/generated.rs`, in order.
Adjacent single-character alternatives are written as one class. `ignore(case)` and `(?i:..)` are modelled as ASCII case
folding. `\\d` is Unicode category Nd and `\\s` the Unicode white space characters.
-/
namespace Verif.Lexer
open Verif.Grammar

/-- A lexer rule: kind, pattern, and whether an ASCII word boundary (`\\b`) must follow. -/
structure LexRule where
  kind : Kind
  re : Regex
  boundary : Bool

''']
out.append('/-- `\\d`: Unicode category Nd (as in Unicode %s). -/\ndef digit : Class := [%s]\n' % (unicodedata.unidata_version, ', '.join('(0x%X, 0x%X)' % r for r in DIGIT)))
out.append('/-- `\\s`: Unicode white space. -/\ndef space : Class := [%s]\n' % ', '.join('(0x%X, 0x%X)' % r for r in norm(SPACE)))
names = []
for (k, kind, body, ci, a, b) in rules:
    if kind == 'token':
        x = ('seq', [('cls', fold([(ord(c), ord(c))]) if ci else [(ord(c), ord(c))]) for c in body])
        if len(x[1]) == 1: x = x[1][0]
        bound = False
    else:
        p = P(body); x = p.alt(); assert p.i == len(body), (body, p.i)
        bound = False
        if x[0] == 'seq' and x[1][-1] == ('bound',):
            bound = True; x = ('seq', x[1][:-1])
            if len(x[1]) == 1: x = x[1][0]
    n = 'rule_' + k
    names.append(n)
    out.append('/-- `%s` (syntax_kind/generated.rs L%s). -/\ndef %s : LexRule := ⟨K.%s, %s, %s⟩\n' % (k, a if a == b else '%d-%d' % (a, b), n, k, lean(x), 'true' if bound else 'false'))
out.append('/-- All rules, in the order of the enum. -/\ndef lexRules : List LexRule :=\n  [' + ',\n   '.join(', '.join(names[i:i+6]) for i in range(0, len(names), 6)) + ']\n')
out.append('end Verif.Lexer')
open('/verif/lean/Verif/Lexer/Table.lean', 'w').write('\n'.join(out) + '\n')
print(len(rules), 'rules')
