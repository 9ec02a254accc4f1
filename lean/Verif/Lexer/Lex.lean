import Verif.Lexer.Table
import Verif.Grammar.Parse
import Verif.Grammar.TreeSpec
/-!
# The lexer

Models `lex` (`crates/sparql-parser/src/parser/mod.rs` L323-337) over the automaton that the `logos` crate (0.16)
generates from the attributes in `syntax_kind/generated.rs`. What is assumed about `logos`: at every position the longest
match over all rules is taken; if no rule matches, an error token of at least one character is produced. How many
characters an error token swallows is not documented by `logos`, so it is a parameter `errLen` (a function of the
remaining text) over which all theorems quantify.
-/
namespace Verif.Lexer
open Verif Verif.Grammar

/-- An ASCII word character, as `\b` in `(?-u:..)` uses it. -/
def wordChar : Class := [(0x30, 0x39), (0x41, 0x5A), (0x5F, 0x5F), (0x61, 0x7A)]

/-- The position in front of `rest` is a word boundary, given that a word character precedes it. -/
def wordEnd : Text → Bool
  | [] => true
  | c :: _ => !wordChar.has c

/-- Length of the longest match of `r` at the front of `rest`. `n` characters are consumed already, `acc` is the best
length so far; `b`: the rule requires a word boundary (generated.rs L141, L193). -/
def scan (b : Bool) (r : Regex) (n : Nat) (acc : Option Nat) (rest : Text) : Option Nat :=
  let acc' := if r.nullable && (!b || wordEnd rest) then some n else acc
  match rest with
  | [] => acc'
  | c :: cs => match r.deriv c with
    | .none => acc'
    | r' => scan b r' (n + 1) acc' cs

/-- Longest match of a rule. -/
def LexRule.scan (r : LexRule) (rest : Text) : Option Nat := Verif.Lexer.scan r.boundary r.re 0 none rest

/-- The best match over the rules: the longest, of equally long ones the first. (That the choice among equally long ones
is immaterial is theorem `c47_unambiguous`.) -/
def bestOf (rules : List LexRule) (rest : Text) : Option (Nat × Kind) :=
  match rules with
  | [] => none
  | r :: rs =>
    match r.scan rest, bestOf rs rest with
    | none, b => b
    | some n, none => some (n, r.kind)
    | some n, some (m, k) => if m ≤ n then some (n, r.kind) else some (m, k)

/-- One step of the lexer on a nonempty rest: kind and length of the token. Error tokens: parser/mod.rs L330. -/
def nextTok (errLen : Text → Nat) (rest : Text) : Kind × Nat :=
  match bestOf lexRules rest with
  | some (n, k) => (k, n)
  | none => (K.Error, min (max 1 (errLen rest)) rest.length)

/-- The loop of `lex` (parser/mod.rs L327-335); `fuel` bounds the number of tokens, `off` is the byte offset. -/
def lexGo (errLen : Text → Nat) : Nat → Nat → Text → List Tok
  | 0, _, _ => []
  | _, _, [] => []
  | fuel + 1, off, rest@(_ :: _) =>
    let t := nextTok errLen rest
    let w := rest.take t.2
    { kind := t.1, text := w, start := off, stop := off + blen w } ::
      lexGo errLen fuel (off + blen w) (rest.drop t.2)

/-- `lex` (parser/mod.rs L323-337). -/
def lex (errLen : Text → Nat) (text : Text) : List Tok := lexGo errLen text.length 0 text

/-- `parse` of the `sparql-parser` crate (lib.rs L25-30) on a text. -/
def parseSource (errLen : Text → Nat) (text : Text) : Option (Green × List SyntaxErr) :=
  parseDocument (lex errLen text)

end Verif.Lexer
