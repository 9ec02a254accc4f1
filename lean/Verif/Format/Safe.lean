import Verif.Format.Lexical
import Verif.Lexer.Prologue
/-!
# Which tokens may be written next to each other

`safeOf k` is a set of characters that no rule of the lexer can append to a token of kind `k`; `pairOk k k'` says that every
token of kind `k'` starts with such a character, so that the two can be written without white space between them.
-/
namespace Verif.Format
open Verif Verif.Grammar Verif.Lexer Verif.Features Verif.Props

/-- Characters that cannot continue a word. -/
def wordSafe : Class := [(0, 0x24), (0x26, 0x2C), (0x2F, 0x2F), (0x3B, 0x40), (0x5B, 0x5B), (0x5D, 0x5E), (0x60, 0x60), (0x7B, 0x7F)]

/-- Tokens that nothing can extend: `<iri>`, `,`, `;`, `]`, `^^`, ... -/
def closedKinds : List Kind :=
  [K.IRIREF, K.Star, K.RCurly, K.LCurlyPipe, K.PipeRCurly, K.Semicolon, K.Tilde, K.NIL, K.Comma, K.Slash, K.RBrack,
   K.DoublePipe, K.DoubleAnd, K.Equals, K.ExclamationMarkEquals, K.MoreEquals, K.DoubleLessLParen, K.DoubleMore, K.RParenDoubleMore,
   K.DoubleZirkumflex, K.STRING_LITERAL_LONG1, K.STRING_LITERAL_LONG2, K.ANON]

/-- Numbers. -/
def numberKinds : List Kind := K.INTEGER :: K.DECIMAL :: K.DOUBLE :: signed

/-- What cannot extend the other tokens that are no words. -/
def safeTable : List (List Kind × Class) :=
  [(closedKinds, [(0, 0x10FFFF)]),
   ([K.WHITESPACE, K.Comment, K.INSERT, K.DELETE, K.INSERT_DATA, K.DELETE_DATA, K.DELETE_WHERE], []),
   ([K.LParen], [(0, 0x8), (0xB, 0xB), (0xE, 0x1F), (0x21, 0x28), (0x2A, 0x10FFFF)]),
   ([K.LBrack], [(0, 0x8), (0xE, 0x1F), (0x21, 0x5C), (0x5E, 0x7F)]),
   (numberKinds, [(0, 0x24), (0x26, 0x2A), (0x2C, 0x2C), (0x2F, 0x2F), (0x3B, 0x40), (0x5B, 0x5B), (0x5D, 0x5E), (0x60, 0x60), (0x7B, 0x7F)]),
   ([K.BLANK_NODE_LABEL], [(0, 0x2C), (0x2F, 0x2F), (0x3A, 0x40), (0x5B, 0x5E), (0x60, 0x60), (0x7B, 0x7F)]),
   ([K.VAR1, K.VAR2, K.QuestionMark], [(0, 0x2F), (0x3A, 0x40), (0x5B, 0x5E), (0x60, 0x60), (0x7B, 0x7F)]),
   ([K.LANG_DIR], [(0, 0x2C), (0x2E, 0x2F), (0x3A, 0x40), (0x5B, 0x60), (0x7B, 0x10FFFF)]),
   ([K.LCurly], [(0, 0x7B), (0x7D, 0x10FFFF)]),
   ([K.RParen], [(0, 0x3D), (0x3F, 0x10FFFF)]),
   ([K.Dot], [(0, 0x2F), (0x3A, 0x7F)]),
   ([K.Pipe], [(0, 0x7B), (0x7E, 0x10FFFF)]),
   ([K.Zirkumflex], [(0, 0x5D), (0x5F, 0x10FFFF)]),
   ([K.Plus, K.Minus], [(0, 0x2D), (0x2F, 0x2F), (0x3A, 0x7F)]),
   ([K.ExclamationMark], [(0, 0x3C), (0x3E, 0x10FFFF)]),
   ([K.Less, K.LessEquals], [(0, 0x20)]),
   ([K.More], [(0, 0x3C), (0x3F, 0x10FFFF)]),
   ([K.DoubleLess], [(0, 0x27), (0x29, 0x10FFFF)]),
   ([K.STRING_LITERAL1], [(0, 0x26), (0x28, 0x10FFFF)]),
   ([K.STRING_LITERAL2], [(0, 0x21), (0x23, 0x10FFFF)])]

/-- Characters that no rule can append to a token of kind `k`. -/
def safeOf (k : Kind) : Class := ((safeTable.find? (fun p => p.1.contains k)).map (·.2)).getD wordSafe

/-- The ranges of `a` are in ranges of `b`. -/
def subClass (a b : Class) : Bool := a.all (fun p => b.any (fun q => Nat.ble q.1 p.1 && Nat.ble p.2 q.2))

/-- All characters of matches are in the class. -/
def within (cl : Class) : Regex → Bool
  | .none => true
  | .eps => true
  | .cls a => subClass a cl
  | .seq a b => within cl a && within cl b
  | .alt a b => within cl a && within cl b
  | .star a => within cl a

/-- The characters of names and of numbers. -/
def nameChars : Class := [(0x2D, 0x2E), (0x30, 0x3A), (0x41, 0x5A), (0x5F, 0x5F), (0x61, 0x7A), (0x80, 0x10FFFF)]
def numberChars : Class := [(0x2B, 0x2B), (0x2D, 0x2E), (0x30, 0x39), (0x45, 0x45), (0x65, 0x65), (0x80, 0x10FFFF)]

/-- The first characters of numbers. -/
def numberHead : Class := [(0x2B, 0x2B), (0x2D, 0x2E), (0x30, 0x39), (0x80, 0x10FFFF)]

/-- Tokens that start like a word but may contain characters that words do not contain. -/
def oddKinds : List Kind := K.DOUBLE :: wideKinds

/-- No rule extends a match of `r` by a character in `safeOf`. For words and numbers, this is checked for all at once. -/
def safeRow (r : LexRule) : Bool :=
  (if safeOf r.kind = wordSafe ∧ r.kind ≠ K.PNAME_LN then
      within nameChars r.re && subClass (firsts r.re) nameHead &&
        lexRules.all (fun r' => !oddKinds.contains r'.kind || apart 60 [] (seqs [r.re, .cls (safeOf r.kind), anyText]) r'.re)
    else if r.kind ∈ numberKinds then within numberChars r.re && subClass (firsts r.re) numberHead
    else lexRules.all (fun r' => apart 60 [] (seqs [r.re, .cls (safeOf r.kind), anyText]) r'.re)) &&
    (!r.boundary || safeOf r.kind == wordSafe)

def safeRows (i n : Nat) : Bool := ((lexRules.drop i).take n).all safeRow

theorem safe_names : noRule (seqs [.cls nameHead, .star (.cls nameChars), .cls wordSafe, anyText]) oddKinds = true := by decide +kernel
theorem safe_numbers : noRule (seqs [.cls numberHead, .star (.cls numberChars), .cls (safeOf K.INTEGER), anyText]) [] = true := by decide +kernel

theorem safe0 : safeRows 0 10 = true := by decide +kernel
theorem safe10 : safeRows 10 10 = true := by decide +kernel
theorem safe20 : safeRows 20 10 = true := by decide +kernel
theorem safe30 : safeRows 30 10 = true := by decide +kernel
theorem safe40 : safeRows 40 10 = true := by decide +kernel
theorem safe50 : safeRows 50 10 = true := by decide +kernel
theorem safe60 : safeRows 60 10 = true := by decide +kernel
theorem safe70 : safeRows 70 10 = true := by decide +kernel
theorem safe80 : safeRows 80 10 = true := by decide +kernel
theorem safe90 : safeRows 90 10 = true := by decide +kernel
theorem safe100 : safeRows 100 10 = true := by decide +kernel
theorem safe110 : safeRows 110 10 = true := by decide +kernel
theorem safe120 : safeRows 120 10 = true := by decide +kernel
theorem safe130 : safeRows 130 10 = true := by decide +kernel
theorem safe140 : safeRows 140 10 = true := by decide +kernel
theorem safe150 : safeRows 150 10 = true := by decide +kernel
theorem safe160 : safeRows 160 10 = true := by decide +kernel
theorem safe170 : safeRows 170 10 = true := by decide +kernel
theorem safe180 : safeRows 180 10 = true := by decide +kernel

end Verif.Format
