import Verif.Lexer.Disjoint
/-!
# The N-Triples parser

Models `crates/ntriples-parser/src/lib.rs` (`parse`, L17-69) and `lexer.rs` (L4-23). Inputs are texts: the callers pass
`text.as_bytes()`, so the bytes are valid UTF-8. About `logos` the same is assumed as for the SPARQL lexer
(Lexer/Lex.lean); the skip pattern is one more rule whose matches are dropped. A lexer error ends the parse (`token?`), so
how much an error token swallows is immaterial.
-/
namespace Verif.NT
open Verif Verif.Lexer Verif.Grammar

inductive TK | comment | dot | iri | blank | literal
deriving DecidableEq, Repr

/-- A token with the bytes it carries and its span (`tokens.span()`). -/
structure NTok where
  kind : TK
  text : Text
  start : Nat
  stop : Nat
deriving DecidableEq, Repr

/-- `Triple` (lib.rs L8). -/
structure Triple where
  s : Text
  p : Text
  o : Text
deriving DecidableEq, Repr

/-- Which of the three messages (lib.rs L34, L44, L51); the first two have the same wording. -/
inductive Msg | literalSubject | literalPredicate | blankPredicate
deriving DecidableEq, Repr

/-- `ParseError` (lib.rs L10-13). -/
structure PErr where
  start : Nat
  stop : Nat
  msg : Msg
deriving DecidableEq, Repr

/-- The local variables of `parse` (lib.rs L19-23). -/
structure St where
  counter : Nat
  subject : Text
  predicate : Text
  triples : List Triple
  errors : List PErr

/-- One iteration on a token that is not a comment (lib.rs L30-61); `none` is `Err(())`. -/
def step (st : St) (t : NTok) : Option St :=
  let next := (st.counter + 1) % 4
  match st.counter, t.kind with
  | 0, .iri => some { st with subject := t.text, counter := next }
  | 0, .blank => some { st with subject := t.text, counter := next }
  | 0, .literal => some { st with subject := t.text, counter := next, errors := st.errors ++ [⟨t.start, t.stop, .literalSubject⟩] }
  | 1, .iri => some { st with predicate := t.text, counter := next }
  | 1, .literal => some { st with predicate := t.text, counter := next, errors := st.errors ++ [⟨t.start, t.stop, .literalPredicate⟩] }
  | 1, .blank => some { st with predicate := t.text, counter := next, errors := st.errors ++ [⟨t.start, t.stop, .blankPredicate⟩] }
  | 2, .literal => some { st with triples := st.triples ++ [⟨st.subject, st.predicate, t.text⟩], counter := next }
  | 2, .iri => some { st with triples := st.triples ++ [⟨st.subject, st.predicate, t.text⟩], counter := next }
  | 2, .blank => some { st with triples := st.triples ++ [⟨st.subject, st.predicate, t.text⟩], counter := next }
  | 3, .dot => some { st with counter := next }
  | _, _ => none

/-- The loop of `parse` (lib.rs L24-66); an element `none` is a lexer error. -/
def loop : List (Option NTok) → St → Option (List Triple × List PErr)
  | [], st => if st.counter ≠ 0 then none else some (st.triples, st.errors)
  | none :: _, _ => none
  | some t :: ts, st =>
    if t.kind = .comment then loop ts st
    else match step st t with
      | none => none
      | some st' => loop ts st'

/-- `parse` on the token stream. -/
def parseTokens (ts : List (Option NTok)) : Option (List Triple × List PErr) := loop ts ⟨0, [], [], [], []⟩

/-! ## The lexer -/

def iriChars : Class := [(0x21, 0x21), (0x23, 0x3B), (0x3D, 0x3D), (0x3F, 0x5B), (0x5D, 0x5D), (0x5F, 0x5F), (0x61, 0x7A),
  (0x7E, 0x10FFFF)]
def pnCharsU : Class := [(0x41, 0x5A), (0x61, 0x7A), (0xC0, 0xD6), (0xD8, 0xF6), (0xF8, 0x2FF), (0x370, 0x37D), (0x37F, 0x1FFF),
  (0x200C, 0x200D), (0x2070, 0x218F), (0x2C00, 0x2FEF), (0x3001, 0xD7FF), (0xF900, 0xFDCF), (0xFDF0, 0xFFFD), (0x10000, 0xEFFFF),
  (0x5F, 0x5F)]
def digits : Class := [(0x30, 0x39)]
def pnChars : Class := pnCharsU ++ [(0x30, 0x39), (0xB7, 0xB7), (0x300, 0x36F), (0x203F, 0x2040), (0x2D, 0x2D)]
def hex : Class := [(0x30, 0x39), (0x41, 0x46), (0x61, 0x66)]
def letters : Class := [(0x61, 0x7A), (0x41, 0x5A)]

/-- `[ \t\n\f]+` (lexer.rs L4). -/
def skipRe : Regex := plus (.cls [(0x20, 0x20), (0x09, 0x0A), (0x0C, 0x0C)])
/-- `#[^\n]*` (lexer.rs L6). -/
def commentRe : Regex := .seq (.cls [(0x23, 0x23)]) (.star (.cls [(0, 0x09), (0x0B, 0x10FFFF)]))
/-- `.` (lexer.rs L8). -/
def dotRe : Regex := .cls [(0x2E, 0x2E)]
/-- lexer.rs L10. -/
def iriRe : Regex := seqs [.cls [(0x3C, 0x3C)], .star (.cls iriChars), .cls [(0x3E, 0x3E)]]
/-- lexer.rs L12. -/
def blankRe : Regex := seqs [.cls [(0x5F, 0x5F)], .cls [(0x3A, 0x3A)], .alt (.cls pnCharsU) (.cls digits),
  opt (.seq (.star (.cls (pnChars ++ [(0x2E, 0x2E)]))) (.cls pnChars))]
/-- lexer.rs L14. -/
def stringRe : Regex := seqs [.cls [(0x22, 0x22)],
  .star (alts [.cls [(0, 0x09), (0x0B, 0x0C), (0x0E, 0x21), (0x23, 0x5B), (0x5D, 0x10FFFF)],
    seqs [.cls [(0x5C, 0x5C)], .cls [(0x74, 0x74), (0x62, 0x62), (0x6E, 0x6E), (0x72, 0x72), (0x66, 0x66), (0x22, 0x22), (0x27, 0x27), (0x5C, 0x5C)]],
    seqs [.cls [(0x5C, 0x5C)], .cls [(0x75, 0x75)], times 4 (.cls hex)],
    seqs [.cls [(0x5C, 0x5C)], .cls [(0x55, 0x55)], times 8 (.cls hex)]]),
  .cls [(0x22, 0x22)],
  opt (.alt (seqs [.cls [(0x5E, 0x5E)], .cls [(0x5E, 0x5E)], iriRe])
    (seqs [.cls [(0x40, 0x40)], plus (.cls letters),
      .star (seqs [.cls [(0x2D, 0x2D)], plus (.cls (letters ++ digits))])]))]
def signRe : Regex := opt (.cls [(0x2B, 0x2B), (0x2D, 0x2D)])
def expRe : Regex := opt (seqs [.cls [(0x65, 0x65), (0x45, 0x45)], signRe, plus (.cls digits)])
/-- lexer.rs L17. -/
def decimalRe : Regex := seqs [signRe, plus (.cls digits), .cls [(0x2E, 0x2E)], plus (.cls digits), expRe]
/-- lexer.rs L18. -/
def integerRe : Regex := seqs [signRe, plus (.cls digits), expRe]

/-- The rules; kinds: 0 skip, 1 comment, 2 dot, 3 IRI, 4 blank node, 5 literal. -/
def ntRules : List LexRule :=
  [⟨0, skipRe, false⟩, ⟨1, commentRe, false⟩, ⟨2, dotRe, false⟩, ⟨3, iriRe, false⟩, ⟨4, blankRe, false⟩, ⟨5, stringRe, false⟩,
   ⟨5, decimalRe, false⟩, ⟨5, integerRe, false⟩]

/-- The variant of a rule; `none` for the skip pattern. -/
def tkOf (k : Nat) : Option TK :=
  match k with
  | 1 => some .comment
  | 2 => some .dot
  | 3 => some .iri
  | 4 => some .blank
  | 5 => some .literal
  | _ => none

/-- `Token::lexer(input)` up to the first error. `fuel` bounds the number of tokens. -/
def lexGo : Nat → Nat → Text → List (Option NTok)
  | 0, _, _ => []
  | _, _, [] => []
  | fuel + 1, off, rest@(_ :: _) =>
    match bestOf ntRules rest with
    | none => [none]
    | some (n, k) =>
      let w := rest.take n
      match tkOf k with
      | none => lexGo fuel (off + blen w) (rest.drop n)
      | some tk => some ⟨tk, w, off, off + blen w⟩ :: lexGo fuel (off + blen w) (rest.drop n)

def lex (text : Text) : List (Option NTok) := lexGo text.length 0 text

/-- `parse` (lib.rs L17-69). -/
def parse (text : Text) : Option (List Triple × List PErr) := parseTokens (lex text)

/-! ## Specification -/

/-- A token that can be subject, predicate or object. -/
def NTok.isTerm (t : NTok) : Prop := t.kind = .iri ∨ t.kind = .blank ∨ t.kind = .literal

/-- The statements of a token stream: subject, predicate, object and the dot behind. -/
structure Stmt where
  s : NTok
  p : NTok
  o : NTok
  d : NTok

structure Stmt.Ok (x : Stmt) : Prop where
  s : x.s.isTerm
  p : x.p.isTerm
  o : x.o.isTerm
  d : x.d.kind = .dot

def Stmt.tokens (x : Stmt) : List NTok := [x.s, x.p, x.o, x.d]
def Stmt.triple (x : Stmt) : Triple := ⟨x.s.text, x.p.text, x.o.text⟩

/-- The complaints about a statement: literal subjects, predicates that are not IRIs. -/
def Stmt.errs (x : Stmt) : List PErr :=
  (if x.s.kind = .literal then [⟨x.s.start, x.s.stop, .literalSubject⟩] else []) ++
  (if x.p.kind = .literal then [⟨x.p.start, x.p.stop, .literalPredicate⟩]
   else if x.p.kind = .blank then [⟨x.p.start, x.p.stop, .blankPredicate⟩] else [])

/-- The text is a subject / predicate / object term of N-Triples as the lexer defines them. -/
def IsIri (w : Text) : Prop := Matches iriRe w
def IsBlank (w : Text) : Prop := Matches blankRe w
def IsLiteral (w : Text) : Prop := Matches stringRe w ∨ Matches decimalRe w ∨ Matches integerRe w

/-- A triple of RDF. -/
def IsTriple (t : Triple) : Prop := (IsIri t.s ∨ IsBlank t.s) ∧ IsIri t.p ∧ (IsIri t.o ∨ IsBlank t.o ∨ IsLiteral t.o)

/-- The white space the lexer knows: blank, tab, line feed, form feed. -/
def IsWs (c : Char) : Prop := c = ' ' ∨ c = '\t' ∨ c = '\n' ∨ c = Char.ofNat 0x0C

/-- White space and whole-line comments. -/
inductive Gap : Text → Prop
  | nil : Gap []
  | ws {c g} (h : IsWs c) (hg : Gap g) : Gap (c :: g)
  | comment {body g} (h : '\n' ∉ body) (hg : Gap g) : Gap ('#' :: body ++ '\n' :: g)

/-- `text` writes down `triples`: subject, gap, predicate, gap, object, possibly a gap, dot, gap. -/
inductive Writes : List Triple → Text → Prop
  | nil : Writes [] []
  | last {t g1 g2 g3} (ht : IsTriple t) (h1 : Gap g1) (n1 : g1 ≠ []) (h2 : Gap g2) (n2 : g2 ≠ []) (h3 : Gap g3) :
      Writes [t] (t.s ++ g1 ++ t.p ++ g2 ++ t.o ++ g3 ++ ['.'])
  | cons {t g1 g2 g3 g4 ts text} (ht : IsTriple t) (h1 : Gap g1) (n1 : g1 ≠ []) (h2 : Gap g2) (n2 : g2 ≠ []) (h3 : Gap g3)
      (h4 : Gap g4) (n4 : g4 ≠ []) (hs : Writes ts text) :
      Writes (t :: ts) (t.s ++ g1 ++ t.p ++ g2 ++ t.o ++ g3 ++ ['.'] ++ g4 ++ text)

/-- The canonical line of a triple. -/
def render (t : Triple) : Text := t.s ++ [' '] ++ t.p ++ [' '] ++ t.o ++ [' ', '.', '\n']

end Verif.NT
