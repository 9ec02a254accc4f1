import Verif.Grammar.Kinds
/-!
# The parser: primitives and the statement language of `grammar.rs`

Models `crates/sparql-parser/src/parser/mod.rs` L10-321 (struct `Parser` and its methods). The generated functions
of `grammar.rs` use only a handful of statement forms; `Stmt` is their abstract syntax and `exec` runs them.

Simplifications: the pair (`tokens`, `pos`) is represented by the not yet consumed tokens, and of a token only its
kind matters here; two positions are equal iff equally many tokens remain.
-/
namespace Verif.Grammar

/-- Parser events (parser/mod.rs L196-202). -/
inductive Event
  | openNode (kind : Kind)
  | error (expected : List Kind)
  | close
  | advance
deriving DecidableEq, Repr

/-- The statements of grammar.rs (parser/grammar.rs L1-6500; produced by generator/mod.rs L58-190). -/
inductive Stmt
  /-- empty body -/
  | skip
  /-- `a; b` -/
  | seq (a b : Stmt)
  /-- `p.expect(k);` -/
  | expect (k : Kind)
  /-- `parse_X(p);` -/
  | call (k : Kind)
  /-- `if !p.at_any(&ks) && !p.eof() { p.error_until(vec![ks], &ks); }` -/
  | sync (ks : List Kind)
  /-- `if p.at_any(&ks) { b }` -/
  | opt (ks : List Kind) (b : Stmt)
  /-- `while ks.contains(&p.nth(0)) { let checkpoint = p.pos(); b; if p.pos() == checkpoint { break; } }` -/
  | rep (ks : List Kind) (b : Stmt)
  /-- `match p.nth(0) { arms }` -/
  | alt (arms : Stmt)
  /-- one arm `ks => { b }` followed by the remaining arms -/
  | arm (ks : List Kind) (b rest : Stmt)
  /-- the last two arms: `Eof => { close; open; close(Error); return }` and either
  `_ => { p.advance_with_error(expected) }` or, for a nullable alternative, `_ => {}` -/
  | altEnd (expected : Option (List Kind))
deriving DecidableEq, Repr

/-- A `parse_X` function: optional early return `if !p.at_any(&guard) { return; }`, the body between `p.open()` and
`p.close(marker, kind)`, and whether the rest of the input is swallowed before closing (the unit rules,
parser/grammar.rs L4-16). -/
structure FnDef where
  guard : Option (List Kind)
  kind : Kind
  body : Stmt
  swallow : Bool
deriving DecidableEq, Repr

/-- The `parse_X` functions by node kind. -/
abbrev Grammar := Kind → Option FnDef

/-- `struct Parser` (parser/mod.rs L10-15). -/
structure PState where
  toks : List Kind
  fuel : Nat
  events : List Event
deriving DecidableEq, Repr

/-- Outcome of running a statement: it finished; it executed `return`; the "parser is stuck" panic
(parser/mod.rs L240-242); another panic (`assert!(!self.eof())`, L229); or the interpreter's recursion bound was
exceeded (no counterpart in the code; excluded by the termination theorem). -/
inductive Out
  | next (s : PState)
  | ret (s : PState)
  | stuck
  | crash
  | deep
deriving DecidableEq, Repr

/-- The initial and refill value of the look-ahead budget (parser/mod.rs L190, L230). -/
def maxFuel : Nat := 1024

/-- `RECOVERY_TOKENS` (parser/mod.rs L206). -/
def recoveryTokens : List Kind := [K.WHERE, K.LCurly, K.RCurly]

/-- The kind of the current token, `Eof` at the end (`tokens.get(pos).map_or(Eof, ..)`, parser/mod.rs L244-246). -/
def cur : List Kind → Kind
  | [] => K.Eof
  | k :: _ => k

/-- Push an event (`self.events.push`, e.g. parser/mod.rs L271). -/
def PState.push (s : PState) (e : Event) : PState := { s with events := s.events ++ [e] }

/-- `Parser::close` (parser/mod.rs L223-226): overwrite the placeholder at the mark and push `Close`. -/
def PState.close (s : PState) (mark : Nat) (kind : Kind) : PState :=
  { s with events := s.events.set mark (.openNode kind) ++ [.close] }

/-- `Parser::nth(0)` (parser/mod.rs L239-247): `none` is the panic "parser is stuck". -/
def PState.nth (s : PState) : Option (Kind × PState) :=
  match s.fuel with
  | 0 => none
  | f + 1 => some (cur s.toks, { s with fuel := f })

/-- `Parser::advance` (parser/mod.rs L228-233). -/
def PState.advance (s : PState) : Out :=
  match s.toks with
  | [] => .crash
  | _ :: ts => .next { toks := ts, fuel := maxFuel, events := s.events ++ [.advance] }

/-- `Parser::expect` (parser/mod.rs L258-274). -/
def PState.expect (s : PState) (k : Kind) : Out :=
  match s.nth with
  | none => .stuck
  | some (c, s) => if c = k then s.advance else .next (s.push (.error [k]))

/-- `Parser::advance_with_error` (parser/mod.rs L276-287). -/
def PState.advanceWithError (s : PState) (expected : List Kind) : Out :=
  let s := s.push (.error expected)
  match s.nth with
  | none => .stuck
  | some (c, s) =>
    if c ∈ recoveryTokens then .next s
    else
      let mark := s.events.length
      match (s.push (.openNode K.Error)).advance with
      | .next s => .next (s.close mark K.Error)
      | o => o

/-- The loop of `Parser::error_until` (parser/mod.rs L295-297): `while !at_any(recovery) && !eof() { advance() }`,
started with the given budget; `none` = stuck. Yields the remaining tokens, the budget and the number of tokens
consumed. -/
def skipUntil (recovery : List Kind) : List Kind → Nat → Option (List Kind × Nat × Nat)
  | _, 0 => none
  | [], f + 1 => some ([], f, 0)
  | t :: ts, f + 1 =>
    if t ∈ recovery then some (t :: ts, f, 0)
    else
      match skipUntil recovery ts maxFuel with
      | none => none
      | some (r, f', n) => some (r, f', n + 1)

/-- `Parser::error_until` (parser/mod.rs L289-299). -/
def PState.errorUntil (s : PState) (expected recovery : List Kind) : Out :=
  let s := s.push (.error expected)
  match s.nth with
  | none => .stuck
  | some (c, s) =>
    if c ∈ recovery ∨ s.toks = [] then .next s
    else
      let mark := s.events.length
      let s := s.push (.openNode K.Error)
      match skipUntil recovery s.toks s.fuel with
      | none => .stuck
      | some (r, f, n) =>
        .next (PState.close { toks := r, fuel := f, events := s.events ++ List.replicate n .advance } mark K.Error)

/-- The end of the unit rules (parser/grammar.rs L7-14): if not at `Eof`, put everything up to `Eof` into one error
node. The inner loop is `error_until`'s loop with recovery set `{Eof}`. -/
def PState.swallow (s : PState) : Out :=
  match s.nth with
  | none => .stuck
  | some (c, s) =>
    if c = K.Eof then .next s
    else
      let mark := s.events.length
      let s := s.push (.openNode K.Error)
      match skipUntil [K.Eof] s.toks s.fuel with
      | none => .stuck
      | some (r, f, n) =>
        .next (PState.close { toks := r, fuel := f, events := s.events ++ List.replicate n .advance } mark K.Error)

/-- Run a statement inside the function with marker `mark` and kind `root` (parser/grammar.rs; the meaning of the
statement forms is Rust's). The first argument bounds the recursion depth. -/
def exec (G : Grammar) : Nat → (mark : Nat) → (root : Kind) → Stmt → PState → Out
  | 0, _, _, _, _ => .deep
  | n + 1, mark, root, st, s =>
    match st with
    | .skip => .next s
    | .seq a b =>
      match exec G n mark root a s with
      | .next s' => exec G n mark root b s'
      | o => o
    | .expect k => s.expect k
    | .call k =>
      match G k with
      | none => .crash
      | some f =>
        let enter (s : PState) : Out :=
          let mark' := s.events.length
          match exec G n mark' f.kind f.body (s.push (.openNode K.Error)) with
          | .next s' =>
            match (if f.swallow then s'.swallow else .next s') with
            | .next s' => .next (s'.close mark' f.kind)
            | o => o
          | .ret s' => .next s'
          | o => o
        match f.guard with
        | none => enter s
        | some ks =>
          match s.nth with
          | none => .stuck
          | some (c, s) => if c ∈ ks then enter s else .next s
    | .sync ks =>
      match s.nth with
      | none => .stuck
      | some (c, s) => if c ∈ ks ∨ s.toks = [] then .next s else s.errorUntil ks ks
    | .opt ks b =>
      match s.nth with
      | none => .stuck
      | some (c, s) => if c ∈ ks then exec G n mark root b s else .next s
    | .rep ks b =>
      match s.nth with
      | none => .stuck
      | some (c, s) =>
        if c ∈ ks then
          match exec G n mark root b s with
          | .next s' => if s'.toks.length = s.toks.length then .next s' else exec G n mark root (.rep ks b) s'
          | o => o
        else .next s
    | .alt arms =>
      match s.nth with
      | none => .stuck
      | some (_, s) => exec G n mark root arms s
    | .arm ks b rest =>
      if cur s.toks ∈ ks then exec G n mark root b s else exec G n mark root rest s
    | .altEnd expected =>
      if cur s.toks = K.Eof then
        let s := s.close mark root
        let m := s.events.length
        .ret ((s.push (.openNode K.Error)).close m K.Error)
      else
        match expected with
        | none => .next s
        | some ex => s.advanceWithError ex

/-- `Parser::new` (parser/mod.rs L185-194). -/
def PState.init (toks : List Kind) : PState := { toks := toks, fuel := maxFuel, events := [] }

/-- `TopEntryPoint::parse` (parser/mod.rs L312-321) for the entry rule `entry`, with recursion bound `n`. -/
def parseEntry (G : Grammar) (n : Nat) (entry : Kind) (toks : List Kind) : Out :=
  exec G n 0 entry (.call entry) (PState.init toks)

end Verif.Grammar
