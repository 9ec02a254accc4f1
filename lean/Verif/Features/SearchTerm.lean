import Verif.Features.OnType
import Verif.Features.Rename
import Verif.Lexer.Table
/-!
# The search term of a completion and the range it replaces

Models `get_trigger_token`, `get_anchor_token`, `get_search_term`, `get_replace_range` and the correction of the range for select bindings
(`src/server/message_handler/completion/environment/mod.rs` L358-374, L423-454, L684-753). They work on the tree `g` of the text in front
of the cursor; `off` is the byte offset of the cursor.
-/
namespace Verif.Features
open Verif Verif.Grammar Verif.Lexer

/-- `get_trigger_token` (mod.rs L684-697): `last_token()` with its fallback is the last token. -/
def triggerToken (g : Green) (off : Nat) : Option Red :=
  if off = 0 then none
  else if (Red.root g).stop ≤ off then (Red.root g).tokens.getLast?
  else (Red.root g).tokenAtLeft off

/-- The kinds that are not skipped (mod.rs L702-716). -/
def keptKinds : List Kind :=
  [K.Error, K.WHITESPACE, K.Dot, K.Semicolon, K.RBrack, K.RCurly, K.RParen, K.Slash, K.Zirkumflex, K.ANON, K.LParen, K.LBrack]

/-- A token and those in front of it, last first: what `prev_token()` walks through. -/
def backFrom (g : Green) (t : Red) : List Red := ((Red.root g).tokens.takeWhile (fun x => decide (x.start ≤ t.start))).reverse

/-- `trigger_token.parent().unwrap().kind() == SyntaxKind::Error`; a token of a tree has a parent. -/
def inError (t : Red) : Bool :=
  match t.parent with
  | none => false
  | some p => p.kind == K.Error

/-- The loop of `get_anchor_token` (mod.rs L720-731). -/
def anchorLoop : List Red → Option Red
  | [] => none
  | t :: rest =>
    if t.kind == K.WHITESPACE || inError t then
      match rest with
      | [] => if !triviaKind t.kind && t.kind != K.Error then some t else none
      | _ => anchorLoop rest
    else some t

/-- `get_anchor_token` (mod.rs L700-733), given the token and those in front of it. -/
def anchorFrom : List Red → Option Red
  | [] => none
  | t :: rest => if t.kind ∈ keptKinds then anchorLoop (t :: rest) else anchorLoop rest

/-- `trigger_token.and_then(get_anchor_token)` (mod.rs L344). -/
def anchorOf (g : Green) (off : Nat) : Option Red :=
  match triggerToken g off with
  | none => none
  | some t => anchorFrom (backFrom g t)

/-- The rest of a text behind `n` bytes; `none` is the panic of a slice that cuts a character. -/
def dropBytes : Nat → Text → Option Text
  | 0, t => some t
  | _ + 1, [] => none
  | n + 1, c :: cs => if u8 c ≤ n + 1 then dropBytes (n + 1 - u8 c) cs else none
termination_by _ t => t.length

/-- `char::is_whitespace` (the property White_Space). -/
def isWhite (c : Char) : Bool := Class.has Lexer.space c

/-- Where the search term starts (mod.rs L428-440). -/
def termStart (anchor : Option Red) (off : Nat) : Nat :=
  match anchor with
  | none => 0
  | some a => if a.stop > off then off else a.stop

/-- `get_search_term` (mod.rs L423-454) for a tree that ends at the cursor, so that the range is inside the tree and the slice reaches
to its end; the outer `none` is a panic. -/
def searchTerm (g : Green) (anchor : Option Red) (off : Nat) : Option (Option Text) :=
  match dropBytes (termStart anchor off) g.text with
  | none => none
  | some s =>
    let t := s.dropWhile isWhite
    some (if t.any (fun c => !isWhite c) then some t else none)

/-- `get_replace_range` (mod.rs L736-753); `none` is the underflow of `trigger_pos.character - ..` on `u32`. -/
def termRange (pos : Position) (term : Option Text) : Option Range :=
  let n := match term with
    | none => 0
    | some s => len16 s
  if n ≤ pos.character then some ⟨⟨pos.line, pos.character - n⟩, pos⟩ else none

/-- The correction for a select binding behind a parenthesis (mod.rs L362-374). -/
def selectRange (text : Text) (selectBinding : Bool) (anchor : Option Red) (range : Range) : Range :=
  match anchor with
  | none => range
  | some a =>
    if selectBinding && a.kind == K.LParen then
      match fromByteIndex a.start text with
      | none => range
      | some p => ⟨p, range.stop⟩
    else range

end Verif.Features
