import Verif.Features.Red
import Verif.Features.Rename
/-!
# Folding ranges

Models `compute_folding_ranges` (`src/server/message_handler/folding_range/mod.rs` L37-90). The handler looks up the
document and its cached tree; here both are given.
-/
namespace Verif.Features
open Verif Verif.Grammar

/-- `FoldingRange` (lsp/messages/textdocument_foldingrange.rs) without the fields that are never set. `imports` is
`kind = Some(Imports)`. -/
structure Fold where
  startLine : Nat
  endLine : Nat
  imports : Bool
  collapsed : Option Text
deriving DecidableEq, Repr

/-- `tree.first_child().and_then(|child| child.first_child().and_then(Prologue::cast))` (folding_range/mod.rs L39-42). -/
def prologueNode (g : Green) : Option Red :=
  match (Red.root g).firstChild with
  | none => none
  | some c =>
    match c.firstChild with
    | none => none
    | some p => if p.kind = K.Prologue then some p else none

/-- `filter(|token| token.kind() == kind)?.into_token()?` (folding_range/mod.rs L60-67). -/
def tokenOfKind (k : Kind) : Option Red → Option Red
  | some t => if t.kind = k ∧ t.isNode = false then some t else none
  | none => none

/-- The closure of `filter_map` (folding_range/mod.rs L59-87). -/
def braceFold (text : Text) (n : Red) : Option Fold :=
  match tokenOfKind K.LCurly n.firstChildT, tokenOfKind K.RCurly n.lastChildT with
  | some o, some c =>
    match fromByteIndex o.start text, fromByteIndex c.start text with
    | some op, some cp =>
      -- `checked_sub(1)?`
      if cp.line = 0 then none
      else if cp.line - 1 ≤ op.line then none
      else some ⟨op.line, cp.line - 1, false, none⟩
    | _, _ => none
  | _, _ => none

/-- `compute_folding_ranges` (folding_range/mod.rs L37-90); `none` is the panic of `unwrap` (L44). -/
def foldings (text : Text) (g : Green) : Option (List Fold) :=
  let braces := ((Red.root g).descendants.filter (fun n => n.kind == K.GroupGraphPattern)).filterMap (braceFold text)
  match prologueNode g with
  | none => some braces
  | some p =>
    match rangeOf text p with
    | none => none
    | some r => some (⟨r.start.line, r.stop.line, true, some p.text⟩ :: braces)

/-! ## Specification -/

/-- Line number (from 0) at which an element starts: the line feeds in front of it. -/
def StartsOnLine (text : Text) (r : Red) (line : Nat) : Prop :=
  ∃ pre post, text = pre ++ r.text ++ post ∧ blen pre = r.start ∧ lineNo pre = line

/-- Line number at which an element ends. -/
def EndsOnLine (text : Text) (r : Red) (line : Nat) : Prop :=
  ∃ pre post, text = pre ++ r.text ++ post ∧ blen pre = r.start ∧ lineNo (pre ++ r.text) = line

/-- `n` is a brace-delimited group of the tree; its braces are on lines `s` and `e`. -/
def Block (text : Text) (g : Green) (n : Red) (s e : Nat) : Prop :=
  InTree g n ∧ n.isNode = true ∧ n.kind = K.GroupGraphPattern ∧
    (∃ o, n.childrenT.head? = some o ∧ o.isNode = false ∧ o.kind = K.LCurly ∧ StartsOnLine text o s) ∧
    (∃ c, n.childrenT.getLast? = some c ∧ c.isNode = false ∧ c.kind = K.RCurly ∧ StartsOnLine text c e)

end Verif.Features
