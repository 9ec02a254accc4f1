import Verif.Features.Red
import Verif.ApplyEdits
import Mathlib.Data.List.Forall2
/-!
# The `qlueLs/parseTree` request

Models `build_element` and `Cursor` (`src/server/message_handler/parse_tree.rs` L34-107). The name of a kind
(`format!("{:?}", kind)`) is represented by the kind; the escaping of token texts (`format!("{:?}", text)`) is not modelled.
-/
namespace Verif.Features
open Verif Verif.Grammar

/-- `ParseTreeElement` (lsp/messages/qluels_parsetree.rs). -/
inductive PElem
  | tok (kind : Kind) (range : Range) (text : Text)
  | node (kind : Kind) (range : Range) (children : List PElem)

/-- `Cursor` (parse_tree.rs L38-41). -/
structure PCursor where
  byteOffset : Nat
  position : Position

/-- `Cursor::advance_to` (parse_tree.rs L53-68); `none` is the panic of the slice `text[byte_offset..target_byte]`. -/
def PCursor.advanceTo (c : PCursor) (target : Nat) (text : Text) : Option PCursor :=
  if target < c.byteOffset then none
  else
    match splitAtByte text c.byteOffset with
    | none => none
    | some (_, r) =>
      match splitAtByte r (target - c.byteOffset) with
      | none => none
      | some (m, _) => some ⟨c.byteOffset + blen m, m.foldl Position.step c.position⟩

/-- `SyntaxKind::is_trivia` (crates/sparql-parser/src/syntax_kind.rs L11-13). -/
def isTriviaKind (k : Kind) : Bool := k == K.WHITESPACE || k == K.Comment

mutual
/-- `build_element` on a node and the token arm of its closure (parse_tree.rs L71-107); `off` is the offset of the
element. -/
def buildEl (text : Text) (skip : Bool) : Green → (off : Nat) → PCursor → Option (PElem × PCursor)
  | .tok k t, off, c =>
    match c.advanceTo off text with
    | none => none
    | some c1 =>
      match c1.advanceTo (off + blen t) text with
      | none => none
      | some c2 => some (.tok k ⟨c1.position, c2.position⟩ t, c2)
  | .node k cs, off, c =>
    match c.advanceTo off text with
    | none => none
    | some c1 =>
      match buildEls text skip cs off c1 with
      | none => none
      | some (els, c2) =>
        match c2.advanceTo (off + blen (Green.node k cs).text) text with
        | none => none
        | some c3 => some (.node k ⟨c1.position, c3.position⟩ els, c3)
/-- The iterator chain over the children (parse_tree.rs L79-99). -/
def buildEls (text : Text) (skip : Bool) : List Green → (off : Nat) → PCursor → Option (List PElem × PCursor)
  | [], _, c => some ([], c)
  | g :: gs, off, c =>
    if skip && isTriviaKind g.kind then buildEls text skip gs (off + blen g.text) c
    else
      match buildEl text skip g off c with
      | none => none
      | some (e, c1) =>
        match buildEls text skip gs (off + blen g.text) c1 with
        | none => none
        | some (es, c2) => some (e :: es, c2)
end

/-- The tree in the response (parse_tree.rs L25-26). -/
def parseTreeResponse (text : Text) (skip : Bool) (g : Green) : Option PElem :=
  (buildEl text skip g 0 ⟨0, ⟨0, 0⟩⟩).map (·.1)

/-! ## Specification -/

/-- The range covers exactly the text of the element. -/
def Covers (text : Text) (r : Red) (range : Range) : Prop :=
  ∃ pre post, text = pre ++ r.text ++ post ∧ blen pre = r.start ∧ range = ⟨posOf pre, posOf (pre ++ r.text)⟩

/-- The response element shows the element of the tree: same kind, the range of its text, and one response element per
child, in order; trivia is left out if asked for. -/
inductive Renders (text : Text) (skip : Bool) : Red → PElem → Prop
  | tok {r : Red} {range : Range} : r.isNode = false → Covers text r range → Renders text skip r (.tok r.kind range r.text)
  | node {r : Red} {range : Range} {els : List PElem} : r.isNode = true → Covers text r range →
      List.Forall₂ (Renders text skip) (r.childrenT.filter (fun c => !(skip && (c.kind == K.WHITESPACE || c.kind == K.Comment)))) els →
      Renders text skip r (.node r.kind range els)

end Verif.Features
