import Verif.Features.Diagnostics
/-!
# IRIs that can be shortened

Models `src/server/message_handler/diagnostic/uncompacted_uri.rs`. The prefix map of the default backend (crate `curies`) is a
parameter. Messages are not modelled.
-/
namespace Verif.Features
open Verif Verif.Grammar

/-- `&text[a..b]`; `none` is the panic (a bound is not a character boundary, or out of range). -/
def byteSlice (t : Text) (a b : Nat) : Option Text :=
  match splitAtByte t b with
  | none => none
  | some (p, _) =>
    match splitAtByte p a with
    | none => none
    | some (_, m) => some m

/-- `Iri::raw_iri` (ast/mod.rs L657-661). The outer `none` is a panic. -/
def rawIri (r : Red) : Option (Option Text) :=
  match r.childrenT.head? with
  | none => some none
  | some c =>
    if c.kind = K.IRIREF ∧ 2 ≤ blen r.text then (byteSlice r.text 1 (blen r.text - 1)).map some
    else some none

/-- Prefix, namespace and shortened name (`shorten_uri`, src/server/mod.rs L133-144). -/
abbrev Short := Text × Text × Text

/-- The diagnostic of an IRI. -/
structure UriDiag where
  range : Range
  severity : Severity
  code : DiagCode
  data : Short
deriving DecidableEq, Repr

/-- One `iri` node (uncompacted_uri.rs L36-59). The outer `none` is a panic, the inner one no report. -/
def uriDiag (shorten : Text → Option Short) (text : Text) (r : Red) : Option (Option UriDiag) :=
  match rawIri r with
  | none => none
  | some none => some none
  | some (some raw) =>
    match shorten raw with
    | none => some none
    | some s =>
      match rangeOf text r with
      | none => some none
      | some range => some (some ⟨range, .information, .uncompactedUri, s⟩)

/-- `uncompacted_uri::diagnostics` (uncompacted_uri.rs L25-62). -/
def uncompactedUri (shorten : Text → Option Short) (text : Text) (g : Green) : Option (List UriDiag) :=
  match selectQuery g with
  | none => some []
  | some sq =>
    (unwrapAll (uriDiag shorten text) (sq.descendants.filter (fun r => r.kind == K.iri))).map (fun l => l.filterMap id)

/-! ## Specification -/

/-- The node has a token `<raw>`. -/
def Written (r : Red) (raw : Text) : Prop := ∃ t ∈ r.childrenT, t.isNode = false ∧ t.kind = K.IRIREF ∧ t.text = '<' :: (raw ++ ['>'])

/-- An IRI of the outer select query written in full, `<raw>`. -/
def FullIri (g : Green) (r : Red) (raw : Text) : Prop :=
  InTree g r ∧ r.isNode = true ∧ r.kind = K.iri ∧ Written r raw ∧ ∃ s ∈ r.ancestors, s.kind = K.SelectQuery

end Verif.Features
