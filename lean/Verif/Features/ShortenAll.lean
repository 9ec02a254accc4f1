import Verif.Features.UncompactedUri
import Verif.Format.Walker
/-!
# The code action "Shorten all URIs"

Models `shorten_all_uris` (`src/server/message_handler/code_action/iri.rs` L23-61), with `find_all_uncompacted_iris` and
`find_all_prefix_declarations` (`src/server/analysis.rs` L19-39, L61-72). The prefix map of the default backend (crate `curies`) is a
parameter. That the action is only computed if the selected element is an IRI written in full (code_action/mod.rs L74-79) and its title
and kind are not modelled.
-/
namespace Verif.Features
open Verif Verif.Grammar

/-- `Iri::is_uncompressed` (`crates/sparql-parser/src/ast/mod.rs` L663-667). -/
def isUncompressed (r : Red) : Bool :=
  match r.firstChildT with
  | none => false
  | some c => c.kind == K.IRIREF

/-- `prologue().and_then(next_sibling).or(query_unit)` (analysis.rs L28-31). -/
def shortenScope (g : Green) : Red :=
  match prologueOf g with
  | none => Red.root g
  | some p =>
    match Format.nextNode p with
    | none => Red.root g
    | some n => n

/-- `find_all_uncompacted_iris` (analysis.rs L19-39). `none` is the error. -/
def findUncompactedIris (g : Green) : Option (List Red) :=
  if g.kind = K.QueryUnit then some ((shortenScope g).descendants.filter (fun r => r.kind == K.iri && isUncompressed r))
  else none

/-- `PrefixDeclaration::raw_uri_prefix` (ast/mod.rs L98-104). The outer `none` is a panic: the slice is taken before the length is
looked at. -/
def rawUriPrefix (d : Red) : Option (Option Text) :=
  match d.childrenT.find? (fun c => c.kind == K.IRIREF) with
  | none => some none
  | some t =>
    match byteSlice t.text 1 (blen t.text - 1) with
    | none => none
    | some s => some (if 2 ≤ blen t.text then some s else none)

/-- `find_all_prefix_declarations` (analysis.rs L61-72). -/
def findPrefixDeclarations (g : Green) : List Red :=
  match (Red.root g).firstChild with
  | none => []
  | some q =>
    match q.firstChild with
    | none => []
    | some p => if p.kind = K.Prologue then prefixDecls p else []

/-- `Range::new(0, 0, 0, 0)`. -/
def docStart : Range := ⟨⟨0, 0⟩, ⟨0, 0⟩⟩

/-- `format!("PREFIX {}: <{}>\n", prefix, uri_prefix)`. -/
def declLine (prefix_ ns : Text) : Text :=
  ['P', 'R', 'E', 'F', 'I', 'X', ' '] ++ prefix_ ++ [':', ' ', '<'] ++ ns ++ ['>', '\n']

/-- The loop over the IRIs (iri.rs L33-55); `seen` is `declared_uri_prefix_set`. `none` is a panic. -/
def shortenLoop (shorten : Text → Option Short) (text : Text) : List Red → List Text → Option (List TextEdit)
  | [], _ => some []
  | r :: rs, seen =>
    match rawIri r with
    | some (some raw) =>
      match shorten raw with
      | none => shortenLoop shorten text rs seen
      | some (p, ns, curie) =>
        match rangeOf text r with
        | none => none
        | some range =>
          if seen.contains ns then (shortenLoop shorten text rs seen).map (fun es => ⟨range, curie⟩ :: es)
          else (shortenLoop shorten text rs (ns :: seen)).map (fun es => ⟨range, curie⟩ :: ⟨docStart, declLine p ns⟩ :: es)
    | _ => none

/-- `shorten_all_uris` (iri.rs L23-61). The outer `none` is a panic, the inner one no action. -/
def shortenAll (shorten : Text → Option Short) (text : Text) (g : Green) : Option (Option (List TextEdit)) :=
  match findUncompactedIris g with
  | none => some none
  | some irs =>
    match unwrapAll rawUriPrefix (findPrefixDeclarations g) with
    | none => none
    | some declared =>
      match shortenLoop shorten text irs (declared.filterMap id) with
      | none => none
      | some es => some (if irs.isEmpty then none else some es)

/-! ## Specification -/

/-- The element is in what the action looks at: the whole document, or, if it has a prologue with something behind it, the node directly
behind the prologue (in a valid query: everything but a `VALUES` clause at the end). -/
def Looked (g : Green) (r : Red) : Prop :=
  ∀ p s, InTree g p → p.isNode = true → p.kind = K.Prologue → Format.nextNode p = some s → s ∈ r.ancestors

/-- An IRI written in full, `<raw>`, in what the action looks at. -/
def LongIri (g : Green) (r : Red) (raw : Text) : Prop := InTree g r ∧ r.isNode = true ∧ r.kind = K.iri ∧ Written r raw ∧ Looked g r

/-- The document begins with a prologue that declares a prefix for the namespace. -/
def HasNamespace (g : Green) (ns : Text) : Prop :=
  ∃ q p d, (Red.root g).children.head? = some q ∧ q.children.head? = some p ∧ p.kind = K.Prologue ∧
    d ∈ p.children ∧ d.kind = K.PrefixDecl ∧ Written d ns

/-- The edit puts the short form in place of the IRI. -/
def Shortens (shorten : Text → Option Short) (text : Text) (r : Red) (e : TextEdit) : Prop :=
  Covers text r e.range ∧ ∃ raw p ns, Written r raw ∧ shorten raw = some (p, ns, e.newText)

end Verif.Features
