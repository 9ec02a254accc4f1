import Verif.Features.Jump
import Verif.Features.ParseTree
/-!
# Prefix diagnostics

Models the providers `unused_prefix_declaration`, `undeclared_prefix` and `duplicate_prefix_declaration` of
`src/server/message_handler/diagnostic/`. The message strings are not modelled (they are functions of `data`).
-/
namespace Verif.Features
open Verif Verif.Grammar

/-- `DiagnosticSeverity` (lsp/diagnostic.rs). -/
inductive Severity | error | warning | information | hint
deriving DecidableEq, Repr

/-- The codes of the modelled providers (`CODE` in each file). -/
inductive DiagCode
  | unusedPrefix | undeclaredPrefix | duplicatePrefix | groupbyStar | ungroupedSelectVar | invalidProjectionVar | syntaxError
  | sameSubject | uncompactedUri
deriving DecidableEq, Repr

/-- `Diagnostic` without `source` (constant) and `message`. -/
structure Diag where
  range : Range
  severity : Severity
  code : DiagCode
  data : Option Text
deriving DecidableEq, Repr

/-- `str::split_once(":")`. -/
def splitColon : Text → Option (Text × Text)
  | [] => none
  | c :: cs => if c = ':' then some ([], cs) else (splitColon cs).map (fun p => (c :: p.1, p.2))

/-- `PrefixDeclaration::prefix` (ast/mod.rs L86-96). The outer `none` is a panic. -/
def declPrefix (d : Red) : Option (Option Text) :=
  match d.childrenT.find? (fun c => c.kind == K.PNAME_NS) with
  | none => some none
  | some t =>
    match splitColon t.text with
    | none => none
    | some p => some (some p.1)

/-- `PrefixedName::prefix` (ast/mod.rs L676-683). `none` is a panic. -/
def usePrefix (n : Red) : Option Text := (splitColon n.text).map (·.1)

/-- `QueryUnit::prologue` (ast/mod.rs L28-34). -/
def prologueOf (g : Green) : Option Red :=
  match (Red.root g).firstChild with
  | none => none
  | some q => q.childOf [K.Prologue]

/-- `Prologue::prefix_declarations` (ast/mod.rs L43-48). -/
def prefixDecls (p : Red) : List Red := p.children.filter (fun c => c.kind == K.PrefixDecl)

/-- `query_unit.prologue().map_or(Vec::new(), |prologue| prologue.prefix_declarations())`
(diagnostic/undeclared_prefix.rs L34-37). -/
def declsOf (g : Green) : List Red :=
  match prologueOf g with
  | none => []
  | some p => prefixDecls p

/-- `QueryUnit::strip_prologue` (ast/mod.rs L21-26). -/
def stripPrologue (g : Green) : Option Red :=
  ((Red.root g).children.dropWhile (fun c => c.kind == K.Prologue)).head?

/-- The prefixed names below a node (`collect_decendants(&PrefixedName::can_cast)`, `descendants().flat_map(cast)`). -/
def prefixedNames (r : Red) : List Red := r.descendants.filter (fun c => c.kind == K.PrefixedName)

/-- `query_unit.strip_prologue().map_or(HashSet::new(), |query| query.descendants()...)`
(diagnostic/unused_prefix_declaration.rs L27-35). -/
def namesOf (g : Green) : List Red :=
  match stripPrologue g with
  | none => []
  | some q => prefixedNames q

/-- `filter_map(|x| test(x).then(|| diagnostic(x)))` with panics. -/
def reportAll (test : Red → Option Bool) (diag : Red → Option Diag) : List Red → Option (List Diag)
  | [] => some []
  | x :: xs =>
    match test x with
    | none => none
    | some false => reportAll test diag xs
    | some true =>
      match diag x, reportAll test diag xs with
      | some d, some ds => some (d :: ds)
      | _, _ => none

/-- The diagnostic for a node; `none` is the panic of `expect`. -/
def diagAt (text : Text) (sev : Severity) (code : DiagCode) (data : Option Text) (r : Red) : Option Diag :=
  (rangeOf text r).map (fun range => ⟨range, sev, code, data⟩)

/-- `undeclared_prefix::diagnostics` (diagnostic/undeclared_prefix.rs L22-62). The outer `none` is a panic, the inner one
the provider's `None`. The set of declared prefixes is a list. -/
def undeclaredPrefix (text : Text) (g : Green) : Option (Option (List Diag)) :=
  match selectQuery g with
  | none => some none
  | some sq =>
    match unwrapAll declPrefix (declsOf g) with
    | none => none
    | some declared =>
      (reportAll (fun n => (usePrefix n).map (fun p => !(declared.filterMap id).contains p))
        (fun n => diagAt text .error .undeclaredPrefix (usePrefix n) n) (prefixedNames sq)).map some

/-- `unused_prefix_declaration::diagnostics` (diagnostic/unused_prefix_declaration.rs L21-57). -/
def unusedPrefix (text : Text) (g : Green) : Option (Option (List Diag)) :=
  match prologueOf g with
  | none => some none
  | some pro =>
    match unwrapAll usePrefix (namesOf g) with
    | none => none
    | some used =>
      (reportAll (fun d => (declPrefix d).map (fun p => !used.contains (p.getD [])))
        (fun d => (declPrefix d).bind (fun p => diagAt text .warning .unusedPrefix p d)) (prefixDecls pro)).map some

/-- The loop of `duplicate_prefix_declaration::diagnostics` (L29-47): the outer `none` is a panic, the inner one the
early return `None`. -/
def duplicateLoop (text : Text) : List Red → (seen : List Text) → (acc : List Diag) → Option (Option (List Diag))
  | [], _, acc => some (some acc)
  | d :: ds, seen, acc =>
    match declPrefix d with
    | none => none
    | some none => some none
    | some (some p) =>
      if seen.contains p then
        match diagAt text .warning .duplicatePrefix (some p) d with
        | none => none
        | some x => duplicateLoop text ds seen (acc ++ [x])
      else duplicateLoop text ds (p :: seen) acc

/-- `duplicate_prefix_declaration::diagnostics` (diagnostic/duplicate_prefix_declaration.rs L21-49). -/
def duplicatePrefix (text : Text) (g : Green) : Option (Option (List Diag)) :=
  match prologueOf g with
  | none => some none
  | some pro => duplicateLoop text (prefixDecls pro) [] []

/-- What the handler adds for a provider: `if let Some(diagnostics) = provider(..) { accu.extend(diagnostics) }`
(diagnostic/mod.rs L38-44). -/
def added (o : Option (Option (List Diag))) : Option (List Diag) := o.map (fun x => x.getD [])

/-! ## Specification -/

/-- A prefixed name in the document with its prefix: the text before the first colon. -/
def Uses (g : Green) (n : Red) (p : Text) : Prop :=
  InTree g n ∧ n.isNode = true ∧ n.kind = K.PrefixedName ∧ ∃ rest, n.text = p ++ ':' :: rest ∧ ':' ∉ p

/-- A prefix declaration. -/
def IsDecl (g : Green) (d : Red) : Prop := InTree g d ∧ d.isNode = true ∧ d.kind = K.PrefixDecl

/-- A prefix declaration in the document with its label: the text of its `PNAME_NS` token, which is `p:`. -/
def Declares (g : Green) (d : Red) (p : Text) : Prop :=
  IsDecl g d ∧ ∃ t, InTree g t ∧ t.parent = some d ∧ t.kind = K.PNAME_NS ∧ t.text = p ++ [':'] ∧ ':' ∉ p

/-- A declaration without label (`PREFIX <iri>`). -/
def Unlabelled (g : Green) (d : Red) : Prop := IsDecl g d ∧ ∀ p, ¬ Declares g d p

end Verif.Features
