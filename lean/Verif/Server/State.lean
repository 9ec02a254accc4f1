import Verif.Server.Json
import Verif.ContentChanges
/-!
# Server state

Models `src/server/state.rs`. Hash maps are association lists used through `look` and `put`. Not modelled: the client
type, the label memory, running SPARQL requests (wasm only), parse times. A URI converter is represented by the prefix
map it was built from (the `curies` crate is not modelled).
-/
namespace Verif.Srv

/-- `ServerStatus` (state.rs L41-46). -/
inductive Status where
  | initializing
  | running
  | shuttingDown
deriving DecidableEq, Repr

/-- `ErrorCode` (errors.rs L43-131), the ones the modelled code uses. -/
inductive ErrCode where
  | parseError
  | invalidRequest
  | methodNotFound
  | invalidParams
  | internalError
  | requestFailed
deriving DecidableEq, Repr

/-- `TextDocumentItem` (textdocument.rs L8-15) without the language id; the key of the map is the uri. -/
structure Doc where
  version : Nat
  text : Text

/-- `BackendConfiguration` (configuration.rs L47-63), the parts the registry uses. -/
structure Backend where
  name : String
  url : String
  dflt : Bool
  prefixMap : Json
  queries : Json

/-- `CachedParseTree` (state.rs L54-60). -/
structure Cached (T : Type) where
  uri : String
  version : Nat
  tree : T

/-- `ServerState` (state.rs L62-73) and the fields `settings` (as JSON) and `client_capabilities` (only
`client_support_workspace_edits`, auto_fix_prefixes.rs L76-94) of `Server` (server/mod.rs L58-67). -/
structure State (T : Type) where
  status : Status
  applyEdit : Bool
  docs : List (String × Doc)
  backends : List (String × Backend)
  converters : List (String × Json)
  dflt : Option String
  cache : Option (Cached T)
  counter : Nat
  settings : Json

variable {T : Type}

/-- `ServerState::new` (state.rs L76-89), with the initial settings. -/
def State.init (settings : Json) : State T :=
  ⟨.initializing, false, [], [], [], none, none, 0, settings⟩

/-- The state without the parse tree cache (a private field, state.rs L70). -/
def State.view (s : State T) : State T := { s with cache := none }

/-- `bump_request_id` (state.rs L91-95). -/
def State.bump (s : State T) : Nat × State T := (s.counter, { s with counter := s.counter + 1 })

/-- `set_default_backend` (state.rs L108-111); `none` is the failed assertion. -/
def State.setDefault (s : State T) (name : String) : Option (State T) :=
  if (look name s.backends).isSome then some { s with dflt := some name } else none

/-- `get_default_backend` (state.rs L113-115). -/
def State.defaultBackend (s : State T) : Option Backend := s.dflt.bind (fun n => look n s.backends)

/-- `add_backend` (state.rs L117-119). -/
def State.addBackend (s : State T) (b : Backend) : State T := { s with backends := put b.name b s.backends }

/-- The effect of a successful `load_prefix_map` (state.rs L168-169). -/
def State.loadPrefixMap (s : State T) (name : String) (m : Json) : State T :=
  { s with converters := put name m s.converters }

/-- `add_document` (state.rs L176-179). -/
def State.addDocument (s : State T) (uri : String) (d : Doc) : State T := { s with docs := put uri d s.docs }

/-- `change_document` (state.rs L181-193) for a known document; `none` is a panic in `apply_content_changes`. -/
def State.changeDocument (s : State T) (uri : String) (d : Doc) (cs : List Change) : Option (State T) :=
  (applyContentChanges d.text cs).map fun t => { s with docs := put uri ⟨d.version + 1, t⟩ s.docs }

/-- `get_cached_parse_tree` (state.rs L203-234) for a known document: the tree and the state with the new cache;
`none` is a panic of the parser. -/
def State.cachedTree (parse : Text → Option T) (s : State T) (uri : String) (d : Doc) : Option (T × State T) :=
  match s.cache with
  | some c =>
    if c.uri = uri ∧ c.version = d.version then some (c.tree, s)
    else (parse d.text).map fun t => (t, { s with cache := some ⟨uri, d.version, t⟩ })
  | none => (parse d.text).map fun t => (t, { s with cache := some ⟨uri, d.version, t⟩ })

end Verif.Srv
