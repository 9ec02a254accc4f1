import Verif.Server.State
/-!
# Message dispatch and handlers

Models `handle_message`, `handle_error` (`src/server/mod.rs` L170-194), `dispatch`
(`src/server/message_handler/mod.rs` L115-206) and the handlers: lifecycle, document synchronisation, backends and
settings in full; the feature handlers (formatting, hover, ...) with their interaction with state and client, while the
*content* of the answer (and whether the feature fails or panics) is an arbitrary function supplied by `Env`.

The native server handles one message after the other (`call_async!` awaits the task), which is what is modelled;
the wasm server may interleave the `call_async!` handlers.
-/
namespace Verif.Srv

/-- The served methods (message_handler/mod.rs L145-181). -/
inductive Method where
  | initialize | shutdown | formatting | onTypeFormatting | diagnostic | codeAction | hover | completion
  | foldingRange | semanticTokensFull | semanticTokensRange | rename | references | documentHighlight
  | addBackend | getBackend | listBackends | updateDefaultBackend | pingBackend | jump | parseTree
  | identifyOperationType | defaultSettings | executeOperation
  | initialized | exit | didOpen | didChange | didSave | changeSettings | cancelQuery
deriving DecidableEq, Repr

/-- The string patterns of `dispatch` (message_handler/mod.rs L145-180). -/
def methodTable : List (String × Method) :=
  [("initialize", .initialize), ("shutdown", .shutdown), ("textDocument/formatting", .formatting),
   ("textDocument/onTypeFormatting", .onTypeFormatting), ("textDocument/diagnostic", .diagnostic),
   ("textDocument/codeAction", .codeAction), ("textDocument/hover", .hover),
   ("textDocument/completion", .completion), ("textDocument/foldingRange", .foldingRange),
   ("textDocument/semanticTokens/full", .semanticTokensFull),
   ("textDocument/semanticTokens/range", .semanticTokensRange), ("textDocument/rename", .rename),
   ("textDocument/references", .references), ("textDocument/documentHighlight", .documentHighlight),
   ("qlueLs/addBackend", .addBackend), ("qlueLs/getBackend", .getBackend), ("qlueLs/listBackends", .listBackends),
   ("qlueLs/updateDefaultBackend", .updateDefaultBackend), ("qlueLs/pingBackend", .pingBackend),
   ("qlueLs/jump", .jump), ("qlueLs/parseTree", .parseTree),
   ("qlueLs/identifyOperationType", .identifyOperationType), ("qlueLs/defaultSettings", .defaultSettings),
   ("qlueLs/executeOperation", .executeOperation), ("initialized", .initialized), ("exit", .exit),
   ("textDocument/didOpen", .didOpen), ("textDocument/didChange", .didChange), ("textDocument/didSave", .didSave),
   ("qlueLs/changeSettings", .changeSettings), ("qlueLs/cancelQuery", .cancelQuery)]

/-- The methods handled with `call_async!` (message_handler/mod.rs L153, L154, L166, L171, L180): their message is
decoded with `unwrap` inside the task. -/
def Method.async : Method → Bool
  | .hover | .completion | .pingBackend | .executeOperation | .cancelQuery => true
  | _ => false

/-- Whether the message type of the handler has a `RequestMessageBase` (an id is required) or a
`NotificationMessageBase` (an id is ignored); lsp/messages/*.rs. -/
def Method.isRequest : Method → Bool
  | .addBackend | .updateDefaultBackend | .initialized | .exit | .didOpen | .didChange | .didSave
  | .changeSettings | .cancelQuery => false
  | _ => true

/-- Body of a response. -/
inductive Body where
  | result (j : Json)
  | error (c : ErrCode)

/-- A message sent to the client. -/
inductive Out where
  | response (id : ReqId) (body : Body)
  | request (id : Nat) (method : String) (params : Json)
  | notification (method : String) (params : Json)

/-- Outcome of a feature computation. -/
inductive FRes where
  | panic
  | err (c : ErrCode)
  | ok (j : Json)

/-- Outcome of a handler or of a whole message: the process panics, exits, or continues with a new state, the messages
sent and a result. State changes and messages made before an error is returned are kept. -/
inductive Res (T : Type) where
  | panic
  | exit
  | done (s : State T) (outs : List Out) (r : Except ErrCode Unit)

/-- The fixed surroundings: the parser, and the parts of serde's parameter decoding that are not modelled:
`decodes m j` says whether the parameters `j` have the type the method wants, `positional` reads a parameter array. -/
structure World where
  Tree : Type
  parse : Text → Option Tree
  decodes : Method → Json → Bool
  positional : Method → List Json → Option Json

/-- What a handler run may depend on besides state and message (feature code, network, configuration file, template
engine); it may be different for every message. The feature code sees the state except the parse tree cache (which is
private to state.rs, L70). -/
structure Env (T : Type) where
  /-- Checks a handler makes before it asks for the tree (position inside the document, ...). -/
  before : Method → State T → Text → Json → Option FRes
  /-- The answer of a feature to a request about a document. -/
  feature : Method → State T → Text → Option T → Json → FRes
  /-- The edits of `auto_fix_prefixes`, `none` if there are none. -/
  autofix : State T → Text → T → Json → Option Json
  /-- The answer to `executeOperation` and `pingBackend`. -/
  remote : Method → State T → Backend → Text → Json → Option Body
  /-- The `publishDiagnostics` parameters after saving; `none` is a panic. -/
  saveDiagnostics : Text → Option Json
  /-- Backends of the settings in the iteration order of the hash map. -/
  configured : Json → List Backend
  prefixMapOk : Backend → Bool
  templatesOk : Backend → Bool
  /-- Reading the merged JSON as settings and validating them; the settings are kept as JSON. -/
  readSettings : Json → Option Json
  defaultSettings : Json
  capabilities : Json

/-- `message.parse()` (rpc.rs L30-49): the `params` of the message, `null` if missing, as the type of the method. -/
def decodeParams (w : World) (m : Method) (p : Option Json) : Option Json :=
  match p with
  | none => if w.decodes m .null then some .null else none
  | some (.arr xs) => (w.positional m xs).bind fun j => if w.decodes m j then some j else none
  | some j => if w.decodes m j then some j else none

/-- `params.textDocument.uri` (e.g. lsp/messages/textdocument_diagnostic.rs L25-27). -/
def uriOf (j : Json) : Option String := ((j.get "textDocument").bind (·.get "uri")).bind Json.asStr

/-- `TextDocumentItem` of didOpen (textdocument.rs L8-15). -/
def openOf (j : Json) : Option (String × Doc) :=
  match (j.get "textDocument").bind (·.get "uri") |>.bind Json.asStr,
        (j.get "textDocument").bind (·.get "version") |>.bind Json.asU32,
        (j.get "textDocument").bind (·.get "text") |>.bind Json.asStr with
  | some u, some v, some t => some (u, ⟨v, t.toList⟩)
  | _, _, _ => none

/-- `Position` (textdocument.rs L213-220). -/
def positionOf (j : Json) : Option Position :=
  match (j.get "line").bind Json.asU32, (j.get "character").bind Json.asU32 with
  | some l, some c => some ⟨l, c⟩
  | _, _ => none

/-- `TextDocumentContentChangeEvent` (lsp/messages/textdocument_didchange.rs L27-34). -/
def changeOf (j : Json) : Option Change :=
  match j.get "text" with
  | some (.str t) =>
    match j.get "range" with
    | none | some .null => some ⟨none, t.toList⟩
    | some r =>
      match (r.get "start").bind positionOf, (r.get "end").bind positionOf with
      | some a, some b => some ⟨some ⟨a, b⟩, t.toList⟩
      | _, _ => none
  | _ => none

/-- The content changes (lsp/messages/textdocument_didchange.rs L20-25). -/
def changesOf (j : Json) : Option (List Change) :=
  match j.get "contentChanges" with
  | some (.arr xs) => xs.mapM changeOf
  | _ => none

/-- `BackendConfiguration` (configuration.rs L47-63). -/
def backendOf (j : Json) : Option Backend :=
  match (j.get "name").bind Json.asStr, (j.get "url").bind Json.asStr with
  | some n, some u =>
    some ⟨n, u, ((j.get "default").bind Json.asBool).getD false, (j.get "prefixMap").getD (.obj []),
      (j.get "queries").getD (.obj [])⟩
  | _, _ => none

/-- `client_support_workspace_edits` (auto_fix_prefixes.rs L76-94) on the `initialize` parameters. -/
def supportsEdits (params : Json) : Bool :=
  let ws := (params.get "capabilities").bind (·.get "workspace")
  ((ws.bind (·.get "applyEdit")).bind Json.asBool).getD false &&
    (((ws.bind (·.get "workspaceEdit")).bind (·.get "documentChanges")).bind Json.asBool).getD false

variable {T : Type}

/-- Return an error. -/
def fail (s : State T) (c : ErrCode) : Res T := .done s [] (.error c)

/-- A request about a document: `get_document`, an optional check, `get_cached_parse_tree`, the feature, one response
(formatting/mod.rs L19-37, on_type_formatting/mod.rs L22-71, code_action/mod.rs L26-36, hover/mod.rs L21-58,
completion/mod.rs L24-117, folding_range/mod.rs L22-36, semantic_tokens/mod.rs L26-60, rename/mod.rs L16-88,
references/mod.rs L18-59, document_highlight/mod.rs L19-60, jump/mod.rs L22-97, parse_tree.rs L16-33). -/
def docRequest (w : World) (env : Env w.Tree) (m : Method) (s : State w.Tree) (id : ReqId) (p : Json) : Res w.Tree :=
  match uriOf p with
  | none => fail s .parseError
  | some uri =>
    match look uri s.docs with
    | none => fail s .invalidRequest
    | some d =>
      match env.before m s.view d.text p with
      | some .panic => .panic
      | some (.err c) => fail s c
      | _ =>
        match s.cachedTree w.parse uri d with
        | none => .panic
        | some (tree, s') =>
          match env.feature m s'.view d.text (some tree) p with
          | .panic => .panic
          | .err c => fail s' c
          | .ok j => .done s' [.response id (.result j)] (.ok ())

/-- `handle_diagnostic_request` (diagnostic/mod.rs L21-61) with `auto_fix_prefixes` (auto_fix_prefixes.rs L21-74). -/
def diagnosticRequest (w : World) (env : Env w.Tree) (s : State w.Tree) (id : ReqId) (p : Json) : Res w.Tree :=
  match uriOf p with
  | none => fail s .parseError
  | some uri =>
    match look uri s.docs with
    | none => fail s .invalidRequest
    | some d =>
      match s.cachedTree w.parse uri d with
      | none => .panic
      | some (tree, s') =>
        match env.feature .diagnostic s'.view d.text (some tree) p with
        | .panic => .panic
        | .err c => fail s' c
        | .ok j =>
          match (if s'.applyEdit then env.autofix s'.view d.text tree p else none) with
          | some edits =>
            let (rid, s'') := s'.bump
            .done s'' [.request rid "workspace/applyEdit" edits, .response id (.result j)] (.ok ())
          | none => .done s' [.response id (.result j)] (.ok ())

/-- `handle_identify_request` (identification/mod.rs L15-37): needs the text only. -/
def identifyRequest (w : World) (env : Env w.Tree) (s : State w.Tree) (id : ReqId) (p : Json) : Res w.Tree :=
  match uriOf p with
  | none => fail s .parseError
  | some uri =>
    match look uri s.docs with
    | none => fail s .invalidRequest
    | some d =>
      match env.feature .identifyOperationType s.view d.text none p with
      | .panic => .panic
      | .err c => fail s c
      | .ok j => .done s [.response id (.result j)] (.ok ())

/-- The text of the operation to execute (execute/mod.rs L18-52): the document's, or the one in the parameters. -/
def State.operationText (s : State T) (p : Json) : Option Text :=
  match uriOf p with
  | some uri => (look uri s.docs).map Doc.text
  | none => ((p.get "query").bind Json.asStr).map String.toList

/-- The named backend, or the default backend if no name is given (backend/mod.rs L45-52, L95-98). -/
def State.backendOrDefault (s : State T) (name : Option String) : Option Backend :=
  match name with
  | some n => look n s.backends
  | none => s.defaultBackend

/-- `handle_execute_request` (execute/mod.rs L18-52, execute/query.rs, execute/update.rs): the text is taken from the
document store or from the parameters, a default backend is required, and exactly one response is sent. -/
def executeRequest (w : World) (env : Env w.Tree) (s : State w.Tree) (id : ReqId) (p : Json) : Res w.Tree :=
  match s.operationText p with
  | none => fail s .invalidRequest
  | some t =>
    match s.defaultBackend with
    | none => fail s .invalidRequest
    | some b =>
      match env.remote .executeOperation s.view b t p with
      | none => .panic
      | some body => .done s [.response id body] (.ok ())

/-- `handle_ping_backend_request` (backend/mod.rs L41-67). -/
def pingRequest (w : World) (env : Env w.Tree) (s : State w.Tree) (id : ReqId) (p : Json) : Res w.Tree :=
  match s.backendOrDefault ((p.get "backendName").bind Json.asStr) with
  | none => fail s .invalidParams
  | some b =>
    match env.remote .pingBackend s.view b [] p with
    | none => .panic
    | some body => .done s [.response id body] (.ok ())

/-- The wire form of a backend. -/
def Backend.toJson (b : Backend) : Json :=
  .obj [("name", .str b.name), ("url", .str b.url), ("default", .bool b.dflt)]

/-- `handle_get_backend_request` (backend/mod.rs L90-110, lsp/messages/qluels_getbackend.rs L39-65). -/
def getBackendRequest (s : State T) (id : ReqId) (p : Json) : Res T :=
  match s.backendOrDefault ((p.get "backend").bind Json.asStr) with
  | some b => .done s [.response id (.result b.toJson)] (.ok ())
  | none => .done s [.response id (.error .invalidParams)] (.ok ())

/-- `handle_list_backends_request` (backend/mod.rs L113-122): name, url and the *configured* default flag. -/
def listBackendsRequest (s : State T) (id : ReqId) : Res T :=
  .done s [.response id (.result (.arr (s.backends.map fun b => b.2.toJson)))] (.ok ())

/-- `handle_update_backend_default_notification` (backend/mod.rs L17-38). -/
def updateDefault (s : State T) (p : Json) : Res T :=
  match (p.get "backendName").bind Json.asStr with
  | none => fail s .parseError
  | some n =>
    if (look n s.backends).isNone then fail s .invalidParams
    else
      match s.setDefault n with
      | none => .panic
      | some s' => .done s' [] (.ok ())

/-- Register one backend (backend/mod.rs L76-86, lifecycle.rs L96-108); `Except` carries the state at the error. -/
def registerBackend (env : Env T) (s : State T) (b : Backend) : Option (Except (State T) (State T)) :=
  if env.prefixMapOk b = false then some (.error s)
  else
    let s := s.loadPrefixMap b.name b.prefixMap
    if env.templatesOk b = false then some (.error s)
    else
      let s := s.addBackend b
      if b.dflt then (s.setDefault b.name).map .ok else some (.ok s)

/-- `handle_add_backend_notification` (backend/mod.rs L70-87). -/
def addBackend (env : Env T) (s : State T) (p : Json) : Res T :=
  match backendOf p with
  | none => fail s .parseError
  | some b =>
    match registerBackend env s b with
    | none => .panic
    | some (.error s') => fail s' .invalidParams
    | some (.ok s') => .done s' [] (.ok ())

/-- The loop over the configured backends (lifecycle.rs L95-108). -/
def registerAll (env : Env T) : List Backend → State T → Option (Except (State T) (State T))
  | [], s => some (.ok s)
  | b :: bs, s =>
    match registerBackend env s b with
    | none => none
    | some (.error s') => some (.error s')
    | some (.ok s') => registerAll env bs s'

/-- A `$/progress` notification (lsp/messages/progress.rs). -/
def progress (kind : String) : Out := .notification "$/progress" (.obj [("kind", .str kind)])

/-- The branch of `handle_initialize_request` with a work-done token (lifecycle.rs L66-131): the configured backends are
loaded. -/
def loadConfigured (env : Env T) (s : State T) (id : ReqId) : Res T :=
  match registerAll env (env.configured s.settings) s with
  | none => .panic
  | some (.error s') => .done s' [progress "begin"] (.error .invalidParams)
  | some (.ok s') =>
    .done s' [progress "begin", progress "report", progress "report", progress "end",
      .response id (.result env.capabilities)] (.ok ())

/-- The second part of `handle_initialize_request` (lifecycle.rs L63-132): the configured backends are loaded only if
the client sent a work-done token. -/
def startUp (env : Env T) (s : State T) (id : ReqId) (p : Json) : Res T :=
  match p.get "workDoneToken" with
  | none | some .null => .done s [.response id (.result env.capabilities)] (.ok ())
  | some _ => loadConfigured env s id

/-- `handle_initialize_request` (lifecycle.rs L40-139). -/
def initializeRequest (env : Env T) (s : State T) (id : ReqId) (p : Json) : Res T :=
  match s.status with
  | .initializing => startUp env { s with applyEdit := supportsEdits p } id p
  | _ => fail s .invalidRequest

/-- `handle_shutdown_request` (lifecycle.rs L17-37). -/
def shutdownRequest (s : State T) (id : ReqId) : Res T :=
  match s.status with
  | .initializing => fail s .invalidRequest
  | .shuttingDown => fail s .invalidRequest
  | .running => .done { s with status := .shuttingDown } [.response id (.result .null)] (.ok ())

/-- `handle_did_open_notification` (textdocument_synchronization.rs L19-27). -/
def didOpen (s : State T) (p : Json) : Res T :=
  match openOf p with
  | none => fail s .parseError
  | some (uri, d) => .done (s.addDocument uri d) [] (.ok ())

/-- `handle_did_change_notification` (textdocument_synchronization.rs L30-40). -/
def didChange (s : State T) (p : Json) : Res T :=
  match uriOf p, changesOf p with
  | some uri, some cs =>
    match look uri s.docs with
    | none => fail s .invalidParams
    | some d =>
      match s.changeDocument uri d cs with
      | none => .panic
      | some s' => .done s' [] (.ok ())
  | _, _ => fail s .parseError

/-- `handle_did_save_notification` (textdocument_synchronization.rs L43-69). -/
def didSave (env : Env T) (s : State T) (p : Json) : Res T :=
  match uriOf p with
  | none => fail s .parseError
  | some uri =>
    match look uri s.docs with
    | none => fail s .invalidRequest
    | some d =>
      match env.saveDiagnostics d.text with
      | none => .panic
      | some j => .done s [.notification "textDocument/publishDiagnostics" j] (.ok ())

/-- `handle_change_settings_notification` (settings/mod.rs L36-43). -/
def changeSettings (env : Env T) (s : State T) (p : Json) : Res T :=
  match env.readSettings (merge s.settings p) with
  | none => fail s .invalidParams
  | some j => .done { s with settings := j } [] (.ok ())

/-- Handlers of notifications (message_handler/mod.rs L162, L165, L173-180). -/
def notificationHandler (env : Env T) (m : Method) (s : State T) (p : Json) : Res T :=
  match m with
  | .addBackend => addBackend env s p
  | .updateDefaultBackend => updateDefault s p
  | .initialized => .done { s with status := .running } [] (.ok ())
  | .exit => .exit
  | .didOpen => didOpen s p
  | .didChange => didChange s p
  | .didSave => didSave env s p
  | .changeSettings => changeSettings env s p
  | _ => .done s [] (.ok ())

/-- Handlers of requests (message_handler/mod.rs L147-171). -/
def requestHandler (w : World) (env : Env w.Tree) (m : Method) (s : State w.Tree) (id : ReqId) (p : Json) :
    Res w.Tree :=
  match m with
  | .initialize => initializeRequest env s id p
  | .shutdown => shutdownRequest s id
  | .diagnostic => diagnosticRequest w env s id p
  | .getBackend => getBackendRequest s id p
  | .listBackends => listBackendsRequest s id
  | .pingBackend => pingRequest w env s id p
  | .identifyOperationType => identifyRequest w env s id p
  | .defaultSettings => .done s [.response id (.result env.defaultSettings)] (.ok ())
  | .executeOperation => executeRequest w env s id p
  | m => docRequest w env m s id p

/-- Call the handler of a known method (`call!` / `call_async!`, message_handler/mod.rs L122-143): the parameters are
decoded first; if that fails `call!` returns a `ParseError` and `call_async!` panics (`unwrap` in the task, then
`expect` on the join handle). A message type with an id cannot be read from a notification. -/
def callHandler (w : World) (env : Env w.Tree) (m : Method) (s : State w.Tree) (id : Option ReqId)
    (p : Option Json) : Res w.Tree :=
  match decodeParams w m p with
  | none => if m.async then .panic else fail s .parseError
  | some j =>
    if m.isRequest then
      match id with
      | some id => requestHandler w env m s id j
      | none => if m.async then .panic else fail s .parseError
    else notificationHandler env m s j

/-- Whether a response is a `WorkspaceEditResponse` (lsp/messages/workspace_applyedit.rs L42-57). -/
def editResponseOk : Option Json → Bool
  | none => true
  | some (.obj fs) =>
    match look "applied" fs, look "failure_reason" fs with
    | some (.bool _), none => true
    | some (.bool _), some .null => true
    | some (.bool _), some (.str _) => true
    | _, _ => false
  | some (.arr [.bool _, .null]) => true
  | some (.arr [.bool _, .str _]) => true
  | _ => false

/-- `dispatch` (message_handler/mod.rs L115-206). -/
def dispatch (w : World) (env : Env w.Tree) (s : State w.Tree) (msg : Option Json) : Res w.Tree :=
  match msg.bind deserializeMessage with
  | none => fail s .parseError
  | some (.response r) => if editResponseOk r then .done s [] (.ok ()) else fail s .parseError
  | some (.request id m p) => byMethod m (some id) p
  | some (.notification m p) => byMethod m none p
where
  /-- `match method` (message_handler/mod.rs L145-205). -/
  byMethod (name : String) (id : Option ReqId) (p : Option Json) : Res w.Tree :=
    match look name methodTable with
    | some m => callHandler w env m s id p
    | none =>
      if name = "response" then
        -- a request or notification whose method is literally "response" is read as a `WorkspaceEditResponse`,
        -- which needs an id and has no result here
        match id with
        | some _ => .done s [] (.ok ())
        | none => fail s .parseError
      else if name = "$/cancelRequest" then .done s [] (.ok ())
      else if name = "$/setTrace" then .done s [] (.ok ())
      else fail s .methodNotFound

/-- `handle_error` (server/mod.rs L170-188): an error response if an id can be recovered from the message. -/
def errorResponse (msg : Option Json) (c : ErrCode) : List Out :=
  match msg.bind recoverId with
  | some id => [.response id (.error c)]
  | none => []

/-- `handle_message` (server/mod.rs L190-194). -/
def handleMessage (w : World) (env : Env w.Tree) (s : State w.Tree) (msg : Option Json) : Res w.Tree :=
  match dispatch w env s msg with
  | .done s' outs (.error c) => .done s' (outs ++ errorResponse msg c) (.ok ())
  | r => r

/-- An incoming message (`none`: not JSON) together with the surroundings in which it is handled. -/
structure Event (w : World) where
  msg : Option Json
  env : Env w.Tree

/-- The server's main loop (main.rs L111-117): handle the messages one after the other; `none` if the process panicked
or exited on the way. -/
def run (w : World) : List (Event w) → State w.Tree → Option (State w.Tree × List Out)
  | [], s => some (s, [])
  | e :: es, s =>
    match handleMessage w e.env s e.msg with
    | .done s' outs _ => (run w es s').map fun r => (r.1, outs ++ r.2)
    | _ => none

end Verif.Srv
