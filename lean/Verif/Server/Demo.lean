import Verif.Server.Lemmas
/-!
# A concrete surrounding for examples and counterexamples

The "tree" of a text is the text itself and every feature answers with the length of the tree it is given.
-/
namespace Verif.Srv

/-- Example world (not part of the model of the code). -/
def demoWorld : World := ⟨Text, some, fun _ _ => true, fun _ _ => none⟩

/-- Example surroundings (not part of the model of the code). -/
def demoEnv : Env demoWorld.Tree where
  before _ _ _ _ := none
  feature _ _ _ t _ := .ok (.int (match t with | some (l : Text) => l.length | none => 0))
  autofix _ _ _ _ := some .null
  remote _ _ _ _ _ := some (.result .null)
  saveDiagnostics _ := some .null
  configured _ := []
  prefixMapOk _ := true
  templatesOk _ := true
  readSettings j := some j
  defaultSettings := .null
  capabilities := .obj []

/-- Request message (example). -/
def demoRequest (id : Int) (method : String) (params : Json) : Event demoWorld :=
  ⟨some (.obj [("jsonrpc", .str "2.0"), ("id", .int id), ("method", .str method), ("params", params)]), demoEnv⟩

/-- Notification message (example). -/
def demoNotification (method : String) (params : Json) : Event demoWorld :=
  ⟨some (.obj [("jsonrpc", .str "2.0"), ("method", .str method), ("params", params)]), demoEnv⟩

/-- Parameters that name a document (example). -/
def demoUri : Json := .obj [("textDocument", .obj [("uri", .str "u")])]

/-- didOpen parameters with this version and text (example). -/
def demoOpenParams (version : Nat) (text : Text) : Json :=
  .obj [("textDocument", .obj [("uri", .str "u"), ("version", .int version), ("text", .str (String.ofList text))])]

/-- didOpen of the document with this version and text (example). -/
def demoOpen (version : Nat) (text : Text) : Event demoWorld :=
  demoNotification "textDocument/didOpen" (demoOpenParams version text)

/-- Formatting request for the document (example). -/
def demoFormat (id : Nat) : Event demoWorld := demoRequest id "textDocument/formatting" demoUri

/-- The definitions to unfold when an example is computed. -/
macro "srv" : tactic => `(tactic| simp [run, runUncached, handleMessage, dispatch, dispatch.byMethod, deserializeMessage,
  asRequest, asResponse, asNotification, look, put, ReqId.ofJson, Json.asU32, paramsOf, methodTable, callHandler,
  decodeParams, Method.isRequest, Method.async, requestHandler, notificationHandler, docRequest, diagnosticRequest,
  identifyRequest, uriOf, openOf, Json.get, Json.asStr, Json.asBool, didOpen, State.addDocument, State.cachedTree, demoWorld,
  demoEnv, State.view, State.init, fail, errorResponse, recoverId, initializeRequest, startUp, loadConfigured,
  shutdownRequest, State.bump, addBackend, registerBackend, backendOf, updateDefault, State.setDefault, State.loadPrefixMap,
  State.addBackend, errorFieldOk, lspErrorOk, idOrNullOk, editResponseOk,
  demoRequest, demoNotification, demoUri, demoOpenParams, demoOpen, demoFormat])

theorem demoFormat_calls (i : Nat) (hi : i < 2 ^ 32) :
    Calls demoWorld (demoFormat i).msg .formatting (some (.int i)) demoUri := by
  refine ⟨_, "textDocument/formatting", some demoUri, rfl, by simp [look, methodTable], rfl, .inl ⟨_, rfl, ?_⟩⟩
  simp [deserializeMessage, asRequest, look, ofJson_int i hi, paramsOf, demoUri]

theorem demoNotification_calls (name : String) (m : Method) (fs : List (String × Json))
    (h : look name methodTable = some m) (hm : m.isRequest = false) :
    Calls demoWorld (demoNotification name (.obj fs)).msg m none (.obj fs) := by
  refine ⟨_, name, some (.obj fs), rfl, h, rfl, .inr ⟨rfl, hm, ?_⟩⟩
  simp [deserializeMessage, asRequest, asResponse, asNotification, look, paramsOf]

theorem demoOpen_opens (v : Nat) (t : Text) (hv : v < 2 ^ 32) :
    Opens demoWorld (demoOpen v t).msg "u" ⟨v, t⟩ := by
  refine ⟨none, demoOpenParams v t, demoNotification_calls _ _ _ (by simp [look, methodTable]) rfl, ?_⟩
  simp [openOf, demoOpenParams, Json.get, look, Json.asStr, asU32_nat v hv]

end Verif.Srv
