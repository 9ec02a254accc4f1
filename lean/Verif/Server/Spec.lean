import Verif.Server.Handlers
/-!
# Vocabulary of the server properties
-/
namespace Verif.Srv

/-- `fields` is a JSON-RPC request with this id, method and parameters as the server understands it: a string or
unsigned 32 bit id, and `params` missing, null, an array or an object. -/
structure IsRequest (fields : List (String × Json)) (id : ReqId) (method : String) : Prop where
  rpc : ∃ v, look "jsonrpc" fields = some (.str v)
  id : (∃ s, look "id" fields = some (.str s) ∧ id = .str s) ∨
    (∃ n : Nat, n < 2 ^ 32 ∧ look "id" fields = some (.int n) ∧ id = .int n)
  method : look "method" fields = some (.str method)
  params : look "params" fields = none ∨ look "params" fields = some .null ∨
    (∃ xs, look "params" fields = some (.arr xs)) ∨ (∃ fs, look "params" fields = some (.obj fs))

/-- The ids of the responses among the sent messages, in order. -/
def responseIds : List Out → List ReqId
  | [] => []
  | .response id _ :: rest => id :: responseIds rest
  | _ :: rest => responseIds rest

/-- The ids of the requests among the sent messages, in order. -/
def requestIds : List Out → List Nat
  | [] => []
  | .request id _ _ :: rest => id :: requestIds rest
  | _ :: rest => requestIds rest

/-- The message is a call of method `m` whose parameters have the right type (and which has an id if `m` is a
request); `id` and `p` are its id and parameters. -/
def Calls (w : World) (msg : Option Json) (m : Method) (id : Option ReqId) (p : Json) : Prop :=
  ∃ (j : Json) (name : String) (q : Option Json), msg = some j ∧ look name methodTable = some m ∧
    decodeParams w m q = some p ∧
    ((∃ i, id = some i ∧ deserializeMessage j = some (.request i name q)) ∨
     (id = none ∧ m.isRequest = false ∧ deserializeMessage j = some (.notification name q)))

/-- The message is a valid `initialized` notification. -/
def IsInitialized (w : World) (msg : Option Json) : Prop := ∃ id p, Calls w msg .initialized id p

/-- The message is a valid `shutdown` request. -/
def IsShutdown (w : World) (msg : Option Json) : Prop := ∃ id p, Calls w msg .shutdown id p

/-- The message opens (or re-opens) document `uri` with contents `d`. -/
def Opens (w : World) (msg : Option Json) (uri : String) (d : Doc) : Prop :=
  ∃ id p, Calls w msg .didOpen id p ∧ openOf p = some (uri, d)

/-- The message applies the content changes `cs` to document `uri`. -/
def Changes (w : World) (msg : Option Json) (uri : String) (cs : List Change) : Prop :=
  ∃ id p, Calls w msg .didChange id p ∧ uriOf p = some uri ∧ changesOf p = some cs

/-- Along the history, no document that is already known to the server is opened again with a version that is not
larger than the version the server has for it. -/
def FreshOpens (w : World) : List (Event w) → State w.Tree → Prop
  | [], _ => True
  | e :: es, s =>
    (∀ uri d' d, Opens w e.msg uri d' → look uri s.docs = some d → d.version < d'.version) ∧
    ∀ s' outs r, handleMessage w e.env s e.msg = .done s' outs r → FreshOpens w es s'

/-- The reference server: the same handlers, but the parse tree cache is emptied before every message, so that every
request parses the current text. -/
def runUncached (w : World) : List (Event w) → State w.Tree → Option (State w.Tree × List Out)
  | [], s => some (s, [])
  | e :: es, s =>
    match handleMessage w e.env s.view e.msg with
    | .done s' outs _ => (runUncached w es s').map fun r => (r.1, outs ++ r.2)
    | _ => none

/-- The value at a path of keys. -/
def Json.at : List String → Json → Option Json
  | [], j => some j
  | k :: ks, j => (j.get k).bind (Json.at ks)

/-- No object inside the value has the same key twice (true of every parsed JSON value). -/
def Json.WF (j : Json) : Prop := ∀ path fs, j.at path = some (.obj fs) → (fs.map Prod.fst).Nodup

/-- The value is not an object. -/
def Json.isLeaf : Json → Prop
  | .obj _ => False
  | _ => True

/-- The patch says nothing about this path: following it, one comes to an object of the patch that lacks the next key. -/
def Leaves (patch : Json) (path : List String) : Prop :=
  ∃ pre k post fs, path = pre ++ k :: post ∧ patch.at pre = some (.obj fs) ∧ look k fs = none

end Verif.Srv
