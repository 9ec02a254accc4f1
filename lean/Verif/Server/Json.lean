import Verif.Text
/-!
# JSON values, JSON-RPC message classification and settings merge

Models `src/server/lsp/rpc.rs` (untagged `RPCMessage`, `RequestId`, `ResponseMessage`, `RecoverId`) on top of already
parsed JSON (`serde_json`'s text parser is not modelled) and `merge_value` of
`src/server/message_handler/settings/mod.rs`. Objects are association lists; looking a key up takes the first match
(duplicate keys, which serde rejects for struct fields, are not modelled).
-/
namespace Verif.Srv

/-- `serde_json::Value`: numbers are split into integers and the rest. -/
inductive Json where
  | null
  | bool (b : Bool)
  | int (n : Int)
  | float (repr : String)
  | str (s : String)
  | arr (xs : List Json)
  | obj (fields : List (String × Json))

/-- Key lookup in an association list (`HashMap::get`, `serde_json::Map::get`). -/
def look {α : Type} (k : String) : List (String × α) → Option α
  | [] => none
  | (k', v) :: rest => if k' = k then some v else look k rest

/-- Key insertion (`HashMap::insert`): replaces the value of an existing key, else appends. -/
def put {α : Type} (k : String) (v : α) : List (String × α) → List (String × α)
  | [] => [(k, v)]
  | (k', v') :: rest => if k' = k then (k', v) :: rest else (k', v') :: put k v rest

/-- Field of a JSON value. -/
def Json.get (k : String) : Json → Option Json
  | .obj fs => look k fs
  | _ => none

/-- `String` fields. -/
def Json.asStr : Json → Option String
  | .str s => some s
  | _ => none

/-- `u32` fields (less than 2^32). -/
def Json.asU32 : Json → Option Nat
  | .int (.ofNat n) => if n < 4294967296 then some n else none
  | _ => none

/-- `bool` fields. -/
def Json.asBool : Json → Option Bool
  | .bool b => some b
  | _ => none

/-- `RequestId` (rpc.rs L114-119): untagged string or `u32`. -/
inductive ReqId where
  | str (s : String)
  | int (n : Nat)
deriving DecidableEq, Repr

/-- Deserialization of `RequestId` (rpc.rs L114-119). -/
def ReqId.ofJson : Json → Option ReqId
  | .str s => some (.str s)
  | j => j.asU32.map .int

/-- `RPCMessage` (rpc.rs L13-19) with the fields the server uses. `params` is `None`, an array or an object
(rpc.rs L130-135). -/
inductive Rpc where
  | request (id : ReqId) (method : String) (params : Option Json)
  | response (result : Option Json)
  | notification (method : String) (params : Option Json)

/-- `Option<Params>` (rpc.rs L88, L130-135): missing and `null` are `None`, arrays and objects are accepted. The outer
`none` is a deserialization error. -/
def paramsOf : Option Json → Option (Option Json)
  | none => some none
  | some .null => some none
  | some (.arr xs) => some (some (.arr xs))
  | some (.obj fs) => some (some (.obj fs))
  | _ => none

/-- The names serde accepts for `ErrorCode` (errors.rs L43-131): the enum derives plain `Deserialize`, so a code is
written as the *name* of the variant, not as a number. -/
def errorCodeNames : List String :=
  ["ParseError", "InvalidRequest", "MethodNotFound", "InvalidParams", "InternalError", "ServerNotInitialized",
   "Unknown", "RequestFailed", "ServerCancelled", "ContentModified", "RequestCancelled"]

/-- Deserialization of `ErrorCode`: a variant name, or an object with the variant name as its only key and `null`. -/
def errorCodeOk : Json → Bool
  | .str s => errorCodeNames.contains s
  | .obj [(s, .null)] => errorCodeNames.contains s
  | _ => false

/-- Deserialization of `LSPError` (errors.rs L18-35): an object, or the positional array `[code, message, data]`. -/
def lspErrorOk : Json → Bool
  | .obj fs =>
    match look "code" fs, look "message" fs with
    | some c, some (.str _) => errorCodeOk c
    | _, _ => false
  | .arr [c, .str _, _] => errorCodeOk c
  | _ => false

/-- `Option<LSPError>` (rpc.rs L153-154). -/
def errorFieldOk : Option Json → Bool
  | none => true
  | some .null => true
  | some e => lspErrorOk e

/-- `RequestIdOrNull` (rpc.rs L170-175). -/
def idOrNullOk : Json → Bool
  | .null => true
  | j => (ReqId.ofJson j).isSome

/-- The first alternative of the untagged enum: `RequestMessage` (rpc.rs L73-89). -/
def asRequest (fs : List (String × Json)) : Option Rpc :=
  match look "jsonrpc" fs, (look "id" fs).bind ReqId.ofJson, look "method" fs, paramsOf (look "params" fs) with
  | some (.str _), some id, some (.str m), some p => some (.request id m p)
  | _, _, _, _ => none

/-- The second alternative: `ResponseMessage` (rpc.rs L137-155); unknown keys such as `method` are ignored. -/
def asResponse (fs : List (String × Json)) : Option Rpc :=
  match look "jsonrpc" fs, look "id" fs with
  | some (.str _), some id =>
    if idOrNullOk id && errorFieldOk (look "error" fs) then
      some (.response (match look "result" fs with | some .null => none | r => r))
    else none
  | _, _ => none

/-- The third alternative: `NotificationMessage` (rpc.rs L200-212); unknown keys such as `id` are ignored. -/
def asNotification (fs : List (String × Json)) : Option Rpc :=
  match look "jsonrpc" fs, look "method" fs, paramsOf (look "params" fs) with
  | some (.str _), some (.str m), some p => some (.notification m p)
  | _, _, _ => none

/-- `deserialize_message` (rpc.rs L233-245) on parsed JSON; `none` is a `ParseError`. -/
def deserializeMessage : Json → Option Rpc
  | .obj fs => (asRequest fs).or ((asResponse fs).or (asNotification fs))
  | _ => none

/-- `serde_json::from_str::<RecoverId>` (rpc.rs L66-71, server/mod.rs L175): a struct with the single field `id`,
readable from an object or from a one-element array. -/
def recoverId : Json → Option ReqId
  | .obj fs => (look "id" fs).bind ReqId.ofJson
  | .arr [x] => ReqId.ofJson x
  | _ => none

/-! ## Settings merge -/

mutual
/-- `merge_value` (settings/mod.rs L79-94): objects are merged key by key, everything else is replaced. -/
def merge : Json → Json → Json
  | .obj t, .obj p => .obj (mergeFields t p)
  | _, p => p
termination_by _ p => (sizeOf p, 0)
/-- The loop over the patch's keys (settings/mod.rs L82-91). -/
def mergeFields : List (String × Json) → List (String × Json) → List (String × Json)
  | t, [] => t
  | t, (k, v) :: rest => mergeFields (mergeKey t k v) rest
termination_by _ p => (sizeOf p, 0)
/-- `match target.get_mut(&key)` (settings/mod.rs L84-89). -/
def mergeKey : List (String × Json) → String → Json → List (String × Json)
  | [], k, v => [(k, v)]
  | (k', v') :: rest, k, v => if k' = k then (k', merge v' v) :: rest else (k', v') :: mergeKey rest k v
termination_by t _ v => (sizeOf v, sizeOf t + 1)
end

end Verif.Srv
