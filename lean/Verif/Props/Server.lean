import Verif.Server.HistoryLemmas
import Verif.Server.MergeLemmas
import Verif.Server.Demo
/-!
# Properties C16-C19, C21, C22, C45: sessions, dispatch, registry, settings
-/
namespace Verif.Props
open Verif Verif.Srv

variable {w : World}

/-! ## C16: requests see the parse tree of the current text -/

/-- C16. For every history in which no known document is re-opened with an old version number, the server sends exactly
the messages of a server without parse tree cache (which parses the current text for every request), and it stops
(panics, exits) iff that server does. -/
theorem c16_cache_transparent (es : List (Event w)) (j : Json) (hf : FreshOpens w es (State.init j)) :
    (run w es (State.init j)).map (·.2) = (runUncached w es (State.init j)).map (·.2) := by
  have h := run_same es (State.init j) (State.init j) rfl (cacheOk_init j) hf
  have h2 := congrArg (Option.map (·.2)) h
  simpa [Option.map_map, Function.comp_def] using h2

/-- C16. In every state reached by such a history, the tree handed to a feature is the tree of the document's current
text. -/
theorem c16_tree_is_current (es : List (Event w)) (j : Json) (s : State w.Tree) (outs : List Out)
    (hf : FreshOpens w es (State.init j)) (hr : run w es (State.init j) = some (s, outs)) (uri : String) (d : Doc)
    (hd : look uri s.docs = some d) : (s.cachedTree w.parse uri d).map (·.1) = w.parse d.text := by
  have h := cachedTree_of_ok (run_cacheOk es _ s outs (cacheOk_init j) hf hr) hd
  have h2 := congrArg (Option.map (·.1)) h
  simp only [Option.map_map, Function.comp_def] at h2
  rw [h2]
  cases w.parse d.text <;> rfl

/-- C16. The current text is what the client made it: opening sets text and version, a change applies the content
changes to the stored text and increments the version, and any other message leaves the document as it is. -/
theorem c16_documents (env : Env w.Tree) (s s' : State w.Tree) (msg : Option Json) (outs : List Out)
    (r : Except ErrCode Unit) (h : handleMessage w env s msg = .done s' outs r) (uri : String) :
    (∀ d, Opens w msg uri d → look uri s'.docs = some d) ∧
    (∀ cs d, Changes w msg uri cs → look uri s.docs = some d →
      ∃ t, applyContentChanges d.text cs = some t ∧ look uri s'.docs = some ⟨d.version + 1, t⟩) ∧
    ((¬ ∃ d, Opens w msg uri d) → (¬ ∃ cs, Changes w msg uri cs) → look uri s'.docs = look uri s.docs) := by
  obtain ⟨o, t, he, _, _⟩ := handleMessage_effect h
  refine ⟨fun d ho => ?_, fun cs d hc hd => ?_, fun hno hnc => ?_⟩
  · rw [handleMessage_of_ok (dispatch_open ho)] at h
    cases h
    exact look_put_self _ _ _
  · have hdis := dispatch_change (env := env) (s := s) hc
    rw [hd] at hdis
    simp only at hdis
    cases ht : applyContentChanges d.text cs with
    | none => rw [ht] at hdis; simp only at hdis; simp [handleMessage, hdis] at h
    | some t =>
      rw [ht] at hdis
      rw [handleMessage_of_ok hdis] at h
      cases h
      exact ⟨t, rfl, look_put_self _ _ _⟩
  · rcases effect_docs he uri with h1 | ⟨d, id, p, hk, ho, _⟩ | ⟨d, cs, t, id, p, hk, hu, hcs, _⟩
    · exact h1
    · exact absurd ⟨d, id, p, hk, ho⟩ hno
    · exact absurd ⟨cs, id, p, hk, hu, hcs⟩ hnc

/-- The state after opening "a" as version 1 (example). -/
def c16State1 : State Text := ⟨.initializing, false, [("u", ⟨1, ['a']⟩)], [], [], none, none, 0, .null⟩

-- a history as in `c16_cache_transparent`: open version 1, ask, open version 2, ask
example : FreshOpens demoWorld [demoOpen 1 ['a'], demoFormat 1, demoOpen 2 ['b', 'b'], demoFormat 2] (State.init .null) := by
  have nf : ∀ i : Nat, i < 2 ^ 32 → ∀ uri d, ¬ Opens demoWorld (demoFormat i).msg uri d := by
    intro i hi uri d h
    obtain ⟨id, p, hc, _⟩ := h
    have := (calls_unique hc (demoFormat_calls i hi)).1
    cases this
  have h1 : handleMessage demoWorld demoEnv (State.init .null) (demoOpen 1 ['a']).msg = .done c16State1 [] (.ok ()) := by
    srv; rfl
  have h2 : handleMessage demoWorld demoEnv c16State1 (demoFormat 1).msg =
      .done { c16State1 with cache := some ⟨"u", 1, ['a']⟩ } [.response (.int 1) (.result (.int 1))] (.ok ()) := by
    unfold c16State1; srv
  refine ⟨fun uri d' d _ hd => ?_, fun s1 o1 r1 e1 => ⟨fun uri d' d h => (nf 1 (by omega) _ _ h).elim, fun s2 o2 r2 e2 =>
    ⟨fun uri d' d h hd => ?_, fun s3 o3 r3 h3 =>
      ⟨fun uri d' d h => (nf 2 (by omega) _ _ h).elim, fun _ _ _ _ => trivial⟩⟩⟩⟩
  · simp [State.init, look] at hd
  · have e1' := h1.symm.trans e1
    cases e1'
    have e2' := h2.symm.trans e2
    cases e2'
    have ho := demoOpen_opens 2 ['b', 'b'] (by omega)
    obtain ⟨rfl, rfl⟩ := opens_unique h ho
    simp [c16State1, look] at hd
    rw [← hd]
    decide

/-- C16, negative: a document that is opened again with the same version number (for instance after the client closed it;
the server ignores `didClose`) is answered from the tree of the old text. -/
theorem c16_reopen_is_stale :
    (run demoWorld [demoOpen 1 ['a'], demoFormat 1, demoOpen 1 ['b', 'b'], demoFormat 2] (State.init .null)).map (·.2) =
      some [.response (.int 1) (.result (.int 1)), .response (.int 2) (.result (.int 1))] ∧
    (runUncached demoWorld [demoOpen 1 ['a'], demoFormat 1, demoOpen 1 ['b', 'b'], demoFormat 2] (State.init .null)).map
      (·.2) = some [.response (.int 1) (.result (.int 1)), .response (.int 2) (.result (.int 2))] := by
  constructor <;> srv

/-! ## C17: lifecycle -/

/-- C17. For every history from start-up: the server counts as initializing exactly as long as no `initialized` has
arrived, and it is running exactly if some `initialized` has no `shutdown` request after it. -/
theorem c17_status (es : List (Event w)) (j : Json) (s : State w.Tree) (outs : List Out)
    (h : run w es (State.init j) = some (s, outs)) :
    (s.status = .initializing ↔ ∀ e ∈ es, ¬ IsInitialized w e.msg) ∧
    (s.status = .running ↔ ∃ pre e post, es = pre ++ e :: post ∧ IsInitialized w e.msg ∧
      ∀ e' ∈ post, ¬ IsShutdown w e'.msg) := run_status_init h

/-- C17. An `initialize` request is answered with the capabilities while the server is initializing (unless a configured
backend is broken), and with an InvalidRequest error and no state change afterwards. -/
theorem c17_initialize (env : Env w.Tree) (s : State w.Tree) (fs : List (String × Json)) (id : ReqId) (p : Json)
    (hreq : IsRequest fs id "initialize") (hc : Calls w (some (.obj fs)) .initialize (some id) p)
    (hok : ∀ b, env.prefixMapOk b = true ∧ env.templatesOk b = true) :
    (s.status = .initializing → ∃ s' pre, handleMessage w env s (some (.obj fs)) =
      .done s' (pre ++ [.response id (.result env.capabilities)]) (.ok ()) ∧ s'.status = .initializing) ∧
    (s.status ≠ .initializing → handleMessage w env s (some (.obj fs)) =
      .done s [.response id (.error .invalidRequest)] (.ok ())) := by
  obtain ⟨i, hi, hd⟩ := (dispatch_of_calls (env := env) (s := s) hc).1 rfl
  cases hi
  constructor
  · intro hs
    have hreg : ∀ (bs : List Backend) (s : State w.Tree), ∃ s', registerAll env bs s = some (.ok s') ∧
        s'.status = s.status := by
      intro bs
      induction bs with
      | nil => intro s; exact ⟨s, rfl, rfl⟩
      | cons b bs ih =>
        intro s
        have hb : ∃ s1, registerBackend env s b = some (.ok s1) ∧ s1.status = s.status := by
          unfold registerBackend
          simp only [(hok b).1, (hok b).2, Bool.true_eq_false, if_false]
          split
          · refine ⟨{ (s.loadPrefixMap b.name b.prefixMap).addBackend b with dflt := some b.name }, ?_, rfl⟩
            simp [State.setDefault, State.addBackend, look_put_self]
          · exact ⟨_, rfl, rfl⟩
        obtain ⟨s1, h1, e1⟩ := hb
        obtain ⟨s2, h2, e2⟩ := ih s1
        exact ⟨s2, by simp [registerAll, h1, h2], e2.trans e1⟩
    have : ∃ s' pre, dispatch w env s (some (.obj fs)) =
        .done s' (pre ++ [.response id (.result env.capabilities)]) (.ok ()) ∧ s'.status = .initializing := by
      rw [hd]
      simp only [requestHandler, initializeRequest, hs, startUp]
      have load : ∃ s' pre, loadConfigured env { s with applyEdit := supportsEdits p } id =
          .done s' (pre ++ [.response id (.result env.capabilities)]) (.ok ()) ∧ s'.status = .initializing := by
        obtain ⟨s', h1, h2⟩ := hreg (env.configured s.settings) { s with applyEdit := supportsEdits p }
        refine ⟨s', [progress "begin", progress "report", progress "report", progress "end"], ?_, h2.trans hs⟩
        simp [loadConfigured, h1]
      cases p.get "workDoneToken" with
      | none => exact ⟨_, [], rfl, rfl⟩
      | some t =>
        cases t with
        | null => exact ⟨_, [], rfl, rfl⟩
        | _ => first | (rw [hs] at load; exact load) | exact load
    obtain ⟨s', pre, h1, h2⟩ := this
    exact ⟨s', pre, handleMessage_of_ok h1, h2⟩
  · intro hs
    have : dispatch w env s (some (.obj fs)) = .done s [] (.error .invalidRequest) := by
      rw [hd]
      simp only [requestHandler, initializeRequest]
      cases hst : s.status with
      | initializing => exact absurd hst hs
      | running => rfl
      | shuttingDown => rfl
    rw [handleMessage_of_error this]
    simp [errorResponse, hreq.recover]

/-- C17. `shutdown` is answered with null exactly while running; before initialization and on a second `shutdown` it is
an InvalidRequest error and nothing changes. -/
theorem c17_shutdown (env : Env w.Tree) (s : State w.Tree) (fs : List (String × Json)) (id : ReqId) (p : Json)
    (hreq : IsRequest fs id "shutdown") (hc : Calls w (some (.obj fs)) .shutdown (some id) p) :
    handleMessage w env s (some (.obj fs)) =
      if s.status = .running then .done { s with status := .shuttingDown } [.response id (.result .null)] (.ok ())
      else .done s [.response id (.error .invalidRequest)] (.ok ()) := by
  obtain ⟨i, hi, hd⟩ := (dispatch_of_calls (env := env) (s := s) hc).1 rfl
  cases hi
  cases hst : s.status with
  | running =>
    have : dispatch w env s (some (.obj fs)) =
        .done { s with status := .shuttingDown } [.response id (.result .null)] (.ok ()) := by
      rw [hd]; simp only [requestHandler, shutdownRequest, hst]
    rw [handleMessage_of_ok this]; rfl
  | initializing =>
    have : dispatch w env s (some (.obj fs)) = .done s [] (.error .invalidRequest) := by
      rw [hd]; simp only [requestHandler, shutdownRequest, hst, fail]
    rw [handleMessage_of_error this]
    simp [errorResponse, hreq.recover]
  | shuttingDown =>
    have : dispatch w env s (some (.obj fs)) = .done s [] (.error .invalidRequest) := by
      rw [hd]; simp only [requestHandler, shutdownRequest, hst, fail]
    rw [handleMessage_of_error this]
    simp [errorResponse, hreq.recover]

-- the whole life cycle: initialize, initialize again (still initializing), initialized, initialize (error), shutdown,
-- shutdown again (error)
example : (run demoWorld [demoRequest 1 "initialize" (.obj []), demoRequest 2 "initialize" (.obj []),
      demoNotification "initialized" (.obj []), demoRequest 3 "initialize" (.obj []),
      demoRequest 4 "shutdown" .null, demoRequest 5 "shutdown" .null] (State.init .null)).map
        (fun r => (r.1.status, responseIds r.2)) =
    some (.shuttingDown, [.int 1, .int 2, .int 3, .int 4, .int 5]) := by
  srv; simp [responseIds]

/-- The fields of the request in the example below. -/
def c17Shutdown : List (String × Json) :=
  [("jsonrpc", .str "2.0"), ("id", .int 4), ("method", .str "shutdown"), ("params", .null)]

-- a request as in `c17_shutdown`
example : IsRequest c17Shutdown (.int 4) "shutdown" ∧
    Calls demoWorld (some (.obj c17Shutdown)) .shutdown (some (.int 4)) .null := by
  refine ⟨⟨⟨"2.0", by simp [c17Shutdown, look]⟩, .inr ⟨4, by omega, by simp [c17Shutdown, look], rfl⟩,
    by simp [c17Shutdown, look], .inr (.inl (by simp [c17Shutdown, look]))⟩,
    ⟨_, "shutdown", none, rfl, by simp [look, methodTable], rfl, .inl ⟨_, rfl, ?_⟩⟩⟩
  simp [c17Shutdown, deserializeMessage, asRequest, look, ReqId.ofJson, Json.asU32, paramsOf]

/-- C17, negative: `initialized` after `shutdown` makes the server run again, and requests are served before
`initialize` and after `shutdown`. -/
theorem c17_not_enforced :
    (run demoWorld [demoOpen 1 ['a'], demoFormat 1, demoNotification "initialized" (.obj []),
        demoRequest 2 "shutdown" .null, demoFormat 3, demoNotification "initialized" (.obj [])]
      (State.init .null)).map (fun r => (r.1.status, r.2)) =
    some (.running, [.response (.int 1) (.result (.int 1)), .response (.int 2) (.result .null),
      .response (.int 3) (.result (.int 1))]) := by
  srv

/-! ## C18: exactly one response per request -/

/-- The method is one that is answered: a request of the served list, or a method the server does not know at all. -/
def Answered (name : String) : Prop :=
  (∃ m, look name methodTable = some m ∧ m.isRequest = true) ∨
  (look name methodTable = none ∧ name ≠ "response" ∧ name ≠ "$/cancelRequest" ∧ name ≠ "$/setTrace")

theorem answers_dispatch (env : Env w.Tree) (s : State w.Tree) (fs : List (String × Json)) (id : ReqId) (name : String)
    (hreq : IsRequest fs id name) (hm : Answered name) : Answers id (dispatch w env s (some (.obj fs))) := by
  obtain ⟨p, hd⟩ := hreq.deserialize
  simp only [dispatch, Option.bind_some, hd]
  unfold dispatch.byMethod
  rcases hm with ⟨m, hm, hr⟩ | ⟨hm, h1, h2, h3⟩
  · rw [hm]
    dsimp only
    unfold callHandler
    cases decodeParams w m p with
    | none =>
      dsimp only
      cases m.async
      · exact rfl
      · trivial
    | some j =>
      simp only [hr, if_true]
      exact requestHandler_answers w env m s id j
  · rw [hm]
    simp only [h1, h2, h3, if_false]
    exact rfl

/-- C18. Every well-formed request to a served request method or to an unknown method gets exactly one response, which
carries its id, whatever the state, the parameters and the outcome of the handler (unless the process stops). -/
theorem c18_one_response (env : Env w.Tree) (s s' : State w.Tree) (fs : List (String × Json)) (id : ReqId)
    (name : String) (hreq : IsRequest fs id name) (hm : Answered name) (outs : List Out) (r : Except ErrCode Unit)
    (h : handleMessage w env s (some (.obj fs)) = .done s' outs r) : responseIds outs = [id] := by
  have ha := answers_dispatch env s fs id name hreq hm
  obtain ⟨_, h1 | ⟨c, o, h1, rfl⟩⟩ := handleMessage_ok_or h
  · rw [h1] at ha; exact ha
  · rw [h1] at ha
    have ha' : responseIds o = [] := ha
    simp [ha', errorResponse, hreq.recover, responseIds]

theorem deserialize_request_id {j : Json} {id : ReqId} {m : String} {p : Option Json}
    (h : deserializeMessage j = some (.request id m p)) : recoverId j = some id := by
  cases j <;> simp only [deserializeMessage, reduceCtorEq] at h
  rename_i fs
  show (look "id" fs).bind ReqId.ofJson = some id
  cases h1 : asRequest fs with
  | none =>
    rw [h1, Option.none_or] at h
    cases h2 : asResponse fs with
    | none =>
      rw [h2, Option.none_or] at h
      unfold asNotification at h
      split at h <;> cases h
    | some x =>
      rw [h2] at h
      simp only [Option.some_or, Option.some.injEq] at h
      subst h
      unfold asResponse at h2
      split at h2
      · split at h2 <;> cases h2
      · cases h2
  | some x =>
    rw [h1] at h
    simp only [Option.some_or, Option.some.injEq] at h
    subst h
    unfold asRequest at h1
    split at h1
    · rename_i hid _ _
      cases h1
      exact hid
    · cases h1

/-- C18. Whatever arrives (requests, notifications, responses, garbage), there is at most one response, and it carries
the id of the message. -/
theorem c18_at_most_one (env : Env w.Tree) (s s' : State w.Tree) (msg : Option Json) (outs : List Out)
    (r : Except ErrCode Unit) (h : handleMessage w env s msg = .done s' outs r) :
    responseIds outs = [] ∨ ∃ id, msg.bind recoverId = some id ∧ responseIds outs = [id] := by
  have key : Silent (dispatch w env s msg) ∨ ∃ id, msg.bind recoverId = some id ∧ Answers id (dispatch w env s msg) := by
    unfold dispatch
    cases hd : msg.bind deserializeMessage with
    | none => exact .inl rfl
    | some x =>
      cases x with
      | response r => left; dsimp only; cases editResponseOk r <;> exact rfl
      | notification m p =>
        left
        show Silent (dispatch.byMethod w env s m none p)
        unfold dispatch.byMethod
        cases look m methodTable with
        | none => dsimp only; repeat' (first | split | exact rfl)
        | some m' =>
          dsimp only
          unfold callHandler
          cases decodeParams w m' p with
          | none => dsimp only; cases m'.async <;> first | exact rfl | trivial
          | some j =>
            dsimp only
            cases m'.isRequest with
            | true => simp only [if_true]; cases m'.async <;> first | exact rfl | trivial
            | false => exact notificationHandler_silent env m' s j
      | request id m p =>
        have hid : msg.bind recoverId = some id := by
          cases msg with
          | none => simp at hd
          | some j => simp only [Option.bind_some] at hd ⊢; exact deserialize_request_id hd
        have hx : Silent (dispatch.byMethod w env s m (some id) p) ∨
            Answers id (dispatch.byMethod w env s m (some id) p) := by
          unfold dispatch.byMethod
          cases look m methodTable with
          | none => left; dsimp only; repeat' (first | split | exact rfl)
          | some m' =>
            dsimp only
            unfold callHandler
            cases decodeParams w m' p with
            | none => left; dsimp only; cases m'.async <;> first | exact rfl | trivial
            | some j =>
              dsimp only
              cases m'.isRequest with
              | true => right; exact requestHandler_answers w env m' s id j
              | false => left; exact notificationHandler_silent env m' s j
        rcases hx with hx | hx
        · exact .inl hx
        · exact .inr ⟨id, hid, hx⟩
  obtain ⟨_, h1 | ⟨c, o, h1, rfl⟩⟩ := handleMessage_ok_or h
  · rw [h1] at key
    rcases key with hk | ⟨id, hid, hk⟩
    · exact .inl hk
    · exact .inr ⟨id, hid, hk⟩
  · rw [h1] at key
    have ho : responseIds o = [] := by rcases key with hk | ⟨id, _, hk⟩ <;> exact hk
    rw [responseIds_append, ho, List.nil_append]
    unfold errorResponse
    cases msg.bind recoverId with
    | none => exact .inl rfl
    | some id => exact .inr ⟨id, rfl, rfl⟩

/-- C18. A message without an id (a notification, valid or not) is never answered, even if its handler fails. -/
theorem c18_notifications_silent (env : Env w.Tree) (s s' : State w.Tree) (fs : List (String × Json))
    (hid : look "id" fs = none) (outs : List Out) (r : Except ErrCode Unit)
    (h : handleMessage w env s (some (.obj fs)) = .done s' outs r) : responseIds outs = [] := by
  rcases c18_at_most_one env s s' _ outs r h with h1 | ⟨id, h1, _⟩
  · exact h1
  · simp [recoverId, hid] at h1

/-- The id an event must be answered with, if any: the event is a request to an answered method, or it has no id. -/
inductive Expects (w : World) : Event w → Option ReqId → Prop
  | request (env fs id name) (h : IsRequest fs id name) (hm : Answered name) :
      Expects w ⟨some (.obj fs), env⟩ (some id)
  | noId (env fs) (h : look "id" fs = none) : Expects w ⟨some (.obj fs), env⟩ none

/-- C18, whole sessions: if the client only sends requests to answered methods and messages without id, the responses
carry exactly the ids of its requests, each once, in the order of the requests. -/
theorem c18_session (es : List (Event w)) (ids : List (Option ReqId)) (s s' : State w.Tree) (outs : List Out)
    (he : List.Forall₂ (Expects w) es ids) (h : run w es s = some (s', outs)) :
    responseIds outs = ids.filterMap id := by
  induction he generalizing s outs with
  | nil =>
    simp only [run, Option.some.injEq, Prod.mk.injEq] at h
    rw [← h.2]; rfl
  | @cons e i es ids h1 _ ih =>
    unfold run at h
    cases h2 : handleMessage w e.env s e.msg with
    | panic => simp [h2] at h
    | exit => simp [h2] at h
    | done a o r =>
      simp only [h2, Option.map_eq_some_iff, Prod.mk.injEq] at h
      obtain ⟨x, hx, rfl, rfl⟩ := h
      rw [responseIds_append, ih a x.2 hx]
      cases h1 with
      | request env fs id name hr hm =>
        rw [c18_one_response _ s a fs id name hr hm o r h2]; rfl
      | noId env fs hn =>
        rw [c18_notifications_silent _ s a fs hn o r h2]; rfl

-- an unknown method, a request whose document is unknown, and a failing notification
example : (run demoWorld [demoRequest 1 "foo/bar" .null, demoFormat 2, demoNotification "qlueLs/updateDefaultBackend"
      (.obj [("backendName", .str "x")])] (State.init .null)).map (·.2) =
    some [.response (.int 1) (.error .methodNotFound), .response (.int 2) (.error .invalidRequest)] := by
  srv

example : Answered "textDocument/formatting" ∧ Answered "foo/bar" :=
  ⟨.inl ⟨.formatting, by simp [look, methodTable], rfl⟩, .inr ⟨by simp [look, methodTable], by simp, by simp, by simp⟩⟩

/-- C18, negative: ids are unsigned 32 bit integers or strings. A request with a negative id is taken for a
notification and gets no response at all. -/
theorem c18_negative_id_unanswered (env : Env demoWorld.Tree) (s : State demoWorld.Tree) :
    handleMessage demoWorld env s (demoRequest (-1) "textDocument/formatting" demoUri).msg = .done s [] (.ok ()) := by
  srv

/-- C18, negative: a request with scalar parameters (which JSON-RPC forbids) is taken for a response and dropped. -/
theorem c18_scalar_params_dropped (env : Env w.Tree) (s : State w.Tree) :
    handleMessage w env s (demoRequest 1 "textDocument/formatting" (.int 3)).msg = .done s [] (.ok ()) := by
  srv

/-- C18, negative: a request handled asynchronously whose parameters do not have the right type stops the process
instead of being answered with an error. -/
theorem c18_malformed_async_panics (env : Env w.Tree) (s : State w.Tree) (fs : List (String × Json))
    (hd : w.decodes .hover (.obj fs) = false) :
    handleMessage w env s (demoRequest 1 "textDocument/hover" (.obj fs)).msg = .panic := by
  srv
  simp [hd]

/-- C18, negative: an error *response* of the client with a numeric code (as JSON-RPC prescribes) cannot be read,
because the server expects the name of the code, and is answered with an error response. -/
theorem c18_error_response_bounced (env : Env w.Tree) (s : State w.Tree) (code : Int) (m : String) :
    handleMessage w env s (some (.obj [("jsonrpc", .str "2.0"), ("id", .int 0),
      ("error", .obj [("code", .int code), ("message", .str m)])])) =
    .done s [.response (.int 0) (.error .parseError)] (.ok ()) := by
  simp [handleMessage, dispatch, deserializeMessage, asRequest, asResponse, asNotification, look, ReqId.ofJson,
    Json.asU32, paramsOf, errorFieldOk, lspErrorOk, errorCodeOk, fail, errorResponse, recoverId]

/-! ## C19: unknown methods -/

/-- C19. A request with a method that is not served is answered with MethodNotFound and changes nothing. -/
theorem c19_unknown_request (env : Env w.Tree) (s : State w.Tree) (fs : List (String × Json)) (id : ReqId)
    (name : String) (hreq : IsRequest fs id name) (hn : look name methodTable = none)
    (h1 : name ≠ "response") (h2 : name ≠ "$/cancelRequest") (h3 : name ≠ "$/setTrace") :
    handleMessage w env s (some (.obj fs)) = .done s [.response id (.error .methodNotFound)] (.ok ()) := by
  obtain ⟨p, hd⟩ := hreq.deserialize
  have : dispatch w env s (some (.obj fs)) = .done s [] (.error .methodNotFound) := by
    simp [dispatch, hd, dispatch.byMethod, hn, h1, h2, h3, fail]
  rw [handleMessage_of_error this]
  simp [errorResponse, hreq.recover]

/-- C19. A notification with a method that is not served (such as `textDocument/didClose`), and cancellation and trace
notifications, are ignored. -/
theorem c19_unknown_notification (env : Env w.Tree) (s : State w.Tree) (fs : List (String × Json)) (name : String)
    (hrpc : ∃ v, look "jsonrpc" fs = some (.str v)) (hid : look "id" fs = none)
    (hname : look "method" fs = some (.str name)) (hp : ∃ x, look "params" fs = some (.obj x))
    (hn : look name methodTable = none) :
    handleMessage w env s (some (.obj fs)) = .done s [] (.ok ()) := by
  obtain ⟨v, hv⟩ := hrpc
  obtain ⟨x, hx⟩ := hp
  have hd : deserializeMessage (.obj fs) = some (.notification name (some (.obj x))) := by
    simp [deserializeMessage, asRequest, asResponse, asNotification, hv, hid, hname, hx, paramsOf]
  have hr : recoverId (.obj fs) = none := by simp [recoverId, hid]
  by_cases h1 : name = "response"
  · subst h1
    have : dispatch w env s (some (.obj fs)) = .done s [] (.error .parseError) := by
      simp [dispatch, hd, dispatch.byMethod, hn, fail]
    rw [handleMessage_of_error this]; simp [errorResponse, hr]
  · by_cases h2 : name = "$/cancelRequest" ∨ name = "$/setTrace"
    · have : dispatch w env s (some (.obj fs)) = .done s [] (.ok ()) := by
        rcases h2 with h2 | h2 <;> simp [dispatch, hd, dispatch.byMethod, h2, look, methodTable]
      exact handleMessage_of_ok this
    · rw [not_or] at h2
      have : dispatch w env s (some (.obj fs)) = .done s [] (.error .methodNotFound) := by
        simp [dispatch, hd, dispatch.byMethod, hn, h1, h2.1, h2.2, fail]
      rw [handleMessage_of_error this]; simp [errorResponse, hr]

-- `didClose` is not served
example : look "textDocument/didClose" methodTable = none ∧ look "$/cancelRequest" methodTable = none := by
  constructor <;> simp [look, methodTable]

/-- C19. A served method is handled by its handler: one method per name, and every method is reachable. -/
theorem c19_table : (∀ name m, look name methodTable = some m → (name, m) ∈ methodTable) ∧
    (methodTable.map Prod.snd).Nodup ∧ ∀ m : Method, ∃ name, look name methodTable = some m := by
  refine ⟨?_, by decide, ?_⟩
  · have gen : ∀ (l : List (String × Method)) name m, look name l = some m → (name, m) ∈ l := by
      intro l
      induction l with
      | nil => intro name m h; cases h
      | cons a l ih =>
        intro name m h
        unfold look at h
        split at h
        · rename_i he
          cases h
          subst he
          exact List.mem_cons_self
        · exact List.mem_cons_of_mem _ (ih _ _ h)
    exact gen methodTable
  · intro m
    cases m
    · exact ⟨"initialize", by simp [look, methodTable]⟩
    · exact ⟨"shutdown", by simp [look, methodTable]⟩
    · exact ⟨"textDocument/formatting", by simp [look, methodTable]⟩
    · exact ⟨"textDocument/onTypeFormatting", by simp [look, methodTable]⟩
    · exact ⟨"textDocument/diagnostic", by simp [look, methodTable]⟩
    · exact ⟨"textDocument/codeAction", by simp [look, methodTable]⟩
    · exact ⟨"textDocument/hover", by simp [look, methodTable]⟩
    · exact ⟨"textDocument/completion", by simp [look, methodTable]⟩
    · exact ⟨"textDocument/foldingRange", by simp [look, methodTable]⟩
    · exact ⟨"textDocument/semanticTokens/full", by simp [look, methodTable]⟩
    · exact ⟨"textDocument/semanticTokens/range", by simp [look, methodTable]⟩
    · exact ⟨"textDocument/rename", by simp [look, methodTable]⟩
    · exact ⟨"textDocument/references", by simp [look, methodTable]⟩
    · exact ⟨"textDocument/documentHighlight", by simp [look, methodTable]⟩
    · exact ⟨"qlueLs/addBackend", by simp [look, methodTable]⟩
    · exact ⟨"qlueLs/getBackend", by simp [look, methodTable]⟩
    · exact ⟨"qlueLs/listBackends", by simp [look, methodTable]⟩
    · exact ⟨"qlueLs/updateDefaultBackend", by simp [look, methodTable]⟩
    · exact ⟨"qlueLs/pingBackend", by simp [look, methodTable]⟩
    · exact ⟨"qlueLs/jump", by simp [look, methodTable]⟩
    · exact ⟨"qlueLs/parseTree", by simp [look, methodTable]⟩
    · exact ⟨"qlueLs/identifyOperationType", by simp [look, methodTable]⟩
    · exact ⟨"qlueLs/defaultSettings", by simp [look, methodTable]⟩
    · exact ⟨"qlueLs/executeOperation", by simp [look, methodTable]⟩
    · exact ⟨"initialized", by simp [look, methodTable]⟩
    · exact ⟨"exit", by simp [look, methodTable]⟩
    · exact ⟨"textDocument/didOpen", by simp [look, methodTable]⟩
    · exact ⟨"textDocument/didChange", by simp [look, methodTable]⟩
    · exact ⟨"textDocument/didSave", by simp [look, methodTable]⟩
    · exact ⟨"qlueLs/changeSettings", by simp [look, methodTable]⟩
    · exact ⟨"qlueLs/cancelQuery", by simp [look, methodTable]⟩

/-! ## C21: the default backend -/

/-- C21. After any history the default backend, if there is one, is a registered backend. -/
theorem c21_default_registered (es : List (Event w)) (j : Json) (s : State w.Tree) (outs : List Out)
    (h : run w es (State.init j) = some (s, outs)) (n : String) (hn : s.dflt = some n) :
    ∃ b, look n s.backends = some b ∧ s.defaultBackend = some b := by
  have hd : DefaultOk s := by
    refine run_invariant (P := DefaultOk) (fun env s msg s' outs r h1 h2 => ?_) (fun n hn => by cases hn) h
    obtain ⟨o, t, he, _, _⟩ := handleMessage_effect h2
    exact effect_default he h1
  have := hd n hn
  rw [Option.isSome_iff_exists] at this
  obtain ⟨b, hb⟩ := this
  exact ⟨b, hb, by simp [State.defaultBackend, hn, hb]⟩

/-- C21. Making an unknown backend the default is rejected and changes nothing; making a known one the default makes it
the one that is used, and changes nothing else. -/
theorem c21_update_default (env : Env w.Tree) (s : State w.Tree) (msg : Option Json) (id : Option ReqId) (p : Json)
    (n : String) (hc : Calls w msg .updateDefaultBackend id p) (hn : p.get "backendName" = some (.str n)) :
    handleMessage w env s msg =
      match look n s.backends with
      | none => .done s (errorResponse msg .invalidParams) (.ok ())
      | some _ => .done { s with dflt := some n } [] (.ok ()) := by
  have hd := (dispatch_of_calls (env := env) (s := s) hc).2 rfl
  cases hb : look n s.backends with
  | none =>
    have : dispatch w env s msg = .done s [] (.error .invalidParams) := by
      rw [hd]; simp [notificationHandler, updateDefault, hn, Json.asStr, hb, fail]
    rw [handleMessage_of_error this]; rfl
  | some b =>
    apply handleMessage_of_ok
    rw [hd]; simp [notificationHandler, updateDefault, hn, Json.asStr, hb, State.setDefault]

/-- C21. Adding a valid backend registers it under its name, replaces one with the same name, leaves all others, and makes
it the default iff it is flagged so; the internal assertion never fails. -/
theorem c21_add_backend (env : Env w.Tree) (s : State w.Tree) (msg : Option Json) (id : Option ReqId) (p : Json)
    (b : Backend) (hc : Calls w msg .addBackend id p) (hb : backendOf p = some b) (h1 : env.prefixMapOk b = true)
    (h2 : env.templatesOk b = true) :
    ∃ s', handleMessage w env s msg = .done s' [] (.ok ()) ∧ look b.name s'.backends = some b ∧
      look b.name s'.converters = some b.prefixMap ∧
      (∀ n, n ≠ b.name → look n s'.backends = look n s.backends) ∧
      s'.dflt = if b.dflt then some b.name else s.dflt := by
  have hd := (dispatch_of_calls (env := env) (s := s) hc).2 rfl
  have hne : ∀ n, n ≠ b.name → look n (put b.name b s.backends) = look n s.backends :=
    fun n hn => look_put_ne (fun e => hn e.symm) _ _
  cases hf : b.dflt with
  | true =>
    refine ⟨_, handleMessage_of_ok (by rw [hd]; simp [notificationHandler, addBackend, hb, registerBackend, h1, h2, hf,
      State.setDefault, State.addBackend, State.loadPrefixMap, look_put_self]; rfl), look_put_self _ _ _,
      look_put_self _ _ _, hne, rfl⟩
  | false =>
    refine ⟨(s.loadPrefixMap b.name b.prefixMap).addBackend b, handleMessage_of_ok (by
      rw [hd]; simp [notificationHandler, addBackend, hb, registerBackend, h1, h2, hf]), look_put_self _ _ _,
      look_put_self _ _ _, hne, rfl⟩

/-- Parameters of addBackend (example). -/
def c21Backend (name : String) (dflt : Bool) : Json :=
  .obj [("name", .str name), ("url", .str "http://x"), ("default", .bool dflt)]

/-- C21, negative: the `default` flag that `listBackends` reports is the configured one; after the default was changed
it names the wrong backend. -/
theorem c21_list_flag_stale :
    (run demoWorld [demoNotification "qlueLs/addBackend" (c21Backend "a" true),
        demoNotification "qlueLs/addBackend" (c21Backend "b" false),
        demoNotification "qlueLs/updateDefaultBackend" (.obj [("backendName", .str "b")]),
        demoRequest 1 "qlueLs/listBackends" .null] (State.init .null)).map (fun r => (r.1.dflt, r.2)) =
    some (some "b", [.response (.int 1) (.result (.arr
      [.obj [("name", .str "a"), ("url", .str "http://x"), ("default", .bool true)],
       .obj [("name", .str "b"), ("url", .str "http://x"), ("default", .bool false)]]))]) := by
  unfold c21Backend
  srv
  simp [listBackendsRequest, Backend.toJson]

/-- C21, negative: if the templates of a backend are broken, its prefix map stays registered without the backend. -/
theorem c21_failed_add_leaves_converter (env : Env w.Tree) (s : State w.Tree) (msg : Option Json) (id : Option ReqId)
    (p : Json) (b : Backend) (hc : Calls w msg .addBackend id p) (hb : backendOf p = some b)
    (h1 : env.prefixMapOk b = true) (h2 : env.templatesOk b = false) :
    ∃ s', handleMessage w env s msg = .done s' (errorResponse msg .invalidParams) (.ok ()) ∧
      s'.backends = s.backends ∧ look b.name s'.converters = some b.prefixMap := by
  have hd := (dispatch_of_calls (env := env) (s := s) hc).2 rfl
  have : dispatch w env s msg = .done (s.loadPrefixMap b.name b.prefixMap) [] (.error .invalidParams) := by
    rw [hd]; simp [notificationHandler, addBackend, hb, registerBackend, h1, h2, fail]
  exact ⟨_, handleMessage_of_error this, rfl, look_put_self _ _ _⟩

/-- C21, negative: the configured backends are only registered if the client's `initialize` request has a work-done
token. -/
theorem c21_backends_need_progress_token (env : Env w.Tree) (s : State w.Tree) (fs : List (String × Json)) (id : ReqId)
    (p : Json) (hc : Calls w (some (.obj fs)) .initialize (some id) p) (hs : s.status = .initializing)
    (ht : p.get "workDoneToken" = none) :
    handleMessage w env s (some (.obj fs)) =
      .done { s with applyEdit := supportsEdits p } [.response id (.result env.capabilities)] (.ok ()) := by
  obtain ⟨i, hi, hd⟩ := (dispatch_of_calls (env := env) (s := s) hc).1 rfl
  cases hi
  apply handleMessage_of_ok
  rw [hd]
  simp only [requestHandler, initializeRequest, hs, startUp, ht]

-- calls as in `c21_update_default` and `c21_add_backend`
example : Calls demoWorld (demoNotification "qlueLs/updateDefaultBackend" (.obj [("backendName", .str "b")])).msg
      .updateDefaultBackend none (.obj [("backendName", .str "b")]) ∧
    Calls demoWorld (demoNotification "qlueLs/addBackend" (c21Backend "a" true)).msg .addBackend none
      (c21Backend "a" true) ∧ (backendOf (c21Backend "a" true)).isSome :=
  ⟨demoNotification_calls _ _ _ (by simp [look, methodTable]) rfl,
   demoNotification_calls _ _ _ (by simp [look, methodTable]) rfl,
   by simp [c21Backend, backendOf, Json.get, look, Json.asStr]⟩

/-! ## C22: ids of the server's own requests -/

/-- C22. Over any history the requests the server sends to the client are numbered 0, 1, 2, ... in order. -/
theorem c22_request_ids (es : List (Event w)) (j : Json) (s : State w.Tree) (outs : List Out)
    (h : run w es (State.init j) = some (s, outs)) : requestIds outs = List.range s.counter := by
  have := (run_requestIds h).2
  rw [this, show (State.init j : State w.Tree).counter = 0 from rfl, Nat.sub_zero, List.range_eq_range']

/-- C22. Hence they are pairwise different. -/
theorem c22_request_ids_unique (es : List (Event w)) (j : Json) (s : State w.Tree) (outs : List Out)
    (h : run w es (State.init j) = some (s, outs)) : (requestIds outs).Nodup := by
  rw [c22_request_ids es j s outs h]; exact List.nodup_range

/-- `initialize` parameters of a client that supports workspace edits (example). -/
def c22Init : Json := .obj [("capabilities", .obj [("workspace", .obj [("applyEdit", .bool true),
  ("workspaceEdit", .obj [("documentChanges", .bool true)])])])]

-- two diagnostic requests that make the server ask for workspace edits
example : (run demoWorld [demoRequest 1 "initialize" c22Init, demoOpen 1 ['a'],
      demoRequest 2 "textDocument/diagnostic" demoUri, demoRequest 3 "textDocument/diagnostic" demoUri]
      (State.init .null)).map (fun r => (requestIds r.2, responseIds r.2)) =
    some ([0, 1], [.int 1, .int 2, .int 3]) := by
  unfold c22Init
  srv
  simp [supportsEdits, Json.get, look, Json.asBool, requestIds, responseIds]

/-! ## C45: changing settings -/

/-- C45. Every value the patch sets (anything but an object) is found at the same path afterwards. -/
theorem c45_sets (settings patch v : Json) (path : List String) (hw : patch.WF) (hv : v.isLeaf)
    (h : patch.at path = some v) : (merge settings patch).at path = some v :=
  at_merge_set path settings patch v hw hv h

/-- C45. Everything the patch does not mention keeps its value (or stays absent). -/
theorem c45_keeps (settings patch : Json) (path : List String) (hw : patch.WF) (h : Leaves patch path) :
    (merge settings patch).at path = settings.at path :=
  at_merge_keep path settings patch hw h

/-- C45. An empty patch changes nothing. -/
theorem c45_empty (fs : List (String × Json)) : merge (.obj fs) (.obj []) = .obj fs := by
  rw [merge_obj, mergeFields]

/-- C45. A patch that does not lead to valid settings changes nothing at all; otherwise the new settings are the merged
ones and nothing else changes. -/
theorem c45_change_settings (env : Env w.Tree) (s : State w.Tree) (msg : Option Json) (id : Option ReqId) (p : Json)
    (hc : Calls w msg .changeSettings id p) :
    handleMessage w env s msg =
      match env.readSettings (merge s.settings p) with
      | none => .done s (errorResponse msg .invalidParams) (.ok ())
      | some j => .done { s with settings := j } [] (.ok ()) := by
  have hd := (dispatch_of_calls (env := env) (s := s) hc).2 rfl
  cases hr : env.readSettings (merge s.settings p) with
  | none =>
    have : dispatch w env s msg = .done s [] (.error .invalidParams) := by
      rw [hd]; simp [notificationHandler, changeSettings, hr, fail]
    rw [handleMessage_of_error this]; rfl
  | some j =>
    apply handleMessage_of_ok
    rw [hd]; simp [notificationHandler, changeSettings, hr]

/-- Settings and patch of the example below. -/
def c45Settings : Json := .obj [("format", .obj [("tabSize", .int 2), ("insertSpaces", .bool true)]), ("x", .null)]
/-- Patch of the example below. -/
def c45Patch : Json := .obj [("format", .obj [("tabSize", .int 4)])]

-- the patch is well formed, sets one path and leaves the other two
example : c45Patch.at ["format", "tabSize"] = some (.int 4) ∧ Leaves c45Patch ["format", "insertSpaces"] ∧
    Leaves c45Patch ["x"] ∧ c45Patch.WF := by
  refine ⟨by simp [c45Patch, Json.at, Json.get, look], ⟨["format"], "insertSpaces", [], _, rfl, by
    simp [c45Patch, Json.at, Json.get, look]; rfl, by simp [look]⟩, ⟨[], "x", [], _, rfl, rfl, by simp [look]⟩, ?_⟩
  intro path fs h
  match path with
  | [] => simp [c45Patch, Json.at] at h; subst h; simp
  | [k] =>
    by_cases hk : k = "format"
    · subst hk; simp [c45Patch, Json.at, Json.get, look] at h; subst h; simp
    · have : ¬ "format" = k := fun e => hk e.symm
      simp [c45Patch, Json.at, Json.get, look, this] at h
  | k :: k' :: rest =>
    by_cases hk : "format" = k
    · by_cases hk' : "tabSize" = k'
      · cases rest <;> simp [c45Patch, Json.at, Json.get, look, hk, hk'] at h
      · simp [c45Patch, Json.at, Json.get, look, hk, hk'] at h
    · simp [c45Patch, Json.at, Json.get, look, hk] at h

end Verif.Props
