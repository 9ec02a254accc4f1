import Verif.Server.Spec
/-!
# Lemmas about the server model
-/
set_option linter.unusedTactic false
set_option linter.unreachableTactic false
namespace Verif.Srv

theorem look_put {α : Type} (k k' : String) (v : α) (l : List (String × α)) :
    look k' (put k v l) = if k = k' then some v else look k' l := by
  induction l with
  | nil => simp [put, look]
  | cons a l ih =>
    obtain ⟨ka, va⟩ := a
    by_cases h : ka = k
    · subst h
      by_cases h2 : ka = k'
      · simp [put, look, h2]
      · simp [put, look, h2]
    · by_cases h2 : ka = k'
      · have : ¬ k = k' := fun e => h (h2.trans e.symm)
        have h3 : ¬ k' = k := fun e => this e.symm
        simp [put, look, h2, h3, this]
      · simp [put, look, h, h2, ih]

theorem look_put_self {α : Type} (k : String) (v : α) (l : List (String × α)) : look k (put k v l) = some v := by
  simp [look_put]

theorem look_put_ne {α : Type} {k k' : String} (h : k ≠ k') (v : α) (l : List (String × α)) :
    look k' (put k v l) = look k' l := by
  simp [look_put, h]

theorem asU32_nat (n : Nat) (h : n < 2 ^ 32) : (Json.int n).asU32 = some n := by
  show (if n < 4294967296 then some n else none) = _
  rw [if_pos (by omega)]

theorem ofJson_int (n : Nat) (h : n < 2 ^ 32) : ReqId.ofJson (.int n) = some (.int n) := by
  show Option.map ReqId.int (Json.asU32 (.int n)) = _
  rw [asU32_nat n h]; rfl

theorem IsRequest.ofJson {fs : List (String × Json)} {id : ReqId} {m : String} (h : IsRequest fs id m) :
    (look "id" fs).bind ReqId.ofJson = some id := by
  rcases h.id with ⟨s, h1, rfl⟩ | ⟨n, hn, h1, rfl⟩
  · simp [h1, ReqId.ofJson]
  · rw [h1, Option.bind_some]; exact ofJson_int n hn

theorem IsRequest.deserialize {fs : List (String × Json)} {id : ReqId} {m : String} (h : IsRequest fs id m) :
    ∃ p, deserializeMessage (.obj fs) = some (.request id m p) := by
  obtain ⟨v, hv⟩ := h.rpc
  have hid := h.ofJson
  have hp : ∃ p, paramsOf (look "params" fs) = some p := by
    rcases h.params with h | h | ⟨x, h⟩ | ⟨x, h⟩ <;> rw [h] <;> exact ⟨_, rfl⟩
  obtain ⟨p, hp⟩ := hp
  refine ⟨p, ?_⟩
  simp [deserializeMessage, asRequest, hv, hid, h.method, hp]

theorem IsRequest.recover {fs : List (String × Json)} {id : ReqId} {m : String} (h : IsRequest fs id m) :
    recoverId (.obj fs) = some id := h.ofJson

/-! ## Reading off the outputs of a handler -/

@[simp] theorem responseIds_append (a b : List Out) : responseIds (a ++ b) = responseIds a ++ responseIds b := by
  induction a with
  | nil => rfl
  | cons x a ih => cases x <;> simp [responseIds, ih]

@[simp] theorem requestIds_append (a b : List Out) : requestIds (a ++ b) = requestIds a ++ requestIds b := by
  induction a with
  | nil => rfl
  | cons x a ih => cases x <;> simp [requestIds, ih]

/-- A handler that answers with exactly one response on success and none on failure. -/
def Answers {T : Type} (id : ReqId) : Res T → Prop
  | .done _ outs (.ok ()) => responseIds outs = [id]
  | .done _ outs (.error _) => responseIds outs = []
  | _ => True

/-- A handler that never answers. -/
def Silent {T : Type} : Res T → Prop
  | .done _ outs _ => responseIds outs = []
  | _ => True

theorem docRequest_answers (w : World) (env : Env w.Tree) (m : Method) (s : State w.Tree) (id : ReqId) (p : Json) :
    Answers id (docRequest w env m s id p) := by
  unfold docRequest fail
  repeat' (first | split | trivial | rfl)
  all_goals simp [Answers, responseIds]

theorem requestHandler_answers (w : World) (env : Env w.Tree) (m : Method) (s : State w.Tree) (id : ReqId) (p : Json) :
    Answers id (requestHandler w env m s id p) := by
  unfold requestHandler
  split
  case h_1 =>
    unfold initializeRequest startUp loadConfigured fail
    repeat' (first | split | trivial | rfl)
  case h_2 =>
    unfold shutdownRequest fail
    repeat' (first | split | trivial | rfl)
  case h_3 =>
    unfold diagnosticRequest fail
    repeat' (first | split | trivial | rfl)
  case h_4 =>
    unfold getBackendRequest
    repeat' (first | split | trivial | rfl)
  case h_5 => rfl
  case h_6 =>
    unfold pingRequest fail
    repeat' (first | split | trivial | rfl)
  case h_7 =>
    unfold identifyRequest fail
    repeat' (first | split | trivial | rfl)
  case h_8 => rfl
  case h_9 =>
    unfold executeRequest fail
    repeat' (first | split | trivial | rfl)
  case h_10 => exact docRequest_answers w env _ s id p

theorem notificationHandler_silent {T : Type} (env : Env T) (m : Method) (s : State T) (p : Json) :
    Silent (notificationHandler env m s p) := by
  unfold notificationHandler
  split
  case h_1 => unfold addBackend fail; repeat' (first | split | trivial | rfl)
  case h_2 => unfold updateDefault fail; repeat' (first | split | trivial | rfl)
  case h_3 => rfl
  case h_4 => trivial
  case h_5 => unfold didOpen fail; repeat' (first | split | trivial | rfl)
  case h_6 => unfold didChange fail; repeat' (first | split | trivial | rfl)
  case h_7 => unfold didSave fail; repeat' (first | split | trivial | rfl)
  case h_8 => unfold changeSettings fail; repeat' (first | split | trivial | rfl)
  case h_9 => rfl


/-! ## Case analysis over all handlers

`HoldsDone P r`: if the run continues, `P` holds of the new state, the sent messages and the result. -/

/-- `P` of the outcome, if the run continues. -/
def HoldsDone {T : Type} (P : State T → List Out → Except ErrCode Unit → Prop) : Res T → Prop
  | .done s outs r => P s outs r
  | _ => True

/-- What a handler can do to the state, for a message that makes the calls `K`. -/
inductive Effect (w : World) (K : Method → Option ReqId → Json → Prop) (s : State w.Tree) : State w.Tree → List Out → Prop
  /-- nothing but sending responses and notifications -/
  | none (outs) (h : requestIds outs = []) : Effect w K s s outs
  /-- the parse tree cache is filled with the tree of the current text of an open document -/
  | cache (uri d t outs) (hd : look uri s.docs = some d) (ht : w.parse d.text = some t) (h : requestIds outs = []) :
      Effect w K s { s with cache := some ⟨uri, d.version, t⟩ } outs
  /-- a request is sent to the client, with or without filling the cache -/
  | ask (s' pre m j id b) (h : Effect w K s s' pre) (hc : s'.counter = s.counter) (hp : pre = []) :
      Effect w K s { s' with counter := s'.counter + 1 } [.request s'.counter m j, .response id b]
  /-- lifecycle -/
  | initialized (id p outs) (hk : K .initialized id p) (h : requestIds outs = []) :
      Effect w K s { s with status := .running } outs
  | shutdown (id p outs) (hk : K .shutdown id p) (hs : s.status = .running) (h : requestIds outs = []) :
      Effect w K s { s with status := .shuttingDown } outs
  | initialize (b outs s') (h : requestIds outs = [])
      (hr : (∃ env bs, registerAll env bs { s with applyEdit := b } = some (.ok s') ∨
        registerAll env bs { s with applyEdit := b } = some (.error s')) ∨ s' = { s with applyEdit := b }) :
      Effect w K s s' outs
  | register (env b s') (hr : registerBackend env s b = some (.ok s') ∨ registerBackend env s b = some (.error s')) :
      Effect w K s s' []
  | setDefault (n s') (id p) (hk : K .updateDefaultBackend id p) (h : s.setDefault n = some s') : Effect w K s s' []
  | open (uri d id p) (hk : K .didOpen id p) (ho : openOf p = some (uri, d)) : Effect w K s (s.addDocument uri d) []
  | change (uri d cs s' id p) (hk : K .didChange id p) (hu : uriOf p = some uri) (hcs : changesOf p = some cs)
      (hd : look uri s.docs = some d) (h : s.changeDocument uri d cs = some s') : Effect w K s s' []
  | settings (j) : Effect w K s { s with settings := j } []

theorem cachedTree_cases {T : Type} {parse : Text → Option T} {s s' : State T} {uri : String} {d : Doc} {t : T}
    (h : s.cachedTree parse uri d = some (t, s')) :
    s' = s ∧ (∃ c, s.cache = some c ∧ c.uri = uri ∧ c.version = d.version ∧ c.tree = t) ∨
    (s' = { s with cache := some ⟨uri, d.version, t⟩ } ∧ parse d.text = some t) := by
  unfold State.cachedTree at h
  split at h
  · rename_i c hc
    split at h
    · rename_i hcd
      simp only [Option.some.injEq, Prod.mk.injEq] at h
      left
      exact ⟨h.2.symm, c, hc, hcd.1, hcd.2, h.1⟩
    · simp only [Option.map_eq_some_iff, Prod.mk.injEq] at h
      obtain ⟨a, ha, rfl, rfl⟩ := h
      right; exact ⟨rfl, ha⟩
  · simp only [Option.map_eq_some_iff, Prod.mk.injEq] at h
    obtain ⟨a, ha, rfl, rfl⟩ := h
    right; exact ⟨rfl, ha⟩

theorem cachedTree_effect {w : World} {K : Method → Option ReqId → Json → Prop} {s s' : State w.Tree} {uri : String} {d : Doc} {t : w.Tree}
    (hd : look uri s.docs = some d) (h : s.cachedTree w.parse uri d = some (t, s')) (outs : List Out)
    (ho : requestIds outs = []) : Effect w K s s' outs := by
  rcases cachedTree_cases h with ⟨rfl, _⟩ | ⟨rfl, ht⟩
  · exact .none _ ho
  · exact .cache uri d t _ hd ht ho

theorem docRequest_effect (w : World) {K : Method → Option ReqId → Json → Prop} (env : Env w.Tree) (m : Method) (s : State w.Tree) (id : ReqId) (p : Json) :
    HoldsDone (fun s' outs _ => Effect w K s s' outs) (docRequest w env m s id p) := by
  unfold docRequest fail
  split
  · exact .none _ rfl
  · split
    · exact .none _ rfl
    · rename_i d hd
      split
      · trivial
      · exact .none _ rfl
      · split
        · trivial
        · rename_i t s' ht
          split
          · trivial
          · exact cachedTree_effect hd ht _ rfl
          · exact cachedTree_effect hd ht _ rfl

theorem diagnosticRequest_effect (w : World) {K : Method → Option ReqId → Json → Prop} (env : Env w.Tree) (s : State w.Tree) (id : ReqId) (p : Json) :
    HoldsDone (fun s' outs _ => Effect w K s s' outs) (diagnosticRequest w env s id p) := by
  unfold diagnosticRequest fail
  split
  · exact .none _ rfl
  · split
    · exact .none _ rfl
    · rename_i d hd
      split
      · trivial
      · rename_i t s' ht
        split
        · trivial
        · exact cachedTree_effect hd ht _ rfl
        · split
          · refine .ask s' [] _ _ _ _ (cachedTree_effect hd ht _ rfl) ?_ rfl
            rcases cachedTree_cases ht with ⟨rfl, _⟩ | ⟨rfl, _⟩ <;> rfl
          · exact cachedTree_effect hd ht _ rfl

theorem requestHandler_effect (w : World) {K : Method → Option ReqId → Json → Prop} (env : Env w.Tree) (m : Method)
    (s : State w.Tree) (id : ReqId) (p : Json) (hk : K m (some id) p) :
    HoldsDone (fun s' outs _ => Effect w K s s' outs) (requestHandler w env m s id p) := by
  unfold requestHandler
  split
  · unfold initializeRequest startUp loadConfigured fail
    split
    · split
      · exact .initialize _ _ _ rfl (.inr rfl)
      · exact .initialize _ _ _ rfl (.inr rfl)
      · split
        · trivial
        · rename_i s' hs
          exact .initialize (supportsEdits p) _ s' rfl (.inl ⟨env, _, .inr hs⟩)
        · rename_i s' hs
          exact .initialize (supportsEdits p) _ s' rfl (.inl ⟨env, _, .inl hs⟩)
    · exact .none _ rfl
  · unfold shutdownRequest fail
    split
    · exact .none _ rfl
    · exact .none _ rfl
    · rename_i hst; exact .shutdown _ _ _ hk hst rfl
  · exact diagnosticRequest_effect w env s id p
  · unfold getBackendRequest
    repeat' split
    all_goals exact .none _ rfl
  · exact .none _ rfl
  · unfold pingRequest fail
    repeat' split
    all_goals first | trivial | exact .none _ rfl
  · unfold identifyRequest fail
    repeat' split
    all_goals first | trivial | exact .none _ rfl
  · exact .none _ rfl
  · unfold executeRequest fail
    repeat' split
    all_goals first | trivial | exact .none _ rfl
  · exact docRequest_effect w env _ s id p

theorem notificationHandler_effect (w : World) {K : Method → Option ReqId → Json → Prop} (env : Env w.Tree)
    (m : Method) (s : State w.Tree) (id : Option ReqId) (p : Json) (hk : K m id p) :
    HoldsDone (fun s' outs _ => Effect w K s s' outs) (notificationHandler env m s p) := by
  unfold notificationHandler
  split
  · unfold addBackend fail
    split
    · exact .none _ rfl
    · split
      · trivial
      · rename_i hs; exact .register env _ _ (.inr hs)
      · rename_i hs; exact .register env _ _ (.inl hs)
  · unfold updateDefault fail
    split
    · exact .none _ rfl
    · split
      · exact .none _ rfl
      · split
        · trivial
        · rename_i hs; exact .setDefault _ _ _ _ hk hs
  · exact .initialized _ _ _ hk rfl
  · trivial
  · unfold didOpen fail
    split
    · exact .none _ rfl
    · rename_i ho; exact .open _ _ _ _ hk ho
  · unfold didChange fail
    split
    · rename_i hu hcs
      split
      · exact .none _ rfl
      · rename_i hd
        split
        · trivial
        · rename_i hs; exact .change _ _ _ _ _ _ hk hu hcs hd hs
    · exact .none _ rfl
  · unfold didSave fail
    repeat' split
    all_goals first | trivial | exact .none _ rfl
  · unfold changeSettings fail
    split
    · exact .none _ rfl
    · exact .settings _
  · exact .none _ rfl

theorem callHandler_effect (w : World) {K : Method → Option ReqId → Json → Prop} (env : Env w.Tree) (m : Method)
    (s : State w.Tree) (id : Option ReqId) (p : Option Json)
    (hk : ∀ j, decodeParams w m p = some j → (m.isRequest = true → id ≠ none) → K m id j) :
    HoldsDone (fun s' outs _ => Effect w K s s' outs) (callHandler w env m s id p) := by
  unfold callHandler fail
  split
  · split
    · trivial
    · exact .none _ rfl
  · rename_i j hj
    split
    · split
      · exact requestHandler_effect w env m s _ _ (hk j hj (by simp))
      · split
        · trivial
        · exact .none _ rfl
    · rename_i hm
      exact notificationHandler_effect w env m s id _ (hk j hj (by simp [hm]))

theorem byMethod_effect (w : World) {K : Method → Option ReqId → Json → Prop} (env : Env w.Tree) (s : State w.Tree)
    (name : String) (id : Option ReqId) (p : Option Json)
    (hk : ∀ m j, look name methodTable = some m → decodeParams w m p = some j → (m.isRequest = true → id ≠ none) →
      K m id j) :
    HoldsDone (fun s' outs _ => Effect w K s s' outs) (dispatch.byMethod w env s name id p) := by
  unfold dispatch.byMethod fail
  split
  · rename_i m hm
    exact callHandler_effect w env _ s id p (fun j h1 h2 => hk m j hm h1 h2)
  · repeat' split
    all_goals exact .none _ rfl

theorem dispatch_effect (w : World) (env : Env w.Tree) (s : State w.Tree) (msg : Option Json) :
    HoldsDone (fun s' outs _ => Effect w (Calls w msg) s s' outs) (dispatch w env s msg) := by
  unfold dispatch fail
  split
  · exact .none _ rfl
  · split
    · exact .none _ rfl
    · exact .none _ rfl
  · rename_i i name p hd
    refine byMethod_effect w env s _ _ _ (fun m j hm hj _ => ?_)
    cases msg with
    | none => simp at hd
    | some x => exact ⟨x, name, p, rfl, hm, hj, .inl ⟨i, rfl, by simpa using hd⟩⟩
  · rename_i name p hd
    refine byMethod_effect w env s _ _ _ (fun m j hm hj hr => ?_)
    cases msg with
    | none => simp at hd
    | some x =>
      refine ⟨x, name, p, rfl, hm, hj, .inr ⟨rfl, ?_, by simpa using hd⟩⟩
      cases hmr : m.isRequest with
      | false => rfl
      | true => exact absurd rfl (hr hmr)

/-- The effect of a whole message: an error response may be appended. -/
theorem handleMessage_effect {w : World} {env : Env w.Tree} {s s' : State w.Tree} {msg : Option Json}
    {outs : List Out} {r : Except ErrCode Unit} (h : handleMessage w env s msg = .done s' outs r) :
    ∃ outs' tail, Effect w (Calls w msg) s s' outs' ∧ outs = outs' ++ tail ∧ requestIds tail = [] := by
  have he := dispatch_effect w env s msg
  unfold handleMessage at h
  split at h
  · rename_i s1 o c hd
    rw [hd] at he
    simp only [Res.done.injEq] at h
    obtain ⟨rfl, rfl, _⟩ := h
    refine ⟨o, _, he, rfl, ?_⟩
    unfold errorResponse
    split <;> rfl
  · rw [h] at he
    exact ⟨outs, [], he, by simp, rfl⟩

/-- A call is dispatched to its handler. -/
theorem dispatch_of_calls {w : World} {env : Env w.Tree} {s : State w.Tree} {msg : Option Json} {m : Method}
    {id : Option ReqId} {p : Json} (h : Calls w msg m id p) :
    (m.isRequest = true → ∃ i, id = some i ∧ dispatch w env s msg = requestHandler w env m s i p) ∧
    (m.isRequest = false → dispatch w env s msg = notificationHandler env m s p) := by
  obtain ⟨j, name, q, rfl, hn, hp, hd⟩ := h
  rcases hd with ⟨i, rfl, hd⟩ | ⟨rfl, hr, hd⟩
  · constructor
    · intro hm
      refine ⟨i, rfl, ?_⟩
      simp [dispatch, hd, dispatch.byMethod, hn, callHandler, hp, hm]
    · intro hm
      simp [dispatch, hd, dispatch.byMethod, hn, callHandler, hp, hm]
  · constructor
    · intro hm; rw [hr] at hm; cases hm
    · intro hm
      simp [dispatch, hd, dispatch.byMethod, hn, callHandler, hp, hm]

end Verif.Srv
