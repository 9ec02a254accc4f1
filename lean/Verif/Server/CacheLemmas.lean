import Verif.Server.Lemmas
/-!
# The parse tree cache is transparent
-/
set_option linter.unusedTactic false
set_option linter.unreachableTactic false
namespace Verif.Srv

variable {w : World}

/-- The cache, if filled, holds a tree for an open document; it is not from the future, and if the versions agree it
is the tree of the current text. -/
def CacheOk (w : World) (s : State w.Tree) : Prop :=
  ∀ c, s.cache = some c → ∃ d, look c.uri s.docs = some d ∧ c.version ≤ d.version ∧
    (c.version = d.version → w.parse d.text = some c.tree)

/-- Same outcome up to the cache. -/
def SameRes {T : Type} : Res T → Res T → Prop
  | .panic, .panic => True
  | .exit, .exit => True
  | .done a o r, .done b o' r' => a.view = b.view ∧ o = o' ∧ r = r'
  | _, _ => False

theorem cachedTree_of_ok {s : State w.Tree} (h : CacheOk w s) {uri : String} {d : Doc}
    (hd : look uri s.docs = some d) :
    (s.cachedTree w.parse uri d).map (fun r => (r.1, r.2.view)) = (w.parse d.text).map fun t => (t, s.view) := by
  unfold State.cachedTree
  split
  · rename_i c hc
    split
    · rename_i hcd
      obtain ⟨d', hd', _, hp⟩ := h c hc
      rw [hcd.1, hd] at hd'
      cases hd'
      rw [hp hcd.2]
      rfl
    · cases w.parse d.text <;> rfl
  · cases w.parse d.text <;> rfl

theorem cachedTree_view (s : State w.Tree) (uri : String) (d : Doc) :
    (s.view.cachedTree w.parse uri d).map (fun r => (r.1, r.2.view)) = (w.parse d.text).map fun t => (t, s.view) := by
  unfold State.cachedTree State.view
  cases w.parse d.text <;> rfl

theorem tree_same {s : State w.Tree} (h : CacheOk w s) {uri : String} {d : Doc} (hd : look uri s.docs = some d) :
    (s.cachedTree w.parse uri d = none ∧ s.view.cachedTree w.parse uri d = none) ∨
    ∃ t s1 s2, s.cachedTree w.parse uri d = some (t, s1) ∧ s.view.cachedTree w.parse uri d = some (t, s2) ∧
      s1.view = s.view ∧ s2.view = s.view := by
  have e1 := cachedTree_of_ok h hd
  have e2 := cachedTree_view s uri d
  cases hp : w.parse d.text with
  | none =>
    rw [hp] at e1 e2
    simp only [Option.map_none, Option.map_eq_none_iff] at e1 e2
    exact .inl ⟨e1, e2⟩
  | some t =>
    rw [hp] at e1 e2
    simp only [Option.map_some, Option.map_eq_some_iff, Prod.mk.injEq] at e1 e2
    obtain ⟨⟨t1, s1⟩, h1, ht1, hs1⟩ := e1
    obtain ⟨⟨t2, s2⟩, h2, ht2, hs2⟩ := e2
    simp only at ht1 hs1 ht2 hs2
    subst ht1; subst ht2
    exact .inr ⟨_, s1, s2, h1, h2, hs1, hs2⟩

theorem docRequest_same {s : State w.Tree} (h : CacheOk w s) (env : Env w.Tree) (m : Method) (id : ReqId) (p : Json) :
    SameRes (docRequest w env m s id p) (docRequest w env m s.view id p) := by
  unfold docRequest fail
  cases uriOf p with
  | none => exact ⟨rfl, rfl, rfl⟩
  | some uri =>
    have e0 : s.view.docs = s.docs := rfl
    have e1 : s.view.view = s.view := rfl
    simp only [e0, e1]
    cases hd : look uri s.docs with
    | none => exact ⟨rfl, rfl, rfl⟩
    | some d =>
      simp only
      have key : SameRes
          (match s.cachedTree w.parse uri d with
            | none => .panic
            | some (tree, s') =>
              match env.feature m s'.view d.text (some tree) p with
              | .panic => .panic
              | .err c => .done s' [] (.error c)
              | .ok j => .done s' [.response id (.result j)] (.ok ()) : Res w.Tree)
          (match s.view.cachedTree w.parse uri d with
            | none => .panic
            | some (tree, s') =>
              match env.feature m s'.view d.text (some tree) p with
              | .panic => .panic
              | .err c => .done s' [] (.error c)
              | .ok j => .done s' [.response id (.result j)] (.ok ())) := by
        rcases tree_same h hd with ⟨h1, h2⟩ | ⟨t, s1, s2, h1, h2, hs1, hs2⟩
        · rw [h1, h2]; trivial
        · rw [h1, h2]
          simp only
          rw [hs1, hs2]
          cases env.feature m s.view d.text (some t) p with
          | panic => trivial
          | err c => exact ⟨hs1.trans hs2.symm, rfl, rfl⟩
          | ok j => exact ⟨hs1.trans hs2.symm, rfl, rfl⟩
      cases env.before m s.view d.text p with
      | none => exact key
      | some f =>
        cases f with
        | panic => trivial
        | err c => exact ⟨rfl, rfl, rfl⟩
        | ok j => exact key

theorem diagnosticRequest_same {s : State w.Tree} (h : CacheOk w s) (env : Env w.Tree) (id : ReqId) (p : Json) :
    SameRes (diagnosticRequest w env s id p) (diagnosticRequest w env s.view id p) := by
  unfold diagnosticRequest fail
  cases uriOf p with
  | none => exact ⟨rfl, rfl, rfl⟩
  | some uri =>
    have e0 : s.view.docs = s.docs := rfl
    simp only [e0]
    cases hd : look uri s.docs with
    | none => exact ⟨rfl, rfl, rfl⟩
    | some d =>
      simp only
      rcases tree_same h hd with ⟨h1, h2⟩ | ⟨t, s1, s2, h1, h2, hs1, hs2⟩
      · rw [h1, h2]; trivial
      · have hae : s1.applyEdit = s2.applyEdit := by
          have := congrArg State.applyEdit (hs1.trans hs2.symm); exact this
        have hce : s1.counter = s2.counter := by
          have := congrArg State.counter (hs1.trans hs2.symm); exact this
        rw [h1, h2]
        simp only
        rw [hs1, hs2, hae]
        cases env.feature .diagnostic s.view d.text (some t) p with
        | panic => trivial
        | err c => exact ⟨hs1.trans hs2.symm, rfl, rfl⟩
        | ok j =>
          simp only
          cases (if s2.applyEdit = true then env.autofix s.view d.text t p else none) with
          | none => exact ⟨hs1.trans hs2.symm, rfl, rfl⟩
          | some edits =>
            simp only [State.bump]
            refine ⟨?_, ?_, rfl⟩
            · have e := hs1.trans hs2.symm
              unfold State.view at e ⊢
              cases s1; cases s2
              simp only [State.mk.injEq] at e ⊢
              simp [e]
            · rw [hce]

theorem registerBackend_view (env : Env w.Tree) (s : State w.Tree) (b : Backend) :
    registerBackend env s.view b = (registerBackend env s b).map
      (fun r => match r with | .ok x => .ok x.view | .error x => .error x.view) := by
  unfold registerBackend
  split
  · rfl
  · dsimp only
    split
    · rfl
    · split
      · unfold State.setDefault
        have : (State.addBackend (s.view.loadPrefixMap b.name b.prefixMap) b).backends =
          (State.addBackend (s.loadPrefixMap b.name b.prefixMap) b).backends := rfl
        rw [this]
        split <;> rfl
      · rfl

theorem registerAll_view (env : Env w.Tree) (bs : List Backend) (s : State w.Tree) :
    registerAll env bs s.view = (registerAll env bs s).map
      (fun r => match r with | .ok x => .ok x.view | .error x => .error x.view) := by
  induction bs generalizing s with
  | nil => rfl
  | cons b bs ih =>
    unfold registerAll
    rw [registerBackend_view]
    cases registerBackend env s b with
    | none => rfl
    | some r =>
      cases r with
      | error x => rfl
      | ok x => exact ih x

theorem startUp_same (env : Env w.Tree) (s : State w.Tree) (id : ReqId) (p : Json) :
    SameRes (startUp env s id p) (startUp env s.view id p) := by
  have key : SameRes (loadConfigured env s id) (loadConfigured env s.view id) := by
    unfold loadConfigured
    rw [show s.view.settings = s.settings from rfl]
    rw [registerAll_view]
    cases registerAll env (env.configured s.settings) s with
    | none => trivial
    | some r =>
      cases r with
      | error x => exact ⟨rfl, rfl, rfl⟩
      | ok x => exact ⟨rfl, rfl, rfl⟩
  unfold startUp
  cases p.get "workDoneToken" with
  | none => exact ⟨rfl, rfl, rfl⟩
  | some t => cases t <;> first | exact ⟨rfl, rfl, rfl⟩ | exact key

theorem view_fields (s : State w.Tree) : s.view.status = s.status ∧ s.view.backends = s.backends ∧
    s.view.docs = s.docs ∧ s.view.settings = s.settings ∧ s.view.view = s.view ∧
    s.view.defaultBackend = s.defaultBackend := ⟨rfl, rfl, rfl, rfl, rfl, rfl⟩

theorem requestHandler_same {s : State w.Tree} (h : CacheOk w s) (env : Env w.Tree) (m : Method) (id : ReqId)
    (p : Json) : SameRes (requestHandler w env m s id p) (requestHandler w env m s.view id p) := by
  obtain ⟨vst, vb, vd, vse, vv, vdf⟩ := view_fields s
  unfold requestHandler
  split
  · unfold initializeRequest fail
    rw [vst]
    cases s.status with
    | initializing => exact startUp_same env { s with status := .initializing, applyEdit := supportsEdits p } id p
    | running => exact ⟨rfl, rfl, rfl⟩
    | shuttingDown => exact ⟨rfl, rfl, rfl⟩
  · unfold shutdownRequest fail
    rw [vst]
    cases s.status <;> exact ⟨rfl, rfl, rfl⟩
  · exact diagnosticRequest_same h env id p
  · unfold getBackendRequest
    rw [show s.view.backendOrDefault = s.backendOrDefault from rfl]
    cases s.backendOrDefault ((p.get "backend").bind Json.asStr) <;> exact ⟨rfl, rfl, rfl⟩
  · exact ⟨rfl, rfl, rfl⟩
  · unfold pingRequest fail
    rw [show s.view.backendOrDefault = s.backendOrDefault from rfl, vv]
    cases s.backendOrDefault ((p.get "backendName").bind Json.asStr) with
    | none => exact ⟨rfl, rfl, rfl⟩
    | some b =>
      dsimp only
      cases env.remote .pingBackend s.view b [] p with
      | none => trivial
      | some => exact ⟨rfl, rfl, rfl⟩
  · unfold identifyRequest fail
    rw [vd, vv]
    cases uriOf p with
    | none => exact ⟨rfl, rfl, rfl⟩
    | some uri =>
      dsimp only
      cases look uri s.docs with
      | none => exact ⟨rfl, rfl, rfl⟩
      | some d =>
        dsimp only
        cases env.feature .identifyOperationType s.view d.text none p with
        | panic => trivial
        | err => exact ⟨rfl, rfl, rfl⟩
        | ok => exact ⟨rfl, rfl, rfl⟩
  · exact ⟨rfl, rfl, rfl⟩
  · unfold executeRequest fail
    rw [show s.view.operationText = s.operationText from rfl, vv, vdf]
    cases s.operationText p with
    | none => exact ⟨rfl, rfl, rfl⟩
    | some t =>
      dsimp only
      cases s.defaultBackend with
      | none => exact ⟨rfl, rfl, rfl⟩
      | some b =>
        dsimp only
        cases env.remote .executeOperation s.view b t p with
        | none => trivial
        | some => exact ⟨rfl, rfl, rfl⟩
  · exact docRequest_same h env _ id p

theorem notificationHandler_same (s : State w.Tree) (env : Env w.Tree) (m : Method) (p : Json) :
    SameRes (notificationHandler env m s p) (notificationHandler env m s.view p) := by
  obtain ⟨vst, vb, vd, vse, vv, vdf⟩ := view_fields s
  unfold notificationHandler
  split
  · unfold addBackend fail
    cases backendOf p with
    | none => exact ⟨rfl, rfl, rfl⟩
    | some b =>
      dsimp only
      rw [registerBackend_view]
      cases registerBackend env s b with
      | none => trivial
      | some r => cases r <;> exact ⟨rfl, rfl, rfl⟩
  · unfold updateDefault fail State.setDefault
    rw [vb]
    cases (p.get "backendName").bind Json.asStr with
    | none => exact ⟨rfl, rfl, rfl⟩
    | some n =>
      dsimp only
      cases look n s.backends with
      | none => exact ⟨rfl, rfl, rfl⟩
      | some b => exact ⟨rfl, rfl, rfl⟩
  · exact ⟨rfl, rfl, rfl⟩
  · trivial
  · unfold didOpen fail
    cases openOf p <;> exact ⟨rfl, rfl, rfl⟩
  · unfold didChange fail State.changeDocument
    rw [vd]
    cases uriOf p with
    | none => exact ⟨rfl, rfl, rfl⟩
    | some uri =>
      cases changesOf p with
      | none => exact ⟨rfl, rfl, rfl⟩
      | some cs =>
        dsimp only
        cases look uri s.docs with
        | none => exact ⟨rfl, rfl, rfl⟩
        | some d =>
          dsimp only
          cases applyContentChanges d.text cs with
          | none => trivial
          | some t => exact ⟨rfl, rfl, rfl⟩
  · unfold didSave fail
    rw [vd]
    cases uriOf p with
    | none => exact ⟨rfl, rfl, rfl⟩
    | some uri =>
      dsimp only
      cases look uri s.docs with
      | none => exact ⟨rfl, rfl, rfl⟩
      | some d =>
        dsimp only
        cases env.saveDiagnostics d.text with
        | none => trivial
        | some j => exact ⟨rfl, rfl, rfl⟩
  · unfold changeSettings fail
    rw [vse]
    cases env.readSettings (merge s.settings p) <;> exact ⟨rfl, rfl, rfl⟩
  · exact ⟨rfl, rfl, rfl⟩

theorem callHandler_same {s : State w.Tree} (h : CacheOk w s) (env : Env w.Tree) (m : Method) (id : Option ReqId)
    (p : Option Json) : SameRes (callHandler w env m s id p) (callHandler w env m s.view id p) := by
  unfold callHandler fail
  cases decodeParams w m p with
  | none =>
    dsimp only
    cases m.async with
    | true => trivial
    | false => exact ⟨rfl, rfl, rfl⟩
  | some j =>
    dsimp only
    cases m.isRequest with
    | true =>
      simp only [if_true]
      cases id with
      | some i => exact requestHandler_same h env m _ _
      | none =>
        dsimp only
        cases m.async with
        | true => trivial
        | false => exact ⟨rfl, rfl, rfl⟩
    | false => exact notificationHandler_same s env m _

theorem byMethod_same {s : State w.Tree} (h : CacheOk w s) (env : Env w.Tree) (name : String) (id : Option ReqId)
    (p : Option Json) : SameRes (dispatch.byMethod w env s name id p) (dispatch.byMethod w env s.view name id p) := by
  unfold dispatch.byMethod fail
  cases look name methodTable with
  | some m => exact callHandler_same h env _ _ _
  | none =>
    dsimp only
    by_cases h1 : name = "response"
    · rw [if_pos h1, if_pos h1]
      cases id <;> exact ⟨rfl, rfl, rfl⟩
    · rw [if_neg h1, if_neg h1]
      by_cases h2 : name = "$/cancelRequest"
      · rw [if_pos h2, if_pos h2]; exact ⟨rfl, rfl, rfl⟩
      · rw [if_neg h2, if_neg h2]
        by_cases h3 : name = "$/setTrace"
        · rw [if_pos h3, if_pos h3]; exact ⟨rfl, rfl, rfl⟩
        · rw [if_neg h3, if_neg h3]; exact ⟨rfl, rfl, rfl⟩

theorem dispatch_same {s : State w.Tree} (h : CacheOk w s) (env : Env w.Tree) (msg : Option Json) :
    SameRes (dispatch w env s msg) (dispatch w env s.view msg) := by
  unfold dispatch fail
  cases msg.bind deserializeMessage with
  | none => exact ⟨rfl, rfl, rfl⟩
  | some r =>
    cases r with
    | request i m p => exact byMethod_same h env _ _ _
    | notification m p => exact byMethod_same h env _ _ _
    | response r =>
      dsimp only
      cases editResponseOk r <;> exact ⟨rfl, rfl, rfl⟩

theorem handleMessage_same {s : State w.Tree} (h : CacheOk w s) (env : Env w.Tree) (msg : Option Json) :
    SameRes (handleMessage w env s msg) (handleMessage w env s.view msg) := by
  have hs := dispatch_same h env msg
  unfold handleMessage
  cases h1 : dispatch w env s msg with
  | panic =>
    cases h2 : dispatch w env s.view msg with
    | panic => trivial
    | exit => rw [h1, h2] at hs; exact hs.elim
    | done => rw [h1, h2] at hs; exact hs.elim
  | exit =>
    cases h2 : dispatch w env s.view msg with
    | panic => rw [h1, h2] at hs; exact hs.elim
    | exit => trivial
    | done => rw [h1, h2] at hs; exact hs.elim
  | done a o r =>
    cases h2 : dispatch w env s.view msg with
    | panic => rw [h1, h2] at hs; exact hs.elim
    | exit => rw [h1, h2] at hs; exact hs.elim
    | done b o' r' =>
      rw [h1, h2] at hs
      obtain ⟨e1, rfl, rfl⟩ := hs
      cases r with
      | ok u => exact ⟨e1, rfl, rfl⟩
      | error c => exact ⟨e1, rfl, rfl⟩

/-! ## The invariant is kept -/

theorem registerBackend_keeps {T : Type} {env : Env T} {s s' : State T} {b : Backend}
    (h : registerBackend env s b = some (.ok s') ∨ registerBackend env s b = some (.error s')) :
    s'.docs = s.docs ∧ s'.cache = s.cache ∧ s'.status = s.status ∧ s'.counter = s.counter := by
  unfold registerBackend State.setDefault at h
  dsimp only at h
  split at h
  · rcases h with h | h <;> simp at h
    subst h; exact ⟨rfl, rfl, rfl, rfl⟩
  · split at h
    · rcases h with h | h <;> simp at h
      subst h; exact ⟨rfl, rfl, rfl, rfl⟩
    · split at h
      · split at h
        · rcases h with h | h <;> simp at h
          subst h; exact ⟨rfl, rfl, rfl, rfl⟩
        · rcases h with h | h <;> simp at h
      · rcases h with h | h <;> simp at h
        subst h; exact ⟨rfl, rfl, rfl, rfl⟩

theorem registerAll_keeps {T : Type} {env : Env T} {bs : List Backend} {s s' : State T}
    (h : registerAll env bs s = some (.ok s') ∨ registerAll env bs s = some (.error s')) :
    s'.docs = s.docs ∧ s'.cache = s.cache ∧ s'.status = s.status ∧ s'.counter = s.counter := by
  induction bs generalizing s with
  | nil =>
    rcases h with h | h <;> simp [registerAll] at h
    subst h; exact ⟨rfl, rfl, rfl, rfl⟩
  | cons b bs ih =>
    unfold registerAll at h
    cases hb : registerBackend env s b with
    | none => simp [hb] at h
    | some r =>
      cases r with
      | error x =>
        simp [hb] at h
        subst h
        exact registerBackend_keeps (.inr hb)
      | ok x =>
        simp only [hb] at h
        have h1 := registerBackend_keeps (.inl hb)
        have h2 := ih h
        exact ⟨h2.1.trans h1.1, h2.2.1.trans h1.2.1, h2.2.2.1.trans h1.2.2.1, h2.2.2.2.trans h1.2.2.2⟩

theorem setDefault_keeps {T : Type} {s s' : State T} {n : String} (h : s.setDefault n = some s') :
    s'.docs = s.docs ∧ s'.cache = s.cache ∧ s'.status = s.status ∧ s'.counter = s.counter := by
  unfold State.setDefault at h
  split at h
  · cases h; exact ⟨rfl, rfl, rfl, rfl⟩
  · cases h

theorem cacheOk_congr {s s' : State w.Tree} (h : CacheOk w s) (hd : s'.docs = s.docs) (hc : s'.cache = s.cache) :
    CacheOk w s' := by
  unfold CacheOk at *
  rw [hd, hc]; exact h

theorem effect_cacheOk {K : Method → Option ReqId → Json → Prop} {s s' : State w.Tree} {outs : List Out}
    (he : Effect w K s s' outs) (h : CacheOk w s)
    (hf : ∀ uri d' d id p, K .didOpen id p → openOf p = some (uri, d') → look uri s.docs = some d →
      d.version < d'.version) : CacheOk w s' := by
  induction he with
  | none => exact h
  | cache uri d t outs hd ht _ =>
    intro c hc
    simp only [Option.some.injEq] at hc
    subst hc
    exact ⟨d, hd, le_refl _, fun _ => ht⟩
  | ask s' pre m j id b _ _ _ ih => exact cacheOk_congr ih rfl rfl
  | initialized => exact h
  | shutdown => exact h
  | «initialize» b outs s' _ hr =>
    rcases hr with ⟨env, bs, hr⟩ | rfl
    · have := registerAll_keeps hr
      exact cacheOk_congr h this.1 this.2.1
    · exact h
  | register env b s' hr =>
    have := registerBackend_keeps hr
    exact cacheOk_congr h this.1 this.2.1
  | setDefault n s' id p hk hs =>
    have := setDefault_keeps hs
    exact cacheOk_congr h this.1 this.2.1
  | «open» uri d id p hk ho =>
    intro c hc
    obtain ⟨d0, hd0, hv, hp⟩ := h c hc
    by_cases hu : uri = c.uri
    · subst hu
      have := hf _ _ _ _ _ hk ho hd0
      refine ⟨d, look_put_self _ _ _, by omega, fun e => by omega⟩
    · exact ⟨d0, by simp only [State.addDocument]; rw [look_put_ne hu]; exact hd0, hv, hp⟩
  | change uri d cs s' id p hk hu hcs hd hs =>
    unfold State.changeDocument at hs
    simp only [Option.map_eq_some_iff] at hs
    obtain ⟨t, ht, rfl⟩ := hs
    intro c hc
    obtain ⟨d0, hd0, hv, hp⟩ := h c hc
    by_cases hu : uri = c.uri
    · subst hu
      rw [hd] at hd0
      cases hd0
      refine ⟨⟨d.version + 1, t⟩, look_put_self _ _ _, ?_, fun e => ?_⟩
      · show c.version ≤ d.version + 1; omega
      · have : c.version = d.version + 1 := e
        omega
    · exact ⟨d0, by simp only; rw [look_put_ne hu]; exact hd0, hv, hp⟩
  | settings => exact h

theorem handleMessage_cacheOk {env : Env w.Tree} {s s' : State w.Tree} {msg : Option Json} {outs : List Out}
    {r : Except ErrCode Unit} (h : handleMessage w env s msg = .done s' outs r) (hc : CacheOk w s)
    (hf : ∀ uri d' d, Opens w msg uri d' → look uri s.docs = some d → d.version < d'.version) : CacheOk w s' := by
  obtain ⟨o, t, he, _, _⟩ := handleMessage_effect h
  exact effect_cacheOk he hc (fun uri d' d id p hk ho hd => hf uri d' d ⟨id, p, hk, ho⟩ hd)

theorem run_same (es : List (Event w)) (s1 s2 : State w.Tree) (hv : s1.view = s2.view) (hc : CacheOk w s1)
    (hf : FreshOpens w es s1) :
    (run w es s1).map (fun r => (r.1.view, r.2)) = (runUncached w es s2).map (fun r => (r.1.view, r.2)) := by
  induction es generalizing s1 s2 with
  | nil => simp [run, runUncached, hv]
  | cons e es ih =>
    have hs := handleMessage_same hc e.env e.msg
    rw [hv] at hs
    unfold run runUncached
    cases h1 : handleMessage w e.env s1 e.msg with
    | panic =>
      cases h2 : handleMessage w e.env s2.view e.msg with
      | panic => rfl
      | exit => rfl
      | done => rw [h1, h2] at hs; exact hs.elim
    | exit =>
      cases h2 : handleMessage w e.env s2.view e.msg with
      | panic => rfl
      | exit => rfl
      | done => rw [h1, h2] at hs; exact hs.elim
    | done a o r =>
      cases h2 : handleMessage w e.env s2.view e.msg with
      | panic => rw [h1, h2] at hs; exact hs.elim
      | exit => rw [h1, h2] at hs; exact hs.elim
      | done b o' r' =>
        rw [h1, h2] at hs
        obtain ⟨e1, rfl, rfl⟩ := hs
        have hi := ih a b e1 (handleMessage_cacheOk h1 hc hf.1) (hf.2 a o r h1)
        simp only [Option.map_map]
        cases hr1 : run w es a with
        | none =>
          cases hr2 : runUncached w es b with
          | none => rfl
          | some y => rw [hr1, hr2] at hi; simp at hi
        | some x =>
          cases hr2 : runUncached w es b with
          | none => rw [hr1, hr2] at hi; simp at hi
          | some y =>
            rw [hr1, hr2] at hi
            simp only [Option.map_some, Option.some.injEq, Prod.mk.injEq] at hi
            simp [hi.1, hi.2]

theorem run_cacheOk (es : List (Event w)) (s s' : State w.Tree) (outs : List Out) (hc : CacheOk w s)
    (hf : FreshOpens w es s) (h : run w es s = some (s', outs)) : CacheOk w s' := by
  induction es generalizing s outs with
  | nil => simp [run] at h; rw [← h.1]; exact hc
  | cons e es ih =>
    unfold run at h
    cases h1 : handleMessage w e.env s e.msg with
    | panic => simp [h1] at h
    | exit => simp [h1] at h
    | done a o r =>
      simp only [h1, Option.map_eq_some_iff, Prod.mk.injEq] at h
      obtain ⟨x, hx, rfl, _⟩ := h
      exact ih a x.2 (handleMessage_cacheOk h1 hc hf.1) (hf.2 a o r h1) hx

theorem cacheOk_init (j : Json) : CacheOk w (State.init j) := by
  intro c hc; cases hc

end Verif.Srv
