import Verif.Server.CacheLemmas
import Mathlib.Data.List.Induction
/-!
# Lemmas about histories: documents, status, registry, request ids
-/
namespace Verif.Srv

variable {w : World}

/-! ## Outcome of a call -/

theorem handleMessage_ok_or {env : Env w.Tree} {s s' : State w.Tree} {msg : Option Json} {outs : List Out}
    {r : Except ErrCode Unit} (h : handleMessage w env s msg = .done s' outs r) :
    r = .ok () ∧ ((dispatch w env s msg = .done s' outs (.ok ())) ∨
      ∃ c o, dispatch w env s msg = .done s' o (.error c) ∧ outs = o ++ errorResponse msg c) := by
  unfold handleMessage at h
  split at h
  · rename_i s1 o c hd
    simp only [Res.done.injEq] at h
    obtain ⟨rfl, rfl, rfl⟩ := h
    exact ⟨rfl, .inr ⟨c, o, hd, rfl⟩⟩
  · rename_i r' hne
    cases r with
    | ok u => exact ⟨rfl, .inl h⟩
    | error c => exact absurd h (hne _ _ _)

theorem handleMessage_of_ok {env : Env w.Tree} {s s' : State w.Tree} {msg : Option Json} {outs : List Out}
    (h : dispatch w env s msg = .done s' outs (.ok ())) : handleMessage w env s msg = .done s' outs (.ok ()) := by
  simp [handleMessage, h]

theorem handleMessage_of_error {env : Env w.Tree} {s s' : State w.Tree} {msg : Option Json} {outs : List Out}
    {c : ErrCode} (h : dispatch w env s msg = .done s' outs (.error c)) :
    handleMessage w env s msg = .done s' (outs ++ errorResponse msg c) (.ok ()) := by
  simp [handleMessage, h]

/-! ## Which calls a message makes -/

theorem calls_unique {msg : Option Json} {m m' : Method} {id id' : Option ReqId} {p p' : Json}
    (h : Calls w msg m id p) (h' : Calls w msg m' id' p') : m = m' ∧ id = id' ∧ p = p' := by
  obtain ⟨j, name, q, rfl, hn, hp, hd⟩ := h
  obtain ⟨j', name', q', e, hn', hp', hd'⟩ := h'
  cases e
  rcases hd with ⟨i, rfl, hd⟩ | ⟨rfl, hr, hd⟩ <;> rcases hd' with ⟨i', rfl, hd'⟩ | ⟨rfl, hr', hd'⟩ <;>
    (rw [hd] at hd'; cases hd' <;> (rw [hn] at hn'; cases hn'; rw [hp] at hp'; cases hp'; exact ⟨rfl, rfl, rfl⟩))

theorem opens_unique {msg : Option Json} {u u' : String} {d d' : Doc} (h : Opens w msg u d) (h' : Opens w msg u' d') :
    u = u' ∧ d = d' := by
  obtain ⟨id, p, hc, ho⟩ := h
  obtain ⟨id', p', hc', ho'⟩ := h'
  obtain ⟨_, _, rfl⟩ := calls_unique hc hc'
  rw [ho] at ho'
  cases ho'; exact ⟨rfl, rfl⟩

/-! ## Documents -/

theorem effect_docs {K : Method → Option ReqId → Json → Prop} {s s' : State w.Tree} {outs : List Out}
    (he : Effect w K s s' outs) (uri : String) :
    look uri s'.docs = look uri s.docs ∨
    (∃ d id p, K .didOpen id p ∧ openOf p = some (uri, d) ∧ look uri s'.docs = some d) ∨
    (∃ d cs t id p, K .didChange id p ∧ uriOf p = some uri ∧ changesOf p = some cs ∧ look uri s.docs = some d ∧
      applyContentChanges d.text cs = some t ∧ look uri s'.docs = some ⟨d.version + 1, t⟩) := by
  induction he with
  | none => exact .inl rfl
  | cache => exact .inl rfl
  | ask s' pre m j id b _ _ _ ih => exact ih
  | initialized => exact .inl rfl
  | shutdown => exact .inl rfl
  | «initialize» b outs s' _ hr =>
    rcases hr with ⟨env, bs, hr⟩ | rfl
    · have := registerAll_keeps hr; rw [this.1]; exact .inl rfl
    · exact .inl rfl
  | register env b s' hr => have := registerBackend_keeps hr; rw [this.1]; exact .inl rfl
  | setDefault n s' id p hk hs => have := setDefault_keeps hs; rw [this.1]; exact .inl rfl
  | «open» u d id p hk ho =>
    by_cases hu : u = uri
    · subst hu; exact .inr (.inl ⟨d, id, p, hk, ho, look_put_self _ _ _⟩)
    · exact .inl (by simp only [State.addDocument]; rw [look_put_ne hu])
  | change u d cs s' id p hk hu hcs hd hs =>
    unfold State.changeDocument at hs
    simp only [Option.map_eq_some_iff] at hs
    obtain ⟨t, ht, rfl⟩ := hs
    by_cases he : u = uri
    · subst he; exact .inr (.inr ⟨d, cs, t, id, p, hk, hu, hcs, hd, ht, look_put_self _ _ _⟩)
    · exact .inl (by simp only; rw [look_put_ne he])
  | settings => exact .inl rfl

theorem dispatch_open {env : Env w.Tree} {s : State w.Tree} {msg : Option Json} {uri : String} {d : Doc}
    (h : Opens w msg uri d) : dispatch w env s msg = .done (s.addDocument uri d) [] (.ok ()) := by
  obtain ⟨id, p, hc, ho⟩ := h
  rw [(dispatch_of_calls hc).2 rfl]
  simp [notificationHandler, didOpen, ho]

theorem dispatch_change {env : Env w.Tree} {s : State w.Tree} {msg : Option Json} {uri : String} {cs : List Change}
    (h : Changes w msg uri cs) : dispatch w env s msg =
      match look uri s.docs with
      | none => .done s [] (.error .invalidParams)
      | some d =>
        match applyContentChanges d.text cs with
        | none => .panic
        | some t => .done { s with docs := put uri ⟨d.version + 1, t⟩ s.docs } [] (.ok ()) := by
  obtain ⟨id, p, hc, hu, hcs⟩ := h
  rw [(dispatch_of_calls hc).2 rfl]
  simp only [notificationHandler, didChange, hu, hcs]
  cases look uri s.docs with
  | none => rfl
  | some d =>
    simp only [State.changeDocument]
    cases applyContentChanges d.text cs <;> rfl

/-! ## Status -/

theorem effect_status {K : Method → Option ReqId → Json → Prop} {s s' : State w.Tree} {outs : List Out}
    (he : Effect w K s s' outs) :
    s'.status = s.status ∨ ((∃ id p, K .initialized id p) ∧ s'.status = .running) ∨
    ((∃ id p, K .shutdown id p) ∧ s.status = .running ∧ s'.status = .shuttingDown) := by
  induction he with
  | none => exact .inl rfl
  | cache => exact .inl rfl
  | ask s' pre m j id b _ _ _ ih => exact ih
  | initialized id p outs hk => exact .inr (.inl ⟨⟨id, p, hk⟩, rfl⟩)
  | shutdown id p outs hk hs => exact .inr (.inr ⟨⟨id, p, hk⟩, hs, rfl⟩)
  | «initialize» b outs s' _ hr =>
    rcases hr with ⟨env, bs, hr⟩ | rfl
    · have := registerAll_keeps hr; rw [this.2.2.1]; exact .inl rfl
    · exact .inl rfl
  | register env b s' hr => have := registerBackend_keeps hr; rw [this.2.2.1]; exact .inl rfl
  | setDefault n s' id p hk hs => have := setDefault_keeps hs; rw [this.2.2.1]; exact .inl rfl
  | «open» u d id p hk ho => exact .inl rfl
  | change u d cs s' id p hk hu hcs hd hs =>
    unfold State.changeDocument at hs
    simp only [Option.map_eq_some_iff] at hs
    obtain ⟨t, ht, rfl⟩ := hs
    exact .inl rfl
  | settings => exact .inl rfl

theorem step_initialized {env : Env w.Tree} {s : State w.Tree} {msg : Option Json} (h : IsInitialized w msg) :
    handleMessage w env s msg = .done { s with status := .running } [] (.ok ()) := by
  obtain ⟨id, p, hc⟩ := h
  apply handleMessage_of_ok
  rw [(dispatch_of_calls hc).2 rfl]; rfl

theorem step_shutdown {env : Env w.Tree} {s s' : State w.Tree} {msg : Option Json} {outs : List Out}
    {r : Except ErrCode Unit} (h : IsShutdown w msg) (hs : handleMessage w env s msg = .done s' outs r) :
    s' = (if s.status = .running then { s with status := .shuttingDown } else s) := by
  obtain ⟨id, p, hc⟩ := h
  obtain ⟨i, rfl, hd⟩ := (dispatch_of_calls (env := env) (s := s) hc).1 rfl
  have key : dispatch w env s msg = .done s' outs (.ok ()) ∨
      ∃ c o, dispatch w env s msg = .done s' o (.error c) := by
    obtain ⟨_, h1 | ⟨c, o, h1, _⟩⟩ := handleMessage_ok_or hs
    · exact .inl h1
    · exact .inr ⟨c, o, h1⟩
  rw [hd] at key
  simp only [requestHandler, shutdownRequest, fail] at key
  cases hst : s.status with
  | initializing =>
    rw [hst] at key
    rcases key with key | ⟨c, o, key⟩ <;> cases key
    rfl
  | running =>
    rw [hst] at key
    rcases key with key | ⟨c, o, key⟩ <;> cases key
    rfl
  | shuttingDown =>
    rw [hst] at key
    rcases key with key | ⟨c, o, key⟩ <;> cases key
    rfl

theorem not_both {msg : Option Json} (h : IsInitialized w msg) (h' : IsShutdown w msg) : False := by
  obtain ⟨id, p, hc⟩ := h
  obtain ⟨id', p', hc'⟩ := h'
  have := (calls_unique hc hc').1
  cases this

theorem step_other {env : Env w.Tree} {s s' : State w.Tree} {msg : Option Json} {outs : List Out}
    {r : Except ErrCode Unit} (h1 : ¬ IsInitialized w msg) (h2 : ¬ IsShutdown w msg)
    (hs : handleMessage w env s msg = .done s' outs r) : s'.status = s.status := by
  obtain ⟨o, t, he, _, _⟩ := handleMessage_effect hs
  rcases effect_status he with h | ⟨h, _⟩ | ⟨h, _⟩
  · exact h
  · exact absurd h h1
  · exact absurd h h2

theorem run_append (es1 es2 : List (Event w)) (s : State w.Tree) :
    run w (es1 ++ es2) s = (run w es1 s).bind fun r1 => (run w es2 r1.1).map fun r2 => (r2.1, r1.2 ++ r2.2) := by
  induction es1 generalizing s with
  | nil => simp only [run, List.nil_append, Option.bind_some]; cases run w es2 s <;> rfl
  | cons e es ih =>
    simp only [List.cons_append, run]
    cases handleMessage w e.env s e.msg with
    | panic => rfl
    | exit => rfl
    | done s1 o r =>
      simp only [ih]
      cases run w es s1 with
      | none => rfl
      | some x =>
        simp only [Option.bind_some, Option.map_some]
        cases run w es2 x.1 with
        | none => rfl
        | some y => simp [List.append_assoc]

theorem run_snoc {es : List (Event w)} {e : Event w} {s s' : State w.Tree} {outs : List Out}
    (h : run w (es ++ [e]) s = some (s', outs)) :
    ∃ s1 o1 o2 r, run w es s = some (s1, o1) ∧ handleMessage w e.env s1 e.msg = .done s' o2 r ∧ outs = o1 ++ o2 := by
  rw [run_append] at h
  cases h1 : run w es s with
  | none => simp [h1] at h
  | some x =>
    obtain ⟨s1, o1⟩ := x
    simp only [h1, Option.bind_some, Option.map_eq_some_iff, Prod.mk.injEq] at h
    obtain ⟨y, hy, rfl, rfl⟩ := h
    simp only [run] at hy
    cases h2 : handleMessage w e.env s1 e.msg with
    | panic => simp [h2] at hy
    | exit => simp [h2] at hy
    | done s2 o r =>
      simp only [h2, Option.map_some, Option.some.injEq] at hy
      subst hy
      exact ⟨s1, o1, o, r, rfl, by simpa using h2, by simp⟩

theorem run_status_init {es : List (Event w)} {s' : State w.Tree} {outs : List Out} {j : Json}
    (h : run w es (State.init j) = some (s', outs)) :
    (s'.status = .initializing ↔ ∀ e ∈ es, ¬ IsInitialized w e.msg) ∧
    (s'.status = .running ↔ ∃ pre e post, es = pre ++ e :: post ∧ IsInitialized w e.msg ∧
      ∀ e' ∈ post, ¬ IsShutdown w e'.msg) := by
  induction es using List.reverseRecOn generalizing s' outs with
  | nil =>
    simp only [run, Option.some.injEq, Prod.mk.injEq] at h
    rw [← h.1]
    refine ⟨⟨fun _ e he => (by cases he), fun _ => rfl⟩, ⟨fun h => (by cases h), ?_⟩⟩
    rintro ⟨pre, e, post, he, _⟩
    simp at he
  | append_singleton es e ih =>
    obtain ⟨s1, o1, o2, r, h1, h2, rfl⟩ := run_snoc h
    obtain ⟨ih1, ih2⟩ := ih h1
    by_cases hi : IsInitialized w e.msg
    · rw [step_initialized hi] at h2
      simp only [Res.done.injEq] at h2
      rw [← h2.1]
      refine ⟨⟨fun h => (by cases h), fun h => absurd hi (h e (by simp))⟩, ⟨fun _ => ?_, fun _ => rfl⟩⟩
      exact ⟨es, e, [], by simp, hi, by simp⟩
    · by_cases hsd : IsShutdown w e.msg
      · have hst := step_shutdown hsd h2
        subst hst
        constructor
        · split
          · rename_i hr
            constructor
            · intro h; cases h
            · intro hall
              have := ih1.2 (fun e' he' => hall e' (by simp [he']))
              rw [hr] at this; cases this
          · rw [ih1]
            constructor
            · intro hall e' he'
              simp only [List.mem_append, List.mem_singleton] at he'
              rcases he' with he' | rfl
              · exact hall e' he'
              · exact hi
            · intro hall e' he'
              exact hall e' (by simp [he'])
        · constructor
          · intro h
            split at h
            · cases h
            · rename_i hr; exact absurd h hr
          · rintro ⟨pre, e', post, he, hi', hp⟩
            rcases List.eq_nil_or_concat post with rfl | ⟨post', x, rfl⟩
            · have h0 := List.append_inj_right' he rfl
              simp only [List.cons.injEq, and_true] at h0
              subst h0
              exact absurd hi' hi
            · have : es ++ [e] = (pre ++ e' :: post') ++ [x] := by simpa using he
              have h0 := List.append_inj_right' this rfl
              simp only [List.cons.injEq, and_true] at h0
              subst h0
              exact absurd hsd (hp e (by simp))
      · have hst := step_other hi hsd h2
        rw [hst, ih1, ih2]
        constructor
        · constructor
          · intro hall e' he'
            simp only [List.mem_append, List.mem_singleton] at he'
            rcases he' with he' | rfl
            · exact hall e' he'
            · exact hi
          · intro hall e' he'
            exact hall e' (by simp [he'])
        · constructor
          · rintro ⟨pre, e', post, rfl, hi', hp⟩
            refine ⟨pre, e', post ++ [e], by simp, hi', fun x hx => ?_⟩
            simp only [List.mem_append, List.mem_singleton] at hx
            rcases hx with hx | rfl
            · exact hp x hx
            · exact hsd
          · rintro ⟨pre, e', post, he, hi', hp⟩
            rcases List.eq_nil_or_concat post with rfl | ⟨post', x, rfl⟩
            · have h0 := List.append_inj_right' he rfl
              simp only [List.cons.injEq, and_true] at h0
              subst h0
              exact absurd hi' hi
            · have : es ++ [e] = (pre ++ e' :: post') ++ [x] := by simpa using he
              have h0 := List.append_inj_left' this rfl
              exact ⟨pre, e', post', h0, hi', fun y hy => hp y (by simp [hy])⟩

/-! ## Registry -/

/-- The default backend, if any, is registered. -/
def DefaultOk {T : Type} (s : State T) : Prop := ∀ n, s.dflt = some n → (look n s.backends).isSome

theorem registerBackend_default {T : Type} {env : Env T} {s s' : State T} {b : Backend} (h : DefaultOk s)
    (hr : registerBackend env s b = some (.ok s') ∨ registerBackend env s b = some (.error s')) : DefaultOk s' := by
  unfold registerBackend State.setDefault at hr
  dsimp only at hr
  have hadd : ∀ n, (look n s.backends).isSome → (look n (put b.name b s.backends)).isSome := by
    intro n hn
    rw [look_put]
    split
    · rfl
    · exact hn
  split at hr
  · rcases hr with h' | h' <;> simp at h'
    subst h'; exact h
  · split at hr
    · rcases hr with h' | h' <;> simp at h'
      subst h'; exact h
    · split at hr
      · split at hr
        · rename_i hin
          rcases hr with h' | h' <;> simp at h'
          subst h'
          intro n hn
          simp only [Option.some.injEq] at hn
          subst hn
          exact hin
        · rcases hr with h' | h' <;> simp at h'
      · rcases hr with h' | h' <;> simp at h'
        subst h'
        intro n hn
        exact hadd n (h n hn)

theorem registerAll_default {T : Type} {env : Env T} {bs : List Backend} {s s' : State T} (h : DefaultOk s)
    (hr : registerAll env bs s = some (.ok s') ∨ registerAll env bs s = some (.error s')) : DefaultOk s' := by
  induction bs generalizing s with
  | nil =>
    rcases hr with h' | h' <;> simp [registerAll] at h'
    subst h'; exact h
  | cons b bs ih =>
    unfold registerAll at hr
    cases hb : registerBackend env s b with
    | none => simp [hb] at hr
    | some r =>
      cases r with
      | error x =>
        simp [hb] at hr
        subst hr
        exact registerBackend_default h (.inr hb)
      | ok x =>
        simp only [hb] at hr
        exact ih (registerBackend_default h (.inl hb)) hr

theorem effect_default {K : Method → Option ReqId → Json → Prop} {s s' : State w.Tree} {outs : List Out}
    (he : Effect w K s s' outs) (h : DefaultOk s) : DefaultOk s' := by
  induction he with
  | none => exact h
  | cache => exact h
  | ask s' pre m j id b _ _ _ ih => exact ih
  | initialized => exact h
  | shutdown => exact h
  | «initialize» b outs s' _ hr =>
    rcases hr with ⟨env, bs, hr⟩ | rfl
    · exact registerAll_default (s := { s with applyEdit := b }) h hr
    · exact h
  | register env b s' hr => exact registerBackend_default h hr
  | setDefault n s' id p hk hs =>
    unfold State.setDefault at hs
    split at hs
    · rename_i hin
      cases hs
      intro m hm
      simp only [Option.some.injEq] at hm
      subst hm; exact hin
    · cases hs
  | «open» u d id p hk ho => exact h
  | change u d cs s' id p hk hu hcs hd hs =>
    unfold State.changeDocument at hs
    simp only [Option.map_eq_some_iff] at hs
    obtain ⟨t, ht, rfl⟩ := hs
    exact h
  | settings => exact h

theorem run_invariant {P : State w.Tree → Prop}
    (hstep : ∀ env s msg s' outs r, P s → handleMessage w env s msg = .done s' outs r → P s')
    {es : List (Event w)} {s s' : State w.Tree} {outs : List Out} (h : P s) (hr : run w es s = some (s', outs)) :
    P s' := by
  induction es generalizing s outs with
  | nil => simp [run] at hr; rw [← hr.1]; exact h
  | cons e es ih =>
    unfold run at hr
    cases h1 : handleMessage w e.env s e.msg with
    | panic => simp [h1] at hr
    | exit => simp [h1] at hr
    | done a o r =>
      simp only [h1, Option.map_eq_some_iff, Prod.mk.injEq] at hr
      obtain ⟨x, hx, rfl, _⟩ := hr
      exact ih (hstep _ _ _ _ _ _ h h1) hx

/-! ## Request ids -/

theorem effect_counter {K : Method → Option ReqId → Json → Prop} {s s' : State w.Tree} {outs : List Out}
    (he : Effect w K s s' outs) :
    (s'.counter = s.counter ∧ requestIds outs = []) ∨ (s'.counter = s.counter + 1 ∧ requestIds outs = [s.counter]) := by
  cases he with
  | none _ h => exact .inl ⟨rfl, h⟩
  | cache _ _ _ _ _ _ h => exact .inl ⟨rfl, h⟩
  | ask s' pre m j id b h hc hp =>
    right
    exact ⟨by rw [hc], by simp [requestIds, hc]⟩
  | initialized _ _ _ _ h => exact .inl ⟨rfl, h⟩
  | shutdown _ _ _ _ _ h => exact .inl ⟨rfl, h⟩
  | «initialize» b outs s' h hr =>
    rcases hr with ⟨env, bs, hr⟩ | rfl
    · have := registerAll_keeps hr; exact .inl ⟨this.2.2.2, h⟩
    · exact .inl ⟨rfl, h⟩
  | register env b s' hr => have := registerBackend_keeps hr; exact .inl ⟨this.2.2.2, rfl⟩
  | setDefault n s' id p hk hs => have := setDefault_keeps hs; exact .inl ⟨this.2.2.2, rfl⟩
  | «open» u d id p hk ho => exact .inl ⟨rfl, rfl⟩
  | change u d cs s' id p hk hu hcs hd hs =>
    unfold State.changeDocument at hs
    simp only [Option.map_eq_some_iff] at hs
    obtain ⟨t, ht, rfl⟩ := hs
    exact .inl ⟨rfl, rfl⟩
  | settings => exact .inl ⟨rfl, rfl⟩

theorem run_requestIds {es : List (Event w)} {s s' : State w.Tree} {outs : List Out}
    (hr : run w es s = some (s', outs)) :
    s.counter ≤ s'.counter ∧ requestIds outs = List.range' s.counter (s'.counter - s.counter) := by
  induction es generalizing s outs with
  | nil =>
    simp only [run, Option.some.injEq, Prod.mk.injEq] at hr
    obtain ⟨rfl, rfl⟩ := hr
    simp [requestIds]
  | cons e es ih =>
    unfold run at hr
    cases h1 : handleMessage w e.env s e.msg with
    | panic => simp [h1] at hr
    | exit => simp [h1] at hr
    | done a o r =>
      simp only [h1, Option.map_eq_some_iff, Prod.mk.injEq] at hr
      obtain ⟨x, hx, rfl, rfl⟩ := hr
      obtain ⟨hle, hid⟩ := ih (s := a) (outs := x.2) hx
      obtain ⟨o', t, he, rfl, ht⟩ := handleMessage_effect h1
      rcases effect_counter he with ⟨hc, ho⟩ | ⟨hc, ho⟩
      · rw [hc] at hle hid
        exact ⟨hle, by simp [ho, ht, hid]⟩
      · refine ⟨by omega, ?_⟩
        simp only [requestIds_append, ho, ht, hid, hc]
        have : x.1.counter - s.counter = (x.1.counter - (s.counter + 1)) + 1 := by omega
        rw [this, List.range'_succ]
        rfl

end Verif.Srv
