import Verif.Grammar.Sparql
import Verif.Grammar.ParseLemmas
/-!
# The parser looks at the current token only

Two runs on token lists with a common beginning emit the same error reports until the common beginning is consumed.
-/
namespace Verif.Grammar
open Forest

/-- Advances (`none`) and error reports of an event list. -/
def view (ev : List Event) : List (Option (List Kind)) :=
  ev.filterMap (fun e => match e with
    | .advance => some none
    | .error x => some (some x)
    | _ => none)

theorem view_append (a b : List Event) : view (a ++ b) = view a ++ view b := by simp [view]

/-- The marker's event is still in place. -/
def Marked (mark : Nat) (s : PState) : Prop := ∃ A x B, s.events = A ++ .openNode x :: Forest.ser B ∧ A.length = mark

theorem Marked.step {m s t F w} (h : Marked m s) (k : Step s t F w) : Marked m t := by
  obtain ⟨A, x, B, h1, h2⟩ := h
  exact ⟨A, x, B.append F, by rw [k.1, h1, ser_append]; simp, h2⟩

/-- A statement finished (`false`) or returned (`true`) with this state. -/
def Res (m : Nat) (s : PState) (o : Out) (b : Bool) (t : PState) : Prop :=
  (b = false ∧ o = .next t) ∨ (b = true ∧ o = .ret t ∧ Marked m s)

theorem step_view {s t F w} (k : Step s t F w) : view s.events <+: view t.events := by
  rw [k.1, view_append]; exact List.prefix_append _ _

theorem view_node (k : Kind) (F G : Forest) : view (Forest.ser (.node k F G)) = view F.ser ++ view G.ser := by
  simp [Forest.ser, view]

theorem res_mono {G n m root st s b t} (h : Res m s (exec G n m root st s) b t) : view s.events <+: view t.events := by
  rcases h with ⟨-, h⟩ | ⟨-, h, hm⟩
  · obtain ⟨F, w, k⟩ := (exec_struct G n m root st s).1 t h
    exact step_view k
  · obtain ⟨F, w, k⟩ := (exec_struct G n m root st s).2 t h
    obtain ⟨A, x, B, h1, h2⟩ := hm
    rw [k.1 A x B h1 h2, h1, view_append, view_append, view_node, ser_append, view_append]
    have : view (.openNode x :: Forest.ser B) = view (Forest.ser B) := by simp [view]
    rw [this, ← List.append_assoc, ← List.append_assoc, List.append_assoc]
    exact List.prefix_append _ _

/-- The runs are still in step. -/
def InStep (N : Nat) (x y : List Kind) (s t : PState) : Prop :=
  ∃ a, a ≠ [] ∧ K.Eof ∉ a ∧ s.toks = a ++ x ∧ t.toks = a ++ y ∧ s.fuel = t.fuel ∧ view s.events = view t.events ∧
    (view s.events).count none + a.length = N

/-- The runs agreed on the common tokens. -/
def Past (N : Nat) (s t : PState) : Prop :=
  ∃ V, V.count none = N ∧ V <+: view s.events ∧ V <+: view t.events

theorem Past.mono {N s t s' t'} (h : Past N s t) (h1 : view s.events <+: view s'.events) (h2 : view t.events <+: view t'.events) :
    Past N s' t' := by
  obtain ⟨V, a, b, c⟩ := h
  exact ⟨V, a, b.trans h1, c.trans h2⟩

theorem InStep.cur_eq {N x y s t} (h : InStep N x y s t) : cur s.toks = cur t.toks ∧ cur s.toks ≠ K.Eof ∧ s.toks ≠ [] ∧ t.toks ≠ [] := by
  obtain ⟨a, h1, h2, h3, h4, -⟩ := h
  cases a with
  | nil => exact absurd rfl h1
  | cons k a =>
    rw [h3, h4]
    refine ⟨rfl, ?_, by simp, by simp⟩
    intro e; simp only [List.cons_append, cur] at e; exact h2 (by simp [e])

theorem InStep.nth {N x y s t} (h : InStep N x y s t) {c s'} (hs : s.nth = some (c, s')) :
    ∃ t', t.nth = some (c, t') ∧ InStep N x y s' t' := by
  have hc := h.cur_eq
  obtain ⟨a, h1, h2, h3, h4, h5, h6, h7⟩ := h
  unfold PState.nth at hs ⊢
  rw [← h5]
  split at hs
  · cases hs
  · next f hf =>
    cases hs
    refine ⟨{ t with fuel := f }, by rw [hc.1], a, h1, h2, h3, h4, rfl, h6, h7⟩

theorem InStep.nth_none {N x y s t} (h : InStep N x y s t) (hs : s.nth = none) : t.nth = none := by
  obtain ⟨a, h1, h2, h3, h4, h5, h6, h7⟩ := h
  unfold PState.nth at hs ⊢
  rw [← h5]
  split at hs
  · rfl
  · cases hs

/-- Same events pushed. -/
theorem InStep.push {N x y s t} (h : InStep N x y s t) (e : Event) (he : e ≠ .advance) : InStep N x y (s.push e) (t.push e) := by
  obtain ⟨a, h1, h2, h3, h4, h5, h6, h7⟩ := h
  refine ⟨a, h1, h2, h3, h4, h5, ?_, ?_⟩
  · simp only [PState.push, view_append, h6]
  · simp only [PState.push, view_append, List.count_append]
    have : (view [e]).count none = 0 := by cases e <;> simp_all [view]
    omega

theorem InStep.advance {N x y s t s' t'} (h : InStep N x y s t) (hs : s.advance = .next s') (ht : t.advance = .next t') :
    InStep N x y s' t' ∨ Past N s' t' := by
  obtain ⟨a, h1, h2, h3, h4, h5, h6, h7⟩ := h
  cases a with
  | nil => exact absurd rfl h1
  | cons k a =>
    unfold PState.advance at hs ht
    rw [h3] at hs; rw [h4] at ht
    simp only [List.cons_append, Out.next.injEq] at hs ht
    subst hs ht
    have hv : ∀ e : List Event, view (e ++ [.advance]) = view e ++ [none] := by intro e; simp [view]
    cases a with
    | nil =>
      right
      refine ⟨view (s.events ++ [.advance]), ?_, List.prefix_refl _, ?_⟩
      · rw [hv]; simp only [List.count_append, List.length_singleton] at h7 ⊢; simp; omega
      · simp only [hv, h6]; exact List.prefix_refl _
    | cons k' a =>
      left
      refine ⟨k' :: a, by simp, fun e => h2 (List.mem_cons_of_mem _ e), rfl, rfl, rfl, ?_, ?_⟩
      · simp only [hv, h6]
      · simp only [hv, List.count_append, List.length_cons] at h7 ⊢; simp; omega

theorem InStep.expect {N x y s t s' t'} (h : InStep N x y s t) (k : Kind) (hs : s.expect k = .next s') (ht : t.expect k = .next t') :
    InStep N x y s' t' ∨ Past N s' t' := by
  unfold PState.expect at hs ht
  cases hn : s.nth with
  | none => rw [hn] at hs; cases hs
  | some p =>
    obtain ⟨c, s1⟩ := p
    obtain ⟨t1, ht1, h1⟩ := h.nth hn
    rw [hn] at hs; rw [ht1] at ht
    simp only at hs ht
    split at hs
    · next e => rw [if_pos e] at ht; exact h1.advance hs ht
    · next e =>
      rw [if_neg e] at ht
      cases hs; cases ht
      exact Or.inl (h1.push _ (by simp))

theorem skip_local (rec : List Kind) (x y : List Kind) : ∀ (a : List Kind), ∀ f r f1 n r' f1' n',
    skipUntil rec (a ++ x) f = some (r, f1, n) → skipUntil rec (a ++ y) f = some (r', f1', n') →
    (∃ a', a' ≠ [] ∧ r = a' ++ x ∧ r' = a' ++ y ∧ f1 = f1' ∧ n = n' ∧ n + a'.length = a.length ∧ ∀ z ∈ a', z ∈ a) ∨ (a.length ≤ n ∧ a.length ≤ n') := by
  intro a
  induction a with
  | nil => intro f r f1 n r' f1' n' _ _; exact Or.inr ⟨Nat.zero_le _, Nat.zero_le _⟩
  | cons k a ih =>
    intro f r f1 n r' f1' n' h h'
    cases f with
    | zero => simp [skipUntil] at h
    | succ f =>
      simp only [List.cons_append, skipUntil] at h h'
      split at h
      · next hk =>
        rw [if_pos hk] at h'
        cases h; cases h'
        exact Or.inl ⟨k :: a, by simp, rfl, rfl, rfl, rfl, by simp, fun z hz => hz⟩
      · next hk =>
        rw [if_neg hk] at h'
        split at h
        · cases h
        · next r1 g1 n1 e =>
          split at h'
          · cases h'
          · next r2 g2 n2 e' =>
            cases h; cases h'
            rcases ih _ _ _ _ _ _ _ e e' with ⟨a', b1, b2, b3, b4, b5, b6, b7⟩ | ⟨b1, b2⟩
            · exact Or.inl ⟨a', b1, b2, b3, b4, by omega, by simp only [List.length_cons]; omega,
                fun z hz => List.mem_cons_of_mem _ (b7 z hz)⟩
            · right; simp only [List.length_cons]; omega

theorem view_skip (e : List Event) (n m : Nat) (k : Kind) (he : ∃ A x, e = A ++ [.openNode x] ∧ A.length = m) :
    view ((PState.close { toks := r, fuel := f, events := e ++ List.replicate n .advance } m k).events) = view e ++ List.replicate n none := by
  obtain ⟨A, x, rfl, rfl⟩ := he
  simp only [PState.close, List.append_assoc, List.singleton_append]
  rw [List.set_append_right _ _ (Nat.le_refl _)]
  simp only [Nat.sub_self, List.set_cons_zero, List.append_assoc, view_append]
  have h1 : view (.openNode k :: List.replicate n .advance) = List.replicate n none := by
    simp [view]
  have h2 : view (Event.close :: []) = [] := rfl
  have h3 : view [.openNode x] = [] := rfl
  rw [h1, h2, h3]
  simp

/-- An error node made of skipped tokens. -/
theorem InStep.skip {N x y s t} (h : InStep N x y s t) (rec : List Kind) (k : Kind) (e : Kind) {r f n r' f' n'}
    (hs : skipUntil rec s.toks s.fuel = some (r, f, n)) (ht : skipUntil rec t.toks t.fuel = some (r', f', n')) :
    let s1 := PState.close { toks := r, fuel := f, events := (s.push (.openNode e)).events ++ List.replicate n .advance } s.events.length k
    let t1 := PState.close { toks := r', fuel := f', events := (t.push (.openNode e)).events ++ List.replicate n' .advance } t.events.length k
    InStep N x y s1 t1 ∨ Past N s1 t1 := by
  intro s1 t1
  obtain ⟨a, h1, h2, h3, h4, h5, h6, h7⟩ := h
  have v1 : view s1.events = view s.events ++ List.replicate n none := by
    refine (view_skip _ _ _ _ ⟨s.events, e, rfl, rfl⟩).trans ?_
    simp only [PState.push, view_append]; simp [view]
  have v2 : view t1.events = view t.events ++ List.replicate n' none := by
    refine (view_skip _ _ _ _ ⟨t.events, e, rfl, rfl⟩).trans ?_
    simp only [PState.push, view_append]; simp [view]
  rw [h3] at hs; rw [h4, ← h5] at ht
  have hc : ∀ m : Nat, (List.replicate m (none : Option (List Kind))).count none = m := fun m => List.count_replicate_self ..
  rcases skip_local rec x y a _ _ _ _ _ _ _ hs ht with ⟨a', b1, b2, b3, b4, b5, b6, hsuf⟩ | ⟨b1, b2⟩
  · left
    exact ⟨a', b1, fun z => h2 (hsuf _ z), b2, b3, b4, by rw [v1, v2, h6, b5], by rw [v1, List.count_append, hc]; omega⟩
  · right
    refine ⟨view s.events ++ List.replicate a.length none, by rw [List.count_append, hc]; omega, ?_, ?_⟩
    · rw [v1]; exact List.prefix_append_right_inj _ |>.2 ⟨List.replicate (n - a.length) none, by rw [List.replicate_append_replicate]; congr 1; omega⟩
    · rw [v2, h6]; exact List.prefix_append_right_inj _ |>.2 ⟨List.replicate (n' - a.length) none, by rw [List.replicate_append_replicate]; congr 1; omega⟩

theorem InStep.errorUntil {N x y s t s' t'} (h : InStep N x y s t) (ex rec : List Kind) (hs : s.errorUntil ex rec = .next s')
    (ht : t.errorUntil ex rec = .next t') : InStep N x y s' t' ∨ Past N s' t' := by
  unfold PState.errorUntil at hs ht
  have h0 := h.push (.error ex) (by simp)
  dsimp only at hs ht
  cases hn : (s.push (.error ex)).nth with
  | none => rw [hn] at hs; cases hs
  | some p =>
    obtain ⟨c, s1⟩ := p
    obtain ⟨t1, ht1, h1⟩ := h0.nth hn
    rw [hn] at hs; rw [ht1] at ht
    dsimp only at hs ht
    have he := h1.cur_eq
    simp only [he.2.2.1, he.2.2.2, or_false] at hs ht
    split at hs
    · next e => rw [if_pos e] at ht; cases hs; cases ht; exact Or.inl h1
    · next e =>
      rw [if_neg e] at ht
      split at hs
      · cases hs
      · next r f n hr =>
        split at ht
        · cases ht
        · next r' f' n' hr' =>
          cases hs; cases ht
          exact h1.skip rec K.Error K.Error hr hr'

theorem InStep.swallow {N x y s t s' t'} (h : InStep N x y s t) (hs : s.swallow = .next s')
    (ht : t.swallow = .next t') : InStep N x y s' t' ∨ Past N s' t' := by
  unfold PState.swallow at hs ht
  cases hn : s.nth with
  | none => rw [hn] at hs; cases hs
  | some p =>
    obtain ⟨c, s1⟩ := p
    obtain ⟨t1, ht1, h1⟩ := h.nth hn
    rw [hn] at hs; rw [ht1] at ht
    dsimp only at hs ht
    split at hs
    · next e => rw [if_pos e] at ht; cases hs; cases ht; exact Or.inl h1
    · next e =>
      rw [if_neg e] at ht
      split at hs
      · cases hs
      · next r f n hr =>
        split at ht
        · cases ht
        · next r' f' n' hr' =>
          cases hs; cases ht
          exact h1.skip _ K.Error K.Error hr hr'

theorem view_close {s : PState} {m : Nat} (k : Kind) (h : ∃ A x B, s.events = A ++ .openNode x :: B ∧ A.length = m) :
    view (s.close m k).events = view s.events := by
  obtain ⟨A, x, B, h1, rfl⟩ := h
  rw [close_events A (.openNode x) B s k h1, h1]
  simp [view]

theorem advance_events {s s' : PState} (h : s.advance = .next s') : s'.events = s.events ++ [.advance] := by
  unfold PState.advance at h
  split at h
  · cases h
  · cases h; rfl

theorem InStep.closed {N x y s t} (h : InStep N x y s t ∨ Past N s t) {m m' : Nat} (k : Kind)
    (hs : ∃ A x B, s.events = A ++ .openNode x :: B ∧ A.length = m) (ht : ∃ A x B, t.events = A ++ .openNode x :: B ∧ A.length = m') :
    InStep N x y (s.close m k) (t.close m' k) ∨ Past N (s.close m k) (t.close m' k) := by
  have e1 := view_close k hs
  have e2 := view_close k ht
  rcases h with ⟨a, h1, h2, h3, h4, h5, h6, h7⟩ | ⟨V, h1, h2, h3⟩
  · exact Or.inl ⟨a, h1, h2, h3, h4, h5, by rw [e1, e2, h6], by rw [e1]; exact h7⟩
  · exact Or.inr ⟨V, h1, by rw [e1]; exact h2, by rw [e2]; exact h3⟩

theorem InStep.withError {N x y s t s' t'} (h : InStep N x y s t) (ex : List Kind) (hs : s.advanceWithError ex = .next s')
    (ht : t.advanceWithError ex = .next t') : InStep N x y s' t' ∨ Past N s' t' := by
  unfold PState.advanceWithError at hs ht
  have h0 := h.push (.error ex) (by simp)
  dsimp only at hs ht
  cases hn : (s.push (.error ex)).nth with
  | none => rw [hn] at hs; cases hs
  | some p =>
    obtain ⟨c, s1⟩ := p
    obtain ⟨t1, ht1, h1⟩ := h0.nth hn
    rw [hn] at hs; rw [ht1] at ht
    dsimp only at hs ht
    split at hs
    · next e => rw [if_pos e] at ht; cases hs; cases ht; exact Or.inl h1
    · next e =>
      rw [if_neg e] at ht
      have h2 := h1.push (.openNode K.Error) (by simp)
      cases a1 : (s1.push (.openNode K.Error)).advance with
      | next s2 =>
        cases a2 : (t1.push (.openNode K.Error)).advance with
        | next t2 =>
          rw [a1] at hs; rw [a2] at ht
          dsimp only at hs ht
          cases hs; cases ht
          exact InStep.closed (h2.advance a1 a2) _ ⟨s1.events, K.Error, [.advance], by rw [advance_events a1]; simp [PState.push], rfl⟩
            ⟨t1.events, K.Error, [.advance], by rw [advance_events a2]; simp [PState.push], rfl⟩
        | _ => rw [a2] at ht; cases ht
      | _ => rw [a1] at hs; cases hs

theorem res_next {m s o t} (h : Res m s o false t) : o = .next t := by
  rcases h with ⟨-, h⟩ | ⟨h, -⟩
  · exact h
  · cases h

/-- **The parser is local.** -/
theorem exec_local (G : Grammar) (N : Nat) (x y : List Kind) (n : Nat) : ∀ (m m' : Nat) (root : Kind) (st : Stmt) (s t : PState),
    InStep N x y s t → ∀ b s' b' t', Res m s (exec G n m root st s) b s' → Res m' t (exec G n m' root st t) b' t' →
    (b = false ∧ b' = false ∧ InStep N x y s' t') ∨ Past N s' t' := by
  induction n with
  | zero =>
    intro m m' root st s t _ b s' b' t' h
    rcases h with ⟨-, h⟩ | ⟨-, h, -⟩ <;> simp [exec] at h
  | succ n ih =>
    intro m m' root st s t hst b s' b' t' h h'
    have lift : ∀ {u v}, (InStep N x y u v ∨ Past N u v) → (false = false ∧ false = false ∧ InStep N x y u v) ∨ Past N u v := by
      intro u v h
      rcases h with h | h
      · exact Or.inl ⟨rfl, rfl, h⟩
      · exact Or.inr h
    have after : ∀ {s1 : PState} {c : Kind}, s.nth = some (c, s1) → ∀ {o b s'}, Res m s o b s' → Res m s1 o b s' := by
      intro s1 c hn o b s' h
      rcases h with h | ⟨h1, h2, h3⟩
      · exact Or.inl h
      · exact Or.inr ⟨h1, h2, h3.step (nth_step hn)⟩
    have after' : ∀ {s1 : PState} {c : Kind}, t.nth = some (c, s1) → ∀ {o b s'}, Res m' t o b s' → Res m' s1 o b s' := by
      intro s1 c hn o b s' h
      rcases h with h | ⟨h1, h2, h3⟩
      · exact Or.inl h
      · exact Or.inr ⟨h1, h2, h3.step (nth_step hn)⟩
    have seqCase : ∀ (A B : Stmt) (u v : PState), InStep N x y u v →
        Res m u (match exec G n m root A u with | .next s' => exec G n m root B s' | o => o) b s' →
        Res m' v (match exec G n m' root A v with | .next s' => exec G n m' root B s' | o => o) b' t' →
        (b = false ∧ b' = false ∧ InStep N x y s' t') ∨ Past N s' t' := by
      intro A B u v huv h h'
      have inv : ∀ {m : Nat} {u : PState} {b s'}, Res m u (match exec G n m root A u with | .next s' => exec G n m root B s' | o => o) b s' →
          (∃ p, exec G n m root A u = .next p ∧ Res m p (exec G n m root B p) b s') ∨ (b = true ∧ Res m u (exec G n m root A u) true s') := by
        intro m u b s' h
        cases hA : exec G n m root A u with
        | next p =>
          rw [hA] at h
          left
          refine ⟨p, rfl, ?_⟩
          rcases h with h | ⟨h1, h2, h3⟩
          · exact Or.inl h
          · obtain ⟨F, w, k⟩ := (exec_struct G n m root A u).1 p hA
            exact Or.inr ⟨h1, h2, h3.step k⟩
        | ret p =>
          rw [hA] at h
          right
          rcases h with ⟨-, h⟩ | ⟨h1, h2, h3⟩
          · cases h
          · cases h2; exact ⟨h1, Or.inr ⟨rfl, rfl, h3⟩⟩
        | stuck => rw [hA] at h; rcases h with ⟨-, h⟩ | ⟨-, h, -⟩ <;> cases h
        | crash => rw [hA] at h; rcases h with ⟨-, h⟩ | ⟨-, h, -⟩ <;> cases h
        | deep => rw [hA] at h; rcases h with ⟨-, h⟩ | ⟨-, h, -⟩ <;> cases h
      rcases inv h with ⟨p, hp, hr⟩ | ⟨rfl, hr⟩ <;> rcases inv h' with ⟨p', hp', hr'⟩ | ⟨rfl, hr'⟩
      · rcases ih m m' root A u v huv false p false p' (Or.inl ⟨rfl, hp⟩) (Or.inl ⟨rfl, hp'⟩) with ⟨-, -, h1⟩ | h1
        · exact ih m m' root B p p' h1 _ _ _ _ hr hr'
        · exact Or.inr (h1.mono (res_mono hr) (res_mono hr'))
      · rcases ih m m' root A u v huv false p true t' (Or.inl ⟨rfl, hp⟩) hr' with ⟨-, h1, -⟩ | h1
        · cases h1
        · exact Or.inr (h1.mono (res_mono hr) (List.prefix_refl _))
      · rcases ih m m' root A u v huv true s' false p' hr (Or.inl ⟨rfl, hp'⟩) with ⟨h1, -⟩ | h1
        · cases h1
        · exact Or.inr (h1.mono (List.prefix_refl _) (res_mono hr'))
      · rcases ih m m' root A u v huv true s' true t' hr hr' with ⟨h1, -⟩ | h1
        · cases h1
        · exact Or.inr h1
    cases st with
    | skip =>
      simp only [exec] at h h'
      rcases h with ⟨rfl, h⟩ | ⟨-, h, -⟩ <;> rcases h' with ⟨rfl, h'⟩ | ⟨-, h', -⟩ <;> cases h <;> cases h'
      exact Or.inl ⟨rfl, rfl, hst⟩
    | seq A B =>
      simp only [exec] at h h'
      exact seqCase A B s t hst h h'
    | expect k =>
      simp only [exec] at h h'
      rcases h with ⟨rfl, h⟩ | ⟨-, h, -⟩
      · rcases h' with ⟨rfl, h'⟩ | ⟨-, h', -⟩
        · exact lift (hst.expect k h h')
        · exact absurd h' expect_not_ret
      · exact absurd h expect_not_ret
    | call k =>
      simp only [exec] at h h'
      cases hf : G k with
      | none => rw [hf] at h; rcases h with ⟨-, h⟩ | ⟨-, h, -⟩ <;> cases h
      | some f =>
        rw [hf] at h h'
        dsimp only at h h'
        have inv : ∀ {m : Nat} {v u : PState} {b s'}, Res m v (match exec G n u.events.length f.kind f.body (u.push (.openNode K.Error)) with
              | .next s' => match (if f.swallow then s'.swallow else .next s') with
                | .next s' => Out.next (s'.close u.events.length f.kind)
                | o => o
              | .ret s' => .next s'
              | o => o) b s' → b = false ∧ ((∃ p q, exec G n u.events.length f.kind f.body (u.push (.openNode K.Error)) = .next p ∧
                  (if f.swallow then p.swallow else .next p) = .next q ∧ s' = q.close u.events.length f.kind ∧
                  (∃ F w, Step (u.push (.openNode K.Error)) q F w)) ∨
                exec G n u.events.length f.kind f.body (u.push (.openNode K.Error)) = .ret s') := by
          intro m v u b s' h
          cases hA : exec G n u.events.length f.kind f.body (u.push (.openNode K.Error)) with
          | next p =>
            rw [hA] at h
            dsimp only at h
            cases hB : (if f.swallow then p.swallow else .next p) with
            | next q =>
              rw [hB] at h
              rcases h with ⟨rfl, h⟩ | ⟨-, h, -⟩ <;> cases h
              refine ⟨rfl, Or.inl ⟨p, q, rfl, hB, rfl, ?_⟩⟩
              obtain ⟨F, w, k⟩ := (exec_struct G n _ _ _ _).1 p hA
              split at hB
              · obtain ⟨F2, w2, g2, -⟩ := swallow_next hB
                exact ⟨_, _, k.trans g2⟩
              · cases hB; exact ⟨F, w, k⟩
            | ret q =>
              exfalso
              split at hB
              · exact swallow_not_ret hB
              · cases hB
            | stuck => rw [hB] at h; rcases h with ⟨-, h⟩ | ⟨-, h, -⟩ <;> cases h
            | crash => rw [hB] at h; rcases h with ⟨-, h⟩ | ⟨-, h, -⟩ <;> cases h
            | deep => rw [hB] at h; rcases h with ⟨-, h⟩ | ⟨-, h, -⟩ <;> cases h
          | ret p =>
            rw [hA] at h
            rcases h with ⟨rfl, h⟩ | ⟨-, h, -⟩ <;> cases h
            exact ⟨rfl, Or.inr rfl⟩
          | stuck => rw [hA] at h; rcases h with ⟨-, h⟩ | ⟨-, h, -⟩ <;> cases h
          | crash => rw [hA] at h; rcases h with ⟨-, h⟩ | ⟨-, h, -⟩ <;> cases h
          | deep => rw [hA] at h; rcases h with ⟨-, h⟩ | ⟨-, h, -⟩ <;> cases h
        have marked : ∀ u : PState, Marked u.events.length (u.push (.openNode K.Error)) := fun u =>
          ⟨u.events, K.Error, .nil, by simp [PState.push, Forest.ser], rfl⟩
        have opened : ∀ {u q : PState}, (∃ F w, Step (u.push (.openNode K.Error)) q F w) →
            ∃ A x B, q.events = A ++ .openNode x :: B ∧ A.length = u.events.length := by
          rintro u q ⟨F, w, k⟩
          exact ⟨u.events, K.Error, F.ser, by rw [k.1]; simp [PState.push], rfl⟩
        have enter : ∀ u v : PState, InStep N x y u v → ∀ {mm mm' z z'}, Res mm z (match exec G n u.events.length f.kind f.body (u.push (.openNode K.Error)) with
              | .next s' => match (if f.swallow then s'.swallow else .next s') with
                | .next s' => Out.next (s'.close u.events.length f.kind)
                | o => o
              | .ret s' => .next s'
              | o => o) b s' → Res mm' z' (match exec G n v.events.length f.kind f.body (v.push (.openNode K.Error)) with
              | .next s' => match (if f.swallow then s'.swallow else .next s') with
                | .next s' => Out.next (s'.close v.events.length f.kind)
                | o => o
              | .ret s' => .next s'
              | o => o) b' t' → (b = false ∧ b' = false ∧ InStep N x y s' t') ∨ Past N s' t' := by
          intro u v huv mm mm' z z' h h'
          have hp := huv.push (.openNode K.Error) (by simp)
          have shut : ∀ {u p q : PState}, exec G n u.events.length f.kind f.body (u.push (.openNode K.Error)) = .next p →
              (if f.swallow then p.swallow else .next p) = .next q → (∃ F w, Step (u.push (.openNode K.Error)) q F w) →
              view p.events <+: view (q.close u.events.length f.kind).events := by
            intro u p q h1 h2 h3
            rw [view_close _ (opened h3)]
            split at h2
            · obtain ⟨F2, w2, g2, -⟩ := swallow_next h2
              exact step_view g2
            · cases h2; exact List.prefix_refl _
          obtain ⟨rfl, ⟨p, q, h1, h2, rfl, h4⟩ | h1⟩ := inv h <;> obtain ⟨rfl, ⟨p', q', h1', h2', rfl, h4'⟩ | h1'⟩ := inv h'
          · rcases ih u.events.length v.events.length f.kind f.body _ _ hp false p false p' (Or.inl ⟨rfl, h1⟩) (Or.inl ⟨rfl, h1'⟩) with ⟨-, -, hi⟩ | hi
            · refine lift (InStep.closed ?_ f.kind (opened h4) (opened h4'))
              split at h2
              · next hw => rw [if_pos hw] at h2'; exact hi.swallow h2 h2'
              · next hw => rw [if_neg hw] at h2'; cases h2; cases h2'; exact Or.inl hi
            · exact Or.inr (hi.mono (shut h1 h2 h4) (shut h1' h2' h4'))
          · rcases ih u.events.length v.events.length f.kind f.body _ _ hp false p true t' (Or.inl ⟨rfl, h1⟩) (Or.inr ⟨rfl, h1', marked _⟩) with ⟨-, hi, -⟩ | hi
            · cases hi
            · exact Or.inr (hi.mono (shut h1 h2 h4) (List.prefix_refl _))
          · rcases ih u.events.length v.events.length f.kind f.body _ _ hp true s' false p' (Or.inr ⟨rfl, h1, marked _⟩) (Or.inl ⟨rfl, h1'⟩) with ⟨hi, -⟩ | hi
            · cases hi
            · exact Or.inr (hi.mono (List.prefix_refl _) (shut h1' h2' h4'))
          · rcases ih u.events.length v.events.length f.kind f.body _ _ hp true s' true t' (Or.inr ⟨rfl, h1, marked _⟩) (Or.inr ⟨rfl, h1', marked _⟩) with ⟨hi, -⟩ | hi
            · cases hi
            · exact Or.inr hi
        cases hg : f.guard with
        | none =>
          rw [hg] at h h'
          exact enter s t hst h h'
        | some ks =>
          rw [hg] at h h'
          dsimp only at h h'
          cases hn : s.nth with
          | none => rw [hn] at h; rcases h with ⟨-, h⟩ | ⟨-, h, -⟩ <;> cases h
          | some p =>
            obtain ⟨c, s1⟩ := p
            obtain ⟨t1, ht1, h1⟩ := hst.nth hn
            rw [hn] at h; rw [ht1] at h'
            dsimp only at h h'
            by_cases hc : c ∈ ks
            · rw [if_pos hc] at h h'
              exact enter s1 t1 h1 h h'
            · rw [if_neg hc] at h h'
              rcases h with ⟨rfl, h⟩ | ⟨-, h, -⟩ <;> rcases h' with ⟨rfl, h'⟩ | ⟨-, h', -⟩ <;> cases h <;> cases h'
              exact Or.inl ⟨rfl, rfl, h1⟩
    | sync ks =>
      simp only [exec] at h h'
      cases hn : s.nth with
      | none => rw [hn] at h; rcases h with ⟨-, h⟩ | ⟨-, h, -⟩ <;> cases h
      | some p =>
        obtain ⟨c, s1⟩ := p
        obtain ⟨t1, ht1, h1⟩ := hst.nth hn
        rw [hn] at h; rw [ht1] at h'
        have he := h1.cur_eq
        simp only [he.2.2.1, he.2.2.2, or_false] at h h'
        by_cases hc : c ∈ ks
        · rw [if_pos hc] at h h'
          rcases h with ⟨rfl, h⟩ | ⟨-, h, -⟩ <;> rcases h' with ⟨rfl, h'⟩ | ⟨-, h', -⟩ <;> cases h <;> cases h'
          exact Or.inl ⟨rfl, rfl, h1⟩
        · rw [if_neg hc] at h h'
          rcases h with ⟨rfl, h⟩ | ⟨-, h, -⟩
          · rcases h' with ⟨rfl, h'⟩ | ⟨-, h', -⟩
            · exact lift (h1.errorUntil _ _ h h')
            · exact absurd h' errorUntil_not_ret
          · exact absurd h errorUntil_not_ret
    | opt ks B =>
      simp only [exec] at h h'
      cases hn : s.nth with
      | none => rw [hn] at h; rcases h with ⟨-, h⟩ | ⟨-, h, -⟩ <;> cases h
      | some p =>
        obtain ⟨c, s1⟩ := p
        obtain ⟨t1, ht1, h1⟩ := hst.nth hn
        rw [hn] at h; rw [ht1] at h'
        dsimp only at h h'
        by_cases hc : c ∈ ks
        · rw [if_pos hc] at h h'
          exact ih m m' root B s1 t1 h1 _ _ _ _ (after hn h) (after' ht1 h')
        · rw [if_neg hc] at h h'
          rcases h with ⟨rfl, h⟩ | ⟨-, h, -⟩ <;> rcases h' with ⟨rfl, h'⟩ | ⟨-, h', -⟩ <;> cases h <;> cases h'
          exact Or.inl ⟨rfl, rfl, h1⟩
    | rep ks B =>
      simp only [exec] at h h'
      cases hn : s.nth with
      | none => rw [hn] at h; rcases h with ⟨-, h⟩ | ⟨-, h, -⟩ <;> cases h
      | some p =>
        obtain ⟨c, s1⟩ := p
        obtain ⟨t1, ht1, h1⟩ := hst.nth hn
        rw [hn] at h; rw [ht1] at h'
        dsimp only at h h'
        by_cases hc : c ∈ ks
        · rw [if_pos hc] at h h'
          have h := after hn h
          have h' := after' ht1 h'
          have inv : ∀ {m : Nat} {u : PState} {b s'}, Res m u (match exec G n m root B u with
              | .next s' => if s'.toks.length = u.toks.length then .next s' else exec G n m root (.rep ks B) s'
              | o => o) b s' →
              (∃ p, exec G n m root B u = .next p ∧ Res m p (if p.toks.length = u.toks.length then .next p else exec G n m root (.rep ks B) p) b s') ∨
                (b = true ∧ Res m u (exec G n m root B u) true s') := by
            intro m u b s' h
            cases hA : exec G n m root B u with
            | next p =>
              rw [hA] at h
              left
              refine ⟨p, rfl, ?_⟩
              rcases h with h | ⟨h1, h2, h3⟩
              · exact Or.inl h
              · obtain ⟨F, w, k⟩ := (exec_struct G n m root B u).1 p hA
                exact Or.inr ⟨h1, h2, h3.step k⟩
            | ret p =>
              rw [hA] at h
              right
              rcases h with ⟨-, h⟩ | ⟨h1, h2, h3⟩
              · cases h
              · cases h2; exact ⟨h1, Or.inr ⟨rfl, rfl, h3⟩⟩
            | stuck => rw [hA] at h; rcases h with ⟨-, h⟩ | ⟨-, h, -⟩ <;> cases h
            | crash => rw [hA] at h; rcases h with ⟨-, h⟩ | ⟨-, h, -⟩ <;> cases h
            | deep => rw [hA] at h; rcases h with ⟨-, h⟩ | ⟨-, h, -⟩ <;> cases h
          have mono : ∀ {m : Nat} {u p : PState} {b s'}, Res m p (if p.toks.length = u.toks.length then .next p else exec G n m root (.rep ks B) p) b s' →
              view p.events <+: view s'.events := by
            intro m u p b s' h
            split at h
            · rcases h with ⟨-, h⟩ | ⟨-, h, -⟩ <;> cases h
              exact List.prefix_refl _
            · exact res_mono h
          rcases inv h with ⟨p, hp, hr⟩ | ⟨rfl, hr⟩ <;> rcases inv h' with ⟨p', hp', hr'⟩ | ⟨rfl, hr'⟩
          · rcases ih m m' root B s1 t1 h1 false p false p' (Or.inl ⟨rfl, hp⟩) (Or.inl ⟨rfl, hp'⟩) with ⟨-, -, h2⟩ | h2
            · have hl : p.toks.length = s1.toks.length ↔ p'.toks.length = t1.toks.length := by
                obtain ⟨a, -, -, e1, e2, -⟩ := h1
                obtain ⟨a', -, -, e3, e4, -⟩ := h2
                rw [e1, e2, e3, e4]; simp only [List.length_append]; omega
              by_cases hq : p.toks.length = s1.toks.length
              · rw [if_pos hq] at hr; rw [if_pos (hl.1 hq)] at hr'
                rcases hr with ⟨rfl, hr⟩ | ⟨-, hr, -⟩ <;> rcases hr' with ⟨rfl, hr'⟩ | ⟨-, hr', -⟩ <;> cases hr <;> cases hr'
                exact Or.inl ⟨rfl, rfl, h2⟩
              · rw [if_neg hq] at hr; rw [if_neg (fun e => hq (hl.2 e))] at hr'
                exact ih m m' root _ p p' h2 _ _ _ _ hr hr'
            · exact Or.inr (h2.mono (mono hr) (mono hr'))
          · rcases ih m m' root B s1 t1 h1 false p true t' (Or.inl ⟨rfl, hp⟩) hr' with ⟨-, h2, -⟩ | h2
            · cases h2
            · exact Or.inr (h2.mono (mono hr) (List.prefix_refl _))
          · rcases ih m m' root B s1 t1 h1 true s' false p' hr (Or.inl ⟨rfl, hp'⟩) with ⟨h2, -⟩ | h2
            · cases h2
            · exact Or.inr (h2.mono (List.prefix_refl _) (mono hr'))
          · rcases ih m m' root B s1 t1 h1 true s' true t' hr hr' with ⟨h2, -⟩ | h2
            · cases h2
            · exact Or.inr h2
        · rw [if_neg hc] at h h'
          rcases h with ⟨rfl, h⟩ | ⟨-, h, -⟩ <;> rcases h' with ⟨rfl, h'⟩ | ⟨-, h', -⟩ <;> cases h <;> cases h'
          exact Or.inl ⟨rfl, rfl, h1⟩
    | alt arms =>
      simp only [exec] at h h'
      cases hn : s.nth with
      | none => rw [hn] at h; rcases h with ⟨-, h⟩ | ⟨-, h, -⟩ <;> cases h
      | some p =>
        obtain ⟨c, s1⟩ := p
        obtain ⟨t1, ht1, h1⟩ := hst.nth hn
        rw [hn] at h; rw [ht1] at h'
        exact ih m m' root arms s1 t1 h1 _ _ _ _ (after hn h) (after' ht1 h')
    | arm ks B rest =>
      simp only [exec] at h h'
      rw [← hst.cur_eq.1] at h'
      by_cases hc : cur s.toks ∈ ks
      · rw [if_pos hc] at h h'
        exact ih m m' root B s t hst _ _ _ _ h h'
      · rw [if_neg hc] at h h'
        exact ih m m' root rest s t hst _ _ _ _ h h'
    | altEnd ex =>
      simp only [exec] at h h'
      rw [← hst.cur_eq.1] at h'
      rw [if_neg hst.cur_eq.2.1] at h h'
      cases ex with
      | none =>
        rcases h with ⟨rfl, h⟩ | ⟨-, h, -⟩ <;> rcases h' with ⟨rfl, h'⟩ | ⟨-, h', -⟩ <;> cases h <;> cases h'
        exact Or.inl ⟨rfl, rfl, hst⟩
      | some ex =>
        rcases h with ⟨rfl, h⟩ | ⟨-, h, -⟩
        · rcases h' with ⟨rfl, h'⟩ | ⟨-, h', -⟩
          · exact lift (hst.withError ex h h')
          · exact absurd h' advanceWithError_not_ret
        · exact absurd h advanceWithError_not_ret

theorem view_reports (F : Forest) : ∀ m, ∀ q ∈ F.reports m, ∃ L R, view F.ser = L ++ some q.2 :: R ∧ m + L.count none = q.1 := by
  have hcount : ∀ F : Forest, (view F.ser).count none = F.toks := by
    intro F
    induction F with
    | nil => rfl
    | tok r ih => simp only [Forest.ser, Forest.toks]; simp only [view, List.filterMap_cons, List.count_cons] at ih ⊢; simp; omega
    | err e r ih => simp only [Forest.ser, Forest.toks]; simp only [view, List.filterMap_cons, List.count_cons] at ih ⊢; simp; omega
    | node k c r ihc ihr => rw [view_node, List.count_append, ihc, ihr]; simp [Forest.toks]
  induction F with
  | nil => intro m q h; simp [Forest.reports] at h
  | tok r ih =>
    intro m q h
    obtain ⟨L, R, h1, h2⟩ := ih (m + 1) q h
    refine ⟨none :: L, R, ?_, ?_⟩
    · have : view (Forest.ser (.tok r)) = none :: view r.ser := rfl
      rw [this, h1]; rfl
    · simp only [List.count_cons]; simp; omega
  | err e r ih =>
    intro m q h
    have hv : view (Forest.ser (.err e r)) = some e :: view r.ser := rfl
    rcases List.mem_cons.1 h with rfl | h
    · exact ⟨[], view r.ser, hv, rfl⟩
    · obtain ⟨L, R, h1, h2⟩ := ih m q h
      exact ⟨some e :: L, R, by rw [hv, h1]; rfl, by simp only [List.count_cons]; simp; omega⟩
  | node k c r ihc ihr =>
    intro m q h
    rcases List.mem_append.1 h with h | h
    · obtain ⟨L, R, h1, h2⟩ := ihc m q h
      exact ⟨L, R ++ view r.ser, by rw [view_node, h1]; simp, h2⟩
    · obtain ⟨L, R, h1, h2⟩ := ihr (m + c.toks) q h
      exact ⟨view c.ser ++ L, R, by rw [view_node, h1]; simp, by rw [List.count_append, hcount]; omega⟩

theorem view_noErr {F : Forest} (h : F.noErr = true) : ∀ e, some e ∉ view F.ser := by
  induction F with
  | nil => intro e he; cases he
  | tok r ih =>
    intro e he
    have hv : view (Forest.ser (.tok r)) = none :: view r.ser := rfl
    rw [hv] at he
    rcases List.mem_cons.1 he with he | he
    · cases he
    · exact ih h e he
  | err e r ih => simp [Forest.noErr] at h
  | node k c r ihc ihr =>
    intro e he
    simp only [Forest.noErr, Bool.and_eq_true] at h
    rw [view_node] at he
    rcases List.mem_append.1 he with he | he
    · exact ihc h.1 e he
    · exact ihr h.2 e he

/-- A reported error is no matter of what follows: a run on tokens that agree up to the token at which the error was
reported reports an error, too. -/
theorem report_local {e : Entry} {a x y : List Kind} {n n' s t F F'} (hx : K.Eof ∉ a ++ x)
    (hs : parseEntry sparql n e.kind (a ++ x) = .next s) (ht : parseEntry sparql n' e.kind (a ++ y) = .next t)
    (hF : s.events = Forest.ser (.node e.kind F .nil)) (hF' : t.events = Forest.ser (.node e.kind F' .nil))
    {q : Nat × List Kind} (hq : q ∈ F.reports 0) (hl : a.length = q.1 + 1) : F'.noErr = false := by
  cases hno : F'.noErr with
  | false => rfl
  | true =>
    exfalso
    have s0 := (parse_shape hx hs).1
    unfold parseEntry at hs ht
    have hs := (exec_mono_le sparql (Nat.le_max_left n n') 0 e.kind (.call e.kind) _ (by rw [hs]; simp)).trans hs
    have ht := (exec_mono_le sparql (Nat.le_max_right n n') 0 e.kind (.call e.kind) _ (by rw [ht]; simp)).trans ht
    have hI : InStep a.length x y (PState.init (a ++ x)) (PState.init (a ++ y)) :=
      ⟨a, by intro h; simp [h] at hl, fun h => hx (List.mem_append_left _ h), rfl, rfl, rfl, rfl, by simp [PState.init, view]⟩
    rcases exec_local sparql a.length x y _ 0 0 e.kind _ _ _ hI false s false t (Or.inl ⟨rfl, hs⟩) (Or.inl ⟨rfl, ht⟩) with ⟨-, -, h⟩ | ⟨V, h1, h2, h3⟩
    · exact h.cur_eq.2.2.1 s0
    · obtain ⟨L, R, e1, e2⟩ := view_reports F 0 q hq
      have hv : ∀ k (F : Forest), view (Forest.ser (.node k F .nil)) = view F.ser := by intro k F; rw [view_node]; simp [Forest.ser, view]
      rw [hF, hv, e1] at h2
      rw [hF', hv] at h3
      have : L ++ [some q.2] <+: V := by
        have h4 : L ++ [some q.2] <+: L ++ some q.2 :: R := ⟨R, by simp⟩
        rcases Nat.lt_or_ge L.length V.length with hlt | hge
        · exact List.prefix_of_prefix_length_le h4 h2 (by simp; omega)
        · exfalso
          have := (List.prefix_of_prefix_length_le h2 (List.prefix_append L _) hge).sublist.count_le none
          omega
      have hm : some q.2 ∈ view F'.ser := (this.trans h3).subset (by simp)
      exact view_noErr hno _ hm

end Verif.Grammar
