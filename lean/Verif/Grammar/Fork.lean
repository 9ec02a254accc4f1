import Verif.Grammar.Local
/-!
# Two runs on the same tokens build the same tree

Two runs on token lists with a common beginning emit the same events until the common beginning is consumed; the kinds of the nodes that
are still open then are the same, too.
-/
namespace Verif.Grammar
open Forest

/-- The number of tokens consumed. -/
def eaten (ev : List Event) : Nat := (view ev).count none

theorem eaten_append (a b : List Event) : eaten (a ++ b) = eaten a + eaten b := by
  simp [eaten, view_append, List.count_append]

theorem eaten_ser (F : Forest) : eaten F.ser = F.toks := by
  induction F with
  | nil => rfl
  | tok r ih =>
    have : eaten (Forest.ser (.tok r)) = eaten r.ser + 1 := by
      rw [Forest.ser, show (Event.advance :: r.ser) = [.advance] ++ r.ser from rfl, eaten_append, Nat.add_comm]; rfl
    rw [this, ih]; rfl
  | err e r ih =>
    have : eaten (Forest.ser (.err e r)) = eaten r.ser := by
      rw [Forest.ser, show (Event.error e :: r.ser) = [.error e] ++ r.ser from rfl, eaten_append]; simp [eaten, view]
    rw [this, ih]; rfl
  | node k c r ihc ihr =>
    have : eaten (Forest.ser (.node k c r)) = eaten c.ser + eaten r.ser := by
      unfold eaten; rw [view_node, List.count_append]
    rw [this, ihc, ihr]; rfl

/-- The event at the mark gets its kind. -/
def named (m : Nat) (k : Kind) (ev : List Event) : List Event := ev.set m (.openNode k)

theorem named_append {m : Nat} {k : Kind} {A : List Event} {x : Event} (B : List Event) (h : A.length = m) :
    named m k (A ++ x :: B) = A ++ .openNode k :: B := by
  subst h
  unfold named
  rw [List.set_append_right _ _ (Nat.le_refl _)]
  simp

theorem named_prefix {m : Nat} {k : Kind} {V L : List Event} (h : V <+: L) : named m k V <+: named m k L := by
  obtain ⟨T, rfl⟩ := h
  unfold named
  by_cases hm : m < V.length
  · rw [List.set_append_left _ _ hm]; exact List.prefix_append _ _
  · rw [List.set_eq_of_length_le (by omega), List.set_append_right _ _ (by omega)]; exact List.prefix_append _ _

/-- There is the beginning of a node at the mark. -/
def Opens (m : Nat) (ev : List Event) : Prop := ∃ A x B, ev = A ++ .openNode x :: B ∧ A.length = m

theorem Marked.opens {m s} (h : Marked m s) : Opens m s.events := by
  obtain ⟨A, x, B, h1, h2⟩ := h
  exact ⟨A, x, _, h1, h2⟩

theorem named_eaten {m : Nat} {k : Kind} {V L : List Event} (h : V <+: L) (ho : Opens m L) : eaten (named m k V) = eaten V := by
  obtain ⟨A, x, B, rfl, rfl⟩ := ho
  obtain ⟨T, hT⟩ := h
  rcases List.append_eq_append_iff.1 hT with ⟨C, h1, -⟩ | ⟨C, h1, h2⟩
  · unfold named
    rw [List.set_eq_of_length_le (by rw [h1]; simp)]
  · cases C with
    | nil =>
      unfold named
      rw [List.set_eq_of_length_le (by rw [h1]; simp)]
    | cons c C =>
      injection h2 with h2 _
      subst h2
      rw [h1, named_append _ rfl]
      simp [eaten, view]

/-- The runs are still in step. -/
def Lock (N : Nat) (x y : List Kind) (s t : PState) : Prop :=
  ∃ a, a ≠ [] ∧ K.Eof ∉ a ∧ s.toks = a ++ x ∧ t.toks = a ++ y ∧ s.fuel = t.fuel ∧ s.events = t.events ∧ eaten s.events + a.length = N

/-- The runs agreed on the common tokens. -/
def Pre (N : Nat) (s t : PState) : Prop := ∃ V, eaten V = N ∧ V <+: s.events ∧ V <+: t.events

/-- The same, with the kind of the node at the mark. -/
def Split (N m : Nat) (k : Kind) (s t : PState) : Prop :=
  ∃ V, eaten V = N ∧ V <+: named m k s.events ∧ V <+: named m k t.events

theorem Pre.split {N m s t} (k : Kind) (h : Pre N s t) (hm : Opens m s.events) : Split N m k s t := by
  obtain ⟨V, h1, h2, h3⟩ := h
  exact ⟨named m k V, by rw [named_eaten h2 hm, h1], named_prefix h2, named_prefix h3⟩

theorem Split.mono {N m k s t s' t'} (h : Split N m k s t) (h1 : named m k s.events <+: named m k s'.events)
    (h2 : named m k t.events <+: named m k t'.events) : Split N m k s' t' := by
  obtain ⟨V, a, b, c⟩ := h
  exact ⟨V, a, b.trans h1, c.trans h2⟩

theorem step_named {s t F w} (m : Nat) (k : Kind) (h : Step s t F w) : named m k s.events <+: named m k t.events :=
  named_prefix (by rw [h.1]; exact List.prefix_append _ _)

theorem ret_named {m k s t F w} (h : RetStep m k s t F w) (hm : Marked m s) :
    named m k s.events <+: t.events ∧ named m k t.events = t.events := by
  obtain ⟨A, x, B, h1, h2⟩ := hm
  have h3 := h.1 A x B h1 h2
  rw [h1, named_append _ h2, h3]
  constructor
  · simp only [Forest.ser, ser_append]
    exact ⟨F.ser ++ .close :: .openNode K.Error :: .close :: [], by simp⟩
  · rw [Forest.ser, named_append _ h2]

theorem res_named {G n m root st s b t} (hm : Marked m s) (h : Res m s (exec G n m root st s) b t) :
    named m root s.events <+: named m root t.events := by
  rcases h with ⟨-, h⟩ | ⟨-, h, -⟩
  · obtain ⟨F, w, k⟩ := (exec_struct G n m root st s).1 t h
    exact step_named m root k
  · obtain ⟨F, w, k⟩ := (exec_struct G n m root st s).2 t h
    obtain ⟨h1, h2⟩ := ret_named k hm
    rw [h2]; exact h1

theorem Lock.cur_eq {N x y s t} (h : Lock N x y s t) : cur s.toks = cur t.toks ∧ cur s.toks ≠ K.Eof ∧ s.toks ≠ [] ∧ t.toks ≠ [] := by
  obtain ⟨a, h1, h2, h3, h4, -⟩ := h
  cases a with
  | nil => exact absurd rfl h1
  | cons k a =>
    rw [h3, h4]
    refine ⟨rfl, ?_, by simp, by simp⟩
    intro e; simp only [List.cons_append, cur] at e; exact h2 (by simp [e])

theorem Lock.evs {N x y s t} (h : Lock N x y s t) : s.events = t.events := by
  obtain ⟨a, -, -, -, -, -, h, -⟩ := h; exact h

theorem Lock.nth {N x y s t} (h : Lock N x y s t) {c s'} (hs : s.nth = some (c, s')) :
    ∃ t', t.nth = some (c, t') ∧ Lock N x y s' t' := by
  have hc := h.cur_eq
  obtain ⟨a, h1, h2, h3, h4, h5, h6, h7⟩ := h
  unfold PState.nth at hs ⊢
  rw [← h5]
  split at hs
  · cases hs
  · next f hf =>
    cases hs
    exact ⟨{ t with fuel := f }, by rw [hc.1], a, h1, h2, h3, h4, rfl, h6, h7⟩

/-- Same events pushed. -/
theorem Lock.push {N x y s t} (h : Lock N x y s t) (e : Event) (he : e ≠ .advance) : Lock N x y (s.push e) (t.push e) := by
  obtain ⟨a, h1, h2, h3, h4, h5, h6, h7⟩ := h
  refine ⟨a, h1, h2, h3, h4, h5, ?_, ?_⟩
  · simp only [PState.push, h6]
  · simp only [PState.push, eaten_append]
    have : eaten [e] = 0 := by cases e <;> simp_all [view, eaten]
    omega

theorem Lock.advance {N x y s t s' t'} (h : Lock N x y s t) (hs : s.advance = .next s') (ht : t.advance = .next t') :
    Lock N x y s' t' ∨ Pre N s' t' := by
  obtain ⟨a, h1, h2, h3, h4, h5, h6, h7⟩ := h
  cases a with
  | nil => exact absurd rfl h1
  | cons k a =>
    unfold PState.advance at hs ht
    rw [h3] at hs; rw [h4] at ht
    simp only [List.cons_append, Out.next.injEq] at hs ht
    subst hs ht
    have hv : ∀ e : List Event, eaten (e ++ [.advance]) = eaten e + 1 := by intro e; rw [eaten_append]; rfl
    cases a with
    | nil =>
      right
      refine ⟨s.events ++ [.advance], ?_, List.prefix_refl _, ?_⟩
      · rw [hv]; simpa using h7
      · simp only [h6]; exact List.prefix_refl _
    | cons k' a =>
      left
      refine ⟨k' :: a, by simp, fun e => h2 (List.mem_cons_of_mem _ e), rfl, rfl, rfl, ?_, ?_⟩
      · simp only [h6]
      · simp only [hv, List.length_cons] at h7 ⊢; omega

theorem Lock.expect {N x y s t s' t'} (h : Lock N x y s t) (k : Kind) (hs : s.expect k = .next s') (ht : t.expect k = .next t') :
    Lock N x y s' t' ∨ Pre N s' t' := by
  unfold PState.expect at hs ht
  cases hn : s.nth with
  | none => rw [hn] at hs; cases hs
  | some p =>
    obtain ⟨c, s1⟩ := p
    obtain ⟨t1, ht1, h1⟩ := h.nth hn
    rw [hn] at hs; rw [ht1] at ht
    simp only at hs ht
    split at hs
    · next e => rw [if_pos e] at ht; exact h1.advance hs ht
    · next e =>
      rw [if_neg e] at ht
      cases hs; cases ht
      exact Or.inl (h1.push _ (by simp))

theorem skip_events (e : List Event) (n : Nat) (x k : Kind) (r : List Kind) (f : Nat) :
    (PState.close { toks := r, fuel := f, events := (e ++ [.openNode x]) ++ List.replicate n .advance } e.length k).events =
      e ++ .openNode k :: (List.replicate n .advance ++ [.close]) := by
  exact close_events e (.openNode x) (List.replicate n .advance) _ k (by simp)

theorem eaten_replicate (n : Nat) : eaten (List.replicate n Event.advance) = n := by
  rw [← ser_tokens, eaten_ser, toks_tokens]

/-- An error node made of skipped tokens. -/
theorem Lock.skip {N x y s t} (h : Lock N x y s t) (rec : List Kind) (k : Kind) (e : Kind) {r f n r' f' n'}
    (hs : skipUntil rec s.toks s.fuel = some (r, f, n)) (ht : skipUntil rec t.toks t.fuel = some (r', f', n')) :
    let s1 := PState.close { toks := r, fuel := f, events := (s.push (.openNode e)).events ++ List.replicate n .advance } s.events.length k
    let t1 := PState.close { toks := r', fuel := f', events := (t.push (.openNode e)).events ++ List.replicate n' .advance } t.events.length k
    Lock N x y s1 t1 ∨ Pre N s1 t1 := by
  intro s1 t1
  obtain ⟨a, h1, h2, h3, h4, h5, h6, h7⟩ := h
  have v1 : s1.events = s.events ++ .openNode k :: (List.replicate n .advance ++ [.close]) := skip_events _ _ _ _ _ _
  have v2 : t1.events = s.events ++ .openNode k :: (List.replicate n' .advance ++ [.close]) := by
    rw [h6]; exact skip_events _ _ _ _ _ _
  rw [h3] at hs; rw [h4, ← h5] at ht
  have hc : ∀ (m : Nat) (u : List Event), eaten (s.events ++ .openNode k :: (List.replicate m .advance ++ u)) = eaten s.events + m + eaten u := by
    intro m u
    rw [show s.events ++ Event.openNode k :: (List.replicate m .advance ++ u) = s.events ++ ([.openNode k] ++ (List.replicate m .advance ++ u)) from rfl,
      eaten_append, eaten_append, eaten_append, eaten_replicate]
    have : eaten [Event.openNode k] = 0 := by simp [eaten, view]
    omega
  have h0 : eaten [Event.close] = 0 := by simp [eaten, view]
  rcases skip_local rec x y a _ _ _ _ _ _ _ hs ht with ⟨a', b1, b2, b3, b4, b5, b6, hsuf⟩ | ⟨b1, b2⟩
  · left
    exact ⟨a', b1, fun z => h2 (hsuf _ z), b2, b3, b4, by rw [v1, v2, b5], by rw [v1, hc, h0]; omega⟩
  · right
    refine ⟨s.events ++ .openNode k :: (List.replicate a.length .advance ++ []), by rw [hc]; exact h7, ?_, ?_⟩
    · rw [v1]
      obtain ⟨d, hd⟩ := Nat.exists_eq_add_of_le b1
      exact ⟨List.replicate d .advance ++ [.close], by rw [hd, ← List.replicate_append_replicate]; simp only [List.append_nil, List.append_assoc, List.cons_append]⟩
    · rw [v2]
      obtain ⟨d, hd⟩ := Nat.exists_eq_add_of_le b2
      exact ⟨List.replicate d .advance ++ [.close], by rw [hd, ← List.replicate_append_replicate]; simp only [List.append_nil, List.append_assoc, List.cons_append]⟩

theorem Lock.errorUntil {N x y s t s' t'} (h : Lock N x y s t) (ex rec : List Kind) (hs : s.errorUntil ex rec = .next s')
    (ht : t.errorUntil ex rec = .next t') : Lock N x y s' t' ∨ Pre N s' t' := by
  unfold PState.errorUntil at hs ht
  have h0 := h.push (.error ex) (by simp)
  dsimp only at hs ht
  cases hn : (s.push (.error ex)).nth with
  | none => rw [hn] at hs; cases hs
  | some p =>
    obtain ⟨c, s1⟩ := p
    obtain ⟨t1, ht1, h1⟩ := h0.nth hn
    rw [hn] at hs; rw [ht1] at ht
    dsimp only at hs ht
    have he := h1.cur_eq
    simp only [he.2.2.1, he.2.2.2, or_false] at hs ht
    split at hs
    · next e => rw [if_pos e] at ht; cases hs; cases ht; exact Or.inl h1
    · next e =>
      rw [if_neg e] at ht
      split at hs
      · cases hs
      · next r f n hr =>
        split at ht
        · cases ht
        · next r' f' n' hr' =>
          cases hs; cases ht
          exact h1.skip rec K.Error K.Error hr hr'

theorem Lock.swallow {N x y s t s' t'} (h : Lock N x y s t) (hs : s.swallow = .next s')
    (ht : t.swallow = .next t') : Lock N x y s' t' ∨ Pre N s' t' := by
  unfold PState.swallow at hs ht
  cases hn : s.nth with
  | none => rw [hn] at hs; cases hs
  | some p =>
    obtain ⟨c, s1⟩ := p
    obtain ⟨t1, ht1, h1⟩ := h.nth hn
    rw [hn] at hs; rw [ht1] at ht
    dsimp only at hs ht
    split at hs
    · next e => rw [if_pos e] at ht; cases hs; cases ht; exact Or.inl h1
    · next e =>
      rw [if_neg e] at ht
      split at hs
      · cases hs
      · next r f n hr =>
        split at ht
        · cases ht
        · next r' f' n' hr' =>
          cases hs; cases ht
          exact h1.skip _ K.Error K.Error hr hr'

theorem close_named {s : PState} {m : Nat} (k : Kind) (h : Opens m s.events) : (s.close m k).events = named m k s.events ++ [.close] := by
  obtain ⟨A, x, B, h1, rfl⟩ := h
  rw [close_events A (.openNode x) B s k h1, h1, named_append _ rfl]
  simp

/-- Closing the node at the mark: what was in step stays in step. -/
theorem Lock.shut {N x y s t} {m : Nat} (k : Kind) (h : Lock N x y s t) (hs : Opens m s.events) : Lock N x y (s.close m k) (t.close m k) := by
  obtain ⟨a, h1, h2, h3, h4, h5, h6, h7⟩ := h
  have e1 := close_named k hs
  refine ⟨a, h1, h2, h3, h4, h5, by rw [e1, close_named k (h6 ▸ hs), h6], ?_⟩
  rw [e1, eaten_append, named_eaten (List.prefix_refl _) hs]
  have : eaten [Event.close] = 0 := by simp [eaten, view]
  omega

theorem Split.shut {N s t} {m : Nat} {k : Kind} (h : Split N m k s t) (hs : Opens m s.events) (ht : Opens m t.events) :
    Pre N (s.close m k) (t.close m k) := by
  obtain ⟨V, h1, h2, h3⟩ := h
  refine ⟨V, h1, ?_, ?_⟩
  · rw [close_named k hs]; exact h2.trans (List.prefix_append _ _)
  · rw [close_named k ht]; exact h3.trans (List.prefix_append _ _)

theorem Lock.withError {N x y s t s' t'} (h : Lock N x y s t) (ex : List Kind) (hs : s.advanceWithError ex = .next s')
    (ht : t.advanceWithError ex = .next t') : Lock N x y s' t' ∨ Pre N s' t' := by
  unfold PState.advanceWithError at hs ht
  have h0 := h.push (.error ex) (by simp)
  dsimp only at hs ht
  cases hn : (s.push (.error ex)).nth with
  | none => rw [hn] at hs; cases hs
  | some p =>
    obtain ⟨c, s1⟩ := p
    obtain ⟨t1, ht1, h1⟩ := h0.nth hn
    rw [hn] at hs; rw [ht1] at ht
    dsimp only at hs ht
    split at hs
    · next e => rw [if_pos e] at ht; cases hs; cases ht; exact Or.inl h1
    · next e =>
      rw [if_neg e] at ht
      have h2 := h1.push (.openNode K.Error) (by simp)
      cases a1 : (s1.push (.openNode K.Error)).advance with
      | next s2 =>
        cases a2 : (t1.push (.openNode K.Error)).advance with
        | next t2 =>
          rw [a1] at hs; rw [a2] at ht
          dsimp only at hs ht
          cases hs; cases ht
          have o1 : Opens s1.events.length s2.events := ⟨s1.events, K.Error, [.advance], by rw [advance_events a1]; simp [PState.push], rfl⟩
          have o2 : Opens s1.events.length t2.events := ⟨t1.events, K.Error, [.advance], by rw [advance_events a2]; simp [PState.push], by rw [h1.evs]⟩
          rw [← h1.evs]
          rcases h2.advance a1 a2 with h | h
          · exact Or.inl (h.shut _ o1)
          · exact Or.inr ((h.split _ o1).shut o1 o2)
        | _ => rw [a2] at ht; cases ht
      | _ => rw [a1] at hs; cases hs

/-- **Runs on the same tokens emit the same events.** -/
theorem exec_fork (G : Grammar) (N : Nat) (x y : List Kind) (n : Nat) : ∀ (m : Nat) (root : Kind) (st : Stmt) (s t : PState),
    Lock N x y s t → Marked m s → ∀ b s' b' t', Res m s (exec G n m root st s) b s' → Res m t (exec G n m root st t) b' t' →
    (b = false ∧ b' = false ∧ Lock N x y s' t') ∨ Split N m root s' t' := by
  induction n with
  | zero =>
    intro m root st s t _ _ b s' b' t' h
    rcases h with ⟨-, h⟩ | ⟨-, h, -⟩ <;> simp [exec] at h
  | succ n ih =>
    intro m root st s t hst hm b s' b' t' h h'
    have other : ∀ {m : Nat} {u v : PState}, Lock N x y u v → Marked m u → Marked m v := by
      rintro m u v huv ⟨A, z, B, h1, h2⟩
      exact ⟨A, z, B, by rw [← huv.evs, h1], h2⟩
    have goes : ∀ {m : Nat} {root : Kind} {st : Stmt} {u p : PState}, Marked m u → exec G n m root st u = .next p → Marked m p := by
      intro m root st u p hu hp
      obtain ⟨F, w, k⟩ := (exec_struct G n m root st u).1 p hp
      exact hu.step k
    have lift : ∀ {u v}, Marked m u → (Lock N x y u v ∨ Pre N u v) → (false = false ∧ false = false ∧ Lock N x y u v) ∨ Split N m root u v := by
      intro u v hu h
      rcases h with h | h
      · exact Or.inl ⟨rfl, rfl, h⟩
      · exact Or.inr (h.split root hu.opens)
    have whole : ∀ {p}, exec G (n + 1) m root st s = .next p → Marked m p := by
      intro p hp
      obtain ⟨F, w, k⟩ := (exec_struct G (n + 1) m root st s).1 p hp
      exact hm.step k
    have after : ∀ {m : Nat} {s s1 : PState} {c : Kind}, s.nth = some (c, s1) → ∀ {o b s'}, Res m s o b s' → Res m s1 o b s' := by
      intro m s s1 c hn o b s' h
      rcases h with h | ⟨h1, h2, h3⟩
      · exact Or.inl h
      · exact Or.inr ⟨h1, h2, h3.step (nth_step hn)⟩
    have seqCase : ∀ (A B : Stmt) (u v : PState), Lock N x y u v → Marked m u →
        Res m u (match exec G n m root A u with | .next s' => exec G n m root B s' | o => o) b s' →
        Res m v (match exec G n m root A v with | .next s' => exec G n m root B s' | o => o) b' t' →
        (b = false ∧ b' = false ∧ Lock N x y s' t') ∨ Split N m root s' t' := by
      intro A B u v huv hu h h'
      have inv : ∀ {m : Nat} {u : PState} {b s'}, Res m u (match exec G n m root A u with | .next s' => exec G n m root B s' | o => o) b s' →
          (∃ p, exec G n m root A u = .next p ∧ Res m p (exec G n m root B p) b s') ∨ (b = true ∧ Res m u (exec G n m root A u) true s') := by
        intro m u b s' h
        cases hA : exec G n m root A u with
        | next p =>
          rw [hA] at h
          left
          refine ⟨p, rfl, ?_⟩
          rcases h with h | ⟨h1, h2, h3⟩
          · exact Or.inl h
          · obtain ⟨F, w, k⟩ := (exec_struct G n m root A u).1 p hA
            exact Or.inr ⟨h1, h2, h3.step k⟩
        | ret p =>
          rw [hA] at h
          right
          rcases h with ⟨-, h⟩ | ⟨h1, h2, h3⟩
          · cases h
          · cases h2; exact ⟨h1, Or.inr ⟨rfl, rfl, h3⟩⟩
        | stuck => rw [hA] at h; rcases h with ⟨-, h⟩ | ⟨-, h, -⟩ <;> cases h
        | crash => rw [hA] at h; rcases h with ⟨-, h⟩ | ⟨-, h, -⟩ <;> cases h
        | deep => rw [hA] at h; rcases h with ⟨-, h⟩ | ⟨-, h, -⟩ <;> cases h
      rcases inv h with ⟨p, hp, hr⟩ | ⟨rfl, hr⟩ <;> rcases inv h' with ⟨p', hp', hr'⟩ | ⟨rfl, hr'⟩
      · rcases ih m root A u v huv hu false p false p' (Or.inl ⟨rfl, hp⟩) (Or.inl ⟨rfl, hp'⟩) with ⟨-, -, h1⟩ | h1
        · exact ih m root B p p' h1 (goes hu hp) _ _ _ _ hr hr'
        · exact Or.inr (h1.mono (res_named (goes hu hp) hr) (res_named (goes (other huv hu) hp') hr'))
      · rcases ih m root A u v huv hu false p true t' (Or.inl ⟨rfl, hp⟩) hr' with ⟨-, h1, -⟩ | h1
        · cases h1
        · exact Or.inr (h1.mono (res_named (goes hu hp) hr) (List.prefix_refl _))
      · rcases ih m root A u v huv hu true s' false p' hr (Or.inl ⟨rfl, hp'⟩) with ⟨h1, -⟩ | h1
        · cases h1
        · exact Or.inr (h1.mono (List.prefix_refl _) (res_named (goes (other huv hu) hp') hr'))
      · rcases ih m root A u v huv hu true s' true t' hr hr' with ⟨h1, -⟩ | h1
        · cases h1
        · exact Or.inr h1
    cases st with
    | skip =>
      simp only [exec] at h h'
      rcases h with ⟨rfl, h⟩ | ⟨-, h, -⟩ <;> rcases h' with ⟨rfl, h'⟩ | ⟨-, h', -⟩ <;> cases h <;> cases h'
      exact Or.inl ⟨rfl, rfl, hst⟩
    | seq A B =>
      simp only [exec] at h h'
      exact seqCase A B s t hst hm h h'
    | expect k =>
      simp only [exec] at h h' whole
      rcases h with ⟨rfl, h⟩ | ⟨-, h, -⟩
      · rcases h' with ⟨rfl, h'⟩ | ⟨-, h', -⟩
        · exact lift (whole h) (hst.expect k h h')
        · exact absurd h' expect_not_ret
      · exact absurd h expect_not_ret
    | call k =>
      have fin : b = false → Marked m s' := fun hb => by subst hb; exact whole (res_next h)
      simp only [exec] at h h'
      cases hf : G k with
      | none => rw [hf] at h; rcases h with ⟨-, h⟩ | ⟨-, h, -⟩ <;> cases h
      | some f =>
        rw [hf] at h h'
        dsimp only at h h'
        have inv : ∀ {m : Nat} {v u : PState} {b s'}, Res m v (match exec G n u.events.length f.kind f.body (u.push (.openNode K.Error)) with
              | .next s' => match (if f.swallow then s'.swallow else .next s') with
                | .next s' => Out.next (s'.close u.events.length f.kind)
                | o => o
              | .ret s' => .next s'
              | o => o) b s' → b = false ∧ ((∃ p q, exec G n u.events.length f.kind f.body (u.push (.openNode K.Error)) = .next p ∧
                  (if f.swallow then p.swallow else .next p) = .next q ∧ s' = q.close u.events.length f.kind ∧
                  (∃ F w, Step (u.push (.openNode K.Error)) q F w)) ∨
                exec G n u.events.length f.kind f.body (u.push (.openNode K.Error)) = .ret s') := by
          intro m v u b s' h
          cases hA : exec G n u.events.length f.kind f.body (u.push (.openNode K.Error)) with
          | next p =>
            rw [hA] at h
            dsimp only at h
            cases hB : (if f.swallow then p.swallow else .next p) with
            | next q =>
              rw [hB] at h
              rcases h with ⟨rfl, h⟩ | ⟨-, h, -⟩ <;> cases h
              refine ⟨rfl, Or.inl ⟨p, q, rfl, hB, rfl, ?_⟩⟩
              obtain ⟨F, w, k⟩ := (exec_struct G n _ _ _ _).1 p hA
              split at hB
              · obtain ⟨F2, w2, g2, -⟩ := swallow_next hB
                exact ⟨_, _, k.trans g2⟩
              · cases hB; exact ⟨F, w, k⟩
            | ret q =>
              exfalso
              split at hB
              · exact swallow_not_ret hB
              · cases hB
            | stuck => rw [hB] at h; rcases h with ⟨-, h⟩ | ⟨-, h, -⟩ <;> cases h
            | crash => rw [hB] at h; rcases h with ⟨-, h⟩ | ⟨-, h, -⟩ <;> cases h
            | deep => rw [hB] at h; rcases h with ⟨-, h⟩ | ⟨-, h, -⟩ <;> cases h
          | ret p =>
            rw [hA] at h
            rcases h with ⟨rfl, h⟩ | ⟨-, h, -⟩ <;> cases h
            exact ⟨rfl, Or.inr rfl⟩
          | stuck => rw [hA] at h; rcases h with ⟨-, h⟩ | ⟨-, h, -⟩ <;> cases h
          | crash => rw [hA] at h; rcases h with ⟨-, h⟩ | ⟨-, h, -⟩ <;> cases h
          | deep => rw [hA] at h; rcases h with ⟨-, h⟩ | ⟨-, h, -⟩ <;> cases h
        have marked : ∀ u : PState, Marked u.events.length (u.push (.openNode K.Error)) := fun u =>
          ⟨u.events, K.Error, .nil, by simp [PState.push, Forest.ser], rfl⟩
        have opened : ∀ {u q : PState}, (∃ F w, Step (u.push (.openNode K.Error)) q F w) → Opens u.events.length q.events := by
          rintro u q ⟨F, w, k⟩
          exact ⟨u.events, K.Error, F.ser, by rw [k.1]; simp [PState.push], rfl⟩
        have enter : ∀ u v : PState, Lock N x y u v → ∀ {mm mm' z z'}, Res mm z (match exec G n u.events.length f.kind f.body (u.push (.openNode K.Error)) with
              | .next s' => match (if f.swallow then s'.swallow else .next s') with
                | .next s' => Out.next (s'.close u.events.length f.kind)
                | o => o
              | .ret s' => .next s'
              | o => o) b s' → Res mm' z' (match exec G n v.events.length f.kind f.body (v.push (.openNode K.Error)) with
              | .next s' => match (if f.swallow then s'.swallow else .next s') with
                | .next s' => Out.next (s'.close v.events.length f.kind)
                | o => o
              | .ret s' => .next s'
              | o => o) b' t' → (b = false ∧ b' = false ∧ Lock N x y s' t') ∨ Split N m root s' t' := by
          intro u v huv mm mm' z z' h h'
          have hp := huv.push (.openNode K.Error) (by simp)
          have hlen : v.events.length = u.events.length := by rw [huv.evs]
          have shut : ∀ {u p q : PState}, (if f.swallow then p.swallow else .next p) = .next q →
              (∃ F w, Step (u.push (.openNode K.Error)) q F w) →
              named u.events.length f.kind p.events <+: (q.close u.events.length f.kind).events := by
            intro u p q h2 h3
            rw [close_named _ (opened h3)]
            refine List.IsPrefix.trans ?_ (List.prefix_append _ _)
            split at h2
            · obtain ⟨F2, w2, g2, -⟩ := swallow_next h2
              exact step_named _ _ g2
            · cases h2; exact List.prefix_refl _
          have back : ∀ {u p : PState}, exec G n u.events.length f.kind f.body (u.push (.openNode K.Error)) = .ret p →
              named u.events.length f.kind p.events <+: p.events := by
            intro u p h
            obtain ⟨F, w, k⟩ := (exec_struct G n _ _ _ _).2 p h
            rw [(ret_named k (marked u)).2]; exact List.prefix_refl _
          have pre : ∀ {p p' : PState}, Split N u.events.length f.kind p p' → named u.events.length f.kind p.events <+: s'.events →
              named v.events.length f.kind p'.events <+: t'.events → b = false →
              Split N m root s' t' := by
            rintro p p' ⟨V, a1, a2, a3⟩ e1 e2 hb
            rw [hlen] at e2
            exact Pre.split root ⟨V, a1, a2.trans e1, a3.trans e2⟩ (fin hb).opens
          have hm1 := marked u
          have marked' := marked v
          obtain ⟨rfl, ⟨p, q, h1, h2, rfl, h4⟩ | h1⟩ := inv h <;> obtain ⟨rfl, ⟨p', q', h1', h2', rfl, h4'⟩ | h1'⟩ := inv h'
          · have h1'' := h1'
            rw [hlen] at h1''
            rcases ih u.events.length f.kind f.body _ _ hp hm1 false p false p' (Or.inl ⟨rfl, h1⟩) (Or.inl ⟨rfl, h1''⟩) with ⟨-, -, hi⟩ | hi
            · have hq : Lock N x y q q' ∨ Pre N q q' := by
                split at h2
                · next hw => rw [if_pos hw] at h2'; exact hi.swallow h2 h2'
                · next hw => rw [if_neg hw] at h2'; cases h2; cases h2'; exact Or.inl hi
              have o1 := opened h4
              have o2 := opened h4'
              rw [hlen] at o2 ⊢
              refine lift (fin rfl) ?_
              rcases hq with hq | hq
              · exact Or.inl (hq.shut _ o1)
              · exact Or.inr ((hq.split _ o1).shut o1 o2)
            · exact Or.inr (pre hi (shut h2 h4) (shut h2' h4') rfl)
          · have h1'' := h1'
            rw [hlen] at h1'' marked'
            rcases ih u.events.length f.kind f.body _ _ hp hm1 false p true t' (Or.inl ⟨rfl, h1⟩) (Or.inr ⟨rfl, h1'', marked'⟩) with ⟨-, hi, -⟩ | hi
            · cases hi
            · exact Or.inr (pre hi (shut h2 h4) (back h1') rfl)
          · have h1'' := h1'
            rw [hlen] at h1''
            rcases ih u.events.length f.kind f.body _ _ hp hm1 true s' false p' (Or.inr ⟨rfl, h1, hm1⟩) (Or.inl ⟨rfl, h1''⟩) with ⟨hi, -⟩ | hi
            · cases hi
            · exact Or.inr (pre hi (back h1) (shut h2' h4') rfl)
          · have h1'' := h1'
            rw [hlen] at h1'' marked'
            rcases ih u.events.length f.kind f.body _ _ hp hm1 true s' true t' (Or.inr ⟨rfl, h1, hm1⟩) (Or.inr ⟨rfl, h1'', marked'⟩) with ⟨hi, -⟩ | hi
            · cases hi
            · exact Or.inr (pre hi (back h1) (back h1') rfl)
        cases hg : f.guard with
        | none =>
          rw [hg] at h h'
          exact enter s t hst h h'
        | some ks =>
          rw [hg] at h h'
          dsimp only at h h'
          cases hn : s.nth with
          | none => rw [hn] at h; rcases h with ⟨-, h⟩ | ⟨-, h, -⟩ <;> cases h
          | some p =>
            obtain ⟨c, s1⟩ := p
            obtain ⟨t1, ht1, h1⟩ := hst.nth hn
            rw [hn] at h; rw [ht1] at h'
            dsimp only at h h'
            by_cases hc : c ∈ ks
            · rw [if_pos hc] at h h'
              exact enter s1 t1 h1 h h'
            · rw [if_neg hc] at h h'
              rcases h with ⟨rfl, h⟩ | ⟨-, h, -⟩ <;> rcases h' with ⟨rfl, h'⟩ | ⟨-, h', -⟩ <;> cases h <;> cases h'
              exact Or.inl ⟨rfl, rfl, h1⟩
    | sync ks =>
      have whole : b = false → Marked m s' := fun hb => by subst hb; exact whole (res_next h)
      simp only [exec] at h h'
      cases hn : s.nth with
      | none => rw [hn] at h; rcases h with ⟨-, h⟩ | ⟨-, h, -⟩ <;> cases h
      | some p =>
        obtain ⟨c, s1⟩ := p
        obtain ⟨t1, ht1, h1⟩ := hst.nth hn
        rw [hn] at h; rw [ht1] at h'
        have he := h1.cur_eq
        simp only [he.2.2.1, he.2.2.2, or_false] at h h'
        by_cases hc : c ∈ ks
        · rw [if_pos hc] at h h'
          rcases h with ⟨rfl, h⟩ | ⟨-, h, -⟩ <;> rcases h' with ⟨rfl, h'⟩ | ⟨-, h', -⟩ <;> cases h <;> cases h'
          exact Or.inl ⟨rfl, rfl, h1⟩
        · rw [if_neg hc] at h h'
          rcases h with ⟨rfl, h⟩ | ⟨-, h, -⟩
          · rcases h' with ⟨rfl, h'⟩ | ⟨-, h', -⟩
            · exact lift (whole rfl) (h1.errorUntil _ _ h h')
            · exact absurd h' errorUntil_not_ret
          · exact absurd h errorUntil_not_ret
    | opt ks B =>
      simp only [exec] at h h'
      cases hn : s.nth with
      | none => rw [hn] at h; rcases h with ⟨-, h⟩ | ⟨-, h, -⟩ <;> cases h
      | some p =>
        obtain ⟨c, s1⟩ := p
        obtain ⟨t1, ht1, h1⟩ := hst.nth hn
        rw [hn] at h; rw [ht1] at h'
        dsimp only at h h'
        by_cases hc : c ∈ ks
        · rw [if_pos hc] at h h'
          exact ih m root B s1 t1 h1 (hm.step (nth_step hn)) _ _ _ _ (after hn h) (after ht1 h')
        · rw [if_neg hc] at h h'
          rcases h with ⟨rfl, h⟩ | ⟨-, h, -⟩ <;> rcases h' with ⟨rfl, h'⟩ | ⟨-, h', -⟩ <;> cases h <;> cases h'
          exact Or.inl ⟨rfl, rfl, h1⟩
    | rep ks B =>
      simp only [exec] at h h'
      cases hn : s.nth with
      | none => rw [hn] at h; rcases h with ⟨-, h⟩ | ⟨-, h, -⟩ <;> cases h
      | some p =>
        obtain ⟨c, s1⟩ := p
        obtain ⟨t1, ht1, h1⟩ := hst.nth hn
        rw [hn] at h; rw [ht1] at h'
        dsimp only at h h'
        by_cases hc : c ∈ ks
        · rw [if_pos hc] at h h'
          have h := after hn h
          have h' := after ht1 h'
          have hm1 : Marked m s1 := hm.step (nth_step hn)
          have hm2 : Marked m t1 := other h1 hm1
          have inv : ∀ {m : Nat} {u : PState} {b s'}, Res m u (match exec G n m root B u with
              | .next s' => if s'.toks.length = u.toks.length then .next s' else exec G n m root (.rep ks B) s'
              | o => o) b s' →
              (∃ p, exec G n m root B u = .next p ∧ Res m p (if p.toks.length = u.toks.length then .next p else exec G n m root (.rep ks B) p) b s') ∨
                (b = true ∧ Res m u (exec G n m root B u) true s') := by
            intro m u b s' h
            cases hA : exec G n m root B u with
            | next p =>
              rw [hA] at h
              left
              refine ⟨p, rfl, ?_⟩
              rcases h with h | ⟨h1, h2, h3⟩
              · exact Or.inl h
              · obtain ⟨F, w, k⟩ := (exec_struct G n m root B u).1 p hA
                exact Or.inr ⟨h1, h2, h3.step k⟩
            | ret p =>
              rw [hA] at h
              right
              rcases h with ⟨-, h⟩ | ⟨h1, h2, h3⟩
              · cases h
              · cases h2; exact ⟨h1, Or.inr ⟨rfl, rfl, h3⟩⟩
            | stuck => rw [hA] at h; rcases h with ⟨-, h⟩ | ⟨-, h, -⟩ <;> cases h
            | crash => rw [hA] at h; rcases h with ⟨-, h⟩ | ⟨-, h, -⟩ <;> cases h
            | deep => rw [hA] at h; rcases h with ⟨-, h⟩ | ⟨-, h, -⟩ <;> cases h
          have mono : ∀ {u p : PState} {b s'}, Marked m p → Res m p (if p.toks.length = u.toks.length then .next p else exec G n m root (.rep ks B) p) b s' →
              named m root p.events <+: named m root s'.events := by
            intro u p b s' hp h
            split at h
            · rcases h with ⟨-, h⟩ | ⟨-, h, -⟩ <;> cases h
              exact List.prefix_refl _
            · exact res_named hp h
          rcases inv h with ⟨p, hp, hr⟩ | ⟨rfl, hr⟩ <;> rcases inv h' with ⟨p', hp', hr'⟩ | ⟨rfl, hr'⟩
          · rcases ih m root B s1 t1 h1 (hm.step (nth_step hn)) false p false p' (Or.inl ⟨rfl, hp⟩) (Or.inl ⟨rfl, hp'⟩) with ⟨-, -, h2⟩ | h2
            · have hl : p.toks.length = s1.toks.length ↔ p'.toks.length = t1.toks.length := by
                obtain ⟨a, -, -, e1, e2, -⟩ := h1
                obtain ⟨a', -, -, e3, e4, -⟩ := h2
                rw [e1, e2, e3, e4]; simp only [List.length_append]; omega
              by_cases hq : p.toks.length = s1.toks.length
              · rw [if_pos hq] at hr; rw [if_pos (hl.1 hq)] at hr'
                rcases hr with ⟨rfl, hr⟩ | ⟨-, hr, -⟩ <;> rcases hr' with ⟨rfl, hr'⟩ | ⟨-, hr', -⟩ <;> cases hr <;> cases hr'
                exact Or.inl ⟨rfl, rfl, h2⟩
              · rw [if_neg hq] at hr; rw [if_neg (fun e => hq (hl.2 e))] at hr'
                exact ih m root _ p p' h2 (goes hm1 hp) _ _ _ _ hr hr'
            · exact Or.inr (h2.mono (mono (goes hm1 hp) hr) (mono (goes hm2 hp') hr'))
          · rcases ih m root B s1 t1 h1 (hm.step (nth_step hn)) false p true t' (Or.inl ⟨rfl, hp⟩) hr' with ⟨-, h2, -⟩ | h2
            · cases h2
            · exact Or.inr (h2.mono (mono (goes hm1 hp) hr) (List.prefix_refl _))
          · rcases ih m root B s1 t1 h1 (hm.step (nth_step hn)) true s' false p' hr (Or.inl ⟨rfl, hp'⟩) with ⟨h2, -⟩ | h2
            · cases h2
            · exact Or.inr (h2.mono (List.prefix_refl _) (mono (goes hm2 hp') hr'))
          · rcases ih m root B s1 t1 h1 (hm.step (nth_step hn)) true s' true t' hr hr' with ⟨h2, -⟩ | h2
            · cases h2
            · exact Or.inr h2
        · rw [if_neg hc] at h h'
          rcases h with ⟨rfl, h⟩ | ⟨-, h, -⟩ <;> rcases h' with ⟨rfl, h'⟩ | ⟨-, h', -⟩ <;> cases h <;> cases h'
          exact Or.inl ⟨rfl, rfl, h1⟩
    | alt arms =>
      simp only [exec] at h h'
      cases hn : s.nth with
      | none => rw [hn] at h; rcases h with ⟨-, h⟩ | ⟨-, h, -⟩ <;> cases h
      | some p =>
        obtain ⟨c, s1⟩ := p
        obtain ⟨t1, ht1, h1⟩ := hst.nth hn
        rw [hn] at h; rw [ht1] at h'
        exact ih m root arms s1 t1 h1 (hm.step (nth_step hn)) _ _ _ _ (after hn h) (after ht1 h')
    | arm ks B rest =>
      simp only [exec] at h h'
      rw [← hst.cur_eq.1] at h'
      by_cases hc : cur s.toks ∈ ks
      · rw [if_pos hc] at h h'
        exact ih m root B s t hst hm _ _ _ _ h h'
      · rw [if_neg hc] at h h'
        exact ih m root rest s t hst hm _ _ _ _ h h'
    | altEnd ex =>
      have whole : b = false → Marked m s' := fun hb => by subst hb; exact whole (res_next h)
      simp only [exec] at h h'
      rw [← hst.cur_eq.1] at h'
      rw [if_neg hst.cur_eq.2.1] at h h'
      cases ex with
      | none =>
        rcases h with ⟨rfl, h⟩ | ⟨-, h, -⟩ <;> rcases h' with ⟨rfl, h'⟩ | ⟨-, h', -⟩ <;> cases h <;> cases h'
        exact Or.inl ⟨rfl, rfl, hst⟩
      | some ex =>
        rcases h with ⟨rfl, h⟩ | ⟨-, h, -⟩
        · rcases h' with ⟨rfl, h'⟩ | ⟨-, h', -⟩
          · exact lift (whole rfl) (hst.withError ex h h')
          · exact absurd h' advanceWithError_not_ret
        · exact absurd h advanceWithError_not_ret

end Verif.Grammar
