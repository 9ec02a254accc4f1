import Verif.Grammar.Forest
import Mathlib.Tactic.Common
/-!
# Structure of parser runs: events are well bracketed, tokens are consumed in order
-/
namespace Verif.Grammar
open Forest

theorem Step.refl (s : PState) : Step s s .nil [] := ⟨by simp [ser], rfl, rfl⟩

theorem Step.trans {s t u : PState} {F G w v} (h : Step s t F w) (k : Step t u G v) :
    Step s u (F.append G) (w ++ v) := by
  obtain ⟨h1, h2, h3⟩ := h
  obtain ⟨k1, k2, k3⟩ := k
  refine ⟨by rw [k1, h1, ser_append]; simp, by rw [h2, k2]; simp, by rw [toks_append, h3, k3]; simp⟩

theorem nth_eq {s s1 : PState} {c : Kind} (h : s.nth = some (c, s1)) :
    c = cur s.toks ∧ s1.toks = s.toks ∧ s1.events = s.events ∧ s.fuel = s1.fuel + 1 := by
  unfold PState.nth at h
  split at h
  · simp at h
  · next f hf =>
    simp at h
    obtain ⟨rfl, rfl⟩ := h
    exact ⟨rfl, rfl, rfl, hf⟩

theorem nth_step {s s1 : PState} {c : Kind} (h : s.nth = some (c, s1)) : Step s s1 .nil [] := by
  obtain ⟨-, h2, h3, -⟩ := nth_eq h
  exact ⟨by simp [ser, h3], by simp [h2], rfl⟩

theorem push_error_step (s : PState) (e : List Kind) : Step s (s.push (.error e)) (.err e .nil) [] :=
  ⟨by simp [PState.push, ser], rfl, rfl⟩

theorem advance_eq {s s' : PState} (h : s.advance = .next s') :
    ∃ t, s.toks = t :: s'.toks ∧ s'.fuel = maxFuel ∧ s'.events = s.events ++ [.advance] := by
  unfold PState.advance at h
  split at h
  · simp at h
  · next t ts ht => simp at h; subst h; exact ⟨t, ht, rfl, rfl⟩

theorem advance_step {s s' : PState} (h : s.advance = .next s') :
    ∃ t, Step s s' (.tok .nil) [t] := by
  obtain ⟨t, h1, h2, h3⟩ := advance_eq h
  exact ⟨t, by simp [ser, h3], by simp [h1], rfl⟩

theorem advance_not_ret {s s' : PState} : s.advance ≠ .ret s' := by
  unfold PState.advance; split <;> simp

theorem close_events (A : List Event) (x : Event) (B : List Event) (s : PState) (k : Kind)
    (h : s.events = A ++ x :: B) : (s.close A.length k).events = A ++ .openNode k :: (B ++ [.close]) := by
  unfold PState.close
  simp only
  rw [h]; simp

/-- Opening a node, doing a step, closing it. -/
theorem bracket_step {s s1 : PState} {F w} (k x : Kind) (h : Step (s.push (.openNode x)) s1 F w) :
    Step s (s1.close s.events.length k) (.node k F .nil) w := by
  obtain ⟨h1, h2, h3⟩ := h
  refine ⟨?_, ?_, ?_⟩
  · rw [close_events s.events (.openNode x) F.ser s1 k (by rw [h1]; simp [PState.push])]
    simp [ser]
  · simpa [PState.push, PState.close] using h2
  · simpa [toks] using h3

theorem advanceWithError_next {s s' : PState} {e : List Kind} (h : s.advanceWithError e = .next s') :
    (Step s s' (.err e .nil) [] ∧ cur s.toks ∈ recoveryTokens) ∨
      ∃ t, Step s s' (.err e (.node K.Error (.tok .nil) .nil)) [t] ∧ s'.fuel = maxFuel := by
  unfold PState.advanceWithError at h
  simp only at h
  have h0 := push_error_step s e
  split at h
  · simp at h
  · next c s1 hn =>
    have h1 := nth_step hn
    split at h
    · next hc =>
      simp at h; subst h
      left
      refine ⟨by simpa [append] using h0.trans h1, ?_⟩
      have := (nth_eq hn).1
      simp [PState.push] at this
      rw [← this]; exact hc
    · split at h
      · next s2 ha =>
        simp at h; subst h
        obtain ⟨t, ht⟩ := advance_step ha
        obtain ⟨-, -, hf, -⟩ := advance_eq ha
        right
        refine ⟨t, ?_, hf⟩
        have := h0.trans (h1.trans (bracket_step K.Error K.Error ht))
        simpa [append] using this
      · next o hno =>
        exfalso
        cases ho : (s1.push (.openNode K.Error)).advance with
        | next s2 => exact hno _ ho
        | _ => rw [ho] at h; simp at h

theorem advanceWithError_not_ret {s s' : PState} {e : List Kind} : s.advanceWithError e ≠ .ret s' := by
  unfold PState.advanceWithError
  simp only
  split
  · simp
  · split
    · simp
    · split
      · simp
      · exact advance_not_ret

theorem skipUntil_spec {rec ts r : List Kind} {f f' n : Nat} (h : skipUntil rec ts f = some (r, f', n)) :
    ∃ w, ts = w ++ r ∧ w.length = n ∧ (r = [] ∨ cur r ∈ rec) ∧ (∀ x ∈ w, x ∉ rec) := by
  induction ts generalizing f f' n r with
  | nil =>
    unfold skipUntil at h
    split at h
    · simp at h
    · simp at h; exact ⟨[], by simp [h.1], by simp [h.2], Or.inl h.1, by simp⟩
    · simp_all
  | cons t ts ih =>
    cases f with
    | zero => simp [skipUntil] at h
    | succ f =>
      unfold skipUntil at h
      split at h
      · next ht =>
        simp at h
        obtain ⟨rfl, -, rfl⟩ := h
        exact ⟨[], rfl, rfl, Or.inr ht, by simp⟩
      · next ht =>
        split at h
        · simp at h
        · next r' f'' n' hr =>
          simp at h
          obtain ⟨rfl, rfl, rfl⟩ := h
          obtain ⟨w, h1, h2, h3, h4⟩ := ih hr
          exact ⟨t :: w, by simp [h1], by simp [h2], h3, by simpa using ⟨ht, h4⟩⟩

theorem skip_step {s : PState} {rec r : List Kind} {f n : Nat}
    (h : skipUntil rec s.toks s.fuel = some (r, f, n)) :
    ∃ w, Step s { toks := r, fuel := f, events := s.events ++ List.replicate n .advance } (Forest.tokens n) w ∧
      (r = [] ∨ cur r ∈ rec) ∧ (∀ x ∈ w, x ∉ rec) := by
  obtain ⟨w, h1, h2, h3, h4⟩ := skipUntil_spec h
  exact ⟨w, ⟨by simp [ser_tokens], h1, by rw [toks_tokens, h2]⟩, h3, h4⟩

theorem errorUntil_next {s s' : PState} {e rec : List Kind} (h : s.errorUntil e rec = .next s') :
    ∃ F w, Step s s' (.err e F) w := by
  unfold PState.errorUntil at h
  simp only at h
  have h0 := push_error_step s e
  split at h
  · simp at h
  · next c s1 hn =>
    have h1 := nth_step hn
    split at h
    · simp at h; subst h
      exact ⟨.nil, [], by simpa [append] using h0.trans h1⟩
    · split at h
      · simp at h
      · next r f n hs =>
        simp at h; subst h
        obtain ⟨w, hw, -⟩ := skip_step hs
        have := h0.trans (h1.trans (bracket_step K.Error K.Error hw))
        exact ⟨_, _, by simpa [append] using this⟩

theorem errorUntil_not_ret {s s' : PState} {e rec : List Kind} : s.errorUntil e rec ≠ .ret s' := by
  unfold PState.errorUntil
  simp only
  split
  · simp
  · split
    · simp
    · split <;> simp

theorem swallow_next {s s' : PState} (h : s.swallow = .next s') :
    ∃ F w, Step s s' F w ∧ ((F = .nil ∧ w = []) ∨ F = .node K.Error (Forest.tokens w.length) .nil) ∧
      (w = [] → F = .nil) ∧ (cur s'.toks = K.Eof ∨ s'.toks = []) := by
  unfold PState.swallow at h
  split at h
  · simp at h
  · next c s1 hn =>
    have h1 := nth_step hn
    obtain ⟨hc, ht, -⟩ := nth_eq hn
    split at h
    · next hce =>
      simp at h; subst h
      exact ⟨.nil, [], h1, Or.inl ⟨rfl, rfl⟩, fun _ => rfl, Or.inl (by rw [ht, ← hc]; exact hce)⟩
    · next hce =>
      simp only at h
      split at h
      · simp at h
      · next r f n hs =>
        simp at h; subst h
        obtain ⟨w, hw, hr, -⟩ := skip_step hs
        have hn' : n = w.length := by rw [← hw.2.2, toks_tokens]
        have := h1.trans (bracket_step K.Error K.Error hw)
        refine ⟨_, _, by simpa [append] using this, Or.inr (by rw [hn']), ?_, ?_⟩
        · intro hwn
          exfalso
          have h2 := hw.2.1
          rw [hwn] at h2
          simp [PState.push] at h2
          rcases hr with hr | hr
          · rw [ht] at h2; rw [h2, hr] at hc; exact hce (by rw [hc]; rfl)
          · rw [ht] at h2; rw [← h2] at hr; simp at hr; exact hce (by rw [hc]; exact hr)
        · rcases hr with hr | hr
          · exact Or.inr hr
          · left; simpa [PState.close] using hr

theorem swallow_not_ret {s s' : PState} : s.swallow ≠ .ret s' := by
  unfold PState.swallow
  split
  · simp
  · split
    · simp
    · simp only
      split <;> simp

theorem expect_next {s s' : PState} {k : Kind} (h : s.expect k = .next s') :
    (Step s s' (.tok .nil) [k] ∧ s'.fuel = maxFuel ∧ cur s.toks = k) ∨
      (Step s s' (.err [k] .nil) [] ∧ cur s.toks ≠ k) := by
  unfold PState.expect at h
  split at h
  · simp at h
  · next c s1 hn =>
    obtain ⟨hc, ht, -⟩ := nth_eq hn
    have h1 := nth_step hn
    split at h
    · next hck =>
      obtain ⟨t, ht'⟩ := advance_step h
      obtain ⟨t', ha, hf, -⟩ := advance_eq h
      left
      have htk : t = k := by
        have := ht'.2.1
        rw [ht] at this
        rw [this] at hc
        simp [cur] at hc
        rw [← hc]; exact hck
      subst htk
      exact ⟨by simpa [append] using h1.trans ht', hf, by rw [← hc]; exact hck⟩
    · next hck =>
      simp at h; subst h
      right
      exact ⟨by simpa [append] using h1.trans (push_error_step s1 [k]), by rw [← hc]; exact hck⟩

theorem expect_not_ret {s s' : PState} {k : Kind} : s.expect k ≠ .ret s' := by
  unfold PState.expect
  split
  · simp
  · split
    · exact advance_not_ret
    · simp

theorem RetStep.pre {mark root} {s t u : PState} {F G w v} (h : Step s t F w)
    (k : RetStep mark root t u G v) : RetStep mark root s u (F.append G) (w ++ v) := by
  obtain ⟨h1, h2, h3⟩ := h
  obtain ⟨k1, k2, k3, k4⟩ := k
  refine ⟨?_, by rw [h2, k2]; simp, by rw [toks_append, h3, k3]; simp, k4⟩
  intro A x B hA hm
  have := k1 A x (B.append F) (by rw [h1, hA, ser_append]; simp) hm
  rw [this, append_assoc]

theorem altEnd_ret {s : PState} (mark root) (h : cur s.toks = K.Eof) :
    RetStep mark root s
      (((s.close mark root).push (.openNode K.Error)).close (s.close mark root).events.length K.Error) .nil [] := by
  refine ⟨?_, rfl, rfl, h⟩
  intro A x B hA hm
  subst hm
  have h1 := close_events A _ (Forest.ser B) s root hA
  have h2 := close_events (s.close A.length root).events (.openNode K.Error) []
    ((s.close A.length root).push (.openNode K.Error)) K.Error (by simp [PState.push])
  rw [h2, h1]
  simp [ser, append_nil]

/-- Every run of every statement of every grammar emits a well-bracketed stream whose tokens are exactly the
consumed ones. -/
theorem exec_struct (G : Grammar) (n : Nat) : ∀ (mark : Nat) (root : Kind) (st : Stmt) (s : PState),
    (∀ s', exec G n mark root st s = .next s' → ∃ F w, Step s s' F w) ∧
    (∀ s', exec G n mark root st s = .ret s' → ∃ F w, RetStep mark root s s' F w) := by
  induction n with
  | zero => intro mark root st s; constructor <;> intro s' h <;> simp [exec] at h
  | succ n ih =>
    intro mark root st s
    cases st with
    | skip =>
      constructor
      · intro s' h; simp [exec] at h; subst h; exact ⟨_, _, Step.refl s⟩
      · intro s' h; simp [exec] at h
    | seq a b =>
      simp only [exec]
      cases ha : exec G n mark root a s with
      | next s1 =>
        obtain ⟨F, w, hF⟩ := (ih mark root a s).1 s1 ha
        constructor
        · intro s' h
          obtain ⟨F', w', hF'⟩ := (ih mark root b s1).1 s' h
          exact ⟨_, _, hF.trans hF'⟩
        · intro s' h
          obtain ⟨F', w', hF'⟩ := (ih mark root b s1).2 s' h
          exact ⟨_, _, hF'.pre hF⟩
      | ret s1 =>
        constructor
        · intro s' h; simp at h
        · intro s' h
          simp at h; subst h
          exact (ih mark root a s).2 s1 ha
      | stuck => simp
      | crash => simp
      | deep => simp
    | expect k =>
      simp only [exec]
      constructor
      · intro s' h
        rcases expect_next h with ⟨h, -⟩ | ⟨h, -⟩ <;> exact ⟨_, _, h⟩
      · intro s' h; exact absurd h expect_not_ret
    | call k =>
      simp only [exec]
      cases hG : G k with
      | none => simp
      | some f =>
        simp only
        have enter : ∀ t : PState, Step s t .nil [] → ∀ o,
            o = (match exec G n t.events.length f.kind f.body (t.push (.openNode K.Error)) with
              | .next s' => match (if f.swallow then s'.swallow else .next s') with
                | .next s' => Out.next (s'.close t.events.length f.kind)
                | o => o
              | .ret s' => .next s'
              | o => o) →
            (∀ s', o = .next s' → ∃ F w, Step s s' F w) ∧ (∀ s', o = .ret s' → ∃ F w, RetStep mark root s s' F w) := by
          intro t ht o ho
          cases hb : exec G n t.events.length f.kind f.body (t.push (.openNode K.Error)) with
          | next s1 =>
            rw [hb] at ho
            obtain ⟨F, w, hF⟩ := (ih _ _ _ _).1 s1 hb
            simp only at ho
            cases hsw : f.swallow with
            | false =>
              simp [hsw] at ho; subst ho
              constructor
              · intro s' h; simp at h; subst h
                exact ⟨_, _, ht.trans (bracket_step f.kind K.Error hF)⟩
              · intro s' h; simp at h
            | true =>
              simp only [hsw, if_true] at ho
              cases hs2 : s1.swallow with
              | next s2 =>
                rw [hs2] at ho
                simp only at ho; subst ho
                obtain ⟨F2, w2, h2, -⟩ := swallow_next hs2
                constructor
                · intro s' h; simp at h; subst h
                  exact ⟨_, _, ht.trans (bracket_step f.kind K.Error (hF.trans h2))⟩
                · intro s' h; simp at h
              | ret s2 => exact absurd hs2 swallow_not_ret
              | stuck => rw [hs2] at ho; subst ho; simp
              | crash => rw [hs2] at ho; subst ho; simp
              | deep => rw [hs2] at ho; subst ho; simp
          | ret s1 =>
            rw [hb] at ho
            simp only at ho; subst ho
            obtain ⟨F, w, h1, h2, h3, h4⟩ := (ih _ _ _ _).2 s1 hb
            constructor
            · intro s' h; simp at h; subst h
              have he := h1 t.events K.Error .nil (by simp [PState.push, ser]) rfl
              have : Step t s1 (.node f.kind F (.node K.Error .nil .nil)) w :=
                ⟨by rw [he]; simp [append], by simpa [PState.push] using h2, by simpa [toks] using h3⟩
              exact ⟨_, _, ht.trans this⟩
            · intro s' h; simp at h
          | stuck => rw [hb] at ho; subst ho; simp
          | crash => rw [hb] at ho; subst ho; simp
          | deep => rw [hb] at ho; subst ho; simp
        cases hg : f.guard with
        | none => exact enter s (Step.refl s) _ rfl
        | some ks =>
          simp only
          cases hn : s.nth with
          | none => simp
          | some p =>
            obtain ⟨c, s1⟩ := p
            simp only
            split
            · exact enter s1 (nth_step hn) _ rfl
            · constructor
              · intro s' h; simp at h; subst h; exact ⟨_, _, nth_step hn⟩
              · intro s' h; simp at h
    | sync ks =>
      simp only [exec]
      cases hn : s.nth with
      | none => simp
      | some p =>
        obtain ⟨c, s1⟩ := p
        simp only
        split
        · constructor
          · intro s' h; simp at h; subst h; exact ⟨_, _, nth_step hn⟩
          · intro s' h; simp at h
        · constructor
          · intro s' h
            obtain ⟨F, w, h⟩ := errorUntil_next h
            exact ⟨_, _, (nth_step hn).trans h⟩
          · intro s' h; exact absurd h errorUntil_not_ret
    | opt ks b =>
      simp only [exec]
      cases hn : s.nth with
      | none => simp
      | some p =>
        obtain ⟨c, s1⟩ := p
        simp only
        split
        · constructor
          · intro s' h
            obtain ⟨F, w, h⟩ := (ih mark root b s1).1 s' h
            exact ⟨_, _, (nth_step hn).trans h⟩
          · intro s' h
            obtain ⟨F, w, h⟩ := (ih mark root b s1).2 s' h
            exact ⟨_, _, h.pre (nth_step hn)⟩
        · constructor
          · intro s' h; simp at h; subst h; exact ⟨_, _, nth_step hn⟩
          · intro s' h; simp at h
    | rep ks b =>
      simp only [exec]
      cases hn : s.nth with
      | none => simp
      | some p =>
        obtain ⟨c, s1⟩ := p
        simp only
        split
        · cases hb : exec G n mark root b s1 with
          | next s2 =>
            obtain ⟨F, w, hF⟩ := (ih mark root b s1).1 s2 hb
            have hF := (nth_step hn).trans hF
            simp only
            split
            · constructor
              · intro s' h; simp at h; subst h; exact ⟨_, _, hF⟩
              · intro s' h; simp at h
            · constructor
              · intro s' h
                obtain ⟨F', w', h⟩ := (ih mark root (.rep ks b) s2).1 s' h
                exact ⟨_, _, hF.trans h⟩
              · intro s' h
                obtain ⟨F', w', h⟩ := (ih mark root (.rep ks b) s2).2 s' h
                exact ⟨_, _, h.pre hF⟩
          | ret s2 =>
            simp only
            constructor
            · intro s' h; simp at h
            · intro s' h; simp at h; subst h
              obtain ⟨F, w, h⟩ := (ih mark root b s1).2 s2 hb
              exact ⟨_, _, h.pre (nth_step hn)⟩
          | stuck => simp
          | crash => simp
          | deep => simp
        · constructor
          · intro s' h; simp at h; subst h; exact ⟨_, _, nth_step hn⟩
          · intro s' h; simp at h
    | alt arms =>
      simp only [exec]
      cases hn : s.nth with
      | none => simp
      | some p =>
        obtain ⟨c, s1⟩ := p
        simp only
        constructor
        · intro s' h
          obtain ⟨F, w, h⟩ := (ih mark root arms s1).1 s' h
          exact ⟨_, _, (nth_step hn).trans h⟩
        · intro s' h
          obtain ⟨F, w, h⟩ := (ih mark root arms s1).2 s' h
          exact ⟨_, _, h.pre (nth_step hn)⟩
    | arm ks b rest =>
      simp only [exec]
      split
      · exact ih mark root b s
      · exact ih mark root rest s
    | altEnd expected =>
      simp only [exec]
      split
      · next hc =>
        constructor
        · intro s' h; simp at h
        · intro s' h; simp at h; subst h; exact ⟨_, _, altEnd_ret mark root hc⟩
      · cases expected with
        | none =>
          constructor
          · intro s' h; simp at h; subst h; exact ⟨_, _, Step.refl s⟩
          · intro s' h; simp at h
        | some ex =>
          constructor
          · intro s' h
            rcases advanceWithError_next h with ⟨h, -⟩ | ⟨t, h, -⟩ <;> exact ⟨_, _, h⟩
          · intro s' h; exact absurd h advanceWithError_not_ret

end Verif.Grammar
