import Verif.Grammar.Stmt
/-!
# The events never influence control flow
-/
namespace Verif.Grammar

/-- Same tokens and budget. -/
def PState.same (s s' : PState) : Prop := s.toks = s'.toks ∧ s.fuel = s'.fuel

/-- Outcomes that agree up to the events. -/
def Out.same : Out → Out → Prop
  | .next s, .next s' => s.same s'
  | .ret s, .ret s' => s.same s'
  | .stuck, .stuck => True
  | .crash, .crash => True
  | .deep, .deep => True
  | _, _ => False

theorem same_nth {s s' : PState} (h : s.same s') :
    (s.nth = none ∧ s'.nth = none) ∨
    ∃ c t t', s.nth = some (c, t) ∧ s'.nth = some (c, t') ∧ t.same t' := by
  obtain ⟨h1, h2⟩ := h
  cases s; cases s'; simp only at h1 h2; subst h1; subst h2
  rename_i toks fuel ev ev'
  cases fuel with
  | zero => left; exact ⟨rfl, rfl⟩
  | succ f => right; exact ⟨_, _, _, rfl, rfl, rfl, rfl⟩

theorem same_advance {s s' : PState} (h : s.same s') : s.advance.same s'.advance := by
  obtain ⟨h1, h2⟩ := h
  cases s; cases s'; simp only at h1 h2; subst h1; subst h2
  rename_i toks fuel ev ev'
  cases toks with
  | nil => trivial
  | cons t ts => exact ⟨rfl, rfl⟩

theorem same_push {s s' : PState} (h : s.same s') (e e' : Event) : (s.push e).same (s'.push e') := h
theorem same_close {s s' : PState} (h : s.same s') (m m' : Nat) (k k' : Kind) : (s.close m k).same (s'.close m' k') := h

theorem same_swallow {s s' : PState} (h : s.same s') : s.swallow.same s'.swallow := by
  unfold PState.swallow
  rcases same_nth h with ⟨a, b⟩ | ⟨c, t, t', a, b, h1⟩
  · rw [a, b]; trivial
  · rw [a, b]
    simp only
    split
    · exact h1
    · simp only [PState.push, h1.1, h1.2]
      split
      · trivial
      · exact ⟨rfl, rfl⟩

theorem same_errorUntil {s s' : PState} (h : s.same s') (e r : List Kind) :
    (s.errorUntil e r).same (s'.errorUntil e r) := by
  unfold PState.errorUntil
  simp only
  rcases same_nth (same_push h (.error e) (.error e)) with ⟨a, b⟩ | ⟨c, t, t', a, b, h1⟩
  · rw [a, b]; trivial
  · rw [a, b]
    simp only
    rw [h1.1]
    split
    · exact h1
    · simp only [PState.push, h1.1, h1.2]
      split
      · trivial
      · exact ⟨rfl, rfl⟩

theorem same_advanceWithError {s s' : PState} (h : s.same s') (e : List Kind) :
    (s.advanceWithError e).same (s'.advanceWithError e) := by
  unfold PState.advanceWithError
  simp only
  rcases same_nth (same_push h (.error e) (.error e)) with ⟨a, b⟩ | ⟨c, t, t', a, b, h1⟩
  · rw [a, b]; trivial
  · rw [a, b]
    simp only
    split
    · exact h1
    · have := same_advance (same_push h1 (.openNode K.Error) (.openNode K.Error))
      generalize (t.push (.openNode K.Error)).advance = o at this ⊢
      generalize (t'.push (.openNode K.Error)).advance = o' at this ⊢
      cases o <;> cases o' <;> simp only [Out.same] at this ⊢ <;> exact this

theorem exec_sim (G : Grammar) (n : Nat) : ∀ (mark mark' : Nat) (root root' : Kind) (st : Stmt) (s s' : PState),
    s.same s' → (exec G n mark root st s).same (exec G n mark' root' st s') := by
  induction n with
  | zero => intros; trivial
  | succ n ih =>
    intro mark mark' root root' st s s' h
    cases st with
    | skip => exact h
    | seq a b =>
      simp only [exec]
      have h1 := ih mark mark' root root' a s s' h
      generalize exec G n mark root a s = o at h1 ⊢
      generalize exec G n mark' root' a s' = o' at h1 ⊢
      cases o <;> cases o' <;> simp only [Out.same] at h1 ⊢
      · exact ih _ _ _ _ b _ _ h1
      · exact h1
    | expect k =>
      simp only [exec, PState.expect]
      rcases same_nth h with ⟨a, b⟩ | ⟨c, t, t', a, b, h1⟩
      · rw [a, b]; trivial
      · rw [a, b]; simp only
        split
        · exact same_advance h1
        · exact h1
    | call k =>
      simp only [exec]
      cases hk : G k with
      | none => trivial
      | some f =>
        have enter : ∀ t t' : PState, t.same t' → Out.same
            (match exec G n t.events.length f.kind f.body (t.push (.openNode K.Error)) with
              | .next s' => match (if f.swallow then s'.swallow else .next s') with
                | .next s' => Out.next (s'.close t.events.length f.kind)
                | o => o
              | .ret s' => .next s'
              | o => o)
            (match exec G n t'.events.length f.kind f.body (t'.push (.openNode K.Error)) with
              | .next s' => match (if f.swallow then s'.swallow else .next s') with
                | .next s' => Out.next (s'.close t'.events.length f.kind)
                | o => o
              | .ret s' => .next s'
              | o => o) := by
          intro t t' ht
          have h1 := ih t.events.length t'.events.length f.kind f.kind f.body _ _
            (same_push ht (.openNode K.Error) (.openNode K.Error))
          generalize exec G n t.events.length f.kind f.body (t.push (.openNode K.Error)) = o at h1 ⊢
          generalize exec G n t'.events.length f.kind f.body (t'.push (.openNode K.Error)) = o' at h1 ⊢
          cases o <;> cases o' <;> simp only [Out.same] at h1 ⊢
          · rename_i s1 s2
            cases f.swallow with
            | false => exact h1
            | true =>
              simp only [if_true]
              have h2 := same_swallow h1
              generalize s1.swallow = o at h2 ⊢
              generalize s2.swallow = o' at h2 ⊢
              cases o <;> cases o' <;> simp only [Out.same] at h2 ⊢ <;> exact h2
          · exact h1
        simp only
        split
        · exact enter s s' h
        · rcases same_nth h with ⟨a, b⟩ | ⟨c, t, t', a, b, h1⟩
          · rw [a, b]; trivial
          · rw [a, b]; simp only
            split
            · exact enter t t' h1
            · exact h1
    | sync ks =>
      simp only [exec]
      rcases same_nth h with ⟨a, b⟩ | ⟨c, t, t', a, b, h1⟩
      · rw [a, b]; trivial
      · rw [a, b]; simp only
        rw [h1.1]
        split
        · exact h1
        · exact same_errorUntil h1 _ _
    | opt ks b =>
      simp only [exec]
      rcases same_nth h with ⟨a, b⟩ | ⟨c, t, t', a, b, h1⟩
      · rw [a, b]; trivial
      · rw [a, b]; simp only
        split
        · exact ih _ _ _ _ _ _ _ h1
        · exact h1
    | rep ks b =>
      simp only [exec]
      rcases same_nth h with ⟨a, b⟩ | ⟨c, t, t', a, b, h1⟩
      · rw [a, b]; trivial
      · rw [a, b]; simp only
        split
        · have h2 := ih mark mark' root root' ‹Stmt› t t' h1
          generalize exec G n mark root _ t = o at h2 ⊢
          generalize exec G n mark' root' _ t' = o' at h2 ⊢
          cases o <;> cases o' <;> simp only [Out.same] at h2 ⊢
          · rw [h2.1, h1.1]
            rename_i q q'
            by_cases hl : q'.toks.length = t'.toks.length
            · rw [if_pos hl, if_pos hl]; exact h2
            · rw [if_neg hl, if_neg hl]; exact ih _ _ _ _ _ _ _ h2
          · exact h2
        · exact h1
    | alt a =>
      simp only [exec]
      rcases same_nth h with ⟨a, b⟩ | ⟨c, t, t', a, b, h1⟩
      · rw [a, b]; trivial
      · rw [a, b]; simp only
        exact ih _ _ _ _ _ _ _ h1
    | arm ks b x =>
      simp only [exec]
      rw [h.1]
      split
      · exact ih _ _ _ _ _ _ _ h
      · exact ih _ _ _ _ _ _ _ h
    | altEnd e =>
      simp only [exec]
      rw [h.1]
      split
      · exact h
      · split
        · exact h
        · exact same_advanceWithError h _

end Verif.Grammar
