import Verif.Grammar.Cert
/-!
# Which node kinds a parser run opens
-/
namespace Verif.Grammar

/-- Every opened node has an admissible kind. -/
def EvOk (ok : Kind → Bool) (es : List Event) : Prop := ∀ k, Event.openNode k ∈ es → ok k = true

def OutOk (ok : Kind → Bool) : Out → Prop
  | .next s => EvOk ok s.events
  | .ret s => EvOk ok s.events
  | _ => True

/-- Every called function has an admissible kind. -/
def callsOk (ok : Kind → Bool) : Stmt → Bool
  | .seq a b => callsOk ok a && callsOk ok b
  | .call k => ok k
  | .opt _ b => callsOk ok b
  | .rep _ b => callsOk ok b
  | .alt a => callsOk ok a
  | .arm _ b x => callsOk ok b && callsOk ok x
  | _ => true

variable {ok : Kind → Bool}

theorem EvOk.push {es : List Event} (h : EvOk ok es) (e : Event) (he : ∀ k, e = .openNode k → ok k = true) :
    EvOk ok (es ++ [e]) := by
  intro k hk
  simp only [List.mem_append, List.mem_singleton] at hk
  rcases hk with hk | hk
  · exact h k hk
  · exact he k hk.symm

theorem EvOk.set {es : List Event} (h : EvOk ok es) (m : Nat) {r : Kind} (hr : ok r = true) :
    EvOk ok (es.set m (.openNode r)) := by
  intro k hk
  rcases List.mem_or_eq_of_mem_set hk with hk | hk
  · exact h k hk
  · simp at hk; rw [hk]; exact hr

theorem EvOk.close {s : PState} (h : EvOk ok s.events) (m : Nat) {r : Kind} (hr : ok r = true) :
    EvOk ok (s.close m r).events := (h.set m hr).push _ (by simp)

theorem EvOk.nth {s s1 : PState} {c : Kind} (hn : s.nth = some (c, s1)) (h : EvOk ok s.events) :
    EvOk ok s1.events := by
  unfold PState.nth at hn
  split at hn
  · simp at hn
  · simp at hn; rw [← hn.2]; exact h

theorem EvOk.advance {s : PState} (h : EvOk ok s.events) : OutOk ok s.advance := by
  unfold PState.advance
  split
  · trivial
  · exact h.push _ (by simp)

theorem EvOk.advances {es : List Event} (h : EvOk ok es) (n : Nat) : EvOk ok (es ++ List.replicate n .advance) := by
  intro k hk
  simp only [List.mem_append, List.mem_replicate] at hk
  rcases hk with hk | hk
  · exact h k hk
  · simp at hk

theorem EvOk.swallow {s : PState} (hE : ok K.Error = true) (h : EvOk ok s.events) : OutOk ok s.swallow := by
  unfold PState.swallow
  split
  · trivial
  · next c s1 hn =>
    have h1 := h.nth hn
    split
    · exact h1
    · simp only
      split
      · trivial
      · exact EvOk.close (s := ⟨_, _, _⟩) ((h1.push _ (by intro k hk; simp at hk; rw [← hk]; exact hE)).advances _) _ hE

theorem EvOk.errorUntil {s : PState} {e r : List Kind} (hE : ok K.Error = true) (h : EvOk ok s.events) :
    OutOk ok (s.errorUntil e r) := by
  unfold PState.errorUntil
  simp only
  split
  · trivial
  · next c s1 hn =>
    have h1 := EvOk.nth hn (h.push (.error e) (by simp))
    split
    · exact h1
    · split
      · trivial
      · exact EvOk.close (s := ⟨_, _, _⟩) ((h1.push _ (by intro k hk; simp at hk; rw [← hk]; exact hE)).advances _) _ hE

theorem EvOk.advanceWithError {s : PState} {e : List Kind} (hE : ok K.Error = true) (h : EvOk ok s.events) :
    OutOk ok (s.advanceWithError e) := by
  unfold PState.advanceWithError
  simp only
  split
  · trivial
  · next c s1 hn =>
    have h1 := EvOk.nth hn (h.push (.error e) (by simp))
    split
    · exact h1
    · have := EvOk.advance (s := s1.push (.openNode K.Error))
        (h1.push _ (by intro k hk; simp at hk; rw [← hk]; exact hE))
      split
      · next s2 hs => rw [hs] at this; exact EvOk.close this _ hE
      · exact this

theorem exec_kinds (G : Grammar) (hE : ok K.Error = true)
    (hG : ∀ k f, G k = some f → ok k = true → ok f.kind = true ∧ callsOk ok f.body = true) (n : Nat) :
    ∀ (mark : Nat) (root : Kind) (st : Stmt) (s : PState), callsOk ok st = true → ok root = true →
    EvOk ok s.events → OutOk ok (exec G n mark root st s) := by
  induction n with
  | zero => intros; trivial
  | succ n ih =>
    intro mark root st s hc hr h
    cases st with
    | skip => exact h
    | seq a b =>
      simp only [callsOk, Bool.and_eq_true] at hc
      simp only [exec]
      have h1 := ih mark root a s hc.1 hr h
      split
      · next s1 hs => rw [hs] at h1; exact ih mark root b s1 hc.2 hr h1
      · exact h1
    | expect k =>
      simp only [exec, PState.expect]
      split
      · trivial
      · next c s1 hn =>
        split
        · exact EvOk.advance (h.nth hn)
        · exact (h.nth hn).push _ (by simp)
    | call k =>
      simp only [exec]
      simp only [callsOk] at hc
      cases hk : G k with
      | none => trivial
      | some f =>
        obtain ⟨f1, f2⟩ := hG k f hk hc
        have enter : ∀ t : PState, EvOk ok t.events → OutOk ok
            (match exec G n t.events.length f.kind f.body (t.push (.openNode K.Error)) with
              | .next s' => match (if f.swallow then s'.swallow else .next s') with
                | .next s' => Out.next (s'.close t.events.length f.kind)
                | o => o
              | .ret s' => .next s'
              | o => o) := by
          intro t ht
          have h1 := ih t.events.length f.kind f.body (t.push (.openNode K.Error)) f2 f1
            (ht.push _ (by intro k hk; simp at hk; rw [← hk]; exact hE))
          split
          · next s1 hs =>
            rw [hs] at h1
            have h2 : OutOk ok (if f.swallow = true then s1.swallow else .next s1) := by
              split
              · exact EvOk.swallow hE h1
              · exact h1
            split
            · next s2 hs2 => rw [hs2] at h2; exact EvOk.close h2 _ f1
            · exact h2
          · next s1 hs => rw [hs] at h1; exact h1
          · exact h1
        simp only
        split
        · exact enter s h
        · split
          · trivial
          · next c s1 hn =>
            split
            · exact enter s1 (h.nth hn)
            · exact h.nth hn
    | sync ks =>
      simp only [exec]
      split
      · trivial
      · next c s1 hn =>
        split
        · exact h.nth hn
        · exact EvOk.errorUntil hE (h.nth hn)
    | opt ks b =>
      simp only [exec]
      split
      · trivial
      · next c s1 hn =>
        split
        · exact ih _ _ _ _ hc hr (h.nth hn)
        · exact h.nth hn
    | rep ks b =>
      simp only [exec]
      split
      · trivial
      · next c s1 hn =>
        split
        · have h1 := ih mark root b s1 hc hr (h.nth hn)
          split
          · next s2 hs2 =>
            rw [hs2] at h1
            split
            · exact h1
            · exact ih _ _ _ _ hc hr h1
          · exact h1
        · exact h.nth hn
    | alt a =>
      simp only [exec]
      split
      · trivial
      · next c s1 hn => exact ih _ _ _ _ hc hr (h.nth hn)
    | arm ks b x =>
      simp only [callsOk, Bool.and_eq_true] at hc
      simp only [exec]
      split
      · exact ih _ _ _ _ hc.1 hr h
      · exact ih _ _ _ _ hc.2 hr h
    | altEnd e =>
      simp only [exec]
      split
      · exact EvOk.close (EvOk.push (EvOk.close h _ hr) _ (by intro k hk; simp at hk; rw [← hk]; exact hE)) _ hE
      · split
        · exact h
        · exact EvOk.advanceWithError hE h

end Verif.Grammar
