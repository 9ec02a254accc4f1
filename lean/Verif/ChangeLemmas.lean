import Verif.ChangeSpec
import Verif.ApplyEditsLemmas
namespace Verif

theorem posOf_crlf (p : Text) : posOf (p ++ ['\r', '\n']) = ⟨(posOf p).line + 1, 0⟩ := by
  have : p ++ ['\r', '\n'] = (p ++ ['\r']) ++ ['\n'] := by simp
  rw [this, posOf_snoc, posOf_snoc]
  simp [Position.step]

theorem posOf_nl (p : Text) : posOf (p ++ ['\n']) = ⟨(posOf p).line + 1, 0⟩ := by
  rw [posOf_snoc]; simp [Position.step]

theorem posOf_ne (p : Text) (c : Char) (h : c ≠ '\n') :
    posOf (p ++ [c]) = ⟨(posOf p).line, (posOf p).character + u16 c⟩ := by
  rw [posOf_snoc]; simp [Position.step, h]

/-- One iteration of the walk that does not stop: it moves over one character, or over a CR LF pair. -/
theorem walk_step (r : Range) (p m rest : Text) (s : Nat) (hm : m ≠ [])
    (hsplit : NotInCRLF (p ++ m) rest)
    (h1 : r.start.le r.stop = true) (h2 : (posOf p).Before r.stop) :
    ∃ d m', d ≠ [] ∧ m = d ++ m' ∧
      walkChange r (m ++ rest) (posOf p) (blen p) s =
        walkChange r (m' ++ rest) (posOf (p ++ d)) (blen (p ++ d))
          (if r.start = posOf p then blen p else s) := by
  have hle : (posOf p).le r.stop = true := by rw [le_iff]; exact Or.inl h2
  have hne : r.stop ≠ posOf p := by intro h; rw [h] at h2; exact Before.irrefl _ h2
  cases m with
  | nil => exact absurd rfl hm
  | cons c m' =>
    by_cases hc : c = '\n'
    · subst hc
      refine ⟨['\n'], m', by simp, rfl, ?_⟩
      rw [posOf_nl]
      simp only [List.cons_append]
      conv => lhs; unfold walkChange
      simp [h1, hle, hne]
    · by_cases hcr : c = '\r' ∧ ∃ m'', m' = '\n' :: m''
      · obtain ⟨rfl, m'', rfl⟩ := hcr
        refine ⟨['\r', '\n'], m'', by simp, rfl, ?_⟩
        rw [posOf_crlf]
        simp only [List.cons_append]
        conv => lhs; unfold walkChange
        simp [h1, hle, hne, u8_nl, u8_cr]
      · refine ⟨[c], m', by simp, rfl, ?_⟩
        rw [posOf_ne _ _ hc]
        simp only [List.cons_append]
        conv => lhs; unfold walkChange
        cases hmr : m' ++ rest with
        | nil => simp [h1, hle, hne, hc]
        | cons d ds =>
          have hd : ¬ (c = '\r' ∧ d = '\n') := by
            rintro ⟨rfl, rfl⟩
            cases m' with
            | nil => exact hsplit p ds ⟨rfl, by simpa using hmr⟩
            | cons x xs => simp at hmr; exact hcr ⟨rfl, xs, by rw [hmr.1]⟩
          simp [h1, hle, hne, hc, hd]

theorem NotInCRLF_cast {a b c : Text} (h : NotInCRLF a c) (e : a = b) : NotInCRLF b c := e ▸ h

theorem walk_to_start (A old post p m : Text) (s : Nat) (hA : A = p ++ m)
    (h1 : NotInCRLF A (old ++ post)) :
    ∃ s', walkChange ⟨posOf A, posOf (A ++ old)⟩ (m ++ (old ++ post)) (posOf p) (blen p) s =
      walkChange ⟨posOf A, posOf (A ++ old)⟩ (old ++ post) (posOf A) (blen A) s' := by
  induction hn : m.length using Nat.strongRecOn generalizing p m s with
  | _ n ih =>
    by_cases hm : m = []
    · subst hm; simp at hA; subst hA; exact ⟨s, by simp⟩
    · obtain ⟨d, m', hd, hm', hw⟩ := walk_step ⟨posOf A, posOf (A ++ old)⟩ p m (old ++ post) s hm
        (by rw [← hA]; exact h1) (by rw [le_iff]; exact posOf_le A old)
        (by
          have := posOf_before p (m ++ old) (by simp [hm])
          rw [hA]; simpa using this)
      rw [hw]
      have hlt : m'.length < n := by
        have : 0 < d.length := List.length_pos_iff.mpr hd
        rw [← hn, hm']; simp; omega
      exact ih m'.length hlt (p ++ d) m' _ (by rw [hA, hm']; simp) rfl

theorem walk_to_end (A old post x y : Text) (s : Nat) (ho : old = x ++ y)
    (hs : x = [] ∨ s = blen A) (h2 : NotInCRLF (A ++ old) post) :
    walkChange ⟨posOf A, posOf (A ++ old)⟩ (y ++ post) (posOf (A ++ x)) (blen (A ++ x)) s =
      some (blen (A ++ old), blen A) := by
  have hle1 : (posOf A).le (posOf (A ++ old)) = true := by rw [le_iff]; exact posOf_le A old
  have hstart : (if posOf A = posOf (A ++ x) then blen (A ++ x) else s) = blen A := by
    by_cases hx : x = []
    · subst hx; simp
    · have : posOf A ≠ posOf (A ++ x) := by
        intro h
        have := posOf_before A x hx
        rw [← h] at this; exact Before.irrefl _ this
      rw [if_neg this]; rcases hs with h | h
      · exact absurd h hx
      · exact h
  induction hn : y.length using Nat.strongRecOn generalizing x y s with
  | _ n ih =>
    by_cases hy : y = []
    · subst hy
      simp at ho; subst ho
      unfold walkChange
      have : (posOf (A ++ old)).le (posOf (A ++ old)) = true := by rw [le_iff]; exact Or.inr rfl
      simp [hle1, this]
      simpa using hstart
    · obtain ⟨d, y', hd, hy', hw⟩ := walk_step ⟨posOf A, posOf (A ++ old)⟩ (A ++ x) y post s hy
        (by
          have : A ++ x ++ y = A ++ old := by rw [ho]; simp
          rw [this]; exact h2)
        hle1
        (by
          have := posOf_before (A ++ x) y hy
          rw [ho]; simpa using this)
      rw [hw, hstart, List.append_assoc]
      have hlt : y'.length < n := by
        have : 0 < d.length := List.length_pos_iff.mpr hd
        rw [← hn, hy']; simp; omega
      refine ih y'.length hlt (x ++ d) y' _ (by rw [ho, hy']; simp) (Or.inr rfl) ?_ rfl
      have : posOf A ≠ posOf (A ++ (x ++ d)) := by
        intro h
        have := posOf_before A (x ++ d) (by simp [hd])
        rw [← h] at this; exact Before.irrefl _ this
      rw [if_neg this]

/-- The loop state is consistent: the cursor sits at a boundary of the text, not behind the start of
the next ranged change. -/
theorem changesLoop_replays {t t' : Text} {cs : List Change} (h : Replays t cs t') :
    ∀ (p q : Text) (s : Nat), t = p ++ q → needsReset (posOf p) cs = false ∨ p = [] →
      changesLoop cs t (posOf p) (blen p) s = some t' := by
  induction h with
  | done t => intros; simp [changesLoop]
  | full t new t' cs h ih =>
    intro p q s _ _
    simp only [changesLoop]
    exact ih [] new 0 rfl (Or.inr rfl)
  | ranged a old b new t' cs h1 h2 h ih =>
    intro p q s ht hres
    have hnb : ¬ (posOf a).Before (posOf p) := by
      rcases hres with h | h
      · simp only [needsReset] at h
        intro hb; rw [← lt_iff] at hb; rw [hb] at h; simp at h
      · subst h; unfold Position.Before; simp
    obtain ⟨m, hm, hq⟩ : ∃ m, a = p ++ m ∧ q = m ++ (old ++ b) := by
      rw [List.append_assoc] at ht
      rcases prefix_cases ht.symm with ⟨m, h3, h4⟩ | ⟨m, hne, h3, -⟩
      · exact ⟨m, h3, h4⟩
      · exact absurd (h3 ▸ posOf_before a m hne) hnb
    simp only [changesLoop]
    rw [ht, splitAtByte_append]
    simp only
    rw [hq]
    obtain ⟨s', hs'⟩ := walk_to_start a old b p m s hm h1
    rw [hs']
    have := walk_to_end a old b [] old s' rfl (Or.inl rfl) h2
    simp only [List.append_nil] at this
    rw [this]
    simp only
    have : p ++ (m ++ (old ++ b)) = a ++ old ++ b := by rw [hm]; simp
    rw [this, replaceRange_append]
    simp only
    by_cases hr : needsReset (posOf a) cs = true
    · rw [if_pos hr]
      exact ih [] (a ++ new ++ b) _ rfl (Or.inr rfl)
    · rw [if_neg hr]
      exact ih a (new ++ b) _ (by simp) (Or.inl (by simpa using hr))

theorem replays_functional {t t₁ t₂ : Text} {cs : List Change} (h₁ : Replays t cs t₁)
    (h₂ : Replays t cs t₂) : t₁ = t₂ := by
  have e1 := changesLoop_replays h₁ [] t 0 rfl (Or.inr rfl)
  have e2 := changesLoop_replays h₂ [] t 0 rfl (Or.inr rfl)
  rw [e1] at e2; exact Option.some.inj e2

end Verif
