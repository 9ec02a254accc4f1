import Verif.Lexer.Insert
/-!
# Putting text behind a token

The lemma of `Insert` for text that begins with `?`, `$` or `(`.
-/
namespace Verif.Lexer
open Verif Verif.Grammar Verif.Props Verif.Format

/-- In a long string all characters but quotes are read alike. -/
theorem long_uniform : longRules.all (fun r => everyState (fun q => !(q.derivN 0x20).isNone || (repsIn plainClass q).all (fun n => (q.derivN n).isNone)) r.re) = true := by
  decide +kernel

/-- What a long string makes of the new text. -/
theorem long_splice {r : LexRule} (hr : r ∈ longRules) {U i d : Text} {c0 : Char} (hc0 : plainClass.has c0 = true) (hi : Calm (c0 :: i))
    (hd : ∀ c ∈ d, plainClass.has c = true) :
    (∀ a b, c0 :: i = a ++ b → a ≠ [] → ¬ Matches r.re (U ++ a)) ∧
    ∀ y, Matches r.re (U ++ (c0 :: i ++ y)) → ∃ y1 y2, y = y1 ++ y2 ∧ Matches r.re (U ++ (d ++ y1)) := by
  have hst := long_state hr U
  obtain ⟨h1, h2', h3, h4⟩ := inside_spec hr
  have h2 : (inside r).deriv c0 = inside r := (state_alive h3 (by rw [h2']; exact h4)).1 c0 hc0
  have hsp : (r.re.derivs U).deriv c0 = .none ∨ (r.re.derivs U).deriv c0 = inside r := state_plain hst hc0
  have hal : (r.re.derivs U).deriv c0 = inside r → (r.re.derivs U).deriv ' ' ≠ .none := by
    intro h hn
    have hu := everyState_sound (List.all_eq_true.1 long_uniform r hr) (by decide) U
    simp only [Bool.or_eq_true, Bool.not_eq_true'] at hu
    rcases hu with hu | hu
    · rw [deriv_eq] at hn
      rw [show (' ' : Char).toNat = 0x20 from rfl] at hn
      rw [(isNone_iff).2 hn] at hu; cases hu
    · obtain ⟨n, hn1, e⟩ := repsIn_spec (q := r.re.derivs U) hc0
      have := List.all_eq_true.1 hu n hn1
      rw [isNone_iff, e, h] at this
      exact h4 this
  refine ⟨fun a b e ha hm => ?_, fun y hm => ?_⟩
  · cases a with
    | nil => exact ha rfl
    | cons x a =>
      simp only [List.cons_append, List.cons.injEq] at e
      obtain ⟨rfl, e⟩ := e
      rw [← derivs_iff, ← deriv_iff] at hm
      rcases hsp with h | h
      · rw [h] at hm; exact matches_none hm
      · rw [h, ← h2, deriv_iff] at hm
        exact (hi r hr).2 (c0 :: a) b (by rw [e]; rfl) hm
  · rw [← derivs_iff, List.cons_append, ← deriv_iff] at hm
    rcases hsp with h | h
    · rw [h] at hm; exact absurd hm matches_none
    · have hal := state_alive hst (hal h)
      rw [h, ← h2, deriv_iff, ← List.cons_append, ← derivs_iff, (hi r hr).1] at hm
      cases d with
      | nil =>
        obtain ⟨y1, y2, e, h5⟩ := hal.2 y hm
        exact ⟨y1, y2, e, by rw [List.nil_append, ← derivs_iff]; exact h5⟩
      | cons c d =>
        refine ⟨y, [], by simp, ?_⟩
        rw [← derivs_iff, List.cons_append, ← deriv_iff, hal.1 c (hd c List.mem_cons_self), ← derivs_iff,
          ((calm_plain (fun x hx => hd x (List.mem_cons_of_mem _ hx))) r hr).1]
        exact hm

/-- No rule but those for long strings reads from a token across the end of `A`. -/
def Barrier (c0 : Char) (A : List (Kind × Text)) : Prop :=
  ∀ A1 p A2, A = A1 ++ p :: A2 → A2 ≠ [] → ∀ X, Longest (p.2 ++ (flat A2 ++ X)) p.1 p.2 → ∀ r ∈ lexRules, ∀ z, Matches r.re (p.2 ++ flat A2 ++ c0 :: z) →
    (∃ l ∈ longRules, r.re = l.re) ∧ r.boundary = false

/-- **Text behind a token.** The tokens in front of the gap stay. The text `d` behind the token goes. -/
theorem lexes_splice {A B I : List (Kind × Text)} {d i C : Text} {c0 : Char} (hc0 : plainClass.has c0 = true)
    (h : Lexes (flat A ++ (d ++ C)) (A ++ B)) (hE : ∀ p ∈ A, p.1 ≠ K.Error) (hne : ∀ p ∈ A, p.2 ≠ []) (hA : A ≠ [])
    (hlast : ∀ A0 q, A = A0 ++ [q] → Longest (q.2 ++ (c0 :: i ++ C)) q.1 q.2) (hbar : Barrier c0 A)
    (hd : ∀ c ∈ d, plainClass.has c = true) (hi : Calm (c0 :: i)) (hI : Lexes (c0 :: i ++ C) I) :
    Lexes (flat A ++ (c0 :: i ++ C)) (A ++ I) := by
  induction A with
  | nil => exact absurd rfl hA
  | cons p A ih =>
    obtain ⟨k, w⟩ := p
    have hfl : ∀ X : Text, flat ((k, w) :: A) ++ X = w ++ (flat A ++ X) := by
      intro X
      simp [flat]
    rw [hfl] at h ⊢
    generalize hx : w ++ (flat A ++ (d ++ C)) = x at h
    generalize hl : ((k, w) :: A) ++ B = l at h
    cases h with
    | nil => cases hl
    | @err w' after l' h' hw hs' =>
      simp only [List.cons_append, List.cons.injEq, Prod.mk.injEq] at hl
      exact absurd hl.1.1 (hE (k, w) List.mem_cons_self)
    | @tok k' w' after l' h' hs' =>
      simp only [List.cons_append, List.cons.injEq, Prod.mk.injEq] at hl
      obtain ⟨⟨rfl, rfl⟩, rfl⟩ := hl
      have hx := List.append_cancel_left hx
      subst hx
      cases A with
      | nil =>
        refine Lexes.tok ?_ (by simpa [flat] using hI)
        have := hlast [] (k, w) rfl
        simpa [flat] using this
      | cons p0 A0 =>
        generalize hAe : p0 :: A0 = A at *
        have hA' : A ≠ [] := by rw [← hAe]; simp
        refine Lexes.tok ?_ (ih hs' (fun p hp => hE p (List.mem_cons_of_mem _ hp)) (fun p hp => hne p (List.mem_cons_of_mem _ hp)) hA'
          (fun A1 q e => hlast ((k, w) :: A1) q (by rw [e]; rfl))
          (fun A1 p A2 e => hbar ((k, w) :: A1) p A2 (by rw [e]; rfl)))
        have hneA : ∀ t ∈ A, t.2 ≠ [] := fun t ht => hne t (List.mem_cons_of_mem _ ht)
        obtain ⟨x, y, exy⟩ : ∃ x y, flat A = x :: y := by
          cases hf : flat A with
          | cons x y => exact ⟨x, y, rfl⟩
          | nil =>
            rw [← hAe, flat_cons] at hf
            exact absurd (List.append_eq_nil_iff.1 hf).1 (hneA p0 (by rw [← hAe]; simp))
        obtain ⟨r, hr, hk, after, e, hm, hb⟩ := h'.rule
        have e := List.append_cancel_left e
        refine ⟨⟨r, hr, hk, _, rfl, hm, fun hbd => ?_⟩, ?_⟩
        · have := hb hbd
          rw [← e, exy] at this
          rw [exy]; exact this
        · rintro r' hr' u ⟨after', e', hm', hb'⟩
          -- within the old text
          have old : ∀ v, u = w ++ flat A ++ v → v ≠ [] → False := by
            intro v hv hv0
            have e2 : v ++ after' = c0 :: i ++ C := by
              rw [hv] at e'
              simp only [List.append_assoc] at e'
              exact (List.append_cancel_left (List.append_cancel_left e')).symm
            obtain ⟨v', rfl⟩ : ∃ v', v = c0 :: v' := by
              cases v with
              | nil => exact absurd rfl hv0
              | cons c v => simp only [List.cons_append, List.cons.injEq] at e2; exact ⟨v, by rw [e2.1]⟩
            rw [hv] at hm'
            obtain ⟨⟨l, hl, hre⟩, hnb⟩ := hbar [] (k, w) A rfl hA' (d ++ C) h' r' hr' v' hm'
            rw [hre] at hm'
            obtain ⟨k1, k2⟩ := long_splice hl (U := w ++ flat A) hc0 hi hd
            rcases List.append_eq_append_iff.1 e2 with ⟨b, e3, e4⟩ | ⟨b, e3, e4⟩
            · exact k1 _ b e3 (by simp) hm'
            · rw [e3] at hm'
              obtain ⟨y1, y2, e5, h6⟩ := k2 b hm'
              have := h'.longest r' hr' (w ++ flat A ++ (d ++ y1)) ⟨y2 ++ after', by rw [e4, e5]; simp, by rw [hre]; exact h6,
                fun h => by rw [hnb] at h; cases h⟩
              rw [exy] at this
              simp only [List.length_append, List.length_cons] at this
              omega
          have over : u = w ++ flat A → False := by
            intro e1
            subst e1
            cases hbd : r'.boundary with
            | true =>
              rw [exy] at hm'
              exact bound_cross (p := (k, w)) (x := x) (y := y) (X := d ++ C) (by rw [← exy]; exact h') hr' hbd hm'
            | false =>
              have := h'.longest r' hr' _ ⟨d ++ C, by simp, hm', fun h => by rw [hbd] at h; cases h⟩
              rw [exy] at this
              simp only [List.length_append, List.length_cons] at this
              omega
          have e' : (w ++ flat A) ++ (c0 :: i ++ C) = u ++ after' := by rw [← e']; simp
          rcases List.append_eq_append_iff.1 e' with ⟨v, e1, e2⟩ | ⟨v, e1, e2⟩
          · cases v with
            | cons c v => exact (old (c :: v) e1 (by simp)).elim
            | nil => exact (over (by simpa using e1)).elim
          · cases v with
            | nil => exact (over (by simpa using e1.symm)).elim
            | cons c v =>
              refine h'.longest r' hr' u ⟨(c :: v) ++ (d ++ C), by rw [← List.append_assoc, e1]; simp, hm', fun h => ?_⟩
              have := hb' h
              rw [e2] at this
              exact this

/-! ## When nothing reads across -/

/-- The characters that the text may begin with. -/
def openers : List Char := ['?', '$', '(']

/-- Neither a backslash nor `<`. -/
def midClass : Class := [(0, 0x3B), (0x3D, 0x5B), (0x5D, 0x10FFFF)]

/-- Rules that read an opener behind another character. -/
def roughKinds : List Kind := [K.IRIREF, K.Comment, K.STRING_LITERAL1, K.STRING_LITERAL2, K.STRING_LITERAL_LONG1, K.STRING_LITERAL_LONG2]

theorem hop_states : lexRules.all (fun r => roughKinds.contains r.kind || openers.all (fun c =>
    everyState (fun q => (repsIn midClass q).all (fun n => ((q.derivN n).derivN c.toNat).isNone)) r.re)) = true := by decide +kernel

theorem openers_plain : openers.all (fun c => plainClass.has c) = true := by decide

/-- A rule that reads on behind a token, and reads a string, a comment or an IRI, reads a long string. -/
theorem cross_rough {c0 : Char} {p : Kind × Text} {A2 : List (Kind × Text)} {X : Text} (hp : Longest (p.2 ++ (flat A2 ++ X)) p.1 p.2)
    (hA : A2 ≠ []) (hne : ∀ t ∈ A2, t.2 ≠ []) (hiri : ∀ z, ¬ Matches rule_IRIREF.re (p.2 ++ flat A2 ++ c0 :: z)) {r : LexRule} (hr : r ∈ lexRules)
    (hrough : r.kind ∈ roughKinds) {z : Text}
    (hm : Matches r.re (p.2 ++ flat A2 ++ c0 :: z)) : (∃ l ∈ longRules, r.re = l.re) ∧ r.boundary = false := by
  obtain ⟨rp, hrp, hkp, after, e, hmp, -⟩ := hp.rule
  obtain ⟨c, v, hcv⟩ := rule_cons hrp hmp
  have hcase : r.re = rule_IRIREF.re ∨ r.kind = K.Comment ∨ r.kind ∈ stringKinds := by
    have : lexRules.all (fun r => !roughKinds.contains r.kind || r.re == rule_IRIREF.re || r.kind == K.Comment || stringKinds.contains r.kind) = true := by
      decide +kernel
    have := List.all_eq_true.1 this r hr
    rw [List.contains_iff_mem.2 hrough] at this
    simp only [Bool.not_true, Bool.false_or, Bool.or_eq_true, beq_iff_eq] at this
    rcases this with (h | h) | h
    · exact .inl h
    · exact .inr (.inl h)
    · exact .inr (.inr (List.contains_iff_mem.1 h))
  rcases hcase with hb | hb | hb
  · rw [hb] at hm; exact absurd hm (hiri z)
  · exfalso
    obtain ⟨hre, -⟩ := comment_is hr hb
    rw [hre, comment_matches] at hm
    obtain ⟨y, e1, h1⟩ := hm
    have hc : c = '#' := by
      rw [hcv] at e1
      simp only [List.cons_append, List.cons.injEq] at e1
      exact e1.1
    subst hc
    have hk := comment_start hrp (hcv ▸ hmp)
    rw [hkp] at hk
    have hp' := hp
    rw [hk] at hp'
    have hl := (longest_comment.1 hp').2
    obtain ⟨x, w, exw⟩ : ∃ x w, flat A2 = x :: w := by
      cases A2 with
      | nil => exact absurd rfl hA
      | cons t A2 =>
        rw [flat_cons]
        cases ht : t.2 with
        | nil => exact absurd ht (hne t List.mem_cons_self)
        | cons x w => exact ⟨x, w ++ flat A2, rfl⟩
    have h2 := hl x (w ++ X) (by rw [exw]; rfl)
    have h3 := h1 x (by
      rw [hcv, exw] at e1
      simp only [List.cons_append, List.cons.injEq, true_and] at e1
      rw [← e1]; simp)
    rw [h2] at h3; cases h3
  · have hquote : quoteClass.has c = true := by
      rcases string_class c with h | h
      · exfalso
        refine noRuleOf_sound string_first hr hb (w := p.2 ++ flat A2 ++ c0 :: z) ?_ hm
        rw [hcv]
        exact matches_cons h (anyText_matches _)
      · exact h
    have hks : rp.kind ∈ stringKinds := by
      apply Classical.byContradiction
      intro h
      refine noRule_sound quote_first hrp h (w := p.2) ?_ hmp
      rw [hcv]
      exact matches_cons hquote (anyText_matches _)
    have h := List.all_eq_true.1 cross_string r hr
    rw [List.contains_iff_mem.2 hb, Bool.not_true, Bool.false_or] at h
    have h := List.all_eq_true.1 h rp hrp
    simp only [List.contains_iff_mem.2 hks, Bool.not_true, Bool.false_or, Bool.or_eq_true] at h
    rcases h with h | h
    · exfalso
      obtain ⟨x, y, exy⟩ : ∃ x y, flat A2 ++ c0 :: z = x :: y := by
        cases flat A2 with
        | nil => exact ⟨_, _, rfl⟩
        | cons x y => exact ⟨_, _, rfl⟩
      rw [List.append_assoc, exy] at hm
      exact apart_disjoint h _ (matches_seq.2 ⟨_, _, rfl, hmp, matches_cons (any_has x) (anyText_matches _)⟩) hm
    · simp only [Bool.and_eq_true, Bool.not_eq_true'] at h
      obtain ⟨l, hl, h1⟩ := List.any_eq_true.1 h.1
      exact ⟨⟨l, hl, by simpa using h1⟩, h.2⟩

/-! ## IRIs -/

def noBrace : Class := [(0, 0x7A), (0x7C, 0x10FFFF)]

theorem iri_brace : within noBrace rule_IRIREF.re = true := by decide +kernel
theorem iri_apart : apart 60 [] (seqs [rule_IRIREF.re, .cls anyChar, anyText]) rule_IRIREF.re = true := by decide +kernel

/-- The kinds of the tokens that begin with `<`. -/
def angleKinds : List Kind := [K.IRIREF, K.Less, K.LessEquals, K.DoubleLess, K.DoubleLessLParen]
theorem angle_first : noRule (seqs [.cls [(0x3C, 0x3C)], anyText]) angleKinds = true := by decide +kernel

/-- An IRI does not read across a brace, and does not begin at a token other than these. -/
theorem iri_across {p : Kind × Text} (hp : HasRule p) {W : Text} (hW : W ≠ []) (h : p.1 ∉ [K.Less, K.LessEquals, K.DoubleLess, K.DoubleLessLParen] ∨ '{' ∈ W) :
    ¬ Matches rule_IRIREF.re (p.2 ++ W) := by
  intro hm
  rcases h with h | h
  · obtain ⟨r, hr, hk, hmp⟩ := hp
    obtain ⟨c, v, hcv⟩ := rule_cons hr hmp
    have hc : c = '<' := by
      rw [hcv] at hm
      obtain ⟨a, b, e, h1, -⟩ := matches_seq.1 (show Matches (.seq (.cls [(0x3C, 0x3C)]) (seqs [_, _])) _ from hm)
      obtain ⟨d, rfl, hd⟩ := matches_cls.1 h1
      simp only [List.cons_append, List.cons.injEq, List.nil_append] at e
      rw [e.1]
      have : 0x3C ≤ d.toNat ∧ d.toNat ≤ 0x3C := by simpa [Class.has] using hd
      exact Char.ext (UInt32.toNat_inj.1 (show d.toNat = 0x3C by omega))
    have hka : r.kind ∈ angleKinds := by
      apply Classical.byContradiction
      intro hn
      refine noRule_sound angle_first hr hn (w := p.2) ?_ hmp
      rw [hcv, hc]
      exact matches_cons (by decide) (anyText_matches _)
    rw [hk] at hka
    have hi : p.1 = K.IRIREF := by
      simp only [angleKinds, List.mem_cons, List.not_mem_nil, or_false] at hka h
      rcases hka with h' | h'
      · exact h'
      · exact absurd h' h
    have hre : r.re = rule_IRIREF.re := by
      have : lexRules.all (fun r => r.kind != K.IRIREF || r.re == rule_IRIREF.re) = true := by decide +kernel
      have := List.all_eq_true.1 this r hr
      rw [hk, hi] at this
      simpa using this
    rw [hre] at hmp
    cases W with
    | nil => exact hW rfl
    | cons x y => exact apart_disjoint iri_apart _ (matches_seq.2 ⟨_, _, rfl, hmp, matches_cons (any_has x) (anyText_matches _)⟩) hm
  · have := within_has hm iri_brace '{' (by simp [h])
    exact absurd this (by decide)

end Verif.Lexer
