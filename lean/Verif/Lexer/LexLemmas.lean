import Verif.Lexer.Lex
/-!
# Proofs about the lexer
-/
namespace Verif.Lexer
open Verif Verif.Grammar

/-! ## Specification -/

/-- A rule matches `w` at the front of `rest`. -/
def MatchesAt (r : LexRule) (rest w : Text) : Prop :=
  ∃ after, rest = w ++ after ∧ Matches r.re w ∧ (r.boundary = true → wordEnd after = true)

/-- `w` is the longest match of any rule at the front of `rest`, and a rule of kind `k` matches it. -/
structure Longest (rest : Text) (k : Kind) (w : Text) : Prop where
  rule : ∃ r ∈ lexRules, r.kind = k ∧ MatchesAt r rest w
  longest : ∀ r ∈ lexRules, ∀ w', MatchesAt r rest w' → w'.length ≤ w.length

/-- No rule matches at the front of `rest`. -/
def NoMatch (rest : Text) : Prop := ∀ r ∈ lexRules, ∀ w, ¬ MatchesAt r rest w

/-- `l` is a reading of `text` by longest matches; where no rule matches, an error token of any positive length. -/
inductive Lexes : Text → List (Kind × Text) → Prop
  | nil : Lexes [] []
  | tok {k w after l} (h : Longest (w ++ after) k w) (hs : Lexes after l) : Lexes (w ++ after) ((k, w) :: l)
  | err {w after l} (h : NoMatch (w ++ after)) (hw : w ≠ []) (hs : Lexes after l) :
      Lexes (w ++ after) ((K.Error, w) :: l)

/-! ## Scanning -/

/-- Condition on what follows a match. -/
def Ok (b : Bool) (after : Text) : Prop := b = true → wordEnd after = true

theorem ok_iff (b : Bool) (after : Text) : (!b || wordEnd after) = true ↔ Ok b after := by
  unfold Ok
  cases b <;> simp

theorem scan_spec (b : Bool) (rest : Text) : ∀ (r : Regex) (n : Nat) (acc : Option Nat),
    (∃ w after, rest = w ++ after ∧ Matches r w ∧ Ok b after ∧ scan b r n acc rest = some (n + w.length) ∧
      ∀ w' after', rest = w' ++ after' → Matches r w' → Ok b after' → w'.length ≤ w.length) ∨
    (scan b r n acc rest = acc ∧ ∀ w' after', rest = w' ++ after' → Matches r w' → ¬ Ok b after') := by
  induction rest with
  | nil =>
    intro r n acc
    rw [scan]
    by_cases h : (r.nullable && (!b || wordEnd [])) = true
    · rw [if_pos h]
      rw [Bool.and_eq_true, ok_iff, nullable_iff] at h
      refine Or.inl ⟨[], [], rfl, h.1, h.2, rfl, ?_⟩
      intro w' after' e
      rw [eq_comm, List.append_eq_nil_iff] at e
      rw [e.1]; intros; exact Nat.le_refl _
    · rw [if_neg h]
      rw [Bool.and_eq_true, ok_iff, nullable_iff] at h
      refine Or.inr ⟨rfl, ?_⟩
      intro w' after' e hm ho
      rw [eq_comm, List.append_eq_nil_iff] at e
      rw [e.1] at hm; rw [e.2] at ho
      exact h ⟨hm, ho⟩
  | cons c cs ih =>
    intro r n acc
    have hs : ∀ acc', scan b r n acc (c :: cs) = (match r.deriv c with
      | .none => acc'
      | r' => scan b r' (n + 1) acc' cs) ∨ acc' ≠ (if r.nullable && (!b || wordEnd (c :: cs)) then some n else acc) := by
      intro acc'
      by_cases e : acc' = (if r.nullable && (!b || wordEnd (c :: cs)) then some n else acc)
      · left; subst e; rw [scan]; rfl
      · exact Or.inr e
    have hs := (hs (if r.nullable && (!b || wordEnd (c :: cs)) then some n else acc)).resolve_right (by simp)
    rw [hs]
    generalize hacc : (if r.nullable && (!b || wordEnd (c :: cs)) then some n else acc) = acc'
    have hno : (match r.deriv c with
      | .none => acc'
      | r' => scan b r' (n + 1) acc' cs) = acc' → (∀ w' after', cs = w' ++ after' → Matches (r.deriv c) w' → ¬ Ok b after') →
        (∃ w after, c :: cs = w ++ after ∧ Matches r w ∧ Ok b after ∧ acc' = some (n + w.length) ∧
      ∀ w' after', c :: cs = w' ++ after' → Matches r w' → Ok b after' → w'.length ≤ w.length) ∨
    (acc' = acc ∧ ∀ w' after', c :: cs = w' ++ after' → Matches r w' → ¬ Ok b after') := by
      intro _ hnone
      have hnone' : ∀ w' after', c :: cs = w' ++ after' → Matches r w' → Ok b after' → w' = [] := by
        intro w' after' e hm ho
        cases w' with
        | nil => rfl
        | cons d w' =>
          simp only [List.cons_append, List.cons.injEq] at e
          obtain ⟨rfl, rfl⟩ := e
          exact absurd ho (hnone w' after' rfl ((deriv_iff _ _ _).2 hm))
      by_cases h : (r.nullable && (!b || wordEnd (c :: cs))) = true
      · rw [if_pos h] at hacc
        rw [Bool.and_eq_true, ok_iff, nullable_iff] at h
        refine Or.inl ⟨[], c :: cs, rfl, h.1, h.2, hacc.symm, ?_⟩
        intro w' after' e hm ho
        rw [hnone' w' after' e hm ho]
        exact Nat.le_refl _
      · rw [if_neg h] at hacc
        rw [Bool.and_eq_true, ok_iff, nullable_iff] at h
        refine Or.inr ⟨hacc.symm, ?_⟩
        intro w' after' e hm ho
        have := hnone' w' after' e hm ho
        subst this
        simp only [List.nil_append] at e
        subst e
        exact h ⟨hm, ho⟩
    have hdead : ∀ r', r.deriv c = r' → (∀ w, ¬ Matches r' w) →
        ∀ w' after', cs = w' ++ after' → Matches (r.deriv c) w' → ¬ Ok b after' := by
      intro r' e hw w' after' _ hm
      rw [e] at hm
      exact absurd hm (hw w')
    have hgo : (match r.deriv c with
      | .none => acc'
      | r' => scan b r' (n + 1) acc' cs) = scan b (r.deriv c) (n + 1) acc' cs ∨ r.deriv c = .none := by
      cases r.deriv c <;> first | exact Or.inr rfl | exact Or.inl rfl
    rcases hgo with hgo | hgo
    · rw [hgo]
      rcases ih (r.deriv c) (n + 1) acc' with ⟨w, after, e, hm, ho, hsc, hl⟩ | ⟨hsc, hl⟩
      · left
        refine ⟨c :: w, after, by rw [e]; rfl, (deriv_iff _ _ _).1 hm, ho, ?_, ?_⟩
        · rw [hsc, List.length_cons]; congr 1; omega
        · intro w' after' e' hm' ho'
          cases w' with
          | nil => simp
          | cons d w' =>
            simp only [List.cons_append, List.cons.injEq] at e'
            obtain ⟨rfl, e'⟩ := e'
            have := hl w' after' e' ((deriv_iff _ _ _).2 hm') ho'
            simp only [List.length_cons]; omega
      · rw [hsc]
        exact hno (by rw [hgo, hsc]) hl
    · have : (match r.deriv c with
        | .none => acc'
        | r' => scan b r' (n + 1) acc' cs) = acc' := by rw [hgo]
      rw [this]
      exact hno this (hdead _ hgo (fun _ => matches_none))

theorem LexRule.scan_some {r : LexRule} {rest : Text} {n : Nat} (h : r.scan rest = some n) :
    MatchesAt r rest (rest.take n) ∧ n ≤ rest.length ∧ ∀ w', MatchesAt r rest w' → w'.length ≤ n := by
  unfold LexRule.scan at h
  rcases scan_spec r.boundary rest r.re 0 none with ⟨w, after, e, hm, ho, hs, hl⟩ | ⟨hs, -⟩
  · rw [h] at hs
    simp only [Nat.zero_add, Option.some.injEq] at hs
    subst hs
    refine ⟨⟨after, ?_, ?_, ho⟩, ?_, ?_⟩
    · rw [e]; simp
    · rw [e]; simpa using hm
    · rw [e]; simp
    · rintro w' ⟨a, e', h1, h2⟩
      exact hl w' a e' h1 h2
  · rw [h] at hs; cases hs

theorem LexRule.scan_none {r : LexRule} {rest : Text} (h : r.scan rest = none) (w : Text) : ¬ MatchesAt r rest w := by
  unfold LexRule.scan at h
  rcases scan_spec r.boundary rest r.re 0 none with ⟨w, after, e, hm, ho, hs, hl⟩ | ⟨-, hl⟩
  · rw [h] at hs; cases hs
  · rintro ⟨a, e, h1, h2⟩
    exact hl w a e h1 h2

theorem bestOf_none {rules : List LexRule} {rest : Text} (h : bestOf rules rest = none) :
    ∀ r ∈ rules, ∀ w, ¬ MatchesAt r rest w := by
  induction rules with
  | nil => simp
  | cons r rs ih =>
    unfold bestOf at h
    split at h
    · next h1 =>
      intro r' hr'
      rcases List.mem_cons.1 hr' with rfl | hr'
      · exact LexRule.scan_none h1
      · exact ih h r' hr'
    · simp at h
    · split at h <;> simp at h

theorem bestOf_some {rules : List LexRule} {rest : Text} {n : Nat} {k : Kind} (h : bestOf rules rest = some (n, k)) :
    (∃ r ∈ rules, r.kind = k ∧ MatchesAt r rest (rest.take n)) ∧ n ≤ rest.length ∧
    ∀ r ∈ rules, ∀ w', MatchesAt r rest w' → w'.length ≤ n := by
  induction rules generalizing n k with
  | nil => simp [bestOf] at h
  | cons r rs ih =>
    unfold bestOf at h
    split at h
    · next h1 =>
      obtain ⟨⟨r', hr', hk, hm⟩, hn, hl⟩ := ih h
      refine ⟨⟨r', List.mem_cons_of_mem _ hr', hk, hm⟩, hn, ?_⟩
      intro x hx
      rcases List.mem_cons.1 hx with rfl | hx
      · intro w' hw'; exact absurd hw' (LexRule.scan_none h1 w')
      · exact hl x hx
    · next m h1 h2 =>
      simp only [Option.some.injEq, Prod.mk.injEq] at h
      obtain ⟨rfl, rfl⟩ := h
      obtain ⟨a, b, c⟩ := LexRule.scan_some h1
      refine ⟨⟨r, by simp, rfl, a⟩, b, ?_⟩
      intro x hx
      rcases List.mem_cons.1 hx with rfl | hx
      · exact c
      · intro w' hw'; exact absurd hw' (bestOf_none h2 x hx w')
    · next m1 m2 k2 h1 h2 =>
      obtain ⟨a, b, c⟩ := LexRule.scan_some h1
      obtain ⟨⟨r', hr', hk, hm⟩, hn, hl⟩ := ih h2
      split at h
      · next hle =>
        simp only [Option.some.injEq, Prod.mk.injEq] at h
        obtain ⟨rfl, rfl⟩ := h
        refine ⟨⟨r, by simp, rfl, a⟩, b, ?_⟩
        intro x hx w' hw'
        rcases List.mem_cons.1 hx with rfl | hx
        · exact c w' hw'
        · exact Nat.le_trans (hl x hx w' hw') hle
      · next hle =>
        simp only [Option.some.injEq, Prod.mk.injEq] at h
        obtain ⟨rfl, rfl⟩ := h
        refine ⟨⟨r', List.mem_cons_of_mem _ hr', hk, hm⟩, hn, ?_⟩
        intro x hx w' hw'
        rcases List.mem_cons.1 hx with rfl | hx
        · exact Nat.le_trans (c w' hw') (by omega)
        · exact hl x hx w' hw'

/-- No rule matches the empty text. -/
theorem rules_not_nullable : lexRules.all (fun r => !r.re.nullable) = true := by decide +kernel

/-- Token kinds are below 344 and not `Eof` or `Error`. -/
theorem rules_kinds : lexRules.all (fun r => Nat.blt r.kind 344 && !(r.kind == K.Eof) && !(r.kind == K.Error)) = true := by
  decide +kernel

theorem matchesAt_ne_nil {r : LexRule} (hr : r ∈ lexRules) {rest w : Text} (h : MatchesAt r rest w) : w ≠ [] := by
  rintro rfl
  obtain ⟨-, -, h, -⟩ := h
  have := List.all_eq_true.1 rules_not_nullable r hr
  rw [(nullable_iff _).2 h] at this
  cases this

theorem rule_kind {r : LexRule} (hr : r ∈ lexRules) : r.kind < 344 ∧ r.kind ≠ K.Eof ∧ r.kind ≠ K.Error := by
  have := List.all_eq_true.1 rules_kinds r hr
  simp only [Bool.and_eq_true, Bool.not_eq_true', beq_eq_false_iff_ne, Nat.blt_eq] at this
  exact ⟨this.1.1, this.1.2, this.2⟩

/-- One step of the lexer. -/
theorem nextTok_spec (errLen : Text → Nat) {rest : Text} (hr : rest ≠ []) :
    let t := nextTok errLen rest
    0 < t.2 ∧ t.2 ≤ rest.length ∧
    (Longest rest t.1 (rest.take t.2) ∨ (t.1 = K.Error ∧ NoMatch rest)) := by
  have hpos : 0 < rest.length := List.length_pos_iff.2 hr
  unfold nextTok
  split
  · next n k h =>
    obtain ⟨⟨r, hr', hk, hm⟩, hn, hl⟩ := bestOf_some h
    have hne := matchesAt_ne_nil hr' hm
    have hl' : (rest.take n).length = n := by simp [hn]
    refine ⟨?_, hn, Or.inl ⟨⟨r, hr', hk, hm⟩, ?_⟩⟩
    · rcases Nat.eq_zero_or_pos n with h0 | h0
      · subst h0; simp at hne
      · exact h0
    · intro r' h1 w' h2
      show w'.length ≤ (rest.take n).length
      rw [hl']; exact hl r' h1 w' h2
  · next h =>
    refine ⟨?_, ?_, Or.inr ⟨rfl, bestOf_none h⟩⟩ <;> simp only [] <;> omega

theorem lexGo_spec (errLen : Text → Nat) (fuel : Nat) : ∀ (off : Nat) (rest : Text), rest.length ≤ fuel →
    TilesFrom off (lexGo errLen fuel off rest) ∧
    ((lexGo errLen fuel off rest).map (·.text)).flatten = rest ∧
    (∀ t ∈ lexGo errLen fuel off rest, t.kind ≠ K.Eof ∧ t.kind < 344 ∧ t.text ≠ []) ∧
    Lexes rest ((lexGo errLen fuel off rest).map (fun t => (t.kind, t.text))) := by
  induction fuel with
  | zero =>
    intro off rest h
    have : rest = [] := by simpa using h
    subst this
    exact ⟨trivial, rfl, by simp [lexGo], .nil⟩
  | succ fuel ih =>
    intro off rest h
    cases rest with
    | nil => exact ⟨trivial, rfl, by simp [lexGo], .nil⟩
    | cons c cs =>
      obtain ⟨hp, hl, hcase⟩ := nextTok_spec errLen (rest := c :: cs) (by simp)
      obtain ⟨i1, i2, i3, i4⟩ := ih (off + blen ((c :: cs).take (nextTok errLen (c :: cs)).2))
        ((c :: cs).drop (nextTok errLen (c :: cs)).2) (by simp only [List.length_drop]; omega)
      have hne : (c :: cs).take (nextTok errLen (c :: cs)).2 ≠ [] := by
        intro he
        have := congrArg List.length he
        simp only [List.length_take, List.length_nil] at this
        omega
      have hk : (nextTok errLen (c :: cs)).1 ≠ K.Eof ∧ (nextTok errLen (c :: cs)).1 < 344 := by
        rcases hcase with ⟨⟨r, hr, hk, -⟩, -⟩ | ⟨hk, -⟩
        · rw [← hk]; exact ⟨(rule_kind hr).2.1, (rule_kind hr).1⟩
        · rw [hk]; decide
      refine ⟨⟨rfl, rfl, i1⟩, ?_, ?_, ?_⟩
      · simp only [lexGo, List.map_cons, List.flatten_cons]
        rw [i2, List.take_append_drop]
      · intro t ht
        simp only [lexGo, List.mem_cons] at ht
        rcases ht with rfl | ht
        · exact ⟨hk.1, hk.2, hne⟩
        · exact i3 t ht
      · simp only [lexGo, List.map_cons]
        have e : c :: cs = (c :: cs).take (nextTok errLen (c :: cs)).2 ++ (c :: cs).drop (nextTok errLen (c :: cs)).2 :=
          (List.take_append_drop _ _).symm
        have key : ∀ w a l, c :: cs = w ++ a → w = (c :: cs).take (nextTok errLen (c :: cs)).2 → Lexes a l →
            Lexes (c :: cs) (((nextTok errLen (c :: cs)).1, w) :: l) := by
          intro w a l e1 e2 hs
          rcases hcase with hc | ⟨hk', hc⟩
          · rw [← e2] at hc
            rw [e1] at hc ⊢
            exact .tok hc hs
          · rw [hk']
            rw [e1] at hc ⊢
            exact .err hc (by rw [e2]; exact hne) hs
        exact key _ _ _ e rfl i4

end Verif.Lexer
