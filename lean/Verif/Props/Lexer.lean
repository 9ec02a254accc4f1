import Verif.Lexer.Apart
import Verif.Props.Parser
/-!
# Properties of the lexer (C47)
-/
namespace Verif.Props
open Verif Verif.Grammar Verif.Lexer

/-- **C47.** For every text the tokens tile the text: they are contiguous, start at 0, and concatenate to the text.
This discharges the hypothesis `Lexed` of the parser theorems. -/
theorem c47_lossless (errLen : Text → Nat) (text : Text) : Lexed text (lex errLen text) := by
  obtain ⟨h1, h2, h3, -⟩ := lexGo_spec errLen text.length 0 text (Nat.le_refl _)
  exact ⟨⟨h1, h2⟩, fun t ht => (h3 t ht).1, fun t ht => (h3 t ht).2.1⟩

/-- **C47.** No token is empty (so the number of tokens is at most the number of characters). -/
theorem c47_nonempty (errLen : Text → Nat) (text : Text) : ∀ t ∈ lex errLen text, t.text ≠ [] := by
  obtain ⟨-, -, h3, -⟩ := lexGo_spec errLen text.length 0 text (Nat.le_refl _)
  exact fun t ht => (h3 t ht).2.2

/-- **C47.** Every token is the longest match of a rule of its kind, or an error token where no rule matches. -/
theorem c47_longest_match (errLen : Text → Nat) (text : Text) :
    Lexes text ((lex errLen text).map (fun t => (t.kind, t.text))) :=
  (lexGo_spec errLen text.length 0 text (Nat.le_refl _)).2.2.2

/-- **C47.** The rules are unambiguous: no text is matched by two different rules. -/
theorem c47_unambiguous (r r' : LexRule) (hr : r ∈ lexRules) (hr' : r' ∈ lexRules) (w : Text)
    (h : Matches r.re w) (h' : Matches r'.re w) : r = r' := by
  have hp := allApart_sound rules_apart
  by_contra hne
  have : ∀ {l : List LexRule}, l.Pairwise (fun r r' => ∀ w, Matches r.re w → ¬ Matches r'.re w) → r ∈ l → r' ∈ l → False := by
    intro l hl
    induction hl with
    | nil => simp
    | cons h1 _ ih =>
      intro m1 m2
      rcases List.mem_cons.1 m1 with rfl | n1
      · rcases List.mem_cons.1 m2 with rfl | m2
        · exact hne rfl
        · exact h1 r' m2 w h h'
      · rcases List.mem_cons.1 m2 with rfl | m2
        · exact h1 r (by assumption) w h' h
        · exact ih n1 m2
  exact this hp hr hr'

theorem longest_unique {rest : Text} {k k' : Kind} {w w' : Text} {after after' : Text} (e : rest = w ++ after)
    (e' : rest = w' ++ after') (h : Longest rest k w) (h' : Longest rest k' w') : k = k' ∧ w = w' ∧ after = after' := by
  obtain ⟨r, hr, hk, hm⟩ := h.rule
  obtain ⟨r', hr', hk', hm'⟩ := h'.rule
  have h1 := h.longest r' hr' w' hm'
  have h2 := h'.longest r hr w hm
  have hl : w.length = w'.length := Nat.le_antisymm h2 h1
  have he := e.symm.trans e'
  obtain ⟨rfl, rfl⟩ := List.append_inj he hl
  obtain ⟨-, -, m1, -⟩ := hm
  obtain ⟨-, -, m2, -⟩ := hm'
  have := c47_unambiguous r r' hr hr' w m1 m2
  exact ⟨by rw [← hk, ← hk', this], rfl, rfl⟩

/-- **C47.** The tokens are determined by the rules: a reading without error token is the only reading. -/
theorem c47_determined (text : Text) (l l' : List (Kind × Text)) (h : Lexes text l) (h' : Lexes text l')
    (hok : ∀ p ∈ l, p.1 ≠ K.Error) : l = l' := by
  induction h generalizing l' with
  | nil =>
    generalize hx : ([] : Text) = x at h'
    cases h' with
    | nil => rfl
    | tok h hs =>
      obtain ⟨r, hr, -, hm⟩ := h.rule
      have := matchesAt_ne_nil hr hm
      rw [eq_comm, List.append_eq_nil_iff] at hx
      exact absurd hx.1 this
    | err h hw hs => rw [eq_comm, List.append_eq_nil_iff] at hx; exact absurd hx.1 hw
  | @tok k w after l h hs ih =>
    generalize hx : w ++ after = x at h'
    obtain ⟨r, hr, -, hm⟩ := h.rule
    cases h' with
    | nil =>
      rw [List.append_eq_nil_iff] at hx
      exact absurd hx.1 (matchesAt_ne_nil hr hm)
    | @tok k' w' after' l' h' hs' =>
      rw [← hx] at h'
      obtain ⟨rfl, rfl, rfl⟩ := longest_unique rfl hx h h'
      rw [ih _ hs' (fun p hp => hok p (List.mem_cons_of_mem _ hp))]
    | @err w' after' l' h' hw hs' => rw [← hx] at h'; exact absurd hm (h' r hr w)
  | err => exact absurd rfl (hok (K.Error, _) List.mem_cons_self)

/-- **C47.** The text the parser returns for any document text is that text, from lexing to tree. -/
theorem c47_parse_lossless (errLen : Text → Nat) (text : Text) (g errs)
    (h : parseSource errLen text = some (g, errs)) : g.text = text :=
  c09_document_lossless text _ (c47_lossless errLen text) g errs h

/-- If there is no error token, the unspecified length of error tokens plays no role. -/
theorem lexGo_errLen (e e' : Text → Nat) (fuel : Nat) : ∀ off rest, (∀ t ∈ lexGo e fuel off rest, t.kind ≠ K.Error) →
    lexGo e' fuel off rest = lexGo e fuel off rest := by
  induction fuel with
  | zero => intros; rfl
  | succ f ih =>
    intro off rest h
    cases rest with
    | nil => rfl
    | cons c cs =>
      have hn : nextTok e' (c :: cs) = nextTok e (c :: cs) := by
        have h0 : (nextTok e (c :: cs)).1 ≠ K.Error := h _ (by simp only [lexGo]; exact List.mem_cons_self)
        revert h0
        unfold nextTok
        split
        · intro _; rfl
        · intro h0; exact absurd rfl h0
      simp only [lexGo, hn]
      rw [ih]
      intro t ht
      exact h t (by simp only [lexGo]; exact List.mem_cons_of_mem _ ht)

theorem c47_errLen_irrelevant (e e' : Text → Nat) (text : Text) (h : ∀ t ∈ lex e text, t.kind ≠ K.Error) :
    lex e' text = lex e text := lexGo_errLen e e' _ _ _ h

theorem lexes_rule {t : Text} {l : List (Kind × Text)} (h : Lexes t l) :
    ∀ p ∈ l, p.1 ≠ K.Error → ∃ r ∈ lexRules, r.kind = p.1 ∧ Matches r.re p.2 := by
  induction h with
  | nil => intro p hp; cases hp
  | @tok k w after l h hs ih =>
    intro p hp hE
    rcases List.mem_cons.1 hp with rfl | hp
    · obtain ⟨r, hr, hk, -, -, hm, -⟩ := h.rule
      exact ⟨r, hr, hk, hm⟩
    · exact ih p hp hE
  | @err w after l h hw hs ih =>
    intro p hp hE
    rcases List.mem_cons.1 hp with rfl | hp
    · exact absurd rfl hE
    · exact ih p hp hE

/-! ## Concrete documents -/

/-- `SELECT ?x {<a> a ?x}` -/
def exText : Text := ['S','E','L','E','C','T',' ','?','x',' ','{','<','a','>',' ','a',' ','?','x','}']

/-- A complete query is lexed without error tokens (whatever the length of error tokens). -/
example (e : Text → Nat) : (lex e exText).map (·.kind) =
    [K.SELECT, K.WHITESPACE, K.VAR1, K.WHITESPACE, K.LCurly, K.IRIREF, K.WHITESPACE, K.a, K.WHITESPACE, K.VAR1, K.RCurly] := by
  have h : (lex (fun _ => 1) exText).map (·.kind) =
    [K.SELECT, K.WHITESPACE, K.VAR1, K.WHITESPACE, K.LCurly, K.IRIREF, K.WHITESPACE, K.a, K.WHITESPACE, K.VAR1, K.RCurly] := by
    decide +kernel
  rw [c47_errLen_irrelevant (fun _ => 1) e, h]
  have h2 : ((lex (fun _ => 1) exText).all (fun t => !(t.kind == K.Error))) = true := by decide +kernel
  intro t ht
  simpa using List.all_eq_true.1 h2 t ht

/-- `INSERT DATA {}` -/
def exInsert1 : Text := ['I','N','S','E','R','T',' ','D','A','T','A',' ','{','}']
/-- `INSERT`, two blanks, `DATA {}`: the same update according to the SPARQL recommendation. -/
def exInsert2 : Text := ['I','N','S','E','R','T',' ',' ','D','A','T','A',' ','{','}']
/-- `DELETE`, two blanks, `DATA {}`. -/
def exDelete2 : Text := ['D','E','L','E','T','E',' ',' ','D','A','T','A',' ','{','}']

/-- **C47, negative result.** The keyword pair `INSERT DATA` is one token with exactly one blank (generated.rs L100), while
`DELETE DATA` allows any white space (L103): `INSERT  DATA {}` is reported as a syntax error, `DELETE  DATA {}` is not. -/
theorem c47_insert_data_one_blank :
    (parseSource (fun _ => 1) exInsert1).map (fun p => p.2.length) = some 0 ∧
    (parseSource (fun _ => 1) exDelete2).map (fun p => p.2.length) = some 0 ∧
    (lex (fun _ => 1) exInsert2).map (·.kind) =
      [K.INSERT, K.WHITESPACE, K.DATA, K.WHITESPACE, K.LCurly, K.RCurly] ∧
    (parseSource (fun _ => 1) exInsert2).map (fun p => p.2.length) ≠ some 0 := by
  decide +kernel

end Verif.Props
