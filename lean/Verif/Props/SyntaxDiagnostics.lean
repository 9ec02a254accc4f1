import Verif.Features.SyntaxDiagnostics
import Verif.Grammar.Local
import Verif.Props.ParserLang
import Verif.Props.SelectDiagnostics
/-!
# Syntax errors as diagnostics: C58
-/
namespace Verif.Props
open Verif Verif.Grammar Verif.Lexer Verif.Features

/-- The text of the tokens. -/
def tokText (l : List Tok) : Text := (l.map (·.text)).flatten

theorem tilesFrom_split : ∀ (A : List Tok) {o : Nat} {t : Tok} {B : List Tok}, TilesFrom o (A ++ t :: B) →
    t.start = o + blen (tokText A) ∧ t.stop = o + blen (tokText (A ++ [t])) := by
  intro A
  induction A with
  | nil =>
    intro o t B h
    have e : tokText ([] ++ [t]) = t.text := by simp [tokText]
    rw [e]
    exact ⟨h.1, h.2.1⟩
  | cons a A ih =>
    intro o t B h
    obtain ⟨h1, h2, h3⟩ := h
    obtain ⟨h4, h5⟩ := ih h3
    have e1 : tokText (a :: A) = a.text ++ tokText A := by simp [tokText]
    have e2 : tokText (a :: A ++ [t]) = a.text ++ tokText (A ++ [t]) := by simp [tokText]
    rw [e1, e2, blen_append, blen_append]
    omega

theorem filter_split {α} (f : α → Bool) : ∀ (l : List α) (p : Nat) (t : α), (l.filter f)[p]? = some t →
    ∃ A B, l = A ++ t :: B ∧ (A.filter f).length = p ∧ f t = true := by
  intro l
  induction l with
  | nil => intro p t h; simp at h
  | cons a l ih =>
    intro p t h
    by_cases ha : f a = true
    · rw [List.filter_cons_of_pos ha] at h
      cases p with
      | zero => simp at h; subst h; exact ⟨[], l, rfl, rfl, ha⟩
      | succ p =>
        obtain ⟨A, B, h1, h2, h3⟩ := ih p t (by simpa using h)
        exact ⟨a :: A, B, by rw [h1]; rfl, by rw [List.filter_cons_of_pos ha]; simp [h2], h3⟩
    · rw [List.filter_cons_of_neg ha] at h
      obtain ⟨A, B, h1, h2, h3⟩ := ih p t h
      exact ⟨a :: A, B, by rw [h1]; rfl, by rw [List.filter_cons_of_neg ha]; exact h2, h3⟩

theorem filter_last {α} (f : α → Bool) (l : List α) (t : α) (h : (l.filter f).getLast? = some t) :
    ∃ A B, l = A ++ t :: B ∧ f t = true ∧ ∀ x ∈ B, f x = false := by
  induction l with
  | nil => simp at h
  | cons a l ih =>
    by_cases hl : l.filter f = []
    · have hB : ∀ x ∈ l, f x = false := by
        intro x hx
        have := List.filter_eq_nil_iff.1 hl x hx
        simpa using this
      by_cases ha : f a = true
      · rw [List.filter_cons_of_pos ha, hl] at h
        simp at h; subst h
        exact ⟨[], l, rfl, ha, hB⟩
      · rw [List.filter_cons_of_neg ha, hl] at h; simp at h
    · have : (l.filter f).getLast? = some t := by
        by_cases ha : f a = true
        · rw [List.filter_cons_of_pos ha, List.getLast?_cons] at h
          cases hq : (l.filter f).getLast? with
          | none => exact absurd (List.getLast?_eq_none_iff.1 hq) hl
          | some z => rw [hq] at h; simpa using h
        · rw [List.filter_cons_of_neg ha] at h; exact h
      obtain ⟨A, B, h1, h2, h3⟩ := ih this
      exact ⟨a :: A, B, by rw [h1]; rfl, h2, h3⟩

theorem kinds_append (a b : List Tok) : kinds (a ++ b) = kinds a ++ kinds b := by simp [kinds, significant]

/-- A single error report of the parser is genuine. -/
theorem report_genuine {e : Entry} {text : Text} {toks : List Tok} (hL : Lexed text toks) {F : Forest}
    (h : parseTokens e (kinds toks) = some (Forest.ser (.node e.kind F .nil))) {q : Nat × List Kind} (hq : q ∈ F.reports 0)
    {a x : List Kind} (ha : kinds toks = a ++ x) (hl : a.length = q.1 + 1) :
    ∀ w, Derives sparqlRules (.node e.kind) w → ¬ a <+: w := by
  rintro w hw ⟨y, rfl⟩
  obtain ⟨n, s, hs, hev⟩ := parseTokens_some h
  obtain ⟨F', hF'⟩ := (inner_of_unit hw).dtree
  obtain ⟨n', t, ht, -, h3⟩ := parse_valid e hF'
  have hno := (dtree_full hF').2.1
  rw [ha] at hs
  have := report_local (by rw [← ha]; exact kinds_noEof hL.noEof) hs ht hev h3 hq hl
  rw [hno] at this; cases this

/-- **C58.** The syntax diagnostics never panic (given that the document could be parsed). They report nothing iff the parser
found no error; otherwise one error, either at a token such that no valid document begins with the tokens up to and
including that token, or, behind the last token, if the document is not valid. -/
theorem c58_exact (errLen : Text → Nat) (text : Text) (g errs) (hp : parseSource errLen text = some (g, errs)) :
    ∃ ds, added (syntaxError errLen text) = some ds ∧
      ((errs = [] ∧ ds = []) ∨
       (∃ A t B, lex errLen text = A ++ t :: B ∧ t.trivia = false ∧
          ds = [⟨⟨posOf (tokText A), posOf (tokText (A ++ [t]))⟩, .error, .syntaxError, none⟩] ∧
          ∀ w, Derives sparqlRules (.node g.kind) w → ¬ kinds (A ++ [t]) <+: w) ∨
       (∃ A B, lex errLen text = A ++ B ∧ (∀ t ∈ B, t.trivia = true) ∧ (∀ t, A.getLast? = some t → t.trivia = false) ∧
          ds = [⟨⟨posOf (tokText A), posOf (tokText A)⟩, .error, .syntaxError, none⟩] ∧
          ¬ Derives sparqlRules (.node g.kind) (kinds (lex errLen text)))) := by
  have hL := c47_lossless errLen text
  have key : ∀ e : Entry, parseText e (lex errLen text) = some (g, errs) → ∃ F, g.kind = e.kind ∧
      parseTokens e (kinds (lex errLen text)) = some (Forest.ser (.node e.kind F .nil)) ∧
      errs = (F.reports 0).map (fun p => let a := anchor (significant (lex errLen text)) p.1; ⟨a.1, a.2, p.2⟩) := by
    intro e h
    obtain ⟨F, cs, h1, -, hg, h2, -⟩ := parseText_some hL h
    exact ⟨F, by rw [hg]; rfl, h1, h2⟩
  have hent : ∃ e : Entry, parseText e (lex errLen text) = some (g, errs) := by
    have hp' := hp
    unfold parseSource parseDocument at hp'
    split at hp'
    · exact ⟨_, hp'⟩
    · exact ⟨_, hp'⟩
    · exact ⟨_, hp'⟩
  obtain ⟨e, he⟩ := hent
  obtain ⟨F, hk, hev, herr⟩ := key e he
  rw [hk]
  unfold syntaxError
  rw [hp]
  cases hr : F.reports 0 with
  | nil =>
    rw [hr] at herr
    subst herr
    exact ⟨[], rfl, Or.inl ⟨rfl, rfl⟩⟩
  | cons q qs =>
    rw [hr] at herr
    rw [herr]
    have hq : q ∈ F.reports 0 := by rw [hr]; exact List.mem_cons_self ..
    have htx : tokText (lex errLen text) = text := hL.tiles.2
    cases hs : (significant (lex errLen text))[q.1]? with
    | some t =>
      obtain ⟨A, B, h1, h2, h3⟩ := filter_split _ _ _ _ hs
      obtain ⟨h4, h5⟩ := tilesFrom_split A (by rw [← h1]; exact hL.tiles.1)
      have ht : text = tokText A ++ (t.text ++ tokText B) := by rw [← htx, h1]; simp [tokText]
      have ht' : text = tokText (A ++ [t]) ++ tokText B := by rw [ht]; simp [tokText]
      have hpos : Range.fromByteOffsetRange t.start t.stop text = some ⟨posOf (tokText A), posOf (tokText (A ++ [t]))⟩ := by
        have e1 : fromByteIndex t.start text = some (posOf (tokText A)) := by
          rw [h4, Nat.zero_add]; conv => lhs; rw [ht]
          exact fromByteIndex_of_prefix _ _
        have e2 : fromByteIndex t.stop text = some (posOf (tokText (A ++ [t]))) := by
          rw [h5, Nat.zero_add]; conv => lhs; rw [ht']
          exact fromByteIndex_of_prefix _ _
        simp [Range.fromByteOffsetRange, e1, e2]
      have htr : t.trivia = false := by simpa using h3
      refine ⟨[⟨⟨posOf (tokText A), posOf (tokText (A ++ [t]))⟩, .error, .syntaxError, none⟩], ?_, Or.inr (Or.inl ⟨A, t, B, h1, htr, rfl, ?_⟩)⟩
      · simp only [List.map_cons, anchor, hs, hpos, Option.map_some]; rfl
      · have hkk : kinds (lex errLen text) = kinds (A ++ [t]) ++ kinds B := by rw [← kinds_append, h1]; simp
        refine report_genuine hL hev hq hkk ?_
        rw [kinds_append]
        have : kinds [t] = [t.kind] := by simp [kinds, significant, htr]
        rw [this]
        simp only [List.length_append, List.length_singleton]
        have : (kinds A).length = (A.filter (fun t => !t.trivia)).length := by simp [kinds, significant]
        omega
    | none =>
      have hnd : ¬ Derives sparqlRules (.node e.kind) (kinds (lex errLen text)) := by
        intro hd
        obtain ⟨g', F', hg', -⟩ := c41_valid_accepted e text _ hL hd
        rw [he] at hg'
        simp only [Option.some.injEq, Prod.mk.injEq] at hg'
        rw [herr] at hg'
        simp at hg'
      cases hlast : (significant (lex errLen text)).getLast? with
      | some t =>
        obtain ⟨A, B, h1, h2, h3⟩ := filter_last _ _ _ hlast
        have h1' : lex errLen text = (A ++ [t]) ++ B := by rw [h1]; simp
        obtain ⟨h4, h5⟩ := tilesFrom_split A (by rw [← h1]; exact hL.tiles.1)
        have ht' : text = tokText (A ++ [t]) ++ tokText B := by rw [← htx, h1]; simp [tokText]
        have hpos : Range.fromByteOffsetRange t.stop t.stop text = some ⟨posOf (tokText (A ++ [t])), posOf (tokText (A ++ [t]))⟩ := by
          have e2 : fromByteIndex t.stop text = some (posOf (tokText (A ++ [t]))) := by
            rw [h5, Nat.zero_add]; conv => lhs; rw [ht']
            exact fromByteIndex_of_prefix _ _
          simp [Range.fromByteOffsetRange, e2]
        refine ⟨[⟨⟨posOf (tokText (A ++ [t])), posOf (tokText (A ++ [t]))⟩, .error, .syntaxError, none⟩], ?_,
          Or.inr (Or.inr ⟨A ++ [t], B, h1', fun x hx => by simpa using h3 x hx, ?_, rfl, hnd⟩)⟩
        · simp only [List.map_cons, anchor, hs, hlast, hpos, Option.map_some]; rfl
        · intro x hx; simp at hx; subst hx; simpa using h2
      | none =>
        have h0 : significant (lex errLen text) = [] := List.getLast?_eq_none_iff.1 hlast
        have hpos : Range.fromByteOffsetRange 0 0 text = some ⟨posOf [], posOf []⟩ := by
          have e2 : fromByteIndex 0 text = some (posOf []) := fromByteIndex_of_prefix [] text
          simp [Range.fromByteOffsetRange, e2]
        refine ⟨[⟨⟨posOf [], posOf []⟩, .error, .syntaxError, none⟩], ?_,
          Or.inr (Or.inr ⟨[], lex errLen text, rfl, fun x hx => ?_, by simp, rfl, hnd⟩)⟩
        · simp only [List.map_cons, anchor, hs, hlast, hpos, Option.map_some]; rfl
        · have := List.filter_eq_nil_iff.1 h0 x hx
          simpa using this

/-- A valid document has no syntax diagnostics. -/
theorem c58_valid_silent (errLen : Text → Nat) (text : Text) (g errs) (hp : parseSource errLen text = some (g, errs))
    (hd : Derives sparqlRules (.node g.kind) (kinds (lex errLen text))) : added (syntaxError errLen text) = some [] := by
  obtain ⟨ds, h, h' | ⟨A, t, B, h1, h2, h3, h4⟩ | ⟨A, B, -, -, -, -, h4⟩⟩ := c58_exact errLen text g errs hp
  · rw [h, h'.2]
  · refine absurd ⟨kinds B, ?_⟩ (h4 _ hd)
    rw [h1, ← kinds_append]; simp
  · exact absurd hd h4

/-- Examples: `SELECT ?x {?x WHERE ?y}` has one error, at `WHERE` (of three the parser found); `SELECT ?x {?x a` one behind
its end; and the invalid `ASK {} ASK {}` none. -/
theorem c58_cases : added (syntaxError (fun _ => 1) midText) = some [⟨⟨⟨0, 14⟩, ⟨0, 19⟩⟩, .error, .syntaxError, none⟩] ∧
    added (syntaxError (fun _ => 1) badText) = some [⟨⟨⟨0, 15⟩, ⟨0, 15⟩⟩, .error, .syntaxError, none⟩] ∧
    added (syntaxError (fun _ => 1) tailText) = some [] ∧
    ¬ Derives sparqlRules (.node tailTree.kind) (kinds (lex (fun _ => 1) tailText)) := by
  refine ⟨?_, ?_, ?_, ?_⟩
  · unfold syntaxError; rw [midTree_parse]; decide +kernel
  · unfold syntaxError; rw [badTree_parse]; decide +kernel
  · unfold syntaxError; rw [tailTree_parse]; decide +kernel
  · intro hd
    have := complete_of tailTree_parse hd
    obtain ⟨ev, h1, -, h3⟩ := (c42_accept_iff .query _ (by decide +kernel) (by decide +kernel)).2 hd
    have h4 : (parseTokens .query (kinds (lex (fun _ => 1) tailText))).any (fun ev => ev.contains (Event.openNode K.Error)) = true := by
      decide +kernel
    rw [h1] at h4
    exact h3 (by simpa using h4)

end Verif.Props
