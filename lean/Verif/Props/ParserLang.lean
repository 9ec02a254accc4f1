import Verif.Props.Parser
/-!
# Properties of the parser (C14, C41-C44): the accepted language
-/
namespace Verif.Props
open Verif Verif.Grammar

/-! ## Concrete documents for the examples -/

/-- The tokens of a document given by kinds and texts. -/
def mkFrom : Nat → List (Kind × Text) → List Tok
  | _, [] => []
  | o, (k, t) :: r => ⟨k, t, o, o + blen t⟩ :: mkFrom (o + blen t) r

def mk (l : List (Kind × Text)) : List Tok := mkFrom 0 l
def txt (l : List (Kind × Text)) : Text := (l.map (·.2)).flatten

theorem mkFrom_mem (l : List (Kind × Text)) : ∀ o, ∀ t ∈ mkFrom o l, t.kind ∈ l.map (·.1) := by
  induction l with
  | nil => intro o t ht; simp [mkFrom] at ht
  | cons x r ih =>
    intro o t ht
    simp only [mkFrom, List.mem_cons] at ht
    rcases ht with rfl | ht
    · simp
    · simp only [List.map_cons, List.mem_cons]; exact Or.inr (ih _ t ht)

theorem mk_lexed (l : List (Kind × Text)) (h : (l.map (·.1)).all (fun k => k != K.Eof && Nat.blt k 344) = true) :
    Lexed (txt l) (mk l) := by
  have key : ∀ (l : List (Kind × Text)) o, TilesFrom o (mkFrom o l) ∧
      ((mkFrom o l).map (·.text)).flatten = txt l := by
    intro l
    induction l with
    | nil => intro o; exact ⟨trivial, rfl⟩
    | cons x r ih =>
      intro o
      obtain ⟨h1, h2⟩ := ih (o + blen x.2)
      exact ⟨⟨rfl, rfl, h1⟩, by simp [mkFrom, txt, h2]⟩
  have hk : ∀ t ∈ mk l, t.kind ≠ K.Eof ∧ t.kind < 344 := by
    intro t ht
    have := (List.all_eq_true.mp h) _ (mkFrom_mem l 0 t ht)
    simpa using this
  exact ⟨key l 0, fun t ht => (hk t ht).1, fun t ht => (hk t ht).2⟩

/-- `ASK { # c⏎ ?s ?p ?o } ` with a comment and odd spacing. -/
def exValid : List (Kind × Text) :=
  [(K.WHITESPACE, [' ']), (K.ASK, ['A', 'S', 'K']), (K.WHITESPACE, [' ']), (K.LCurly, ['{']), (K.Comment, ['#', ' ', 'c']), (K.WHITESPACE, ['\n']),
   (K.VAR1, ['?', 's']), (K.WHITESPACE, [' ']), (K.VAR1, ['?', 'p']), (K.WHITESPACE, [' ']), (K.VAR1, ['?', 'o']), (K.RCurly, ['}']),
   (K.WHITESPACE, [' '])]

/-- `ASK { ?s ?p }` -/
def exBroken : List (Kind × Text) :=
  [(K.ASK, ['A', 'S', 'K']), (K.WHITESPACE, [' ']), (K.LCurly, ['{']), (K.VAR1, ['?', 's']), (K.WHITESPACE, [' ']), (K.VAR1, ['?', 'p']),
   (K.WHITESPACE, [' ']), (K.RCurly, ['}'])]

example : Lexed (txt exValid) (mk exValid) := mk_lexed _ (by decide)
example : Lexed (txt exBroken) (mk exBroken) := mk_lexed _ (by decide)

/-- The hypotheses of C09-C15 hold for a document with a syntax error, and there is an error to speak about. -/
example : (parseText .query (mk exBroken)).map (fun p => p.2.map (fun x => (x.start, x.stop))) = some [(11, 12)] := by
  decide +kernel

/-! ## Lemmas about derivation trees -/

theorem dtree_full {r w F} (d : DTree sparqlRules r w F) : F.full ∧ F.noErr = true ∧ F.noErrKind = true := by
  induction d with
  | tok k => simp [Forest.full, Forest.noErr, Forest.noErrKind]
  | node k r w F h d ih =>
    split
    · simp [Forest.full, Forest.noErr, Forest.noErrKind]
    · next hw =>
      have h1 : F.toks ≠ 0 := by rw [d.toks]; simpa using hw
      have h2 : k ≠ K.Error := sparql_sound.noError k r h
      simp [Forest.full, Forest.noErr, Forest.noErrKind, ih, h1, h2]
  | seq a b u v F G da db iha ihb =>
    simp [full_append, Forest.noErr_append, Forest.noErrKind_append, iha, ihb]
  | altL a b w F d ih => exact ih
  | altR a b w F d ih => exact ih
  | optNone r => simp [Forest.full, Forest.noErr, Forest.noErrKind]
  | optSome r w F d ih => exact ih
  | repNil r => simp [Forest.full, Forest.noErr, Forest.noErrKind]
  | repCons r u v F G d ds ih ihs => simp [full_append, Forest.noErr_append, Forest.noErrKind_append, ih, ihs]

theorem inner_of_unit {e : Entry} {w : List Kind} (h : Derives sparqlRules (.node e.kind) w) :
    Derives sparqlRules (.node e.inner) w := by
  cases h with
  | node k r w hr d => rw [unit_rule e] at hr; simp at hr; subst hr; exact d

theorem reports_nil_of_noErr {F : Forest} (h : F.noErr = true) : ∀ m, F.reports m = [] := by
  induction F with
  | nil => intro m; rfl
  | tok r ih => intro m; exact ih h _
  | err e r ih => simp [Forest.noErr] at h
  | node k c r ihc ihr => intro m; simp [Forest.noErr] at h; simp [Forest.reports, ihc h.1, ihr h.2]

theorem noErr_of_reports_nil {F : Forest} : ∀ m, F.reports m = [] → F.noErr = true := by
  induction F with
  | nil => intro m _; rfl
  | tok r ih => intro m h; exact ih _ h
  | err e r ih => intro m h; simp [Forest.reports] at h
  | node k c r ihc ihr =>
    intro m h
    simp only [Forest.reports, List.append_eq_nil_iff] at h
    simp [Forest.noErr, ihc _ h.1, ihr _ h.2]

/-! ## C41: completeness -/

/-- **C41.** Every document whose tokens form a sentence of the SPARQL grammar is parsed without panic and without any
reported error, and the tree (whitespace and comments aside) is the derivation tree of the sentence. -/
theorem c41_valid_accepted (e : Entry) (text : Text) (tokens : List Tok) (hL : Lexed text tokens)
    (hd : Derives sparqlRules (.node e.kind) (kinds tokens)) :
    ∃ g F, parseText e tokens = some (g, []) ∧ DTree sparqlRules (.node e.inner) (kinds tokens) F ∧
      g.shape .nil = .node e.kind F .nil := by
  obtain ⟨F, hF⟩ := (inner_of_unit hd).dtree
  obtain ⟨n, s, h1, -, h3⟩ := parse_valid e hF
  have hp := parseTokens_of_next (kinds_lt hL.kind_lt) h1
  obtain ⟨F', cs, errs, g1, -, g3, g4, -, g6, -⟩ := parseText_of_events hL.noEof hp
  rw [h3] at g1
  have hFF : F = F' := by
    have := ser_inj g1
    simpa using this
  subst hFF
  obtain ⟨f1, f2, -⟩ := dtree_full hF
  refine ⟨.node e.kind cs, F, ?_, hF, ?_⟩
  · rw [g3, g4, reports_nil_of_noErr f2]; rfl
  · simp only [Green.shape]
    rw [g6, prune_of_full f1, dropErr_of_noErr f2]

/-- **C14 (positive part).** The look-ahead budget never runs out on a valid document. -/
theorem c14_valid_not_stuck (e : Entry) (toks : List Kind) (hk : ∀ t ∈ toks, t < 344)
    (hd : Derives sparqlRules (.node e.kind) toks) :
    parseEntry sparql (depthFor toks.length) e.kind toks ≠ .stuck := by
  obtain ⟨F, hF⟩ := (inner_of_unit hd).dtree
  obtain ⟨n, s, h1, -, h3⟩ := parse_valid e hF
  have hp := parseTokens_of_next hk h1
  intro h
  unfold parseTokens at hp
  rw [h] at hp
  simp at hp

/-! ## C14: the budget runs out on deeply nested open braces -/

/-- **C14 (negative part).** `ASK` followed by 172 or more opening braces makes the parser panic. -/
theorem c14_open_braces_panic (m : Nat) (hm : 172 ≤ m) :
    parseTokens .query (K.ASK :: List.replicate m K.LCurly) = none := by
  have hk : ∀ m, ∀ t ∈ K.ASK :: List.replicate m K.LCurly, t < 344 := by
    intro m t ht
    simp only [List.mem_cons, List.mem_replicate] at ht
    rcases ht with rfl | ⟨-, rfl⟩ <;> decide
  by_cases h1 : m = 172
  · subst h1; decide +kernel
  by_cases h2 : m = 173
  · subst h2; decide +kernel
  by_cases h3 : m = 174
  · subst h3; decide +kernel
  obtain ⟨j, rfl⟩ : ∃ j, m = j + 175 := ⟨m - 175, by omega⟩
  exact parseTokens_none_of_stuck (hk _) (stuck_ask j)

/-- With 171 braces it does not panic. -/
theorem c14_threshold_sharp : (parseTokens .query (K.ASK :: List.replicate 171 K.LCurly)).isSome = true := by
  decide +kernel

/-! ## C43: the grammar is unambiguous -/

/-- **C43.** A sentence of the SPARQL grammar has exactly one derivation tree. -/
theorem c43_unambiguous (e : Entry) (w : List Kind) (F F' : Forest)
    (h : DTree sparqlRules (.node e.inner) w F) (h' : DTree sparqlRules (.node e.inner) w F') : F = F' := by
  obtain ⟨n, s, h1, -, h3⟩ := parse_valid e h
  obtain ⟨n', s', h1', -, h3'⟩ := parse_valid e h'
  have a := exec_mono_le sparql (Nat.le_max_left n n') 0 e.kind (.call e.kind) (PState.init w)
    (by unfold parseEntry at h1; rw [h1]; simp)
  have b := exec_mono_le sparql (Nat.le_max_right n n') 0 e.kind (.call e.kind) (PState.init w)
    (by unfold parseEntry at h1'; rw [h1']; simp)
  unfold parseEntry at h1 h1'
  rw [a, h1, h1'] at b
  simp only [Out.next.injEq] at b
  rw [b, h3'] at h3
  have := ser_inj h3
  simpa using this.symm

/-! ## C42: soundness -/

/-- **C42 (events).** The parser neither reports an error nor opens an error node iff the tokens are a sentence. -/
theorem c42_accept_iff (e : Entry) (toks : List Kind) (hN : K.Eof ∉ toks) (hk : ∀ t ∈ toks, t < 344) :
    (∃ ev, parseTokens e toks = some ev ∧ (∀ x, Event.error x ∉ ev) ∧ Event.openNode K.Error ∉ ev) ↔
    Derives sparqlRules (.node e.kind) toks := by
  constructor
  · rintro ⟨ev, h, h1, h2⟩
    obtain ⟨n, s, hs, rfl⟩ := parseTokens_some h
    obtain ⟨-, F, hF, -⟩ := parse_shape hN hs
    have := (parse_sound hN hk hs hF (fun F' => ser_inj)).2 (by
      rw [hF] at h1 h2
      simp only [Forest.strict, Bool.and_eq_true]
      refine ⟨(noErr_iff F).mpr fun x hx => h1 x (by simp [Forest.ser, hx]), (noErrKind_iff F).mpr fun hx => h2 ?_⟩
      simp [Forest.ser, hx])
    exact .node _ _ _ (unit_rule e) this.derives
  · intro hd
    obtain ⟨F, hF⟩ := (inner_of_unit hd).dtree
    obtain ⟨n, s, h1, -, h3⟩ := parse_valid e hF
    refine ⟨_, parseTokens_of_next hk h1, ?_, ?_⟩ <;> obtain ⟨-, f2, f3⟩ := dtree_full hF
    · intro x hx
      rw [h3] at hx
      simp [Forest.ser] at hx
      exact (noErr_iff F).mp f2 x hx
    · intro hx
      rw [h3] at hx
      simp [Forest.ser] at hx
      rcases hx with hx | hx
      · cases e <;> exact absurd hx (by decide)
      · exact (noErrKind_iff F).mp f3 hx

theorem noErrKind_shape (cs : List Green) (h : ∀ n ∈ Green.nodesL cs, n.kind ≠ K.Error) :
    (Green.shapeL cs).noErrKind = true := by
  have key : (∀ g : Green, (∀ n ∈ g.nodes, n.kind ≠ K.Error) → ∀ r : Forest, r.noErrKind = true →
      (g.shape r).noErrKind = true) := by
    intro g
    induction g using Green.rec (motive_2 := fun cs => (∀ n ∈ Green.nodesL cs, n.kind ≠ K.Error) →
        (Green.shapeL cs).noErrKind = true) with
    | tok k t => intro _ r hr; simp only [Green.shape]; split <;> simpa [Forest.noErrKind] using hr
    | node k cs ih =>
      intro h r hr
      have h1 := h (.node k cs) (by simp [Green.nodes])
      have h2 := ih (fun n hn => h n (by simp [Green.nodes, hn]))
      simp only [Green.kind] at h1
      simp [Green.shape, Forest.noErrKind, h1, h2, hr]
    | nil => rfl
    | cons g gs ihg ihgs =>
      rename_i hh
      simp only [Green.shapeL]
      exact ihg (fun n hn => hh n (by simp [Green.nodesL, hn])) _ (ihgs (fun n hn => hh n (by simp [Green.nodesL, hn])))
  induction cs with
  | nil => rfl
  | cons g gs ih =>
    simp only [Green.shapeL]
    exact key g (fun n hn => h n (by simp [Green.nodesL, hn])) _ (ih (fun n hn => h n (by simp [Green.nodesL, hn])))

theorem nodes_of_noErrKind (cs : List Green) (h : (Green.shapeL cs).noErrKind = true) :
    ∀ n ∈ Green.nodesL cs, n.kind ≠ K.Error := by
  have key : ∀ g : Green, ∀ r : Forest, (g.shape r).noErrKind = true →
      r.noErrKind = true ∧ ∀ n ∈ g.nodes, n.kind ≠ K.Error := by
    intro g
    induction g using Green.rec (motive_2 := fun cs => (Green.shapeL cs).noErrKind = true →
        ∀ n ∈ Green.nodesL cs, n.kind ≠ K.Error) with
    | tok k t =>
      intro r hr
      simp only [Green.shape] at hr
      exact ⟨by split at hr <;> simpa [Forest.noErrKind] using hr, by simp [Green.nodes]⟩
    | node k cs ih =>
      intro r hr
      simp only [Green.shape, Forest.noErrKind, Bool.and_eq_true, bne_iff_ne] at hr
      refine ⟨hr.2, fun n hn => ?_⟩
      simp only [Green.nodes, List.mem_cons] at hn
      rcases hn with rfl | hn
      · exact hr.1.1
      · exact ih hr.1.2 n hn
    | nil => rename_i h; simp [Green.nodesL] at h
    | cons g gs ihg ihgs =>
      rename_i hh n hn
      simp only [Green.shapeL] at hh
      obtain ⟨h1, h2⟩ := ihg _ hh
      simp only [Green.nodesL, List.mem_append] at hn
      rcases hn with hn | hn
      · exact h2 n hn
      · exact ihgs h1 n hn
  induction cs with
  | nil => simp [Green.nodesL]
  | cons g gs ih =>
    simp only [Green.shapeL] at h
    obtain ⟨h1, h2⟩ := key g _ h
    intro n hn
    simp only [Green.nodesL, List.mem_append] at hn
    rcases hn with hn | hn
    · exact h2 n hn
    · exact ih h1 n hn

theorem noErrNode_of_prune {F : Forest} (h : F.prune.dropErr.noErrKind = true) : F.noErrNode = true := by
  have dropErr_append : ∀ A B : Forest, (A.append B).dropErr = A.dropErr.append B.dropErr := by
    intro A B
    induction A with
    | nil => rfl
    | tok r ih => simp [Forest.append, Forest.dropErr, ih]
    | err e r ih => simp [Forest.append, Forest.dropErr, ih]
    | node k c r _ ih => simp [Forest.append, Forest.dropErr, ih]
  induction F with
  | nil => rfl
  | tok r ih => exact ih h
  | err e r ih => exact ih h
  | node k c r ihc ihr =>
    simp only [Forest.prune] at h
    split at h
    · next hc =>
      rw [dropErr_append, Forest.noErrKind_append, Bool.and_eq_true] at h
      simp [Forest.noErrNode, hc, ihc h.1, ihr h.2]
    · simp only [Forest.dropErr, Forest.noErrKind, Bool.and_eq_true] at h
      simp [Forest.noErrNode, h.1.1, ihc h.1.2, ihr h.2]

/-- **C42 (tree).** If a parse reports no error and its tree contains no error node, the document is a prefix of a
sentence of the grammar: everything in it is right, at most something is missing at the end. -/
theorem c42_clean_is_prefix (e : Entry) (text : Text) (tokens : List Tok) (hL : Lexed text tokens) (g)
    (h : parseText e tokens = some (g, [])) (hg : ∀ n ∈ g.nodes, n.kind ≠ K.Error) :
    ∃ v, Derives sparqlRules (.node e.kind) (kinds tokens ++ v) := by
  obtain ⟨F, cs, h1, -, rfl, h4, -, h6, -⟩ := parseText_some hL h
  obtain ⟨n, s, hs, hev⟩ := parseTokens_some h1
  have := (parse_sound (kinds_noEof hL.noEof) (kinds_lt hL.kind_lt) hs hev (fun F' => ser_inj)).1
  apply this
  simp only [Forest.clean, Bool.and_eq_true]
  constructor
  · apply noErr_of_reports_nil 0
    simpa using h4.symm
  · apply noErrNode_of_prune
    rw [← h6]
    exact noErrKind_shape cs (fun n hn => hg n (by simp [Green.nodes, hn]))

/-- `ASK {} ORDER BY` -/
def exUnfinished : List (Kind × Text) :=
  [(K.ASK, ['A', 'S', 'K']), (K.LCurly, ['{']), (K.RCurly, ['}']), (K.ORDER, ['O', 'R', 'D', 'E', 'R']), (K.BY, ['B', 'Y'])]

/-- `ASK {} ASK }` -/
def exTrailing : List (Kind × Text) :=
  [(K.ASK, ['A', 'S', 'K']), (K.LCurly, ['{']), (K.RCurly, ['}']), (K.ASK, ['A', 'S', 'K']), (K.RCurly, ['}'])]

theorem not_sentence_of_errNode {e : Entry} {toks : List Kind} (ev : List Event) (h : parseTokens e toks = some ev)
    (hN : K.Eof ∉ toks) (hk : ∀ t ∈ toks, t < 344) (he : Event.openNode K.Error ∈ ev) :
    ¬ Derives sparqlRules (.node e.kind) toks := by
  intro hd
  obtain ⟨ev', h', -, h2⟩ := (c42_accept_iff e toks hN hk).mpr hd
  rw [h] at h'
  simp at h'
  exact h2 (h' ▸ he)

/-- The events of `exUnfinished`, as a forest. -/
def unfinishedForest : Forest :=
  .node K.Query (.node K.AskQuery (.tok (.node K.WhereClause (.node K.GroupGraphPattern (.tok (.tok .nil)) .nil)
    (.node K.SolutionModifier (.node K.OrderClause (.tok (.tok (.node K.OrderCondition .nil (.node K.Error .nil .nil))))
      .nil) .nil))) .nil) .nil

/-- **C42 (negative).** The error list alone does not tell whether a document is valid: an unfinished document (even
without an error node) and one with trailing garbage are parsed without any reported error. -/
theorem c42_silent_errors :
    (∃ g, parseText .query (mk exUnfinished) = some (g, []) ∧ ∀ n ∈ g.nodes, n.kind ≠ K.Error) ∧
    ¬ Derives sparqlRules (.node K.QueryUnit) (kinds (mk exUnfinished)) ∧
    (∃ g, parseText .query (mk exTrailing) = some (g, [])) ∧
    ¬ Derives sparqlRules (.node K.QueryUnit) (kinds (mk exTrailing)) := by
  have h0 : parseTokens .query (kinds (mk exUnfinished)) = some (Forest.ser (.node K.QueryUnit unfinishedForest .nil)) := by
    decide +kernel
  have h2 : (parseText .query (mk exTrailing)).map (fun p => p.2) = some [] := by decide +kernel
  refine ⟨?_, ?_, ?_, ?_⟩
  · obtain ⟨F, cs, errs, h1, -, h3, h4, -, h6, -⟩ :=
      parseText_of_events (mk_lexed exUnfinished (by decide)).noEof h0
    have hF : F = unfinishedForest := by
      have := ser_inj h1
      simp only [Forest.node.injEq] at this
      exact this.2.1.symm
    subst hF
    have h5 : errs = [] := h4
    subst h5
    refine ⟨_, h3, fun n hn => ?_⟩
    simp only [Green.nodes, List.mem_cons] at hn
    rcases hn with rfl | hn
    · exact (by decide : K.QueryUnit ≠ K.Error)
    · exact nodes_of_noErrKind cs (by rw [h6]; decide) n hn
  · exact not_sentence_of_errNode (e := .query) _ h0 (by decide +kernel) (by decide +kernel) (by decide +kernel)
  · rw [Option.map_eq_some_iff] at h2
    obtain ⟨⟨g, errs⟩, h3, h4⟩ := h2
    simp only at h4
    exact ⟨g, by rw [h3, h4]⟩
  · refine not_sentence_of_errNode (e := .query) _ (Option.some_get (x := parseTokens .query (kinds (mk exTrailing)))
      (by decide +kernel)).symm (by decide +kernel) (by decide +kernel) (by decide +kernel)

/-! ## C44: the operation type is guessed right -/

theorem guess_eq (tokens : List Tok) : guessOperationType tokens = firstKw (kinds tokens) := by
  induction tokens with
  | nil => rfl
  | cons t ts ih =>
    unfold guessOperationType at ih ⊢
    simp only [List.findSome?_cons]
    by_cases ht : t.trivia = true
    · have h0 : kwOf t.kind = none := by
        simp only [Tok.trivia, Bool.or_eq_true, beq_iff_eq] at ht
        rcases ht with ht | ht <;> rw [ht] <;> rfl
      have e : kinds (t :: ts) = kinds ts := by simp [kinds, significant, ht]
      rw [e, ← ih]
      have : (if t.kind ∈ queryKeywords then some Entry.query else if t.kind ∈ updateKeywords then some .update else none)
        = none := h0
      rw [this]
    · have ht' : t.trivia = false := by simpa using ht
      have e : kinds (t :: ts) = t.kind :: kinds ts := by simp [kinds, significant_cons_neg ht']
      rw [e, firstKw, List.findSome?_cons, ← firstKw, ← ih]
      rfl

/-- **C44.** A document that is a valid query is recognised as a query and parsed without error. -/
theorem c44_query (text : Text) (tokens : List Tok) (hL : Lexed text tokens)
    (hd : Derives sparqlRules (.node K.QueryUnit) (kinds tokens)) :
    guessOperationType tokens = some .query ∧
    ∃ g, parseDocument tokens = some (g, []) ∧ g.kind = K.QueryUnit := by
  have h := fk_sound hd
  rw [← guess_eq] at h
  have hg : guessOperationType tokens = some .query := by
    cases hq : guessOperationType tokens with
    | none => rw [hq] at h; exact absurd h (by simp only [FK.has]; decide +kernel)
    | some e =>
      rw [hq] at h
      cases e with
      | query => rfl
      | update => exact absurd h (by simp only [FK.has]; decide +kernel)
  refine ⟨hg, ?_⟩
  obtain ⟨g, F, h1, -, h3⟩ := c41_valid_accepted .query text tokens hL hd
  refine ⟨g, by simp [parseDocument, hg, h1], ?_⟩
  obtain ⟨_, cs, _, _, rfl, _⟩ := parseText_some hL h1
  rfl

/-- **C44.** A document that is a valid update and contains an operation keyword is recognised as an update and parsed
without error. Without an operation keyword (nothing but a prologue) it is parsed as a query. -/
theorem c44_update (text : Text) (tokens : List Tok) (hL : Lexed text tokens)
    (hd : Derives sparqlRules (.node K.UpdateUnit) (kinds tokens)) :
    ((∃ t ∈ tokens, t.kind ∈ queryKeywords ++ updateKeywords) →
      guessOperationType tokens = some .update ∧
      ∃ g, parseDocument tokens = some (g, []) ∧ g.kind = K.UpdateUnit) ∧
    ((∀ t ∈ tokens, t.kind ∉ queryKeywords ++ updateKeywords) → parseDocument tokens = parseText .query tokens) := by
  have h := fk_sound hd
  rw [← guess_eq] at h
  constructor
  · rintro ⟨t, ht, htk⟩
    have hg : guessOperationType tokens = some .update := by
      cases hq : guessOperationType tokens with
      | none =>
        simp only [guessOperationType, List.findSome?_eq_none_iff] at hq
        have := hq t ht
        simp only [List.mem_append] at htk
        split at this
        · simp at this
        · split at this
          · simp at this
          · next h1 h2 => exact absurd htk (by simp [h1, h2])
      | some e =>
        rw [hq] at h
        cases e with
        | update => rfl
        | query => exact absurd h (by simp only [FK.has]; decide +kernel)
    refine ⟨hg, ?_⟩
    obtain ⟨g, F, h1, -, h3⟩ := c41_valid_accepted .update text tokens hL hd
    refine ⟨g, by simp [parseDocument, hg, h1], ?_⟩
    obtain ⟨_, cs, _, _, rfl, _⟩ := parseText_some hL h1
    rfl
  · intro hn
    have hg : guessOperationType tokens = none := by
      simp only [guessOperationType, List.findSome?_eq_none_iff]
      intro t ht
      have := hn t ht
      simp only [List.mem_append, not_or] at this
      rw [if_neg this.1, if_neg this.2]
    simp [parseDocument, hg]

/-- **C44.** No token sequence is both a query and an update. -/
theorem c44_disjoint (w : List Kind) (h1 : Derives sparqlRules (.node K.QueryUnit) w)
    (h2 : Derives sparqlRules (.node K.UpdateUnit) w) : False := by
  have a := fk_sound h1
  have b := fk_sound h2
  cases hq : firstKw w with
  | none => rw [hq] at a; exact absurd a (by simp only [FK.has]; decide +kernel)
  | some e =>
    rw [hq] at a b
    cases e with
    | query => exact absurd b (by simp only [FK.has]; decide +kernel)
    | update => exact absurd a (by simp only [FK.has]; decide +kernel)

/-! ## The hypotheses are met by concrete documents -/

/-- The valid example is a sentence of the grammar (by C42, from a run without any error). -/
theorem exValid_derives : Derives sparqlRules (.node K.QueryUnit) (kinds (mk exValid)) :=
  (c42_accept_iff .query _ (by decide +kernel) (by decide +kernel)).mp
    ⟨_, (Option.some_get (x := parseTokens .query (kinds (mk exValid))) (by decide +kernel)).symm, by
      have : ((parseTokens .query (kinds (mk exValid))).get (by decide +kernel)).all
        (fun e => match e with | .error _ => false | _ => true) = true := by decide +kernel
      intro x hx
      have := List.all_eq_true.mp this _ hx
      simp at this, by decide +kernel⟩

example : ∃ g, parseDocument (mk exValid) = some (g, []) ∧ g.kind = K.QueryUnit :=
  (c44_query _ _ (mk_lexed exValid (by decide)) exValid_derives).2

end Verif.Props
