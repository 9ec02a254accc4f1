import Verif.Props.Format
import Verif.Format.Query
import Verif.Props.QuickFix
/-!
# C54: what the formatter does to a query is invisible to the parser

`c51_layout` says that the result is a layout of the tokens of the document. Whether the layout is *read* as these tokens is another
question: two tokens without white space between them may be read as one. Here: valid queries.
-/
namespace Verif.Props
open Verif Verif.Grammar Verif.Lexer Verif.Features Verif.Format

theorem lay_ensureNL {b : Bool} {l : List (Kind × Text)} {t : Text} (h : Lay Restyled b l t) : Lay Restyled b l (ensureNL t) := by
  unfold ensureNL
  split
  · exact h
  · have := h.append (m := []) (r := ['\n']) (.sp (by decide) .done)
    rwa [List.append_nil] at this

theorem forall₂_right {α β : Type} {R : α → β → Prop} {l : List α} {m : List β} (h : List.Forall₂ R l m) {b : β} (hb : b ∈ m) :
    ∃ a ∈ l, R a b := by
  induction h with
  | nil => cases hb
  | cons hab _ ih =>
    rcases List.mem_cons.1 hb with rfl | hb
    · exact ⟨_, List.mem_cons_self, hab⟩
    · obtain ⟨a, ha, h⟩ := ih hb
      exact ⟨a, List.mem_cons_of_mem _ ha, h⟩

/-- The tokens of a text without white space. -/
def nonBlank (l : List (Kind × Text)) : List (Kind × Text) := l.filter (fun p => p.1 != K.WHITESPACE)

/-- **C54.** The formatted version of a valid query has the same tokens (comments included), apart from white space, the letter case
of keywords and the white space in `[ ]`. -/
theorem c54_tokens (errLen : Text → Nat) (text : Text) (g errs) (hp : parseSource errLen text = some (g, errs))
    (hd : Derives sparqlRules (.node g.kind) (kinds (lex errLen text))) (hc : Placeable g) (hF : Formattable g)
    (width : Text → Nat) (s : FormatSettings) (o : TypeOptions) :
    ∃ edits result, formatDoc width s o text g = some edits ∧ applyTextEdits text edits = some result ∧
      List.Forall₂ SameToken (nonBlank (tokenPairs errLen text)) (nonBlank (tokenPairs errLen result)) := by
  have P := parsed_of hp
  have hC := complete_of hp hd
  have W : Walks false (walkerOf width s o text g) text g := { walks_of P width s o with signs := .inr (no_signs P hC hF) }
  have hM := managed_of P hc
  obtain ⟨hpl, hne⟩ := collected_plan W hM
  obtain ⟨comments, edits, out, segs, last, h1, h2, h3, h4, h5, h6, l, hm, hl⟩ := plan_result W.indent hne hpl
  have hflat : flat (PL false g.leaves) = text := by
    rw [flat_PL (good_of P)]; exact P.text_eq
  rw [hflat] at h1 h2 h3 h6
  have hL : Lexes text g.leaves := by rw [source_leaves hp]; exact c47_longest_match errLen text
  obtain ⟨toks, h7, h8⟩ := lay_lexes (lay_ensureNL hl) (separate_of W hC hF hL hM hm)
  rw [hm.toks, List.drop_zero, leaves_one W hC hF] at h8
  have hok : ∀ p ∈ toks, p.1 ≠ K.Error := by
    intro p hp' he
    have hin : p ∈ solid toks := List.mem_filter.2 ⟨hp', by rw [he]; decide⟩
    obtain ⟨q, hq, h9⟩ := forall₂_right h8 hin
    have : q ∈ g.leaves := (List.mem_filter.1 hq).1
    exact (leaf_kind W hC hF this).2 (by rw [← h9.1, he])
  refine ⟨out, ensureNL (resultOf segs ++ last), ?_, ?_, ?_⟩
  · show formatCore _ = _
    unfold formatCore
    rw [W.tree, W.text, h1]
    dsimp only
    rw [h2]
    dsimp only
    exact h3
  · rw [h6]
    have hd := editsOf_distinct segs [] h5
    have hperm : out.Perm (editsOf [] segs) := by rw [← h4]; exact (List.reverse_perm _).symm
    refine c05_segments segs last out hperm ?_
    refine (hperm.symm.pairwise_iff ?_).1 hd
    intro a b hab hba
    exact hab hba.symm
  · rw [tokenPairs_of h7 hok, show tokenPairs errLen text = g.leaves from (source_leaves hp).symm]
    exact h8

theorem same_kinds {l m : List (Kind × Text)} (h : List.Forall₂ SameToken (nonBlank l) (nonBlank m)) :
    (sigPairs m).map (·.1) = (sigPairs l).map (·.1) := by
  have hs : ∀ l, sigPairs l = (nonBlank l).filter (fun p => p.1 != K.Comment) := by
    intro l
    unfold sigPairs nonBlank
    rw [List.filter_filter]
    refine List.filter_congr (fun p _ => ?_)
    rw [Bool.not_or, Bool.and_comm]
    rfl
  rw [hs, hs]
  generalize nonBlank l = A at h
  generalize nonBlank m = B at h
  induction h with
  | nil => rfl
  | @cons p q A B hab _ ih =>
    have e := hab.1
    by_cases hc : p.1 = K.Comment
    · have hq : q.1 = K.Comment := by rw [e, hc]
      rw [List.filter_cons_of_neg (a := p) (by simp [hc]), List.filter_cons_of_neg (a := q) (by simp [hq])]
      exact ih
    · have hq : q.1 ≠ K.Comment := by rw [e]; exact hc
      rw [List.filter_cons_of_pos (a := p) (by simp [hc]), List.filter_cons_of_pos (a := q) (by simp [hq]), List.map_cons, List.map_cons,
        ih, e]

/-- **C54.** The formatted version of a valid query is a valid query with the same syntax tree, apart from white space, comments, the
letter case of keywords and the white space in `[ ]`. -/
theorem c54_tree (errLen : Text → Nat) (text : Text) (g errs) (hp : parseSource errLen text = some (g, errs))
    (hd : Derives sparqlRules (.node g.kind) (kinds (lex errLen text))) (hc : Placeable g) (hF : Formattable g)
    (width : Text → Nat) (s : FormatSettings) (o : TypeOptions) :
    ∃ edits result g' errs', formatDoc width s o text g = some edits ∧ applyTextEdits text edits = some result ∧
      parseSource errLen result = some (g', errs') ∧ g'.shape .nil = g.shape .nil ∧
      errs'.map (·.expected) = errs.map (·.expected) ∧
      Derives sparqlRules (.node g'.kind) (kinds (lex errLen result)) ∧
      List.Forall₂ SameToken (nonBlank g.leaves) (nonBlank g'.leaves) := by
  obtain ⟨edits, result, h1, h2, h3⟩ := c54_tokens errLen text g errs hp hd hc hF width s o
  have hk := same_kinds h3
  obtain ⟨g', errs', h4, h5, h6⟩ := same_tree hp hk
  have hkind : g'.kind = g.kind := by
    obtain ⟨e, cs, _, _, rfl, _⟩ := (parsed_of hp).top
    obtain ⟨e', cs', _, _, rfl, _⟩ := (parsed_of h4).top
    simp only [Green.shape, Forest.node.injEq] at h5
    exact h5.1
  refine ⟨edits, result, g', errs', h1, h2, h4, h5, h6, ?_, ?_⟩
  · rw [hkind, kinds_sigPairs, hk, ← kinds_sigPairs]; exact hd
  · rw [source_leaves hp, source_leaves h4]; exact h3

/-! ## Examples -/

def runsTest : List (Kind × Text) → Bool
  | x :: y :: l => (!wordEnds.contains x.1 || !wordStarts.contains y.1 || pairOk x.1 y.1) && runsTest (y :: l)
  | _ => true

theorem runsTest_sound : ∀ {l : List (Kind × Text)}, runsTest l = true → ∀ A x y B, l = A ++ x :: y :: B → x.1 ∈ wordEnds → y.1 ∈ wordStarts →
    pairOk x.1 y.1 = true := by
  intro l
  induction l with
  | nil => intro _ A x y B h; simp at h
  | cons p l ih =>
    intro h A x y B hl hx hy
    cases A with
    | nil =>
      rw [List.nil_append, List.cons.injEq] at hl
      rw [hl.1, hl.2, runsTest, Bool.and_eq_true, List.contains_iff_mem.2 hx, List.contains_iff_mem.2 hy] at h
      simpa using h.1
    | cons q A =>
      rw [List.cons_append, List.cons.injEq] at hl
      refine ih ?_ A x y B hl.2 hx hy
      cases l with
      | nil => rfl
      | cons q' l' => rw [runsTest, Bool.and_eq_true] at h; exact h.2

/-- A test for `Formattable`. -/
def formattableTest (g : Green) : Bool :=
  g.kind == K.QueryUnit && runsTest g.leaves && g.nodes.all (fun n => match n with
    | .tok _ _ => true
    | .node k cs =>
      (k != K.AdditiveExpression || cs.all (fun c => c.kind != K.NumericLiteralPositive && c.kind != K.NumericLiteralNegative)) &&
      (k != K.ArgList || cs.all (fun c => c.kind != K.DISTINCT)) &&
      (k != K.ConstructQuery || cs.all (fun c => c.kind != K.DatasetClause) || cs.all (fun c => c.kind != K.WHERE)) &&
      (k != K.SubSelect || cs.all (fun c => c.kind != K.SolutionModifier) || cs.all (fun c => c.kind != K.ValuesClause)))

theorem formattable_of_test {g : Green} (h : formattableTest g = true) : Formattable g := by
  unfold formattableTest at h
  simp only [Bool.and_eq_true, beq_iff_eq, List.all_eq_true] at h
  obtain ⟨⟨h1, h2⟩, h3⟩ := h
  refine ⟨h1, ?_, runsTest_sound h2, ?_, ?_, ?_⟩
  · intro cs hm c hc
    have := (h3 _ hm)
    simp only [Bool.and_eq_true, Bool.or_eq_true, bne_iff_ne, List.all_eq_true] at this
    exact this.1.1.1.resolve_left (fun h => h rfl) c hc
  · intro cs hm c hc
    have := (h3 _ hm)
    simp only [Bool.and_eq_true, Bool.or_eq_true, bne_iff_ne, List.all_eq_true] at this
    exact this.1.1.2.resolve_left (fun h => h rfl) c hc
  · intro cs hm c hc hk d hd
    have := (h3 _ hm)
    simp only [Bool.and_eq_true, Bool.or_eq_true, bne_iff_ne, List.all_eq_true] at this
    rcases this.1.2 with (h | h) | h
    · exact absurd rfl h
    · exact absurd hk (h c hc)
    · exact h d hd
  · intro cs hm c hc hk d hd
    have := (h3 _ hm)
    simp only [Bool.and_eq_true, Bool.or_eq_true, bne_iff_ne, List.all_eq_true] at this
    rcases this.2 with (h | h) | h
    · exact absurd rfl h
    · exact absurd hk (h c hc)
    · exact h d hd

theorem fq_derives : Derives sparqlRules (.node fqTree.kind) (kinds (lex (fun _ => 1) fqText)) :=
  (c42_accept_iff .query _ (by decide +kernel) (by decide +kernel)).mp
    ⟨_, (Option.some_get (x := parseTokens .query (kinds (lex (fun _ => 1) fqText))) (by decide +kernel)).symm, by
      have : ((parseTokens .query (kinds (lex (fun _ => 1) fqText))).get (by decide +kernel)).all
        (fun e => match e with | .error _ => false | _ => true) = true := by decide +kernel
      intro x hx
      have := List.all_eq_true.mp this _ hx
      simp at this, by decide +kernel⟩

/-- `# a\nSELECT ?x {\n  ?s ?p 'a'@en, [] ;\n     ?q -1 # b\n}\nLIMIT 5\n` -/
def fqResult : Text :=
  ['#', ' ', 'a', '\n', 'S', 'E', 'L', 'E', 'C', 'T', ' ', '?', 'x', ' ', '{', '\n', ' ', ' ', '?', 's', ' ', '?', 'p', ' ', '\'', 'a', '\'',
   '@', 'e', 'n', ',', ' ', '[', ']', ' ', ';', '\n', ' ', ' ', ' ', ' ', ' ', '?', 'q', ' ', '-', '1', ' ', '#', ' ', 'b', '\n', '}', '\n',
   'L', 'I', 'M', 'I', 'T', ' ', '5', '\n']

/-- The hypotheses hold for `# a\nselect ?x{?s ?p 'a'@en,[ ];?q -1 # b\n}limit 5`. -/
theorem c54_example : parseSource (fun _ => 1) fqText = some (fqTree, []) ∧
    Derives sparqlRules (.node fqTree.kind) (kinds (lex (fun _ => 1) fqText)) ∧ Placeable fqTree ∧ Formattable fqTree ∧
    formatted fqText fqTree = some fqResult :=
  ⟨fqTree_parse, fq_derives, placeable_of_test (by decide +kernel), formattable_of_test (by decide +kernel), by decide +kernel⟩

/-- The number of tokens of the document and of its formatted version. -/
def tokenCounts (text : Text) (g : Green) : Option (Nat × Nat) :=
  (formatted text g).map (fun r => ((nonBlank (tokenPairs (fun _ => 1) text)).length, (nonBlank (tokenPairs (fun _ => 1) r)).length))

/-- **C54, negative results**: the formatter changes the tokens of the valid queries `ASK {FILTER(1 -5)}` (to `1 - 5`),
`ASK {FILTER <f>(DISTINCT a:b)}` (to `DISTINCTa:b`), `CONSTRUCT FROM p:g WHERE {}` (to `p:gWHERE`) and
`ASK {{SELECT * {} ORDER BY ?x VALUES ?y {}}}` (to `?xVALUES`). -/
theorem c54_changed_tokens :
    parseSource (fun _ => 1) fqSignText = some (fqSignTree, []) ∧ tokenCounts fqSignText fqSignTree = some (8, 9) ∧
    parseSource (fun _ => 1) fqArgText = some (fqArgTree, []) ∧ tokenCounts fqArgText fqArgTree = some (9, 8) ∧
    parseSource (fun _ => 1) fmtGlueText = some (fmtGlueTree, []) ∧ tokenCounts fmtGlueText fmtGlueTree = some (6, 5) ∧
    parseSource (fun _ => 1) fqValsText = some (fqValsTree, []) ∧ tokenCounts fqValsText fqValsTree = some (16, 15) :=
  ⟨fqSignTree_parse, by decide +kernel, fqArgTree_parse, by decide +kernel, fmtGlueTree_parse, by decide +kernel, fqValsTree_parse,
    by decide +kernel⟩

end Verif.Props
