import Verif.Format.Ranges
import Verif.Features.Demo
import Verif.Props.OnType
/-!
# The formatter (C34, C35, C51)

Specification: Format/Spec.lean (`Laid`, `Restyled`, `contents`), EditSpec.lean (`ValidIn`), `applyTextEdits` (C05); tokens are
those of `lex` (`tokenPairs`).
-/
namespace Verif.Props
open Verif Verif.Grammar Verif.Lexer Verif.Features Verif.Format

/-- The kinds of nodes between whose parts the formatter leaves the white space alone. -/
def unspaced : List Kind :=
  [K.QueryUnit, K.UpdateUnit, K.VersionDecl, K.VersionSpecifier, K.Var, K.Expression, K.VarOrIri, K.SourceSelector, K.iri,
   K.HavingCondition, K.Constraint, K.ReifiedTripleBlock, K.ReifiedTripleBlockPath, K.Reifier, K.VarOrReifierId,
   K.AnnotationPath, K.AnnotationBlockPath, K.Annotation, K.AnnotationBlock, K.GraphPatternNotTriples, K.GraphGraphPattern,
   K.InlineDataFull, K.DataBlockValue, K.RDFLiteral, K.NumericLiteral, K.BooleanLiteral, K.VarOrTerm, K.ReifiedTriple,
   K.ReifiedTripleSubject, K.ReifiedTripleObject, K.TripleTerm, K.TripleTermSubject, K.TripleTermObject, K.TripleTermData,
   K.TripleTermDataSubject, K.TripleTermDataObject, K.TriplesNode, K.PropertyList, K.Verb, K.Object, K.GraphNode,
   K.TriplesNodePath, K.PropertyListPath, K.VerbPath, K.VerbSimple, K.ObjectPath, K.GraphNodePath, K.PathMod,
   K.PathNegatedPropertySet, K.PathOneInPropertySet, K.Collection, K.CollectionPath, K.BlankNode, K.ValueLogical,
   K.NumericExpression, K.NumericLiteralPositive, K.NumericLiteralNegative, K.UnaryExpression, K.PrimaryExpression,
   K.ExprTripleTerm, K.ExprTripleTermSubject, K.ExprTripleTermObject, K.iriOrFunction, K.StrReplaceExpression,
   K.NotExistsFunc, K.String, K.NumericLiteralUnsigned, K.PrefixedName, K.Error]

/-- No comment stands between the parts of such a node, except at the very beginning or end of the document. -/
def Placeable (g : Green) : Prop :=
  ∀ k A t B, Green.node k (A ++ .tok K.Comment t :: B) ∈ g.nodes → k ∉ unspaced ∨
    ((k = K.QueryUnit ∨ k = K.UpdateUnit) ∧
      ((∀ x ∈ A, x.kind = K.WHITESPACE ∨ x.kind = K.Comment) ∨ (∀ x ∈ B, x.kind = K.WHITESPACE ∨ x.kind = K.Comment)))

/-- The comments of a list of tokens. -/
def commentsOf (l : List (Kind × Text)) : List (Kind × Text) := l.filter (fun p => p.1 == K.Comment)

theorem spaced_rules : sparqlRulesTree.toList.all (fun p => unspaced.contains p.1 || decide (separator p.1 ≠ .unknown)) = true := by
  decide +kernel

theorem triviaKind_iff (k : Kind) : triviaKind k = true ↔ k = K.WHITESPACE ∨ k = K.Comment := by
  unfold triviaKind
  simp

theorem managed_of {text : Text} {g : Green} (P : Parsed text g) (h : Placeable g) : Managed g := by
  intro r c hr hc hk
  obtain ⟨L, R, e⟩ := List.append_of_mem hc
  obtain ⟨e1, e2⟩ := elder_eq e
  have hg := children_green r
  have hctok : c.green = .tok K.Comment c.green.text := by
    cases hcg : c.green with
    | tok k t =>
      have : c.kind = k := by unfold Red.kind Red.green at *; rw [hcg]; rfl
      rw [← this, hk, Green.text_tok]
    | node k cs =>
      exfalso
      have : c.kind = k := by unfold Red.kind Red.green at *; rw [hcg]; rfl
      have hn : c.isNode = true := by unfold Red.isNode Red.green at *; rw [hcg]
      have hf := P.follows _ ((InTree.child hr hc).green_mem hn)
      rw [hcg, ← this, hk] at hf
      unfold Follows at hf
      dsimp only at hf
      rw [if_neg (by decide)] at hf
      obtain ⟨rr, h1, -⟩ := hf
      have : sparqlRules K.Comment = none := by decide +kernel
      rw [this] at h1; cases h1
  cases hrg : r.here.green with
  | tok k t => rw [hrg] at hg; simp only [List.map_eq_nil_iff] at hg; rw [hg] at hc; cases hc
  | node k cs =>
    rw [hrg] at hg
    dsimp only at hg
    have hrk : r.kind = k := by unfold Red.kind; rw [hrg]; rfl
    have hn : r.isNode = true := by unfold Red.isNode; rw [hrg]
    have hmem := hr.green_mem hn
    have hcs : cs = L.map Red.green ++ .tok K.Comment c.green.text :: R.map Red.green := by
      rw [← hg, e, List.map_append, List.map_cons, ← hctok]
    have hgr : r.green = .node k cs := hrg
    have hm2 := hmem
    rw [hgr, hcs] at hm2
    unfold ManagedAt
    rcases h _ _ _ _ hm2 with h | ⟨h, h'⟩
    · left
      have hE : k ≠ K.Error := fun he => h (by rw [he]; decide)
      have hf := P.follows _ hmem
      rw [hgr] at hf
      unfold Follows at hf
      dsimp only at hf
      rw [if_neg hE] at hf
      obtain ⟨rr, h1, -⟩ := hf
      have := (List.all_eq_true.mp spaced_rules) (k, rr) (sparqlRulesTree.find_mem k rr h1)
      rw [Bool.or_eq_true, decide_eq_true_eq] at this
      rcases this with this | this
      · exact absurd (List.contains_iff_mem.1 this) h
      · rw [hrk]; exact this
    · right
      rw [hrk]
      refine ⟨h, ?_⟩
      rw [e1, e2]
      rcases h' with h' | h'
      · left; intro x hx; rw [triviaKind_iff]; exact h' _ (List.mem_map.2 ⟨x, hx, rfl⟩)
      · right; intro x hx; rw [triviaKind_iff]; exact h' _ (List.mem_map.2 ⟨x, hx, rfl⟩)

theorem walks_of {text : Text} {g : Green} (P : Parsed text g) (width : Text → Nat) (s : FormatSettings) (o : TypeOptions) :
    Walks true (walkerOf width s o text g) text g := by
  refine ⟨P, rfl, rfl, ?_, .inl rfl⟩
  show Spaces (indentString s o)
  unfold indentString
  split
  · exact spaces_replicate _
  · intro c hc
    simp only [List.mem_cons, List.not_mem_nil, or_false] at hc
    subst hc; decide

/-- Edits in document order whose kept text is non-empty have different ranges. -/
theorem editsOf_distinct : ∀ (segs : List Seg) (pre : Text), (∀ s ∈ segs.tail, s.keep ≠ []) →
    (editsOf pre segs).Pairwise (fun a b => a.range ≠ b.range)
  | [], _, _ => List.Pairwise.nil
  | s :: ss, pre, h => by
    have key : ∀ (ss : List Seg) (a b : Text), (∀ s ∈ ss, s.keep ≠ []) → ∀ e ∈ editsOf (a ++ b) ss,
        (posOf (a ++ b)).Before e.range.start := by
      intro ss
      induction ss with
      | nil => intro a b _ e he; cases he
      | cons s ss ih =>
        intro a b hk e he
        have h1 : (posOf (a ++ b)).Before (posOf (a ++ b ++ s.keep)) := posOf_before _ _ (hk s List.mem_cons_self)
        rcases List.mem_cons.1 he with rfl | he
        · exact h1
        · have h2 := ih (a ++ b ++ s.keep) s.old (fun x hx => hk x (List.mem_cons_of_mem _ hx)) e he
          refine Before.trans h1 ?_
          by_cases ho : s.old = []
          · rw [ho, List.append_nil] at h2; exact h2
          · exact Before.trans (posOf_before _ _ ho) h2
    refine List.pairwise_cons.2 ⟨?_, ?_⟩
    · intro e he heq
      have h1 := key ss (pre ++ s.keep) s.old h e he
      rw [← heq] at h1
      dsimp only at h1
      by_cases ho : s.old = []
      · rw [ho, List.append_nil] at h1; exact Before.irrefl _ h1
      · exact Before.irrefl _ (Before.trans (posOf_before _ _ ho) h1)
    · exact editsOf_distinct ss _ (fun x hx => h x (List.mem_of_mem_tail hx))

theorem laid_ensureNL {l : List (Kind × Text)} {t : Text} (h : Laid Restyled l t) : Laid Restyled l (ensureNL t) := by
  unfold ensureNL
  split
  · exact h
  · have := h.append (Laid.done (R := Restyled) (spaces_nl spaces_nil))
    rwa [List.append_nil] at this

/-- **C34** (every document): if the formatter answers at all, the ranges of its edits delimit pieces of the document, and no two
edits overlap. -/
theorem c34_ranges (errLen : Text → Nat) (text : Text) (g errs) (hp : parseSource errLen text = some (g, errs))
    (width : Text → Nat) (s : FormatSettings) (o : TypeOptions) (edits : List TextEdit)
    (h : formatDoc width s o text g = some edits) :
    (∀ e ∈ edits, ValidIn text e.range) ∧ edits.Pairwise (fun a b => a.overlaps b = false) :=
  format_ranges (walks_of (parsed_of hp) width s o) h

/-- **C51** (every document with placeable comments, valid or not): the formatter answers, its edits can be applied, and the result
consists of the tokens of the document in their order, with other white space, keywords in another letter case. -/
theorem c51_layout (errLen : Text → Nat) (text : Text) (g errs) (hp : parseSource errLen text = some (g, errs))
    (hc : Placeable g) (width : Text → Nat) (s : FormatSettings) (o : TypeOptions) :
    ∃ edits result, formatDoc width s o text g = some edits ∧ applyTextEdits text edits = some result ∧
      Laid Restyled (contents (tokenPairs errLen text)) result := by
  have P := parsed_of hp
  have W := walks_of P width s o
  obtain ⟨hpl, hne⟩ := collected_plan W (managed_of P hc)
  obtain ⟨comments, edits, out, segs, last, h1, h2, h3, h4, h5, h6, l, hm, hl⟩ := plan_result W.indent hne hpl
  have h7 : Laid Restyled (solid l) (resultOf segs ++ last) := hl.laid
  rw [hm.toks, List.drop_zero] at h7
  have hflat : flat (PL true g.leaves) = text := by
    rw [flat_PL (good_of P)]; exact P.text_eq
  rw [hflat] at h1 h2 h3 h6
  refine ⟨out, ensureNL (resultOf segs ++ last), ?_, ?_, ?_⟩
  · show formatCore _ = _
    unfold formatCore
    rw [W.tree, W.text, h1]
    dsimp only
    rw [h2]
    dsimp only
    exact h3
  · rw [h6]
    have hd := editsOf_distinct segs [] h5
    have hperm : out.Perm (editsOf [] segs) := by rw [← h4]; exact (List.reverse_perm _).symm
    refine c05_segments segs last out hperm ?_
    refine (hperm.symm.pairwise_iff ?_).1 hd
    intro a b hab hba
    exact hab hba.symm
  · have : solid (PL true g.leaves) = contents (tokenPairs errLen text) := by
      show contents g.leaves = _
      rw [source_leaves hp]; rfl
    rw [← this]
    exact laid_ensureNL h7

/-- **C34** (documents with placeable comments): the formatter answers. -/
theorem c34_answers (errLen : Text → Nat) (text : Text) (g errs) (hp : parseSource errLen text = some (g, errs))
    (hc : Placeable g) (width : Text → Nat) (s : FormatSettings) (o : TypeOptions) :
    ∃ edits result, formatDoc width s o text g = some edits ∧ (∀ e ∈ edits, ValidIn text e.range) ∧
      edits.Pairwise (fun a b => a.overlaps b = false) ∧ applyTextEdits text edits = some result := by
  obtain ⟨edits, result, h1, h2, -⟩ := c51_layout errLen text g errs hp hc width s o
  obtain ⟨h3, h4⟩ := c34_ranges errLen text g errs hp width s o edits h1
  exact ⟨edits, result, h1, h3, h4, h2⟩

/-- The text contains these pieces, one after the other, and behind each of them a line ends. -/
inductive Holds : List Text → Text → Prop
  | none (t) : Holds [] t
  | next (a c b l) : Holds l ('\n' :: b) → Holds (c :: l) (a ++ c ++ '\n' :: b)

theorem Holds.prepend {l : List Text} {t : Text} (a : Text) (h : Holds l t) : Holds l (a ++ t) := by
  cases h with
  | none => exact .none _
  | next b c d l h =>
    have := Holds.next (a ++ b) c d l h
    simpa using this

theorem laid_holds {R : Kind × Text → Text → Prop} {l : List (Kind × Text)} {t : Text} (h : Laid R l t) :
    Holds ((commentsOf l).map (·.2)) t := by
  induction h with
  | done hw => exact .none _
  | @token w p t l r hw hk ht h ih =>
    have : commentsOf (p :: l) = commentsOf l := by
      unfold commentsOf
      rw [List.filter_cons_of_neg]
      rw [beq_iff_eq]; exact hk
    rw [this]
    exact (ih.prepend t).prepend w
  | @comment w t l r hw h ih =>
    have : commentsOf ((K.Comment, '#' :: t) :: l) = (K.Comment, '#' :: t) :: commentsOf l := rfl
    rw [this]
    have := Holds.next w ('#' :: t) r _ ih
    rwa [List.append_assoc] at this

theorem commentsOf_pieces (p : Kind × Text) : commentsOf ((pieces true p).filter (fun p => p.1 != K.WHITESPACE)) = commentsOf [p] := by
  by_cases hp : p.1 = K.Comment
  · have : pieces true p = [p] := by
      unfold pieces secondWord
      rw [hp]
      rfl
    rw [this]
    unfold commentsOf
    simp [hp]
  · have h2 : commentsOf [p] = [] := by unfold commentsOf; simp [hp]
    rw [h2]
    have : ∀ q ∈ pieces true p, q.1 ≠ K.Comment := by
      intro q hq
      unfold pieces at hq
      split at hq
      · simp only [List.mem_cons, List.not_mem_nil, or_false] at hq
        rcases hq with rfl | rfl | rfl
        · exact hp
        · show K.WHITESPACE ≠ K.Comment; decide
        · exact hp
      · split at hq
        · simp only [List.mem_cons, List.not_mem_nil, or_false] at hq
          rcases hq with rfl | rfl <;> exact hp
        · simp only [List.mem_cons, List.not_mem_nil, or_false] at hq
          rw [hq]; exact hp
    unfold commentsOf
    rw [List.filter_eq_nil_iff]
    intro q hq
    rw [beq_iff_eq]
    exact this q (List.mem_filter.1 hq).1

theorem commentsOf_append (a b : List (Kind × Text)) : commentsOf (a ++ b) = commentsOf a ++ commentsOf b := List.filter_append ..

theorem commentsOf_contents (l : List (Kind × Text)) : commentsOf (contents l) = commentsOf l := by
  induction l with
  | nil => rfl
  | cons p l ih =>
    have e : contents (p :: l) = (pieces true p).filter (fun p => p.1 != K.WHITESPACE) ++ contents l := by
      unfold contents
      rw [List.flatMap_cons, List.filter_append]
    rw [e, commentsOf_append, commentsOf_pieces, ih, ← commentsOf_append]
    rfl

/-- **C35** (every document with placeable comments): the formatted document contains the comments of the document, unchanged, in
their order, no more and no fewer of them, and each one runs to the end of its line. -/
theorem c35_comments (errLen : Text → Nat) (text : Text) (g errs) (hp : parseSource errLen text = some (g, errs))
    (hc : Placeable g) (width : Text → Nat) (s : FormatSettings) (o : TypeOptions) :
    ∃ edits result l, formatDoc width s o text g = some edits ∧ applyTextEdits text edits = some result ∧
      Laid Restyled l result ∧ commentsOf l = commentsOf (tokenPairs errLen text) ∧
      Holds ((commentsOf (tokenPairs errLen text)).map (·.2)) result := by
  obtain ⟨edits, result, h1, h2, h3⟩ := c51_layout errLen text g errs hp hc width s o
  have h4 := commentsOf_contents (tokenPairs errLen text)
  refine ⟨edits, result, _, h1, h2, h3, h4, ?_⟩
  rw [← h4]
  exact laid_holds h3

/-- A document without comments is placeable. -/
theorem placeable_of_none {errLen : Text → Nat} {text : Text} {g errs} (hp : parseSource errLen text = some (g, errs))
    (hn : commentsOf (tokenPairs errLen text) = []) : Placeable g := by
  intro k A t B hm
  exfalso
  have h1 : (K.Comment, t) ∈ g.leaves := by
    refine leaves_of_nodes hm _ ?_
    show _ ∈ Green.leavesL _
    rw [leavesL_mem]
    exact ⟨.tok K.Comment t, by simp, by simp [Green.leaves]⟩
  rw [source_leaves hp] at h1
  have : (K.Comment, t) ∈ commentsOf (tokenPairs errLen text) := List.mem_filter.2 ⟨h1, beq_self_eq_true K.Comment⟩
  rw [hn] at this
  cases this

/-- **C51** (every document without comments, valid or not). -/
theorem c51_without_comments (errLen : Text → Nat) (text : Text) (g errs) (hp : parseSource errLen text = some (g, errs))
    (hn : commentsOf (tokenPairs errLen text) = []) (width : Text → Nat) (s : FormatSettings) (o : TypeOptions) :
    ∃ edits result, formatDoc width s o text g = some edits ∧ applyTextEdits text edits = some result ∧
      Laid Restyled (contents (tokenPairs errLen text)) result :=
  c51_layout errLen text g errs hp (placeable_of_none hp hn) width s o

/-! ## Examples -/

/-- A test for `Placeable`. -/
def placeableAt (k : Kind) : List Green → List Green → Bool
  | _, [] => true
  | A, c :: B => (c.kind != K.Comment || !unspaced.contains k || (k == K.QueryUnit || k == K.UpdateUnit) &&
      (A.all (fun x => x.kind == K.WHITESPACE || x.kind == K.Comment) || B.all (fun x => x.kind == K.WHITESPACE || x.kind == K.Comment))) &&
      placeableAt k (A ++ [c]) B

theorem placeableAt_spec {k : Kind} : ∀ {A M B : List Green} {t : Text}, placeableAt k A (M ++ .tok K.Comment t :: B) = true →
    k ∉ unspaced ∨ ((k = K.QueryUnit ∨ k = K.UpdateUnit) ∧
      ((∀ x ∈ A ++ M, x.kind = K.WHITESPACE ∨ x.kind = K.Comment) ∨ (∀ x ∈ B, x.kind = K.WHITESPACE ∨ x.kind = K.Comment)))
  | A, [], B, t, h => by
    rw [List.nil_append, placeableAt, Bool.and_eq_true] at h
    have h := h.1
    simp only [Green.kind, Bool.or_eq_true, Bool.and_eq_true, bne_iff_ne, ne_eq, not_true_eq_false, false_or, Bool.not_eq_true',
      beq_iff_eq, List.all_eq_true] at h
    rw [List.append_nil]
    rcases h with h | h
    · left; intro hk; rw [List.contains_iff_mem.2 hk] at h; cases h
    · exact .inr h
  | A, m :: M, B, t, h => by
    rw [List.cons_append, placeableAt, Bool.and_eq_true] at h
    have := placeableAt_spec (A := A ++ [m]) h.2
    rwa [List.append_assoc] at this

def placeableTest (g : Green) : Bool := g.nodes.all (fun n => match n with
  | .tok _ _ => true
  | .node k cs => placeableAt k [] cs)

theorem placeable_of_test {g : Green} (h : placeableTest g = true) : Placeable g := by
  intro k A t B hm
  have := (List.all_eq_true.1 h) _ hm
  dsimp only at this
  have := placeableAt_spec this
  rwa [List.nil_append] at this

/-- What the formatter makes of a document. -/
def formatted (text : Text) (g : Green) : Option Text :=
  (formatDoc List.length .default ⟨2, true⟩ text g).bind (applyTextEdits text)

/-- `# a\nSELECT * {\n  ?s ?p +1 # b\n}\n# c\n` -/
def fmtResult : Text :=
  ['#', ' ', 'a', '\n', 'S', 'E', 'L', 'E', 'C', 'T', ' ', '*', ' ', '{', '\n', ' ', ' ', '?', 's', ' ', '?', 'p', ' ', '+', '1',
   ' ', '#', ' ', 'b', '\n', '}', '\n', '#', ' ', 'c', '\n']

/-- The example: a document with comments in front, inside and behind. -/
theorem c51_example : Placeable fmtTree ∧ formatted fmtText fmtTree = some fmtResult ∧
    (commentsOf (tokenPairs (fun _ => 1) fmtText)).map (·.2) = [['#', ' ', 'a'], ['#', ' ', 'b'], ['#', ' ', 'c']] ∧
    (contents (tokenPairs (fun _ => 1) fmtText)).map (·.2) =
      [['#', ' ', 'a'], ['s', 'e', 'l', 'e', 'c', 't'], ['*'], ['{'], ['?', 's'], ['?', 'p'], ['+'], ['1'], ['#', ' ', 'b'], ['}'],
       ['#', ' ', 'c']] := by
  have hl : tokenPairs (fun _ => 1) fmtText = fmtTree.leaves := (source_leaves fmtTree_parse).symm
  rw [hl]
  exact ⟨placeable_of_test (by decide +kernel), by decide +kernel, by decide +kernel, by decide +kernel⟩

/-- **C34, C35** are false without the condition on comments: the formatter panics on `ASK {GRAPH ?g # c\n{}}`, a valid query. -/
theorem c35_panic : parseSource (fun _ => 1) fmtPanicText = some (fmtPanicTree, []) ∧
    formatDoc List.length .default ⟨2, true⟩ fmtPanicText fmtPanicTree = none ∧ ¬ Placeable fmtPanicTree := by
  refine ⟨fmtPanicTree_parse, by decide +kernel, ?_⟩
  intro h
  obtain ⟨edits, -, h1, -⟩ := c51_layout _ _ _ _ fmtPanicTree_parse h List.length .default ⟨2, true⟩
  have : formatDoc List.length .default ⟨2, true⟩ fmtPanicText fmtPanicTree = none := by decide +kernel
  rw [this] at h1
  cases h1

/-- **C51** cannot promise white space between tokens: `CONSTRUCT FROM p:g WHERE {}` becomes `CONSTRUCT \n  FROM p:gWHERE {\n}\n`. -/
theorem c51_glued : Placeable fmtGlueTree ∧ formatted fmtGlueText fmtGlueTree =
    some ['C', 'O', 'N', 'S', 'T', 'R', 'U', 'C', 'T', ' ', '\n', ' ', ' ', 'F', 'R', 'O', 'M', ' ', 'p', ':', 'g', 'W', 'H', 'E',
      'R', 'E', ' ', '{', '\n', '}', '\n'] :=
  ⟨placeable_of_test (by decide +kernel), by decide +kernel⟩

end Verif.Props
