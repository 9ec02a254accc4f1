import Verif.TextLemmas
import Verif.Grammar.ParseLemmas
import Verif.Grammar.Stuck
import Verif.Grammar.FirstKw
/-!
# Properties of the parser (C09-C15, C41-C44)

`parseText e tokens` is the parse of a lexed document with entry rule `e`; `none` is a panic.
-/
namespace Verif.Props
open Verif Verif.Grammar

/-! ## C10, C12: well-formed event streams -/

theorem depthAfter_ser (F : Forest) : ∀ d E, depthAfter d (F.ser ++ E) = depthAfter d E := by
  induction F with
  | nil => intro d E; rfl
  | tok r ih => intro d E; simp [Forest.ser, depthAfter, ih]
  | err e r ih => intro d E; simp [Forest.ser, depthAfter, ih]
  | node k c r ihc ihr => intro d E; simp [Forest.ser, depthAfter, ihc, ihr]

theorem count_advance_ser (F : Forest) : F.ser.count .advance = F.toks := by
  induction F with
  | nil => rfl
  | tok r ih => simp [Forest.ser, Forest.toks, ih]
  | err e r ih => simp [Forest.ser, Forest.toks, ih]
  | node k c r ihc ihr => simp [Forest.ser, Forest.toks, ihc, ihr]

/-- **C10 (events).** Every completed parser run emits: the opening of one root node of the entry kind, a balanced
stream in which no close lacks an open, and the close of the root. -/
theorem c10_events_balanced (e : Entry) (toks : List Kind) (hN : K.Eof ∉ toks) (ev : List Event)
    (h : parseTokens e toks = some ev) :
    ∃ mid, ev = .openNode e.kind :: mid ++ [.close] ∧ depthAfter 0 mid = some 0 := by
  obtain ⟨n, s, hs, rfl⟩ := parseTokens_some h
  obtain ⟨-, F, hF, -⟩ := parse_shape hN hs
  refine ⟨F.ser, by simp [hF, Forest.ser], ?_⟩
  have := depthAfter_ser F 0 []
  simpa [depthAfter] using this

/-- **C12.** When a run completes, as many tokens were consumed into the tree as there are, and none is left. -/
theorem c12_all_consumed (e : Entry) (toks : List Kind) (hN : K.Eof ∉ toks) (n : Nat) (s : PState)
    (h : parseEntry sparql n e.kind toks = .next s) :
    s.toks = [] ∧ s.events.count .advance = toks.length := by
  obtain ⟨h1, F, hF, hFt⟩ := parse_shape hN h
  refine ⟨h1, ?_⟩
  rw [hF, count_advance_ser]
  simpa [Forest.toks] using hFt

/-- **C10 (tree).** Building the tree never fails: a parse either panics with "parser is stuck", or it yields a tree
whose root is a node of the entry kind. -/
theorem c10_tree (e : Entry) (text : Text) (tokens : List Tok) (hL : Lexed text tokens) :
    parseEntry sparql (depthFor (kinds tokens).length) e.kind (kinds tokens) = .stuck ∨
    ∃ cs errs, parseText e tokens = some (.node e.kind cs, errs) := by
  obtain ⟨h1, h2, h3, -⟩ := parseEntry_total e (kinds tokens) (kinds_lt hL.kind_lt) (Nat.le_refl _)
  cases ho : parseEntry sparql (depthFor (kinds tokens).length) e.kind (kinds tokens) with
  | stuck => exact Or.inl rfl
  | deep => exact absurd ho h1
  | crash => exact absurd ho h2
  | ret s => exact absurd ho (h3 s)
  | next s =>
    right
    have : parseTokens e (kinds tokens) = some s.events := by unfold parseTokens; rw [ho]
    obtain ⟨F, cs, errs, -, -, h, -⟩ := parseText_of_events hL.noEof this
    exact ⟨cs, errs, h⟩

/-- What a successful parse consists of. -/
theorem parseText_some {e : Entry} {text : Text} {tokens : List Tok} (hL : Lexed text tokens) {g errs}
    (h : parseText e tokens = some (g, errs)) :
    ∃ F cs, parseTokens e (kinds tokens) = some (Forest.ser (.node e.kind F .nil)) ∧
      F.toks = (significant tokens).length ∧ g = .node e.kind cs ∧
      errs = (F.reports 0).map (fun p => let a := anchor (significant tokens) p.1; ⟨a.1, a.2, p.2⟩) ∧
      Green.leavesL cs = tokens.map Tok.leaf ∧ Green.shapeL cs = F.prune.dropErr ∧
      ∀ n ∈ Green.nodesL cs, n.Tight := by
  have hev : ∃ ev, parseTokens e (kinds tokens) = some ev := by
    unfold parseText at h
    rw [show (tokens.filter (fun t => !t.trivia)).map (·.kind) = kinds tokens from rfl] at h
    split at h
    · simp at h
    · next ev hev => exact ⟨ev, hev⟩
  obtain ⟨ev, hev⟩ := hev
  obtain ⟨F, cs, errs', h1, h2, h3, h4, h5, h6, h7⟩ := parseText_of_events hL.noEof hev
  rw [h3] at h
  simp at h
  exact ⟨F, cs, by rw [hev, h1], h2, h.1.symm, by rw [← h.2, h4], h5, h6, h7⟩

/-! ## C09: losslessness -/

/-- **C09.** The leaves of the tree are exactly the tokens of the document, in order. -/
theorem c09_leaves (e : Entry) (text : Text) (tokens : List Tok) (hL : Lexed text tokens) (g errs)
    (h : parseText e tokens = some (g, errs)) : g.leaves = tokens.map (fun t => (t.kind, t.text)) := by
  obtain ⟨F, cs, -, -, rfl, -, h5, -⟩ := parseText_some hL h
  show Green.leavesL cs = tokens.map Tok.leaf
  exact h5

/-- **C09.** The text of the tree is the text of the document. -/
theorem c09_lossless (e : Entry) (text : Text) (tokens : List Tok) (hL : Lexed text tokens) (g errs)
    (h : parseText e tokens = some (g, errs)) : g.text = text := by
  rw [Green.text, c09_leaves e text tokens hL g errs h, ← hL.tiles.2]
  simp [Function.comp_def]

/-- **C09** for the entry point that guesses the operation type. -/
theorem c09_document_lossless (text : Text) (tokens : List Tok) (hL : Lexed text tokens) (g errs)
    (h : parseDocument tokens = some (g, errs)) : g.text = text := by
  unfold parseDocument at h
  split at h <;> exact c09_lossless _ text tokens hL g errs h

/-! ## C11: termination -/

/-- **C11.** For every parse function and every token sequence the recursion is finite: from some depth on, allowing
more recursion changes nothing, and the recursion bound is not hit. -/
theorem c11_terminates (k : Kind) (f : FnDef) (hf : sparql k = some f) (toks : List Kind) (hk : ∀ t ∈ toks, t < 344) :
    ∃ n, ∀ m, n ≤ m → parseEntry sparql m k toks = parseEntry sparql n k toks ∧ parseEntry sparql m k toks ≠ .deep := by
  have hT : ToksOk (PState.init toks) := by simpa [ToksOk, PState.init] using hk
  have hr : ranksOk sparqlCert rankBound (.call k) = true := by
    have : sparqlTree.toList.all (fun p => ranksOk sparqlCert rankBound (.call p.1)) = true := by decide +kernel
    exact (List.all_eq_true.mp this) (k, f) (sparqlTree.find_mem k f hf)
  have hd : ∀ m, depthFor toks.length ≤ m → parseEntry sparql m k toks ≠ .deep := by
    intro m hm
    exact exec_not_deep sparql sparqlCert rankBound 80 (by decide) sparql_fnOk m 0 k (.call k)
      (PState.init toks) allKinds rankBound hT (allKinds_testBit (cur_lt hT))
      (heads_of_ranksOk _ _ _ _ hr _) hr (by simpa [PState.init, depthFor, Stmt.height] using hm)
  exact ⟨depthFor toks.length, fun m hm => ⟨exec_mono_le sparql hm 0 _ _ _ (hd _ (Nat.le_refl _)), hd m hm⟩⟩

/-- The bound is linear in the number of tokens. -/
theorem c11_linear_depth (L : Nat) : depthFor (L + 1) - depthFor L ≤ 1200 := by
  unfold depthFor need rankBound
  omega

/-! ## C13: spans of syntax errors -/

theorem tilesFrom_bounds (ts : List Tok) : ∀ o, TilesFrom o ts → ∀ t ∈ ts,
    o ≤ t.start ∧ t.start ≤ t.stop ∧ t.stop ≤ o + blen (ts.map (·.text)).flatten := by
  induction ts with
  | nil => intro o _ t ht; simp at ht
  | cons x xs ih =>
    intro o h t ht
    obtain ⟨h1, h2, h3⟩ := h
    simp only [List.map_cons, List.flatten_cons, blen_append]
    rcases List.mem_cons.mp ht with rfl | ht
    · omega
    · have := ih _ h3 t ht
      omega

theorem anchor_bounds {text : Text} {tokens : List Tok} (hL : Lexed text tokens) (m : Nat) :
    (anchor (significant tokens) m).1 ≤ (anchor (significant tokens) m).2 ∧
    (anchor (significant tokens) m).2 ≤ blen text := by
  have hb := tilesFrom_bounds tokens 0 hL.tiles.1
  rw [hL.tiles.2] at hb
  have hm : ∀ t ∈ significant tokens, t ∈ tokens := fun t ht => (List.mem_filter.mp ht).1
  unfold anchor
  split
  · next t ht =>
    have := hb t (hm t (List.mem_of_getElem? ht))
    simp only; omega
  · split
    · next t ht =>
      have := hb t (hm t (List.mem_of_getLast? ht))
      simp only; omega
    · simp

theorem reports_sorted (F : Forest) : ∀ m, ((F.reports m).map (·.1)).Pairwise (· ≤ ·) ∧
    ∀ x ∈ (F.reports m).map (·.1), m ≤ x ∧ x ≤ m + F.toks := by
  induction F with
  | nil => intro m; simp [Forest.reports]
  | tok r ih =>
    intro m
    refine ⟨(ih (m + 1)).1, fun x hx => ?_⟩
    have := (ih (m + 1)).2 x hx
    simp only [Forest.toks]; omega
  | err e r ih =>
    intro m
    simp only [Forest.reports, List.map_cons, List.pairwise_cons, Forest.toks]
    refine ⟨⟨fun x hx => ((ih m).2 x hx).1, (ih m).1⟩, fun x hx => ?_⟩
    rcases List.mem_cons.mp hx with rfl | hx
    · omega
    · exact (ih m).2 x hx
  | node k c r ihc ihr =>
    intro m
    simp only [Forest.reports, List.map_append, List.pairwise_append, Forest.toks]
    refine ⟨⟨(ihc m).1, (ihr _).1, fun a ha b hb => ?_⟩, fun x hx => ?_⟩
    · have h1 := (ihc m).2 a ha
      have h2 := (ihr (m + c.toks)).2 b hb
      omega
    · rcases List.mem_append.mp hx with hx | hx
      · have h1 := (ihc m).2 x hx
        omega
      · have h2 := (ihr (m + c.toks)).2 x hx
        omega

/-- **C13.** Every syntax error lies inside the document with start ≤ end, and its span is exactly that of a
non-trivia token of the document, or the empty span at the end of the last non-trivia token (0 if there is none). The
errors come in document order. -/
theorem c13_error_spans (e : Entry) (text : Text) (tokens : List Tok) (hL : Lexed text tokens) (g errs)
    (h : parseText e tokens = some (g, errs)) :
    (∀ x ∈ errs, x.start ≤ x.stop ∧ x.stop ≤ blen text ∧
      ((∃ t ∈ tokens, t.trivia = false ∧ x.start = t.start ∧ x.stop = t.stop) ∨
       (x.start = x.stop ∧ x.stop = (match (tokens.filter (fun t => !t.trivia)).getLast? with
          | some t => t.stop
          | none => 0)))) ∧
    errs.Pairwise (fun x y => x.start ≤ y.start) := by
  obtain ⟨F, cs, -, hFt, -, rfl, -⟩ := parseText_some hL h
  constructor
  · intro x hx
    simp only [List.mem_map] at hx
    obtain ⟨p, hp, rfl⟩ := hx
    have hb := anchor_bounds hL p.1
    refine ⟨hb.1, hb.2, ?_⟩
    simp only
    unfold anchor
    split
    · next t ht =>
      left
      have := List.mem_filter.mp (List.mem_of_getElem? ht)
      exact ⟨t, this.1, by simpa using this.2, rfl, rfl⟩
    · right
      rw [show significant tokens = tokens.filter (fun t => !t.trivia) from rfl]
      cases (tokens.filter (fun t => !t.trivia)).getLast? <;> exact ⟨rfl, rfl⟩
  · have hs := (reports_sorted F 0).1
    rw [List.pairwise_map] at hs
    rw [List.pairwise_map]
    apply hs.imp
    intro a b hab
    -- spans of the significant tokens are ordered
    have key : ∀ (ts : List Tok) o, TilesFrom o ts → ∀ i j : Nat, ∀ x y : Tok, i ≤ j →
        (significant ts)[i]? = some x → (significant ts)[j]? = some y → o ≤ x.start ∧ x.start ≤ y.start := by
      intro ts
      induction ts with
      | nil => intro o _ i j x y _ hx; simp [significant] at hx
      | cons t ts ih =>
        intro o ho i j x y hij hx hy
        obtain ⟨h1, h2, h3⟩ := ho
        by_cases ht : t.trivia = true
        · have e : significant (t :: ts) = significant ts := by simp [significant, ht]
          rw [e] at hx hy
          have := ih _ h3 i j x y hij hx hy
          omega
        · have ht' : t.trivia = false := by simpa using ht
          rw [significant_cons_neg ht'] at hx hy
          cases i with
          | zero =>
            simp at hx; subst hx
            cases j with
            | zero => simp at hy; subst hy; omega
            | succ j =>
              simp only [List.getElem?_cons_succ] at hy
              have := ih _ h3 j j y y (Nat.le_refl _) hy hy
              omega
          | succ i =>
            cases j with
            | zero => omega
            | succ j =>
              simp only [List.getElem?_cons_succ] at hx hy
              have := ih _ h3 i j x y (by omega) hx hy
              omega
    have hbnd := tilesFrom_bounds tokens 0 hL.tiles.1
    simp only
    unfold anchor
    split
    · next x hx =>
      split
      · next y hy => exact (key tokens 0 hL.tiles.1 a.1 b.1 x y hab hx hy).2
      · next hy =>
        split
        · next z hz =>
          have hz' : (significant tokens)[(significant tokens).length - 1]? = some z := by
            rw [← List.getLast?_eq_getElem?]; exact hz
          have hi : a.1 < (significant tokens).length := (List.getElem?_eq_some_iff.mp hx).1
          have := (key tokens 0 hL.tiles.1 a.1 _ x z (by omega) hx hz').2
          have hz2 := hbnd z (List.mem_filter.mp (List.mem_of_getLast? hz)).1
          simp only; omega
        · next hn =>
          rw [List.getLast?_eq_none_iff] at hn
          rw [hn] at hx; simp at hx
    · next hx =>
      rw [List.getElem?_eq_none_iff] at hx
      rw [List.getElem?_eq_none (by omega : (significant tokens).length ≤ b.1)]
      exact Nat.le_refl _

/-! ## C15: no empty nodes, tight nodes -/

/-- **C15.** Every node below the root covers at least one token, and neither its first nor its last leaf is
whitespace or a comment. -/
theorem c15_tight (e : Entry) (text : Text) (tokens : List Tok) (hL : Lexed text tokens) (g errs)
    (h : parseText e tokens = some (g, errs)) :
    ∀ n ∈ g.inner, ∃ k t l k' t' l', n.leaves = (k, t) :: l ∧ n.leaves = l' ++ [(k', t')] ∧
      k ≠ K.WHITESPACE ∧ k ≠ K.Comment ∧ k' ≠ K.WHITESPACE ∧ k' ≠ K.Comment := by
  obtain ⟨F, cs, -, -, rfl, -, -, -, h7⟩ := parseText_some hL h
  intro n hn
  obtain ⟨⟨k, t, l, h1, h2⟩, ⟨k', t', l', h3, h4⟩⟩ := h7 n hn
  simp only [triviaKind, Bool.or_eq_false_iff, beq_eq_false_iff_ne] at h2 h4
  exact ⟨k, t, l, k', t', l', h1, h3, h2.1, h2.2, h4.1, h4.2⟩

/-- **C15.** Removing empty nodes from a well-bracketed stream with one root keeps the root, every token, every
error report, and the bracket structure of the remaining nodes; no remaining inner node is empty. -/
theorem c15_remove_empty (k : Kind) (F : Forest) :
    ∃ F', removeEmptyNodes (Forest.ser (.node k F .nil)) = some (Forest.ser (.node k F' .nil)) ∧
      F'.full ∧ F'.toks = F.toks ∧ F'.reports 0 = F.reports 0 ∧ (F.full → F' = F) :=
  ⟨F.prune, removeEmptyNodes_ser k F, full_prune F, toks_prune F, reports_prune F 0, prune_of_full⟩

end Verif.Props
