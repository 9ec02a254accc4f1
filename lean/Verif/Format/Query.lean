import Verif.Format.Apart
import Verif.Features.SigTokens
/-!
# Formatted queries: the tokens of the result
-/
namespace Verif.Format
open Verif Verif.Grammar Verif.Lexer Verif.Features Verif.Props

/-- The queries for which the formatter is shown to keep the tokens. Left out are
* `?x -5` and `?x +5`, which the formatter splits: the result has the tokens `?x`, `-`, `5`;
* two words, numbers or strings next to each other without white space (`_:a_:b`, `1true`);
* the three places where the formatter itself removes needed white space: `f(DISTINCT x)`, `CONSTRUCT FROM g WHERE {}` and a sub-select
  with `VALUES` behind its modifiers. -/
structure Formattable (g : Green) : Prop where
  query : g.kind = K.QueryUnit
  signs : ∀ cs, Green.node K.AdditiveExpression cs ∈ g.nodes → ∀ c ∈ cs, c.kind ≠ K.NumericLiteralPositive ∧ c.kind ≠ K.NumericLiteralNegative
  runs : ∀ A x y B, g.leaves = A ++ x :: y :: B → x.1 ∈ wordEnds → y.1 ∈ wordStarts → pairOk x.1 y.1 = true
  args : ∀ cs, Green.node K.ArgList cs ∈ g.nodes → ∀ c ∈ cs, c.kind ≠ K.DISTINCT
  datasets : ∀ cs, Green.node K.ConstructQuery cs ∈ g.nodes → ∀ c ∈ cs, c.kind = K.DatasetClause → ∀ d ∈ cs, d.kind ≠ K.WHERE
  values : ∀ cs, Green.node K.SubSelect cs ∈ g.nodes → ∀ c ∈ cs, c.kind = K.SolutionModifier → ∀ d ∈ cs, d.kind ≠ K.ValuesClause

theorem sign_parents : sparqlRulesTree.toList.all (fun p => signed.all (fun k => !(symbols p.2).contains (.tok k) ||
    [K.NumericLiteralPositive, K.NumericLiteralNegative].contains p.1)) = true := by decide +kernel
theorem literal_parents : sparqlRulesTree.toList.all (fun p => [K.NumericLiteralPositive, K.NumericLiteralNegative].all (fun k =>
    !(symbols p.2).contains (.node k) || [K.NumericLiteral, K.AdditiveExpression].contains p.1)) = true := by decide +kernel

/-- The kind of the parent of an element. -/
theorem parent_in {text : Text} {g : Green} (P : Parsed text g) {r c : Red} (hr : InTree g r) (hc : c ∈ r.childrenT) (hE : r.kind ≠ K.Error) {s : Sym}
    (hs : c.green.sym = some s) (ks : List Kind) (h : sparqlRulesTree.toList.all (fun p => !(symbols p.2).contains s || ks.contains p.1) = true) :
    r.kind ∈ ks := by
  have := P.child_sym hr hc
  rw [if_neg hE] at this
  rcases this with h0 | ⟨R, s', h1, h2, h3⟩
  · rw [hs] at h0; cases h0
  · rw [hs] at h2
    injection h2 with h2
    subst h2
    have := List.all_eq_true.1 h _ (KTree.find_mem _ _ _ h1)
    simp only [Bool.or_eq_true, Bool.not_eq_true', List.contains_eq_mem, decide_eq_true_eq, decide_eq_false_iff_not] at this
    exact this.resolve_left (fun h => h h3)

theorem no_signs {text : Text} {g : Green} (P : Parsed text g) (hC : ∀ n ∈ g.nodes, Complete sparqlRules n) (hF : Formattable g) :
    ∀ r, InTree g r → r.kind ∈ signedKinds → numberFollows r = false := by
  intro r hr hk
  have hrn := is_token P hr hk (by decide +kernel)
  have hrt : triviaKind r.kind = false := by
    have : ∀ k ∈ signedKinds, triviaKind k = false := by decide
    exact this _ hk
  cases hr with
  | root =>
    have : (Red.root g).kind = g.kind := rfl
    rw [this, hF.query] at hk
    exact absurd hk (by decide)
  | @child p _ hp hc =>
    have hr := InTree.child hp hc
    unfold numberFollows
    rw [child_parent hc]
    dsimp only
    have hsym := sym_eq P hC hr hrt
    have hE := (whole_of P hC hp (child_isNode hc)).1
    have hsm : symOf r = .tok r.kind := by unfold symOf; rw [hrn]; rfl
    rw [hsm] at hsym
    have hpk : p.kind ∈ [K.NumericLiteralPositive, K.NumericLiteralNegative] := by
      refine parent_in P hp hc hE hsym _ (List.all_eq_true.2 (fun q hq => ?_))
      exact List.all_eq_true.1 (List.all_eq_true.1 sign_parents q hq) _ hk
    have hpt : triviaKind p.kind = false := by
      have : ∀ k ∈ [K.NumericLiteralPositive, K.NumericLiteralNegative], triviaKind k = false := by decide
      exact this _ hpk
    cases hp with
    | root => rfl
    | @child q _ hq hpc =>
      have hp := InTree.child hq hpc
      have hsym' := sym_eq P hC hp hpt
      have hsm' : symOf p = .node p.kind := by unfold symOf; rw [child_isNode hc]; rfl
      rw [hsm'] at hsym'
      obtain ⟨hqE, rule, h1, h2, h3⟩ := whole_of P hC hq (child_isNode hpc)
      have hqk : q.kind ∈ [K.NumericLiteral, K.AdditiveExpression] := by
        refine parent_in P hq hpc hqE hsym' _ (List.all_eq_true.2 (fun x hx => ?_))
        exact List.all_eq_true.1 (List.all_eq_true.1 literal_parents x hx) _ hpk
      simp only [List.mem_cons, List.not_mem_nil, or_false] at hqk
      rcases hqk with hqk | hqk
      · obtain ⟨L, R, hLR⟩ := List.append_of_mem hpc
        unfold prevNode
        rw [(elder_eq hLR).1]
        cases hf : L.filter Red.isNode with
        | nil => rfl
        | cons c l =>
          exfalso
          have hcL : c ∈ L.filter Red.isNode := by rw [hf]; simp
          obtain ⟨hcL, hcn⟩ := List.mem_filter.1 hcL
          have hcc : c ∈ q.childrenT := by rw [hLR]; simp [hcL]
          have hct : triviaKind c.kind = false := by
            cases h : triviaKind c.kind with
            | false => rfl
            | true => have := trivia_token P (.child hq hcc) h; rw [hcn] at this; cases this
          have hcs := sym_eq P hC (.child hq hcc) hct
          obtain ⟨L1, L2, rfl⟩ := List.append_of_mem hcL
          have hlen : 2 ≤ ((q.childrenT.map Red.green).filterMap Green.sym).length := by
            rw [hLR]
            simp only [List.map_append, List.map_cons, List.filterMap_append, List.filterMap_cons_some hcs, List.filterMap_cons_some hsym',
              List.length_append, List.length_cons]
            omega
          rw [hqk] at h1
          have : rule = rule_NumericLiteral := by
            have e : sparqlRules K.NumericLiteral = some rule_NumericLiteral := by decide +kernel
            rw [e] at h1
            injection h1 with h1
            exact h1.symm
          rw [this] at h3
          generalize (q.childrenT.map Red.green).filterMap Green.sym = W at h3 hlen
          have one : ∀ k, Whole sparqlRules (.node k) W → False := by
            intro k h
            cases h <;> simp at hlen
          cases h3 with
          | altL h => exact one _ h
          | altR h => cases h with
            | altL h => exact one _ h
            | altR h => exact one _ h
      · exfalso
        have hm := hq.green_mem (child_isNode hpc)
        have hg := children_green q
        cases hrg : q.here.green with
        | tok k t => have := child_isNode hpc; unfold Red.isNode at this; rw [hrg] at this; cases this
        | node k cs =>
          rw [hrg] at hg
          dsimp only at hg
          have hkk : q.kind = k := by unfold Red.kind; rw [hrg]; rfl
          have e : q.green = .node k cs := hrg
          rw [e, ← hkk, hqk] at hm
          have hpm : p.green ∈ cs := by rw [← hg]; exact List.mem_map_of_mem hpc
          have := hF.signs cs hm _ hpm
          have kp : p.green.kind = p.kind := rfl
          rw [kp] at this
          simp only [List.mem_cons, List.not_mem_nil, or_false] at hpk
          rcases hpk with h | h
          · exact this.1 h
          · exact this.2 h

section
variable {w : Walker} {text : Text} {g : Green} (W : Walks false w text g) (hC : ∀ n ∈ g.nodes, Complete sparqlRules n) (hF : Formattable g)
include W hC hF

omit W hC hF in
/-- Leaves are tokens of the tree. -/
theorem leaf_token {p : Kind × Text} (hp : p ∈ g.leaves) : ∃ t, InTree g t ∧ t.isNode = false ∧ t.kt = p := by
  have := (tokens_row (Red.root g)).1
  have e : (Red.root g).tokens.map Red.kt = g.leaves := this
  rw [← e] at hp
  obtain ⟨t, h1, h2⟩ := List.mem_map.1 hp
  exact ⟨t, (mem_tokens.1 h1).1, (mem_tokens.1 h1).2, h2⟩

theorem leaf_kind {p : Kind × Text} (hp : p ∈ g.leaves) : p.1 ∉ updateKinds ∧ p.1 ≠ K.Error := by
  obtain ⟨t, h1, h2, h3⟩ := leaf_token hp
  have hk : p.1 = t.kind := by rw [← h3]; rfl
  rw [hk]
  cases ht : triviaKind t.kind with
  | false => exact (query_sound W.parsed hC hF.query t h1).2 h2 ht
  | true =>
    unfold triviaKind at ht
    simp only [Bool.or_eq_true, decide_eq_true_eq, beq_iff_eq] at ht
    rcases ht with h | h <;> rw [h] <;> decide

theorem leaves_one : PL false g.leaves = g.leaves := by
  unfold PL
  have : ∀ l : List (Kind × Text), (∀ p ∈ l, p.1 ∉ updateKinds) → l.flatMap (pieces false) = l := by
    intro l
    induction l with
    | nil => intro _; rfl
    | cons p l ih =>
      intro h
      have h1 := h p List.mem_cons_self
      have : pieces false p = [p] := by
        refine pieces_whole ?_
        unfold secondWord
        rw [if_neg (fun e => h1 (by rw [e]; decide)), if_neg (fun e => h1 (by rcases e with e | e <;> rw [e] <;> decide))]
      rw [List.flatMap_cons, this, ih (fun q hq => h q (List.mem_cons_of_mem _ hq))]
      rfl
  exact this _ (fun p hp => (leaf_kind W hC hF hp).1)

omit hC hF in
/-- The edits, with or without an additional line feed. -/
theorem collected_iff : (∀ e ∈ (walked g).flatMap (elemEdits w), ∃ e' ∈ collected w, e'.start = e.start ∧ e'.stop = e.stop ∧
      (e'.text = e.text ∨ e'.text = '\n' :: e.text)) ∧
    (∀ e' ∈ collected w, ∃ e ∈ (walked g).flatMap (elemEdits w), e'.start = e.start ∧ e'.stop = e.stop) := by
  unfold collected
  rw [W.tree]
  dsimp only
  split
  · obtain ⟨D, h1, h2, h3⟩ := markLoop_pairs (((walked g).flatMap (elemEdits w)).insertionSort byStart)
      (((walked g).flatMap (elemEmptyLines w)).insertionSort (· ≤ ·))
    have hp : (D.map Prod.fst).Perm ((walked g).flatMap (elemEdits w)) := by rw [h1]; exact List.perm_insertionSort _ _
    unfold mergeEmptyLines
    constructor
    · intro e he
      obtain ⟨d, hd, rfl⟩ := List.mem_map.1 (hp.mem_iff.2 he)
      exact ⟨d.2, by rw [← h2]; exact List.mem_map_of_mem hd, h3 d hd⟩
    · intro e' he
      rw [← h2] at he
      obtain ⟨d, hd, rfl⟩ := List.mem_map.1 he
      exact ⟨d.1, hp.mem_iff.1 (List.mem_map_of_mem hd), (h3 d hd).1, (h3 d hd).2.1⟩
  · exact ⟨fun e he => ⟨e, he, rfl, rfl, .inl rfl⟩, fun e he => ⟨e, he, rfl, rfl⟩⟩

omit hF W hC in
theorem glued_not {r a b : Red} {X T Y : List Red} (hF : Formattable g) (hN : Neighbours g r a b X T Y) : gluedPair r.kind (symOf a) (symOf b) = false := by
  cases h : gluedPair r.kind (symOf a) (symOf b) with
  | false => rfl
  | true =>
    exfalso
    have hm := hN.tree.green_mem hN.node
    have hg := children_green r
    cases hrg : r.here.green with
    | tok k t => have := hN.node; unfold Red.isNode at this; rw [hrg] at this; cases this
    | node k cs =>
      rw [hrg] at hg
      dsimp only at hg
      have hk : r.kind = k := by unfold Red.kind; rw [hrg]; rfl
      have e : r.green = .node k cs := hrg
      rw [e, ← hk] at hm
      have ha : a.green ∈ cs := by rw [← hg]; exact List.mem_map_of_mem hN.left_mem
      have hb : b.green ∈ cs := by rw [← hg]; exact List.mem_map_of_mem hN.right_mem
      have ka : a.green.kind = a.kind := rfl
      have kb : b.green.kind = b.kind := rfl
      unfold gluedPair at h
      simp only [Bool.or_eq_true, Bool.and_eq_true, beq_iff_eq] at h
      rcases h with (h | h) | h
      · rw [h.1.1] at hm
        exact hF.args cs hm _ ha (by rw [ka]; exact (symOf_tok h.1.2).2)
      · rw [h.1.1] at hm
        exact hF.datasets cs hm _ ha (by rw [ka]; exact (symOf_node h.1.2).2) _ hb (by rw [kb]; exact (symOf_tok h.2).2)
      · rw [h.1.1] at hm
        exact hF.values cs hm _ ha (by rw [ka]; exact (symOf_node h.1.2).2) _ hb (by rw [kb]; exact (symOf_node h.2).2)

omit W hC hF in
/-- The element of a row at a position. -/
theorem row_find : ∀ {T : List Red} {o p : Nat}, Row o T → o ≤ p → p < o + blen (flat (lv T)) → ∃ t ∈ T, t.start ≤ p ∧ p < t.stop := by
  intro T
  induction T with
  | nil => intro o p _ h1 h2; have : blen (flat (lv [])) = 0 := rfl; omega
  | cons t T ih =>
    intro o p hr h1 h2
    obtain ⟨h3, h4⟩ := hr
    have e : lv (t :: T) = t.green.leaves ++ lv T := rfl
    rw [e, flat_app, blen_append] at h2
    have h5 : t.stop = t.start + blen (flat t.green.leaves) := rfl
    by_cases hp : p < t.stop
    · exact ⟨t, List.mem_cons_self, by omega, hp⟩
    · obtain ⟨x, hx, h6⟩ := ih h4 (p := p) (by omega) (by omega)
      exact ⟨x, List.mem_cons_of_mem _ hx, h6⟩

/-- In the nodes where white space is kept, no edit touches it. -/
theorem plain_kept {r a b z : Red} {X T Y : List Red} (hN : Neighbours g r a b X T Y) (hk : r.kind ∈ plainKinds) (hz : z ∈ T) {e : SEdit}
    (he : e ∈ (walked g).flatMap (elemEdits w)) (h1 : e.start ≤ z.start) (h2 : z.stop ≤ e.stop) : False := by
  obtain ⟨r0, hr0, he⟩ := List.mem_flatMap.1 he
  have hr0 := mem_walked.1 hr0
  have hzc : z ∈ r.childrenT := by rw [hN.split]; simp [hz]
  have hzin : InTree g z := .child hN.tree hzc
  have hzt := hN.trivia z hz
  have hzn := trivia_token W.parsed hzin hzt
  have hpos := token_pos W.parsed hzin hzn
  have htok : ∀ t, InTree g t → t.isNode = false → triviaKind t.kind = false → t.start ≤ z.start → z.start < t.stop → False := by
    intro t ht htn htk h3 h4
    have := token_unique ht hzin htn hzn h3 h4 (Nat.le_refl _) hpos
    rw [this, hzt] at htk
    cases htk
  have hpc : ∀ t, InTree g t → t.isNode = false → pieces false t.kt = [t.kt] := by
    intro t ht htn
    have hm : t.kt ∈ g.leaves := by
      have : (Red.root g).tokens.map Red.kt = g.leaves := (tokens_row (Red.root g)).1
      rw [← this]
      exact List.mem_map_of_mem (mem_tokens.2 ⟨ht, htn⟩)
    have h3 := (leaf_kind W hC hF hm).1
    refine pieces_whole ?_
    unfold secondWord
    rw [if_neg (fun e => h3 (by rw [e]; decide)), if_neg (fun e => h3 (by rcases e with e | e <;> rw [e] <;> decide))]
  cases elem_made W hr0 e he with
  | @before x t hx ht =>
    have h1' : x.start ≤ z.start := h1
    have h2' : z.stop ≤ x.start := h2
    omega
  | @behind x t hx ht =>
    have h1' : x.stop ≤ z.start := h1
    have h2' : z.stop ≤ x.stop := h2
    omega
  | sign h _ _ _ _ => cases h
  | @gap X' T' Y' _ hr hg h3 h4 ht =>
    have hrow := children_row r0
    rw [hg.split] at hrow
    have hrow := row_prefix (row_split hrow)
    rw [← lv_flat] at hrow
    obtain ⟨t, htT, h5, h6⟩ := row_find hrow (p := z.start) (by omega) (by omega)
    have htc : t ∈ r0.childrenT := by rw [hg.split]; simp [htT]
    have htn := trivia_token W.parsed (.child hr htc) (hg.trivia t htT)
    have : t = z := token_unique (.child hr htc) hzin htn hzn h5 h6 (Nat.le_refl _) hpos
    rw [this] at htc
    have := same_parent htc hzc
    rw [this, plain_edits hk] at he
    cases he
  | restyle hr hn hk _ _ _ => exact htok r0 hr hn hk h1 (by have : z.stop ≤ r0.stop := h2; omega)
  | @comma c hr hc hk =>
    have hcin : InTree g c := .child hr hc
    have hcn : c.isNode = false := is_token W.parsed hcin (ks := [K.Comma]) (by rw [hk]; simp) (by decide +kernel)
    exact htok c hcin hcn (by rw [hk]; decide) h1 (by have : z.stop ≤ c.stop := h2; omega)
  | first hr hn _ _ hp _ => rw [hpc r0 hr hn] at hp; cases hp
  | middle hr hn _ _ hp _ => rw [hpc r0 hr hn] at hp; cases hp
  | second hr hn _ _ hp _ => rw [hpc r0 hr hn] at hp; cases hp

/-- **The layout of the formatter separates the tokens.** -/
theorem separate_of {l : Pieces} (hL : Lexes text g.leaves) (hM : Managed g)
    (hm : Marks (PL false g.leaves) (collected w) (collected w) 0 l) : Separate l := by
  have hone := leaves_one W hC hF
  rw [hone] at hm
  obtain ⟨hplan, -⟩ := collected_plan W hM
  rw [hone] at hplan
  have hsol : solid l = solid g.leaves := by have := hm.toks; rwa [List.drop_zero] at this
  have hleaf : ∀ p ∈ l, p.1 ≠ K.WHITESPACE → p ∈ g.leaves := by
    intro p hp hk
    have : p ∈ solid l := List.mem_filter.2 ⟨hp, by simp [hk]⟩
    rw [hsol] at this
    exact (List.mem_filter.1 this).1
  have hbr : ∀ l1 x y l2, solid l = l1 ++ x :: y :: l2 → ¬ closes2 x.1 y.1 := by
    intro l1 x y l2 h
    rw [hsol] at h
    obtain ⟨A, M, B, h1, -, h3⟩ := solid_pair h
    exact no_brackets hL h1 h3
  refine ⟨fun p hp hk => W.parsed.lexed p (hleaf p hp hk) (leaf_kind W hC hF (hleaf p hp hk)).2, ?_, ?_, hbr⟩
  · intro p hp
    by_cases hk : p.1 = K.WHITESPACE
    · rw [hk]; decide
    · exact (leaf_kind W hC hF (hleaf p hp hk)).1
  intro l1 x y l2 hl hx hy
  by_cases hxc : x.1 = K.Comment
  · exact .inl hxc
  right
  have hxt : triviaKind x.1 = false := by
    unfold triviaKind
    simp [hx, hxc]
  have hno := not_marked hl hx hy
  have hs : solid l = solid l1 ++ x :: y :: solid l2 := by
    rw [hl, solid_append]
    congr 1
    unfold solid
    rw [List.filter_cons_of_pos (by simp [hx]), List.filter_cons_of_pos (by simp [hy])]
  have hs2 := hs
  rw [hsol] at hs2
  obtain ⟨A, M, B, hA, hA2, hMw⟩ := solid_pair hs2
  have hnm : ∀ i, A.length < i → i ≤ A.length + 1 + M.length → ¬ Marked l (solid (slice g.leaves 0 i)) := by
    intro i h1 h2
    rw [take_solid hA hx hMw h1 h2, hA2]
    exact hno
  have hne : ∀ p ∈ g.leaves, p.2 ≠ [] := W.parsed.leaf_nonempty
  have hlen : g.leaves.length = A.length + 1 + M.length + 1 + B.length := by
    rw [hA]; simp only [List.length_append, List.length_cons]; omega
  have hoff := off_parts hA
  -- an edit at a place between the two
  have hedit : ∀ e ∈ collected w, lead e.text ≠ [] → (e.start = off g.leaves (A.length + 1) ∨ e.start = off g.leaves (A.length + 1 + M.length)) → False := by
    intro e he hlead hst
    obtain ⟨i, j, hfit⟩ := hplan.fits e he
    have hi : i ≤ g.leaves.length := Nat.le_trans hfit.le hfit.hj
    have inj : ∀ k, k ≤ g.leaves.length → e.start = off g.leaves k → i = k := by
      intro k hk h
      rw [hfit.start] at h
      have h1 := (off_le_iff hne hi hk).1 (by rw [h])
      have h2 := (off_le_iff hne hk hi).1 (by rw [h])
      omega
    rcases hst with h | h
    · have := inj _ (by omega) h
      exact hnm i (by omega) (by omega) (hm.edits e he i j hfit (by omega) (.inl hlead))
    · have := inj _ (by omega) h
      exact hnm i (by omega) (by omega) (hm.edits e he i j hfit (by omega) (.inl hlead))
  have htr : ∀ k z, g.leaves[k]? = some z → tr g.leaves k = triviaKind z.1 := by
    intro k z h; unfold tr; rw [h]
  have hxi : g.leaves[A.length]? = some x := by rw [hA]; simp
  by_cases hyc : y.1 = K.Comment
  · -- a comment
    exfalso
    have hyi : g.leaves[A.length + 1 + M.length]? = some y := by
      rw [hA, show A ++ x :: (M ++ y :: B) = (A ++ [x] ++ M) ++ y :: B by simp]
      have : A.length + 1 + M.length = (A ++ [x] ++ M).length := by rw [List.length_append, List.length_append, List.length_singleton]
      rw [this, List.getElem?_append_right (Nat.le_refl _), Nat.sub_self]
      rfl
    rcases hplan.covered _ _ hyi with h | ⟨e, he, h1, h2⟩
    · exact h.1 hyc
    · obtain ⟨i, j, hfit⟩ := hplan.fits e he
      have hi : i ≤ g.leaves.length := Nat.le_trans hfit.le hfit.hj
      rw [hfit.start] at h1
      rw [hfit.stop] at h2
      have h3 := (off_le_iff hne hi (by omega)).1 h1
      have h4 := (off_le_iff hne (by omega) hfit.hj).1 h2
      have hyt : tr g.leaves (A.length + 1 + M.length) = true := by rw [htr _ _ hyi, hyc]; decide
      have hxtr : tr g.leaves A.length = false := by rw [htr _ _ hxi, hxt]
      rcases hfit.shape with ⟨h5, -⟩ | ⟨h5, h6⟩ | ⟨h5, h6, h7⟩
      · omega
      · have : i = A.length + 1 + M.length := by omega
        rw [this, hyt] at h6; cases h6
      · have hAi : A.length < i := by
          by_contra hlt
          have := h6 A.length (by omega) (by omega)
          rw [hxtr] at this; cases this
        refine hnm i hAi h3 (hm.edits e he i j hfit (by omega) (.inr ?_))
        have hyin : y ∈ slice g.leaves i j := by
          unfold slice
          rw [List.mem_iff_getElem?]
          refine ⟨A.length + 1 + M.length - i, ?_⟩
          rw [List.getElem?_drop, List.getElem?_take_of_lt (by omega), show i + (A.length + 1 + M.length - i) = A.length + 1 + M.length by omega]
          exact hyi
        intro h0
        have : y ∈ comsOf (slice g.leaves i j) := List.mem_filter.2 ⟨hyin, by simp [hyc]⟩
        rw [h0] at this; cases this
  · -- two tokens
    have hyt : triviaKind y.1 = false := by
      unfold triviaKind
      simp [hy, hyc]
    have hMt : ∀ p ∈ M, triviaKind p.1 = true := by
      intro p hp; rw [hMw p hp]; decide
    obtain ⟨r, X, a, T, b, Y, A', B', q1, q2, q3, q4, q5, q6, q7, q8, q9, q10, q11⟩ := meet W.parsed (Red.root g) .root (A := A) (M := M) (B := B) hA hxt hyt hMt
    have hN : Neighbours g r a b X T Y := ⟨q1, q2, q3, q4, q5, q6⟩
    have ha : a.stop = off g.leaves (A.length + 1) := by rw [q10, hoff.1]; show 0 + _ = _; omega
    have hb : b.start = off g.leaves (A.length + 1 + M.length) := by rw [q11, ha, hoff.2, hoff.1]
    have hspaced : SpacedAt w g a b → False := by
      rintro ⟨r0, e, h1, h2, h3, h4⟩
      obtain ⟨e', h5, h6, -, h7⟩ := (collected_iff W).1 e (List.mem_flatMap.2 ⟨r0, mem_walked.2 h1, h2⟩)
      refine hedit e' h5 ?_ ?_
      · rcases h7 with h7 | h7
        · rw [h7]; exact h4
        · rw [h7]; exact lead_nl _
      · rw [h6]
        rcases h3 with h3 | h3
        · left; rw [h3, ha]
        · right; rw [h3, hb]
    have hxl : x ∈ g.leaves := by rw [hA]; simp
    have hyl : y ∈ g.leaves := by rw [hA]; simp
    have hfirst := first_sound W.parsed hC b hN.right_tree q6 q9 hyt
    have hpf := pair_sound W.parsed hC hF.query q1 q2 q3 q4 q5 q6
    have hclose : pairOk x.1 y.1 = true ∨ closes2 x.1 y.1 → pairOk x.1 y.1 = true := fun h => h.elim id (fun h => absurd h (hbr _ _ _ _ hs))
    unfold pairFine at hpf
    simp only [Bool.or_eq_true, Bool.and_eq_true, beq_iff_eq] at hpf
    rcases hpf with ((((h | h) | h) | h) | h) | h
    · exact (hspaced (sep_spaced W hC hN (.inl h))).elim
    · exact (hspaced (sep_spaced W hC hN (.inr h))).elim
    · exact (hspaced (pair_spaced W hC hN h)).elim
    · rw [glued_not hF hN] at h; cases h
    · have := behind_gen W.parsed hC symBehind tokMask (fun _ => rfl) behind_table a hN.left_tree q5 q8 hxt y.1 (sub_mask h hfirst)
      exact hclose (tok_mask this)
    · have := behind_gen W.parsed hC symBehind2 runMask (fun _ => rfl) behind2_table a hN.left_tree q5 q8 hxt y.1 (sub_mask h.2 hfirst)
      rcases run_mask this with h1 | h1
      · exact hclose h1
      · cases hMe : M with
        | nil =>
          rw [hMe] at hA
          exact hF.runs A x y B hA h1.1 h1.2
        | cons z0 M' =>
          exfalso
          have hpk : r.kind ∈ plainKinds := List.contains_iff_mem.1 h.1
          -- the first white space between the two
          cases hTe : T with
          | nil => rw [hTe, hMe] at q7; cases q7
          | cons z T' =>
            have hzT : z ∈ T := by rw [hTe]; simp
            have hzc : z ∈ r.childrenT := by rw [q3]; simp [hzT]
            have hzl := token_leaves (trivia_token W.parsed (.child q1 hzc) (q4 z hzT))
            have hz0 : z.kt = z0 := by
              rw [hTe, hMe] at q7
              have e : lv (z :: T') = z.green.leaves ++ lv T' := rfl
              rw [e, hzl] at q7
              injection q7
            have hzs : z.start = off g.leaves (A.length + 1) := by
              have h8 := (child_places (r := r) (X := X ++ [a]) (Y := z :: (T' ++ b :: Y)) (by rw [q3, hTe]; simp))
              rw [h8.2 z _ rfl, ← h8.1 X a rfl, ha]
            have hget : g.leaves[A.length + 1]? = some z0 := by
              rw [hA, hMe, show A ++ x :: (z0 :: M' ++ y :: B) = (A ++ [x]) ++ z0 :: (M' ++ y :: B) by simp]
              have : A.length + 1 = (A ++ [x]).length := by simp
              rw [this, List.getElem?_append_right (Nat.le_refl _), Nat.sub_self]
              rfl
            have hze : z.stop = off g.leaves (A.length + 1 + 1) := by
              have h9 : off g.leaves (A.length + 1 + 1) = off g.leaves (A.length + 1) + blen z0.2 := by
                unfold off
                rw [List.take_add_one, hget]
                show blen (flat (_ ++ [z0])) = _
                rw [flat_app, blen_append]
                congr 1
                show blen (z0.2 ++ []) = _
                rw [List.append_nil]
              rw [h9, ← hzs, ← hz0]
              rfl
            have hml : 1 ≤ M.length := by rw [hMe]; simp
            refine hnm (A.length + 1) (by omega) (by omega) (hm.kept (A.length + 1) z0 (Nat.zero_le _) hget (hMw z0 (by rw [hMe]; simp)) ?_)
            rintro e he ⟨h2, h3⟩
            obtain ⟨e0, h4, h5, h6⟩ := (collected_iff W).2 e he
            exact plain_kept W hC hF hN hpk hzT h4 (by rw [← h5, hzs]; exact h2) (by rw [← h6, hze]; exact h3)

end
end Verif.Format
