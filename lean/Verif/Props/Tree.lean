import Verif.Props.ParserLang
import Verif.Grammar.LooseTree
import Verif.Grammar.Starts
import Verif.Grammar.UnitShape
import Verif.Grammar.Whole
/-!
# Properties of the syntax tree of arbitrary text (C46, C48)

`Follows R n` (Grammar/Loose.lean): the children of an error node are tokens; the children of any other node `n`, trivia
and error nodes aside, are a word of the right-hand side of `n`'s kind from which symbols may be missing.
-/
namespace Verif.Props
open Verif Verif.Grammar

theorem sigKinds_kinds (tokens : List Tok) : sigKinds (tokens.map Tok.leaf) = kinds tokens := by
  induction tokens with
  | nil => rfl
  | cons t ts ih =>
    have : sigKinds (Tok.leaf t :: ts.map Tok.leaf) = sigKinds [Tok.leaf t] ++ sigKinds (ts.map Tok.leaf) :=
      sigKinds_append [_] _
    rw [List.map_cons, this, ih]
    unfold kinds significant sigKinds Tok.leaf Tok.trivia triviaKind
    simp only [List.filter_cons, List.filter_nil]
    cases (t.kind == K.WHITESPACE || t.kind == K.Comment) <;> simp

/-- **C46.** In the tree of any text, valid or not, every node follows the grammar. -/
theorem c46_follows (e : Entry) (text : Text) (tokens : List Tok) (hL : Lexed text tokens) (g errs)
    (h : parseText e tokens = some (g, errs)) : ∀ n ∈ g.nodes, Follows sparqlRules n := by
  obtain ⟨F, cs, h1, h2, rfl, -, h5, h6, h7⟩ := parseText_some hL h
  obtain ⟨n, s, hs, hev⟩ := parseTokens_some h1
  obtain ⟨hl, hc⟩ := parse_loose hs hev
  have hw : kinds tokens = sigKinds (Green.leavesL cs) := by rw [h5, sigKinds_kinds]
  rw [hw] at hl hc
  have hsy : (Green.shapeL cs).syms (sigKinds (Green.leavesL cs)) = F.syms (sigKinds (Green.leavesL cs)) := by
    rw [h6, Forest.syms_dropErr, Forest.syms_prune]
  have hcf : (Green.shapeL cs).Conf sparqlRules (sigKinds (Green.leavesL cs)) := by
    rw [h6]; exact Forest.conf_dropErr _ (Forest.conf_prune _ hc)
  intro m hm
  simp only [Green.nodes, List.mem_cons] at hm
  rcases hm with rfl | hm
  · have hk : e.kind ≠ K.Error := by cases e <;> decide
    simp only [Follows, hk, if_false]
    refine ⟨_, unit_rule e, ?_⟩
    have := syms_shapeL cs [] h7
    rw [List.append_nil] at this
    rw [← this, hsy]; exact hl
  · exact follows_shapeL cs h7 hcf m hm

theorem tok_not_node (g : Green) (k : Kind) (t : Text) : Green.tok k t ∉ g.nodes := by
  induction g using Green.rec (motive_2 := fun cs => Green.tok k t ∉ Green.nodesL cs) with
  | tok k' t' => simp [Green.nodes]
  | node k' cs ih => simp [Green.nodes, ih]
  | nil => simp [Green.nodesL]
  | cons g gs h1 h2 => simp [Green.nodesL, h1, h2]

/-- **C48.** In the tree of any text, valid or not, every node of a kind listed in `nodeStarts` (Grammar/StartsData.lean)
starts with one of the tokens listed there: error recovery never opens such a node elsewhere. -/
theorem c48_starts (e : Entry) (text : Text) (tokens : List Tok) (hL : Lexed text tokens) (g errs)
    (h : parseText e tokens = some (g, errs)) (n : Green) (hn : n ∈ g.nodes) (ks : List Kind)
    (hk : (n.kind, ks) ∈ nodeStarts) : ∃ p l, n.leaves = p :: l ∧ p.1 ∈ ks := by
  obtain ⟨F, cs, h1, h2, rfl, -, h5, h6, h7⟩ := parseText_some hL h
  obtain ⟨m, s, hs, hev⟩ := parseTokens_some h1
  have hc := parse_begins hs hev
  have hks : startTokens n.kind = some ks := by
    have : ∀ p ∈ nodeStarts, startTokens p.1 = some p.2 := by decide +kernel
    exact this _ hk
  have hw : kinds tokens = sigKinds (Green.leavesL cs) := by rw [h5, sigKinds_kinds]
  rw [hw] at hc
  have hcf : (Green.shapeL cs).Begins startTokens (sigKinds (Green.leavesL cs)) := by
    rw [h6]; exact Forest.begins_dropErr _ (Forest.begins_prune _ hc)
  simp only [Green.nodes, List.mem_cons] at hn
  rcases hn with rfl | hn
  · exfalso
    have hu : startTokens e.kind = none := by cases e <;> decide +kernel
    have : startTokens e.kind = some ks := hks
    rw [hu] at this; cases this
  · have key : ∀ cs : List Green, (∀ n ∈ Green.nodesL cs, n.Tight) → ∀ v,
        (Green.shapeL cs).Begins startTokens (sigKinds (Green.leavesL cs) ++ v) → n ∈ Green.nodesL cs →
        ∃ p l, n.leaves = p :: l ∧ p.1 ∈ ks := by
      intro cs
      induction cs with
      | nil => intro _ v _ hn; simp [Green.nodesL] at hn
      | cons g gs ih =>
        intro ht v hc hn
        simp only [Green.nodesL, List.mem_append] at ht hn
        simp only [Green.shapeL, Green.leavesL, sigKinds_append, List.append_assoc] at hc
        obtain ⟨a, b⟩ := begins_shape g (Green.shapeL gs) _ (fun n hn => ht n (Or.inl hn)) hc
        rcases hn with hn | hn
        · cases n with
          | tok k t =>
            exfalso
            exact absurd hn (tok_not_node g k t)
          | node k c => exact a k c hn ks hks
        · exact ih (fun n hn => ht n (Or.inr hn)) v b hn
    exact key cs h7 [] (by rw [List.append_nil]; exact hcf) hn

/-- **C48.** Right below the root there is at most the query (or update) and, behind it, one error node with everything that
could not be parsed. -/
theorem c48_root (e : Entry) (text : Text) (tokens : List Tok) (hL : Lexed text tokens) (g errs)
    (h : parseText e tokens = some (g, errs)) :
    ∃ cs a b, g = .node e.kind cs ∧ (cs.filter (fun c => !c.isTok)).map Green.kind = a ++ b ∧
      (a = [] ∨ a = [e.inner]) ∧ (b = [] ∨ b = [K.Error]) := by
  obtain ⟨F, cs, h1, h2, rfl, -, h5, h6, h7⟩ := parseText_some hL h
  obtain ⟨m, s, hs, hev⟩ := parseTokens_some h1
  obtain ⟨a, b, h8, h9, h10⟩ := parse_tops hs hev
  exact ⟨cs, a, b, rfl, by rw [← tops_shapeL, h6, h8], h9, h10⟩

/-- The table is about almost all kinds of nodes, for instance these. -/
example : (K.AskQuery, [K.ASK]) ∈ nodeStarts ∧ (K.PrefixDecl, [K.PREFIX]) ∈ nodeStarts ∧ 60 ≤ nodeStarts.length := by
  decide +kernel

/-! ### Consequences -/

/-- The symbols occurring in a rule. -/
def symbols : Rule → List Sym
  | .node k => [.node k]
  | .tok k => [.tok k]
  | .seq a b => symbols a ++ symbols b
  | .alt a b => symbols a ++ symbols b
  | .opt r => symbols r
  | .rep r => symbols r

theorem word_symbols {r w} (h : Word r w) : ∀ s ∈ w, s ∈ symbols r := by
  induction h with
  | tok k => intro s hs; exact hs
  | node k => intro s hs; exact hs
  | seq _ _ iha ihb =>
    intro s hs; simp only [List.mem_append, symbols] at hs ⊢; exact hs.imp (iha s) (ihb s)
  | altL _ ih => intro s hs; simp only [List.mem_append, symbols]; exact Or.inl (ih s hs)
  | altR _ ih => intro s hs; simp only [List.mem_append, symbols]; exact Or.inr (ih s hs)
  | optNone r => intro s hs; simp at hs
  | optSome _ ih => exact ih
  | repNil r => intro s hs; simp at hs
  | repCons _ _ ih ihs =>
    intro s hs
    simp only [List.mem_append] at hs
    rcases hs with hs | hs
    · exact ih s hs
    · exact ihs s hs

/-- **C46 (parents).** A child of a node is trivia, an error node, or a symbol of the rule of the node's kind; the
children of error nodes are tokens. -/
theorem c46_children (e : Entry) (text : Text) (tokens : List Tok) (hL : Lexed text tokens) (g errs)
    (h : parseText e tokens = some (g, errs)) (k : Kind) (cs : List Green) (hn : .node k cs ∈ g.nodes) (c : Green)
    (hc : c ∈ cs) :
    if k = K.Error then c.isTok = true
    else c.sym = none ∨ ∃ r s, sparqlRules k = some r ∧ c.sym = some s ∧ s ∈ symbols r := by
  have := c46_follows e text tokens hL g errs h _ hn
  simp only [Follows] at this
  split
  · next hk => rw [if_pos hk] at this; exact this c hc
  · next hk =>
    rw [if_neg hk] at this
    obtain ⟨r, hr, w, hw, hs⟩ := this
    cases hsym : c.sym with
    | none => exact Or.inl rfl
    | some s =>
      right
      refine ⟨r, s, hr, rfl, word_symbols hw s (hs.subset ?_)⟩
      rw [List.mem_filterMap]
      exact ⟨c, hc, hsym⟩

/-- The hypotheses hold for a text with a syntax error: `ASK { ?s ?p }`. -/
example : ∃ g errs, parseText .query (mk exBroken) = some (g, errs) ∧ errs ≠ [] := by
  have h : ((parseText .query (mk exBroken)).map (fun p => p.2.length)) = some 1 := by decide +kernel
  cases hp : parseText .query (mk exBroken) with
  | none => rw [hp] at h; cases h
  | some p =>
    rw [hp] at h
    simp only [Option.map_some, Option.some.injEq] at h
    refine ⟨p.1, p.2, rfl, ?_⟩
    intro h0; rw [h0] at h; simp at h

theorem word_seq_inv {a b : Rule} {w} (h : Word (.seq a b) w) : ∃ u v, w = u ++ v ∧ Word a u ∧ Word b v := by
  cases h with | seq da db => exact ⟨_, _, rfl, da, db⟩
theorem word_tok_inv {k} {w} (h : Word (.tok k) w) : w = [.tok k] := by cases h; rfl
theorem word_node_inv {k} {w} (h : Word (.node k) w) : w = [.node k] := by cases h; rfl

/-- `BIND (1 AS )` follows the grammar with the variable missing; the order of the parts cannot be changed. -/
example : Follows sparqlRules (.node K.Bind [.tok K.BIND ['B'], .tok K.LParen ['('], .node K.Expression [],
      .node K.Error [.tok K.Dot ['.']], .tok K.RParen [')']]) ∧
    ¬ Follows sparqlRules (.node K.Bind [.node K.Var [], .tok K.AS ['A']]) := by
  have hr : sparqlRules K.Bind = some (.seq (.tok K.BIND) (.seq (.tok K.LParen) (.seq (.node K.Expression)
      (.seq (.tok K.AS) (.seq (.node K.Var) (.tok K.RParen)))))) := by decide +kernel
  have hk : K.Bind ≠ K.Error := by decide
  constructor
  · simp only [Follows, hk, if_false]
    refine ⟨_, hr, _, .seq (.tok _) (.seq (.tok _) (.seq (.node _) (.seq (.tok _) (.seq (.node _) (.tok _))))), ?_⟩
    decide
  · simp only [Follows, hk, if_false]
    rintro ⟨r, hr', w, hw, hs⟩
    rw [hr] at hr'
    cases hr'
    obtain ⟨_, _, rfl, h1, hw⟩ := word_seq_inv hw
    obtain ⟨_, _, rfl, h2, hw⟩ := word_seq_inv hw
    obtain ⟨_, _, rfl, h3, hw⟩ := word_seq_inv hw
    obtain ⟨_, _, rfl, h4, hw⟩ := word_seq_inv hw
    obtain ⟨_, _, rfl, h5, hw⟩ := word_seq_inv hw
    rw [word_tok_inv h1, word_tok_inv h2, word_node_inv h3, word_tok_inv h4, word_node_inv h5, word_tok_inv hw] at hs
    revert hs
    decide

/-! ## C49: valid documents -/

/-- **C49.** In the tree of a valid document every node is complete: its children, trivia aside, are a right-hand side of
its kind from which nothing is missing but nodes that derive the empty text; and there are no error nodes. -/
theorem c49_complete (e : Entry) (text : Text) (tokens : List Tok) (hL : Lexed text tokens)
    (hd : Derives sparqlRules (.node e.kind) (kinds tokens)) (g errs) (h : parseText e tokens = some (g, errs)) :
    ∀ n ∈ g.nodes, Complete sparqlRules n := by
  have hE : sparqlRules K.Error = none := by decide +kernel
  obtain ⟨g', F, hp, hF, hsh⟩ := c41_valid_accepted e text tokens hL hd
  obtain ⟨F0, cs, h1, h2, hg, -, h5, h6, h7⟩ := parseText_some hL h
  have hgg : g' = g := by
    rw [h] at hp
    simp only [Option.some.injEq, Prod.mk.injEq] at hp
    exact hp.1.symm
  subst hgg
  subst hg
  simp only [Green.shape, Forest.node.injEq, and_true, true_and] at hsh
  obtain ⟨-, hw⟩ := hF.whole hE
  have hwk : kinds tokens = sigKinds (Green.leavesL cs) := by rw [h5, sigKinds_kinds]
  obtain ⟨hwhole, hconf⟩ := hw []
  rw [List.append_nil, hwk, ← hsh] at hwhole hconf
  intro m hm
  simp only [Green.nodes, List.mem_cons] at hm
  rcases hm with rfl | hm
  · refine ⟨by cases e <;> decide, _, unit_rule e, ?_⟩
    have := syms_shapeL cs [] h7
    rw [List.append_nil] at this
    rw [← this]; exact hwhole
  · exact complete_shapeL cs h7 hconf m hm

end Verif.Props
