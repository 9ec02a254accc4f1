import Verif.Format.EdgeData
import Verif.Format.Relex
import Verif.Format.Walker
import Verif.Grammar.Edges
/-!
# Which tokens meet in the nodes of a query
-/
namespace Verif.Format
open Verif Verif.Grammar Verif.Lexer Verif.Features Verif.Props

/-- `a` is a subset of `b`. -/
def subMask (a b : Nat) : Bool := a &&& b == a

theorem sub_mask {a b : Nat} (h : subMask a b = true) {i : Nat} (hi : a.testBit i = true) : b.testBit i = true := by
  unfold subMask at h
  rw [beq_iff_eq] at h
  rw [← h, Nat.testBit_and] at hi
  exact (Bool.and_eq_true_iff.1 hi).2

/-- A set of kinds. -/
def maskOf (l : List Kind) : Nat := l.foldl (fun m k => m ||| (1 <<< k)) 0

theorem maskOf_mem {l : List Kind} {k : Kind} (h : (maskOf l).testBit k = true) : k ∈ l := by
  unfold maskOf at h
  have key : ∀ (l : List Kind) (m : Nat), (l.foldl (fun m k => m ||| (1 <<< k)) m).testBit k = true → m.testBit k = true ∨ k ∈ l := by
    intro l
    induction l with
    | nil => intro m h; exact .inl h
    | cons x l ih =>
      intro m h
      rcases ih _ h with h | h
      · rw [Nat.testBit_or, Bool.or_eq_true] at h
        rcases h with h | h
        · exact .inl h
        · right
          rw [Nat.one_shiftLeft, Nat.testBit_two_pow] at h
          rw [of_decide_eq_true h]
          exact List.mem_cons_self
      · exact .inr (List.mem_cons_of_mem _ h)
  rcases key l 0 h with h | h
  · rw [Nat.zero_testBit] at h; cases h
  · exact h

/-! ## Pairs of tokens -/

/-- The kinds that can be written behind a token of kind `k`. -/
def okMask (k : Kind) : Nat := (((safeTable.zip okClasses).find? (fun p => p.1.1.contains k)).map (·.2)).getD okWord

/-- `m` contains only kinds whose tokens begin with characters in `cl`. -/
def okClass (cl : Class) (m : Nat) : Bool := lexRules.all (fun r => !m.testBit r.kind || subClass (firsts r.re) cl)

theorem ok_classes : (safeTable.zip okClasses).all (fun p => okClass p.1.2 p.2) = true := by decide +kernel
theorem ok_word : okClass wordSafe okWord = true := by decide +kernel
theorem ok_length : okClasses.length = safeTable.length := by decide

theorem ok_pair {k k' : Kind} (h : (okMask k).testBit k' = true) : pairOk k k' = true := by
  have key : ∀ cl m, okClass cl m = true → m.testBit k' = true → safeOf k = cl → pairOk k k' = true := by
    intro cl m h1 h2 h3
    unfold pairOk
    rw [List.all_eq_true]
    intro r hr
    have := List.all_eq_true.1 h1 r hr
    rw [Bool.or_eq_true] at this ⊢
    by_cases hk : r.kind = k'
    · right
      rw [hk, h2] at this
      rw [h3]
      simpa using this
    · left; simpa using hk
  unfold okMask at h
  have hz : (safeTable.zip okClasses).map Prod.fst = safeTable := by
    rw [List.map_fst_zip (by rw [ok_length])]
  cases hf : (safeTable.zip okClasses).find? (fun p => p.1.1.contains k) with
  | none =>
    rw [hf] at h
    refine key wordSafe okWord ok_word h ?_
    unfold safeOf
    have : safeTable.find? (fun p => p.1.contains k) = none := by
      rw [← hz, List.find?_map]
      have e : ((fun p : List Kind × Class => p.1.contains k) ∘ Prod.fst) = (fun p : (List Kind × Class) × Nat => p.1.1.contains k) := rfl
      rw [e, hf]; rfl
    rw [this]; rfl
  | some p =>
    rw [hf] at h
    refine key p.1.2 p.2 (List.all_eq_true.1 ok_classes p (List.mem_of_find?_eq_some hf)) h ?_
    unfold safeOf
    have : safeTable.find? (fun p => p.1.contains k) = some p.1 := by
      rw [← hz, List.find?_map]
      have e : ((fun p : List Kind × Class => p.1.contains k) ∘ Prod.fst) = (fun p : (List Kind × Class) × Nat => p.1.1.contains k) := rfl
      rw [e, hf]; rfl
    rw [this]; rfl

/-- Tokens that end like a word, a number or a string. -/
def wordEnds : List Kind :=
  [K.PNAME_NS, K.PNAME_LN, K.a, K.VAR1, K.VAR2, K.LANG_DIR, K.INTEGER, K.DECIMAL, K.DOUBLE, K.True, K.False, K.UNDEF,
   K.BLANK_NODE_LABEL, K.GRAPH, K.NOT, K.Plus, K.Minus, K.STRING_LITERAL1, K.STRING_LITERAL2] ++ signed
/-- Tokens that begin like a word, a number or a string. -/
def wordStarts : List Kind :=
  [K.PNAME_NS, K.PNAME_LN, K.INTEGER, K.DECIMAL, K.DOUBLE, K.True, K.False, K.BLANK_NODE_LABEL, K.UNDEF, K.a, K.EXISTS,
   K.STRING_LITERAL1, K.STRING_LITERAL2, K.STRING_LITERAL_LONG1, K.STRING_LITERAL_LONG2] ++ signed

/-- The kinds that can follow a token of kind `k`, because they may be written next to it or because they cannot occur there at all. -/
def tokMask (k : Kind) : Nat :=
  okMask k ||| (if k = K.LParen then maskOf [K.RParen, K.RParenDoubleMore] else 0) ||| (if k = K.LBrack then maskOf [K.RBrack] else 0)

theorem tok_mask {k k' : Kind} (h : (tokMask k).testBit k' = true) : pairOk k k' = true ∨ closes2 k k' := by
  unfold tokMask at h
  rw [Nat.testBit_or, Nat.testBit_or, Bool.or_eq_true, Bool.or_eq_true] at h
  rcases h with (h | h) | h
  · exact .inl (ok_pair h)
  · right
    split at h
    · next hk =>
      have := maskOf_mem h
      simp only [List.mem_cons, List.not_mem_nil, or_false] at this
      exact .inl ⟨hk, this⟩
    · rw [Nat.zero_testBit] at h; cases h
  · right
    split at h
    · next hk => exact .inr ⟨hk, List.mem_singleton.1 (maskOf_mem h)⟩
    · rw [Nat.zero_testBit] at h; cases h

/-- The same, if words do not run into each other. -/
def runMask (k : Kind) : Nat := tokMask k ||| (if wordEnds.contains k then maskOf wordStarts else 0)

theorem run_mask {k k' : Kind} (h : (runMask k).testBit k' = true) : (pairOk k k' = true ∨ closes2 k k') ∨ (k ∈ wordEnds ∧ k' ∈ wordStarts) := by
  unfold runMask at h
  rw [Nat.testBit_or, Bool.or_eq_true] at h
  rcases h with h | h
  · exact .inl (tok_mask h)
  · right
    split at h
    · next hk => exact ⟨List.contains_iff_mem.1 hk, maskOf_mem h⟩
    · rw [Nat.zero_testBit] at h; cases h

/-! ## Nodes -/

/-- The tokens a symbol can begin with. -/
def symFirst : Sym → Nat
  | .tok k => 1 <<< k
  | .node k => (firstTree.find k).getD 0

/-- What may be written behind a symbol. -/
def symBehind : Sym → Nat
  | .tok k => tokMask k
  | .node k => (behindTree.find k).getD 0

def symBehind2 : Sym → Nat
  | .tok k => runMask k
  | .node k => (behindTree2.find k).getD 0

theorem null_table : sparqlRulesTree.toList.all (fun p => !nullRule nullNodes p.2 || nullNodes.contains p.1) = true := by decide +kernel
theorem first_table : sparqlRulesTree.toList.all (fun p => (headSyms nullNodes p.2).all (fun s => subMask (symFirst s) (symFirst (.node p.1)))) = true := by
  decide +kernel
theorem behind_table : sparqlRulesTree.toList.all (fun p => (tailSyms nullNodes p.2).all (fun s => subMask (symBehind (.node p.1)) (symBehind s))) = true := by
  decide +kernel
theorem behind2_table : sparqlRulesTree.toList.all (fun p => (tailSyms nullNodes p.2).all (fun s => subMask (symBehind2 (.node p.1)) (symBehind2 s))) = true := by
  decide +kernel

/-- All symbols of a rule. -/
def allSyms (f : Sym → Bool) : Rule → Bool
  | .tok k => f (.tok k)
  | .node k => f (.node k)
  | .seq a b => allSyms f a && allSyms f b
  | .alt a b => allSyms f a && allSyms f b
  | .opt r => allSyms f r
  | .rep r => allSyms f r

/-- Symbols of queries. -/
def querySym : Sym → Bool
  | .tok k => !updateKinds.contains k && k != K.Error
  | .node k => queryNodes.testBit k

theorem query_table : sparqlRulesTree.toList.all (fun p => !queryNodes.testBit p.1 || allSyms querySym p.2) = true := by decide +kernel

/-! ## Pairs of symbols -/

/-- The nodes (with separator `Unknown`) whose white space is kept. -/
def plainKinds : List Kind :=
  [K.Collection, K.CollectionPath, K.ExprTripleTerm, K.NotExistsFunc, K.GraphGraphPattern, K.ReifiedTriple, K.TripleTerm, K.InlineDataFull,
   K.TripleTermData, K.UnaryExpression]

/-- Pairs between which the rules for single nodes put white space. -/
def spacedPair (k : Kind) (s s' : Sym) : Bool :=
  [Sym.node K.DatasetClause, .node K.WhereClause, .node K.SolutionModifier, .node K.TriplesTemplate, .node K.ConstructTriples].contains s' ||
  (k == K.TriplesBlock || k == K.GroupGraphPatternSub) && (s == .tok K.Dot) && (s' == .node K.TriplesBlock) ||
  k == K.GroupGraphPatternSub && (s == .node K.TriplesBlock) && (s' == .node K.GraphPatternNotTriples) ||
  (k == K.TriplesTemplate || k == K.ConstructTriples || k == K.TriplesBlock) && (s' == .tok K.Dot) ||
  k == K.PropertyListPathNotEmpty && (s' == .node K.ObjectListPath) || k == K.PropertyListNotEmpty && (s' == .node K.ObjectList) ||
  k == K.BlankNodePropertyListPath && (s' == .node K.PropertyListPathNotEmpty) || k == K.BlankNodePropertyList && (s' == .node K.PropertyListNotEmpty) ||
  k == K.ConstructQuery && (s == .tok K.CONSTRUCT) ||
  k == K.Bind && (s' == .tok K.AS) || k == K.GroupCondition && (s == .node K.Expression) && (s' == .tok K.AS) ||
  k == K.SelectClause && (s == .node K.Expression && s' == .tok K.AS || s == .tok K.SELECT && (s' == .tok K.DISTINCT || s' == .tok K.REDUCED)) ||
  k == K.DescribeQuery && (s' == .node K.VarOrIri) || k == K.Aggregate && (s == .tok K.DISTINCT)

/-- Pairs between which the formatter removes white space although it is needed. -/
def gluedPair (k : Kind) (s s' : Sym) : Bool :=
  k == K.ArgList && (s == .tok K.DISTINCT) && (s' == .node K.Expression) ||
  k == K.ConstructQuery && (s == .node K.DatasetClause) && (s' == .tok K.WHERE) ||
  k == K.SubSelect && (s == .node K.SolutionModifier) && (s' == .node K.ValuesClause)

/-- The pair `s`, `s'` in a node of kind `k` can be formatted. -/
def pairFine (k : Kind) (s s' : Sym) : Bool :=
  separator k == .lineBreak || separator k == .space || spacedPair k s s' || gluedPair k s s' ||
  subMask (symFirst s') (symBehind s) || plainKinds.contains k && subMask (symFirst s') (symBehind2 s)

theorem pair_table : sparqlRulesTree.toList.all (fun p => !queryNodes.testBit p.1 || nexts nullNodes (pairFine p.1) p.2) = true := by decide +kernel

end Verif.Format
