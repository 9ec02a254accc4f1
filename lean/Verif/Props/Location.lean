import Verif.Features.Location
import Verif.Props.PrefixContinuations
/-!
# What kind of completion is asked for (C69)
-/
namespace Verif.Props
open Verif Verif.Grammar Verif.Lexer Verif.Features Verif.Format

/-! ## Where symbols of some kinds stand -/

/-- A rule that mentions one of the first kinds belongs to one of them or to one of the second kinds; and the first are no documents. -/
def climbs (S stop : List Kind) : Bool :=
  sparqlRulesTree.toList.all (fun p => S.contains p.1 || stop.contains p.1 || allSyms (fun s => !S.contains s.kind) p.2) &&
    !S.contains K.QueryUnit && !S.contains K.UpdateUnit

/-- The kinds that stand in triples and brackets only. -/
def inTriples : List Kind :=
  [K.VerbSimple, K.PathOneInPropertySet, K.ReifiedTripleBlockPath, K.AnnotationPath, K.AnnotationBlockPath, K.PropertyListPathNotEmpty,
    K.PropertyListPath, K.VerbPath, K.ObjectListPath, K.Path, K.ObjectPath, K.PathAlternative, K.PathSequence, K.PathEltOrInverse, K.PathElt,
    K.PathPrimary, K.PathNegatedPropertySet]

theorem climbs_triples : climbs inTriples (K.TriplesSameSubjectPath :: bracketKinds) = true := by decide +kernel

theorem climbs_values : climbs [K.DataBlockValue, K.InlineDataOneVar, K.InlineDataFull, K.DataBlock] [K.InlineData, K.ValuesClause] = true := by
  decide +kernel

theorem verb_in : ∀ k ∈ verbKinds, k ∈ inTriples := by decide

/-- The kinds that stand in triples of any sort and brackets only. -/
def inAnyTriples : List Kind :=
  [K.ReifiedTripleBlock, K.ReifiedTripleBlockPath, K.AnnotationPath, K.AnnotationBlockPath, K.Annotation, K.AnnotationBlock,
    K.PropertyListNotEmpty, K.PropertyList, K.ObjectList, K.Object, K.PropertyListPathNotEmpty, K.PropertyListPath, K.ObjectListPath, K.ObjectPath]

theorem climbs_objects : climbs inAnyTriples (K.TriplesSameSubject :: K.TriplesSameSubjectPath :: bracketKinds) = true := by decide +kernel

theorem object_in : ∀ k ∈ objectKinds, k ∈ inAnyTriples := by decide

section
variable {text : Text} {g : Green} (P : Parsed text g) {S stop : List Kind} (hcl : climbs S stop = true)
include hcl

omit P in
theorem climbs_rule {k : Kind} {R : Rule} (hR : sparqlRules k = some R) {l : List Sym} (hW : Whole sparqlRules R l) {s : Sym} (hs : s ∈ l)
    (h : s.kind ∈ S) : k ∈ S ∨ k ∈ stop := by
  unfold climbs at hcl
  simp only [Bool.and_eq_true] at hcl
  have := List.all_eq_true.1 hcl.1.1 _ (sparqlRulesTree.find_mem k R hR)
  simp only [Bool.or_eq_true] at this
  rcases this with (h1 | h1) | h1
  · exact Or.inl (List.contains_iff_mem.1 h1)
  · exact Or.inr (List.contains_iff_mem.1 h1)
  · have := allSyms_sound hW h1 s hs
    have hc := List.contains_iff_mem.2 h
    rw [hc] at this; cases this

include P

theorem climb_up {off : Nat} : ∀ x : Red, InTree g x → x.isNode = true → x.start < off → x.kind ∈ S → (∀ q ∈ Red.chain x.up, Sound q off) →
    ∃ r ∈ Red.chain x.up, r.kind ∈ stop := by
  intro x hx
  induction hx with
  | root =>
    intro _ _ hk _
    exfalso
    obtain ⟨e, cs, a, b, hg, -⟩ := P.top
    have hkk : (Red.root g).kind = e.kind := by rw [hg]; rfl
    rw [hkk] at hk
    have := List.contains_iff_mem.2 hk
    unfold climbs at hcl
    simp only [Bool.and_eq_true, Bool.not_eq_true'] at hcl
    cases e with
    | query => rw [show Entry.kind .query = K.QueryUnit from rfl, hcl.1.2] at this; cases this
    | update => rw [show Entry.kind .update = K.UpdateUnit from rfl, hcl.2] at this; cases this
  | @child r c hr hc ih =>
    intro hn hlt hk hs
    rw [parent_chain (child_parent hc)] at hs ⊢
    have hS := hs r List.mem_cons_self
    obtain ⟨R, l, hR, hW⟩ := hS.rule
    have hnE := hS.fine c hc hlt
    have hsym : c.green.sym = some (.node c.kind) := by
      have hg : c.green = c.here.green := rfl
      unfold Red.isNode at hn
      unfold Red.kind at hnE ⊢
      rw [hg]
      cases h : c.here.green with
      | tok k w => rw [h] at hn; cases hn
      | node k cs => rw [h] at hnE; rw [Green.sym, if_neg (show ¬k = K.Error from hnE)]; rfl
    have hmem : Sym.node c.kind ∈ done r off ++ l := by
      refine List.mem_append_left _ (List.mem_filterMap.2 ⟨c, List.mem_filter.2 ⟨hc, by simpa using hlt⟩, hsym⟩)
    rcases climbs_rule hcl hR hW hmem hk with h | h
    · obtain ⟨q, h1, h2⟩ := ih (child_isNode hc) (Nat.lt_of_le_of_lt (child_within hc).1 hlt) h (fun q hq => hs q (List.mem_cons_of_mem _ hq))
      exact ⟨q, List.mem_cons_of_mem _ h1, h2⟩
    · exact ⟨r, List.mem_cons_self, h⟩

/-- A node around a token with one of the first kinds has one of the second kinds around it. -/
theorem climb_around {t : Red} (ht : InTree g t) (hpos : t.start < t.stop) (hs : ∀ q ∈ Red.chain t.up, Sound q t.stop) {q : Red}
    (hq : q ∈ Red.chain t.up) (hk : q.kind ∈ S) : ∃ r ∈ Red.chain t.up, r.kind ∈ stop := by
  obtain ⟨hqT, hqn⟩ := ht.chain q hq
  have hw := ht.anc_within q (List.mem_cons_of_mem _ hq)
  obtain ⟨pre, hpre⟩ := Features.chain_suffix hq
  have hsub : ∀ r ∈ Red.chain q.up, r ∈ Red.chain t.up := fun r hr => by
    rw [hpre]; exact List.mem_append_right _ (List.mem_cons_of_mem _ hr)
  obtain ⟨r, h1, h2⟩ := climb_up P hcl q hqT hqn (Nat.lt_of_le_of_lt hw.1 hpos) hk (fun r hr => hs r (hsub r hr))
  exact ⟨r, hsub r h1, h2⟩

/-- Where one of the first kinds can follow one of the second kinds is around. -/
theorem climb_follow {t : Red} (ht : InTree g t) (hpos : t.start < t.stop) (hs : ∀ q ∈ Red.chain t.up, Sound q t.stop) {k : Kind}
    (hf : CanFollow (Red.chain t.up) t.stop k) (hk : k ∈ S) : ∃ r ∈ Red.chain t.up, r.kind ∈ stop := by
  obtain ⟨A, q, B, h1, -, R, s, l, h2, h3, h4⟩ := hf
  have hq : q ∈ Red.chain t.up := by rw [h1]; simp
  rcases climbs_rule hcl h2 h4 (s := s) (by simp) (by rw [h3]; exact hk) with h | h
  · exact climb_around P hcl ht hpos hs hq h
  · exact ⟨q, hq, h⟩

end

/-! ## The location -/

theorem anyOf_iff {kinds ks : List Kind} : anyOf kinds ks = true ↔ ∃ k ∈ kinds, k ∈ ks := by
  unfold anyOf
  simp only [List.any_eq_true, List.contains_iff_mem]

theorem anyOf_not {kinds ks : List Kind} : ¬anyOf kinds ks = true ↔ ∀ k ∈ kinds, k ∉ ks := by
  rw [anyOf_iff]
  constructor
  · intro h k h1 h2; exact h ⟨k, h1, h2⟩
  · rintro h ⟨k, h1, h2⟩; exact h k h1 h2

theorem innermost_some {a q : Red} {kinds : List Kind} (h : innermost a kinds = some q) :
    ∃ A B, Red.chain a.up = A ++ q :: B ∧ q.kind ∈ kinds ∧ ∀ x ∈ A, x.kind ∉ kinds := by
  unfold innermost at h
  obtain ⟨h1, A, B, h2, h3⟩ := List.find?_eq_some_iff_append.1 h
  refine ⟨A, B, h2, List.contains_iff_mem.1 h1, fun x hx hk => ?_⟩
  have := h3 x hx
  rw [List.contains_iff_mem.2 hk] at this
  cases this

theorem innermost_none {a : Red} {kinds : List Kind} (h : innermost a kinds = none) : ∀ q ∈ Red.chain a.up, q.kind ∉ kinds := by
  unfold innermost at h
  intro q hq hk
  exact List.find?_eq_none.1 h q hq (List.contains_iff_mem.2 hk)

theorem childOf_mem {a : Red} {k : Kind} (h : childOf a k = true) : ∃ q ∈ Red.chain a.up, q.kind = k := by
  unfold childOf at h
  cases hp : a.parent with
  | none => rw [hp] at h; cases h
  | some p =>
    rw [hp] at h
    refine ⟨p, ?_, by simpa using h⟩
    rw [parent_chain hp]; exact List.mem_cons_self

/-- How the location comes about, case by case. -/
inductive View (a : Red) (ks : List Kind) (off : Nat) : Location → Prop
  | start (h : a.kind = K.WHITESPACE) : View a ks off .start
  | blankProperty (b) (hv : anyOf verbKinds ks = true ∨ (K.iri ∈ ks ∧ childOf a K.PathOneInPropertySet = true))
      (h : innermost a bracketKinds = some b) : View a ks off (.blankProperty b)
  | predicate (t) (hv : anyOf verbKinds ks = true ∨ (K.iri ∈ ks ∧ childOf a K.PathOneInPropertySet = true))
      (h : innermost a bracketKinds = none) (h' : innermost a [K.TriplesSameSubjectPath] = some t) : View a ks off (.predicate t)
  | noVerb (hv : anyOf verbKinds ks = true ∨ (K.iri ∈ ks ∧ childOf a K.PathOneInPropertySet = true))
      (h : innermost a bracketKinds = none) (h' : innermost a [K.TriplesSameSubjectPath] = none) : View a ks off .unknown
  | subject (hv : ¬anyOf verbKinds ks = true) (h : anyOf subjectKinds ks = true) : View a ks off .subject
  | blankObject (b) (hv : ¬anyOf verbKinds ks = true) (hs : ¬anyOf subjectKinds ks = true) (ho : anyOf objectKinds ks = true)
      (h : innermost a bracketKinds = some b) : View a ks off (.blankObject b)
  | object (t) (hv : ¬anyOf verbKinds ks = true) (hs : ¬anyOf subjectKinds ks = true) (ho : anyOf objectKinds ks = true)
      (h : innermost a bracketKinds = none) (h' : innermost a [K.TriplesSameSubjectPath] = some t) : View a ks off (.object t)
  | noObject (hv : ¬anyOf verbKinds ks = true) (hs : ¬anyOf subjectKinds ks = true) (ho : anyOf objectKinds ks = true)
      (h : innermost a bracketKinds = none) (h' : innermost a [K.TriplesSameSubjectPath] = none) : View a ks off .unknown
  | other (loc) (hv : ¬anyOf verbKinds ks = true) (hs : ¬anyOf subjectKinds ks = true) (ho : ¬anyOf objectKinds ks = true)
      (h : (loc = .modifier ∧ anyOf modifierKinds ks = true) ∨
        (loc = .graph ∧ (K.VarOrIri ∈ ks ∨ anyOf [K.DefaultGraphClause, K.SourceSelector] ks = true)) ∨
        (loc = .service ∧ K.VarOrIri ∈ ks) ∨
        (∃ c, loc = .selectBinding c ∧ innermost a [K.SelectClause] = some c ∧ (K.Var ∈ ks ∨ K.Expression ∈ ks)) ∨
        (∃ c, loc = .groupCondition c ∧ innermost a [K.GroupClause] = some c ∧ anyOf [K.GroupCondition, K.Expression] ks = true) ∨
        (loc = .orderCondition ∧ (K.OrderCondition ∈ ks ∨ K.BrackettedExpression ∈ ks)) ∨
        (∃ d, loc = .inlineData d (slotIndex d off) ∧ innermost a [K.InlineData] = some d ∧ K.DataBlockValue ∈ ks) ∨
        (loc = .builtIn ∧ anyOf [K.Constraint, K.Expression, K.GroupCondition] ks = true)) : View a ks off loc
  | noData (hv : ¬anyOf verbKinds ks = true) (hs : ¬anyOf subjectKinds ks = true) (ho : ¬anyOf objectKinds ks = true)
      (hd : K.DataBlockValue ∈ ks) (h : innermost a [K.InlineData] = none) : View a ks off .unknown
  | nothing (hv : ¬anyOf verbKinds ks = true) (hs : ¬anyOf subjectKinds ks = true) (ho : ¬anyOf objectKinds ks = true)
      (h : ∀ k ∈ modifierKinds ++ [K.DefaultGraphClause, K.SourceSelector, K.OrderCondition, K.DataBlockValue, K.Constraint, K.Expression,
        K.GroupCondition], k ∉ ks) : View a ks off .unknown

theorem anyOf_one {k : Kind} {ks : List Kind} : anyOf [k] ks = true ↔ k ∈ ks := by
  rw [anyOf_iff]; simp

theorem view (a : Red) (ks : List Kind) (off : Nat) : View a ks off (getLocation (some a) ks off) := by
  unfold getLocation
  dsimp only
  by_cases h0 : (a.kind == K.WHITESPACE && a.start == 0) = true
  · rw [if_pos h0]
    simp only [Bool.and_eq_true, beq_iff_eq] at h0
    exact .start h0.1
  rw [if_neg h0]
  by_cases h1 : (anyOf verbKinds ks || (anyOf [K.iri] ks && childOf a K.PathOneInPropertySet)) = true
  · rw [if_pos h1]
    rw [Bool.or_eq_true, Bool.and_eq_true, anyOf_one] at h1
    cases hb : innermost a bracketKinds with
    | some b => exact .blankProperty b h1 hb
    | none =>
      cases ht : innermost a [K.TriplesSameSubjectPath] with
      | some t => exact .predicate t h1 hb ht
      | none => exact .noVerb h1 hb ht
  rw [if_neg h1]
  have hv : ¬anyOf verbKinds ks = true := fun h => h1 (by rw [h]; rfl)
  clear h1 h0
  by_cases h2 : anyOf subjectKinds ks = true
  · rw [if_pos h2]; exact .subject hv h2
  rw [if_neg h2]
  by_cases h3 : anyOf objectKinds ks = true
  · rw [if_pos h3]
    cases hb : innermost a bracketKinds with
    | some b => exact .blankObject b hv h2 h3 hb
    | none =>
      cases ht : innermost a [K.TriplesSameSubjectPath] with
      | some t => exact .object t hv h2 h3 hb ht
      | none => exact .noObject hv h2 h3 hb ht
  rw [if_neg h3]
  by_cases h4 : anyOf modifierKinds ks = true
  · rw [if_pos h4]; exact .other _ hv h2 h3 (Or.inl ⟨rfl, h4⟩)
  rw [if_neg h4]
  by_cases h5 : ((anyOf [K.VarOrIri] ks && childOf a K.GraphGraphPattern) || anyOf [K.DefaultGraphClause, K.SourceSelector] ks) = true
  · rw [if_pos h5]
    rw [Bool.or_eq_true, Bool.and_eq_true, anyOf_one] at h5
    exact .other _ hv h2 h3 (Or.inr (Or.inl ⟨rfl, h5.imp And.left id⟩))
  rw [if_neg h5]
  have hG : ¬anyOf [K.DefaultGraphClause, K.SourceSelector] ks = true := fun h => h5 (by rw [h, Bool.or_true])
  clear h5
  by_cases h6 : (anyOf [K.VarOrIri] ks && childOf a K.ServiceGraphPattern) = true
  · rw [if_pos h6]
    rw [Bool.and_eq_true, anyOf_one] at h6
    exact .other _ hv h2 h3 (Or.inr (Or.inr (Or.inl ⟨rfl, h6.1⟩)))
  rw [if_neg h6]
  clear h6
  by_cases h7 : ((anyOf [K.Var] ks && (innermost a [K.SelectClause]).isSome) || (anyOf [K.Expression] ks && childOf a K.SelectClause)) = true
  · rw [if_pos h7]
    rw [Bool.or_eq_true, Bool.and_eq_true, Bool.and_eq_true, anyOf_one, anyOf_one] at h7
    cases hc : innermost a [K.SelectClause] with
    | some c => exact .other _ hv h2 h3 (Or.inr (Or.inr (Or.inr (Or.inl ⟨c, rfl, hc, h7.imp And.left And.left⟩))))
    | none =>
      exfalso
      rcases h7 with h | h
      · rw [hc] at h; cases h.2
      · obtain ⟨q, hq1, hq2⟩ := childOf_mem h.2
        exact innermost_none hc q hq1 (by simp [hq2])
  rw [if_neg h7]
  clear h7
  have hgroup : (∃ c, (if anyOf [K.GroupCondition, K.Expression] ks then innermost a [K.GroupClause] else none) = some c ∧
      innermost a [K.GroupClause] = some c ∧ anyOf [K.GroupCondition, K.Expression] ks = true) ∨
      (if anyOf [K.GroupCondition, K.Expression] ks then innermost a [K.GroupClause] else none) = none := by
    by_cases h : anyOf [K.GroupCondition, K.Expression] ks = true
    · rw [if_pos h]
      cases hc : innermost a [K.GroupClause] with
      | some c => exact Or.inl ⟨c, rfl, rfl, h⟩
      | none => exact Or.inr rfl
    · rw [if_neg h]; exact Or.inr rfl
  rcases hgroup with ⟨c, hc, h8⟩ | hc
  · rw [hc]; exact .other _ hv h2 h3 (Or.inr (Or.inr (Or.inr (Or.inr (Or.inl ⟨c, rfl, h8⟩)))))
  rw [hc]
  dsimp only
  by_cases h9 : (anyOf [K.OrderCondition] ks || (anyOf [K.BrackettedExpression] ks && childOf a K.OrderCondition)) = true
  · rw [if_pos h9]
    rw [Bool.or_eq_true, Bool.and_eq_true, anyOf_one, anyOf_one] at h9
    exact .other _ hv h2 h3 (Or.inr (Or.inr (Or.inr (Or.inr (Or.inr (Or.inl ⟨rfl, h9.imp id And.left⟩))))))
  rw [if_neg h9]
  have hO : K.OrderCondition ∉ ks := fun h => h9 (by rw [anyOf_one.2 h]; rfl)
  clear h9
  by_cases h10 : anyOf [K.DataBlockValue] ks = true
  · rw [if_pos h10]
    have hD := anyOf_one.1 h10
    cases hd : innermost a [K.InlineData] with
    | some d => exact .other _ hv h2 h3 (Or.inr (Or.inr (Or.inr (Or.inr (Or.inr (Or.inr (Or.inl ⟨d, rfl, hd, hD⟩)))))))
    | none => exact .noData hv h2 h3 hD hd
  rw [if_neg h10]
  by_cases h11 : anyOf [K.Constraint, K.Expression, K.GroupCondition] ks = true
  · rw [if_pos h11]
    exact .other _ hv h2 h3 (Or.inr (Or.inr (Or.inr (Or.inr (Or.inr (Or.inr (Or.inr ⟨rfl, h11⟩)))))))
  rw [if_neg h11]
  refine .nothing hv h2 h3 fun k hk => ?_
  rw [anyOf_not] at h4 hG h10 h11
  simp only [List.mem_append, List.mem_cons, List.not_mem_nil, or_false] at hk
  rcases hk with hk | rfl | rfl | rfl | rfl | rfl | rfl | rfl
  · exact h4 k hk
  · exact hG _ (by simp)
  · exact hG _ (by simp)
  · exact hO
  · exact h10 _ (by simp)
  · exact h11 _ (by simp)
  · exact h11 _ (by simp)
  · exact h11 _ (by simp)

/-- C69. Any tree, any anchor, any kinds: the triple, the bracket, the clause that a location names is the innermost one around the anchor;
for a triple there is no bracket around the anchor. -/
theorem c69_around (a : Red) (ks : List Kind) (off : Nat) :
    (∀ x, getLocation (some a) ks off = .predicate x ∨ getLocation (some a) ks off = .object x →
      (∃ A B, Red.chain a.up = A ++ x :: B ∧ x.kind = K.TriplesSameSubjectPath ∧ ∀ y ∈ A, y.kind ≠ K.TriplesSameSubjectPath) ∧
      ∀ y ∈ Red.chain a.up, y.kind ∉ brackets) ∧
    (∀ x, getLocation (some a) ks off = .blankProperty x ∨ getLocation (some a) ks off = .blankObject x →
      ∃ A B, Red.chain a.up = A ++ x :: B ∧ x.kind ∈ brackets ∧ ∀ y ∈ A, y.kind ∉ brackets) ∧
    (∀ x, getLocation (some a) ks off = .selectBinding x →
      ∃ A B, Red.chain a.up = A ++ x :: B ∧ x.kind = K.SelectClause ∧ ∀ y ∈ A, y.kind ≠ K.SelectClause) ∧
    (∀ x, getLocation (some a) ks off = .groupCondition x →
      ∃ A B, Red.chain a.up = A ++ x :: B ∧ x.kind = K.GroupClause ∧ ∀ y ∈ A, y.kind ≠ K.GroupClause) ∧
    (∀ x i, getLocation (some a) ks off = .inlineData x i → i = slotIndex x off ∧
      ∃ A B, Red.chain a.up = A ++ x :: B ∧ x.kind = K.InlineData ∧ ∀ y ∈ A, y.kind ≠ K.InlineData) := by
  rw [show brackets = bracketKinds from by decide]
  have one : ∀ {x : Red} {k : Kind}, innermost a [k] = some x → ∃ A B, Red.chain a.up = A ++ x :: B ∧ x.kind = k ∧ ∀ y ∈ A, y.kind ≠ k := by
    intro x k h
    obtain ⟨A, B, h1, h2, h3⟩ := innermost_some h
    exact ⟨A, B, h1, List.mem_singleton.1 h2, fun y hy hk => h3 y hy (List.mem_singleton.2 hk)⟩
  have hview := view a ks off
  generalize getLocation (some a) ks off = loc at hview
  refine ⟨fun x h => ?_, fun x h => ?_, fun x h => ?_, fun x h => ?_, fun x i h => ?_⟩
  · cases hview with
    | predicate t hv hb ht =>
      rcases h with h | h
      · injection h with h; subst h; exact ⟨one ht, innermost_none hb⟩
      · cases h
    | object t hv hs ho hb ht =>
      rcases h with h | h
      · cases h
      · injection h with h; subst h; exact ⟨one ht, innermost_none hb⟩
    | other loc hv hs ho hd =>
      exfalso
      rcases hd with ⟨rfl, -⟩ | ⟨rfl, -⟩ | ⟨rfl, -⟩ | ⟨c, rfl, -⟩ | ⟨c, rfl, -⟩ | ⟨rfl, -⟩ | ⟨d, rfl, -⟩ | ⟨rfl, -⟩ <;> rcases h with h | h <;> cases h
    | _ => rcases h with h | h <;> cases h
  · cases hview with
    | blankProperty t hv hb =>
      rcases h with h | h
      · injection h with h; subst h; exact innermost_some hb
      · cases h
    | blankObject t hv hs ho hb =>
      rcases h with h | h
      · cases h
      · injection h with h; subst h; exact innermost_some hb
    | other loc hv hs ho hd =>
      exfalso
      rcases hd with ⟨rfl, -⟩ | ⟨rfl, -⟩ | ⟨rfl, -⟩ | ⟨c, rfl, -⟩ | ⟨c, rfl, -⟩ | ⟨rfl, -⟩ | ⟨d, rfl, -⟩ | ⟨rfl, -⟩ <;> rcases h with h | h <;> cases h
    | _ => rcases h with h | h <;> cases h
  · cases hview with
    | other loc hv hs ho hd =>
      rcases hd with ⟨rfl, -⟩ | ⟨rfl, -⟩ | ⟨rfl, -⟩ | ⟨c, rfl, hc, -⟩ | ⟨c, rfl, -⟩ | ⟨rfl, -⟩ | ⟨d, rfl, -⟩ | ⟨rfl, -⟩ <;>
        first | (injection h with h; subst h; exact one hc) | cases h
    | _ => cases h
  · cases hview with
    | other loc hv hs ho hd =>
      rcases hd with ⟨rfl, -⟩ | ⟨rfl, -⟩ | ⟨rfl, -⟩ | ⟨c, rfl, -⟩ | ⟨c, rfl, hc, -⟩ | ⟨rfl, -⟩ | ⟨d, rfl, -⟩ | ⟨rfl, -⟩ <;>
        first | (injection h with h; subst h; exact one hc) | cases h
    | _ => cases h
  · cases hview with
    | other loc hv hs ho hd =>
      rcases hd with ⟨rfl, -⟩ | ⟨rfl, -⟩ | ⟨rfl, -⟩ | ⟨c, rfl, -⟩ | ⟨c, rfl, -⟩ | ⟨rfl, -⟩ | ⟨d, rfl, hd, -⟩ | ⟨rfl, -⟩ <;>
        first | (injection h with h h'; subst h; exact ⟨h'.symm, one hd⟩) | cases h
    | _ => cases h

/-- The code's lists are those of the specification. -/
theorem code_lists : predicateSymbols = verbKinds ∧ subjectSymbols = subjectKinds ∧ objectSymbols = objectKinds ∧ modifierSymbols = modifierKinds :=
  ⟨by decide, by decide, by decide, by decide⟩

/-- What a location offers can follow. -/
theorem location_offers {a : Red} {ks : List Kind} {off : Nat} (hw : a.kind ≠ K.WHITESPACE) :
    getLocation (some a) ks off = .unknown ∨ ∃ k ∈ (getLocation (some a) ks off).offers, k ∈ ks := by
  have hview := view a ks off
  generalize getLocation (some a) ks off = loc at hview
  have hverb : (anyOf verbKinds ks = true ∨ (K.iri ∈ ks ∧ childOf a K.PathOneInPropertySet = true)) → ∃ k ∈ K.iri :: verbKinds, k ∈ ks := by
    rintro (h | h)
    · obtain ⟨k, h1, h2⟩ := anyOf_iff.1 h; exact ⟨k, List.mem_cons_of_mem _ h1, h2⟩
    · exact ⟨_, List.mem_cons_self, h.1⟩
  cases hview with
  | start h => exact absurd h hw
  | blankProperty b hv h => exact Or.inr (hverb hv)
  | predicate t hv h h' => exact Or.inr (hverb hv)
  | subject hv h => exact Or.inr (anyOf_iff.1 h)
  | blankObject b hv hs ho h => exact Or.inr (anyOf_iff.1 ho)
  | object b hv hs ho h => exact Or.inr (anyOf_iff.1 ho)
  | other loc hv hs ho h =>
    right
    rcases h with ⟨rfl, h⟩ | ⟨rfl, h⟩ | ⟨rfl, h⟩ | ⟨c, rfl, -, h⟩ | ⟨c, rfl, -, h⟩ | ⟨rfl, h⟩ | ⟨d, rfl, -, h⟩ | ⟨rfl, h⟩
    · exact anyOf_iff.1 h
    · rcases h with h | h
      · exact ⟨_, List.mem_cons_self, h⟩
      · obtain ⟨k, h1, h2⟩ := anyOf_iff.1 h; exact ⟨k, List.mem_cons_of_mem _ h1, h2⟩
    · exact ⟨_, List.mem_cons_self, h⟩
    · rcases h with h | h
      · exact ⟨_, List.mem_cons_self, h⟩
      · exact ⟨_, List.mem_cons_of_mem _ List.mem_cons_self, h⟩
    · exact anyOf_iff.1 h
    · rcases h with h | h
      · exact ⟨_, List.mem_cons_self, h⟩
      · exact ⟨_, List.mem_cons_of_mem _ List.mem_cons_self, h⟩
    · exact ⟨_, List.mem_cons_self, h⟩
    · exact anyOf_iff.1 h
  | _ => exact Or.inl rfl

/-- For a significant token the kinds are those that can follow behind it. -/
theorem conts_token {text : Text} {g : Green} (P : Parsed text g) {t : Red} (ht : t ∈ (Red.root g).tokens) (hs : triviaKind t.kind = false)
    {ks : List Kind} (h : Continues g t.stop (some ks)) : ∀ ks', Conts g (some t) ks' ↔ ks' = ks := by
  intro ks'
  obtain ⟨a, b, e⟩ := List.append_of_mem ht
  obtain ⟨-, h2⟩ := tokens_row (Red.root g)
  have hp := (row_pairwise h2 (root_texts P)).2
  rw [e, List.pairwise_append, List.pairwise_cons] at hp
  have hw : (a ++ t :: b).takeWhile (fun x => decide (x.start ≤ t.start)) = a ++ [t] := by
    rw [List.append_cons, List.takeWhile_append_of_pos (fun x hx => ?_)]
    · cases b with
      | nil => simp
      | cons y b =>
        have := hp.2.1.1 y List.mem_cons_self
        rw [List.takeWhile_cons_of_neg (by simp; omega)]; simp
    · rcases List.mem_append.1 hx with hx | hx
      · have := hp.2.2 x hx t List.mem_cons_self
        simp; omega
      · rw [List.mem_singleton.1 hx]; simp
  have hback : (backFrom g t).find? (fun t => !triviaKind t.kind) = some t := by
    unfold backFrom
    rw [e, hw, List.reverse_append]
    simp [hs]
  unfold Conts
  dsimp only
  rw [hback]
  constructor
  · rintro ⟨out, h3, h4⟩
    have := ends_unique h3 h
    rw [h4, this]; rfl
  · intro h3
    exact ⟨_, h, h3⟩

/-- C69. While a valid document is being typed, behind any token `t` of it: there is one result of the search for what can follow, and with it
(1) every location but `unknown` offers something that can come next and be completed to a valid document;
(2) the location is `unknown` only if nothing can follow that there are completions for, or in the triples of a template or an update
or in the value list behind a query;
(3) if in the finished document a predicate, a subject or an object comes next, completions for it, or for one of the former, are asked for:
for an object not in a template or an update. -/
theorem c69_typing {errLen errLen' : Text → Nat} {text text' : Text} {g g' errs errs'} (hp : parseSource errLen text = some (g, errs))
    (hp' : parseSource errLen' text' = some (g', errs')) (hk : g.kind = g'.kind)
    (hd : Derives sparqlRules (.node g'.kind) (kinds (lex errLen' text'))) (hpre : kinds (lex errLen text) <+: kinds (lex errLen' text'))
    {t : Red} (ht : t ∈ (Red.root g).tokens) (hs : triviaKind t.kind = false) (off : Nat) :
    ∃ ks, (∀ ks', Conts g (some t) ks' ↔ ks' = ks) ∧
      (getLocation (some t) ks off = .unknown ∨ ∃ k ∈ (getLocation (some t) ks off).offers, ∃ w v, w ≠ [] ∧
        Derives sparqlRules (if k < 184 then .tok k else .node k) w ∧
        Derives sparqlRules (.node g.kind) (sigKs ((Red.root g).tokens.filter (fun z => decide (z.start < t.stop))) ++ w ++ v)) ∧
      (getLocation (some t) ks off = .unknown →
        (∀ k ∈ predicateSymbols ++ subjectSymbols ++ objectSymbols ++ modifierSymbols ++ [K.DefaultGraphClause, K.SourceSelector, K.OrderCondition,
            K.DataBlockValue, K.Constraint, K.Expression, K.GroupCondition], ¬CanFollow (Red.chain t.up) t.stop k) ∨
          ((∃ q ∈ Red.chain t.up, q.kind = K.TriplesSameSubject) ∧ ∃ k ∈ objectSymbols, CanFollow (Red.chain t.up) t.stop k) ∨
          ((∃ q ∈ Red.chain t.up, q.kind = K.ValuesClause) ∧ CanFollow (Red.chain t.up) t.stop K.DataBlockValue)) ∧
      ∃ t' ∈ (Red.root g').tokens, triviaKind t'.kind = false ∧
        sigKs ((Red.root g').tokens.filter (fun z => decide (z.start < t'.stop))) = sigKs ((Red.root g).tokens.filter (fun z => decide (z.start < t.stop))) ∧
        ∀ u ∈ (Red.root g').tokens, triviaKind u.kind = false → t'.stop ≤ u.start →
          (∀ z ∈ (Red.root g').tokens, triviaKind z.kind = false → t'.stop ≤ z.start → u.start ≤ z.start) →
          ∃ e ∈ u.ancestors, e.start = u.start ∧ e.kind ∈ ks ∧
            (e.kind ∈ predicateSymbols → ∃ x, getLocation (some t) ks off = .predicate x ∨ getLocation (some t) ks off = .blankProperty x) ∧
            (e.kind ∈ subjectSymbols → getLocation (some t) ks off = .subject ∨
              ∃ x, getLocation (some t) ks off = .predicate x ∨ getLocation (some t) ks off = .blankProperty x) ∧
            (e.kind ∈ objectSymbols → (∃ q ∈ Red.chain t.up, q.kind = K.TriplesSameSubject) ∨ getLocation (some t) ks off = .subject ∨
              ∃ x, getLocation (some t) ks off = .predicate x ∨ getLocation (some t) ks off = .blankProperty x ∨
                getLocation (some t) ks off = .object x ∨ getLocation (some t) ks off = .blankObject x) := by
  have P := parsed_of hp
  obtain ⟨hin, htn, hpos⟩ := token_pos P ht
  obtain ⟨-, -, -, -, -, hsound⟩ := typing_sound hp hp' hk hd hpre ht hs
  obtain ⟨t', ht', hs', hb', ks, -, h1, -, -, h2, h3, h4⟩ := c68_typing hp hp' hk hd hpre ht hs
  have hw : t.kind ≠ K.WHITESPACE := by intro h; rw [h] at hs; cases hs
  -- where predicates can follow there is a triple or a bracket
  have hverb : (anyOf verbKinds ks = true ∨ (K.iri ∈ ks ∧ childOf t K.PathOneInPropertySet = true)) → innermost t bracketKinds = none →
      innermost t [K.TriplesSameSubjectPath] = none → False := by
    intro h hb ht
    have : ∃ r ∈ Red.chain t.up, r.kind ∈ K.TriplesSameSubjectPath :: bracketKinds := by
      rcases h with h | h
      · obtain ⟨k, h5, h6⟩ := anyOf_iff.1 h
        exact climb_follow P climbs_triples hin hpos hsound ((h2 k).1 h6) (verb_in k h5)
      · obtain ⟨q, h5, h6⟩ := childOf_mem h.2
        exact climb_around P climbs_triples hin hpos hsound h5 (by rw [h6]; decide)
    obtain ⟨r, h5, h6⟩ := this
    rcases List.mem_cons.1 h6 with h6 | h6
    · exact innermost_none ht r h5 (List.mem_singleton.2 h6)
    · exact innermost_none hb r h5 h6
  have hobj : anyOf objectKinds ks = true → innermost t bracketKinds = none → innermost t [K.TriplesSameSubjectPath] = none →
      ∃ q ∈ Red.chain t.up, q.kind = K.TriplesSameSubject := by
    intro h hb ht
    obtain ⟨k, h5, h6⟩ := anyOf_iff.1 h
    obtain ⟨r, h5, h6⟩ := climb_follow P climbs_objects hin hpos hsound ((h2 k).1 h6) (object_in k h5)
    rcases List.mem_cons.1 h6 with h6 | h6
    · exact ⟨r, h5, h6⟩
    rcases List.mem_cons.1 h6 with h6 | h6
    · exact absurd (List.mem_singleton.2 h6) (innermost_none ht r h5)
    · exact absurd h6 (innermost_none hb r h5)
  rw [code_lists.1, code_lists.2.1, code_lists.2.2.1, code_lists.2.2.2]
  have hview := view t ks off
  have hoff := location_offers (ks := ks) (off := off) hw
  refine ⟨ks, conts_token P ht hs h1, ?_, fun hun => ?_, t', ht', hs', hb', fun u hu huk htu hnext => ?_⟩
  · rcases hoff with h | ⟨k, h5, h6⟩
    · exact Or.inl h
    · exact Or.inr ⟨k, h5, h3 k h6⟩
  · rw [hun] at hview
    cases hview with
    | noVerb hv hb ht => exact absurd (hverb hv hb ht) id
    | noObject hv hs ho hb ht =>
      obtain ⟨k, h5, h6⟩ := anyOf_iff.1 ho
      exact Or.inr (Or.inl ⟨hobj ho hb ht, k, h5, (h2 k).1 h6⟩)
    | other _ hv hs ho h =>
      exfalso
      rcases h with ⟨h, -⟩ | ⟨h, -⟩ | ⟨h, -⟩ | ⟨c, h, -⟩ | ⟨c, h, -⟩ | ⟨h, -⟩ | ⟨d, h, -⟩ | ⟨h, -⟩ <;> cases h
    | noData hv hs ho hd h =>
      obtain ⟨r, h5, h6⟩ := climb_follow P climbs_values hin hpos hsound ((h2 _).1 hd) (by simp)
      rcases List.mem_cons.1 h6 with h6 | h6
      · exact absurd (List.mem_singleton.2 h6) (innermost_none h r h5)
      · exact Or.inr (Or.inr ⟨⟨r, h5, List.mem_singleton.1 h6⟩, (h2 _).1 hd⟩)
    | nothing hv hs ho h =>
      left
      intro k hk hf
      have hk' := (h2 k).2 hf
      rw [anyOf_not] at hv hs ho
      rw [List.append_assoc, List.mem_append, List.mem_append, List.mem_append] at hk
      rcases hk with ((hk | hk) | hk) | hk
      · exact hv k hk hk'
      · exact hs k hk hk'
      · exact ho k hk hk'
      · exact h k hk hk'
  · obtain ⟨e, h5, h6, h7⟩ := h4 u hu huk htu hnext
    refine ⟨e, h5, h6, h7, fun he => ?_, fun he => ?_, fun he => ?_⟩
    · have hv : anyOf verbKinds ks = true := anyOf_iff.2 ⟨_, he, h7⟩
      generalize getLocation (some t) ks off = loc at hview
      cases hview with
      | start h => exact absurd h hw
      | blankProperty b _ h => exact ⟨b, Or.inr rfl⟩
      | predicate b _ h => exact ⟨b, Or.inl rfl⟩
      | noVerb _ hb ht => exact absurd (hverb (Or.inl hv) hb ht) id
      | subject hn => exact absurd hv hn
      | blankObject _ hn => exact absurd hv hn
      | object _ hn => exact absurd hv hn
      | noObject hn => exact absurd hv hn
      | other _ hn => exact absurd hv hn
      | noData hn => exact absurd hv hn
      | nothing hn => exact absurd hv hn
    · have hv : anyOf subjectKinds ks = true := anyOf_iff.2 ⟨_, he, h7⟩
      generalize getLocation (some t) ks off = loc at hview
      cases hview with
      | start h => exact absurd h hw
      | blankProperty b _ h => exact Or.inr ⟨b, Or.inr rfl⟩
      | predicate b _ h => exact Or.inr ⟨b, Or.inl rfl⟩
      | noVerb hn hb ht => exact absurd (hverb hn hb ht) id
      | subject => exact Or.inl rfl
      | blankObject _ _ hn => exact absurd hv hn
      | object _ _ hn => exact absurd hv hn
      | noObject _ hn => exact absurd hv hn
      | other _ _ hn => exact absurd hv hn
      | noData _ hn => exact absurd hv hn
      | nothing _ hn => exact absurd hv hn
    · have hv : anyOf objectKinds ks = true := anyOf_iff.2 ⟨_, he, h7⟩
      generalize getLocation (some t) ks off = loc at hview
      cases hview with
      | start h => exact absurd h hw
      | blankProperty b _ h => exact Or.inr (Or.inr ⟨b, Or.inr (Or.inl rfl)⟩)
      | predicate b _ h => exact Or.inr (Or.inr ⟨b, Or.inl rfl⟩)
      | noVerb hn hb ht => exact absurd (hverb hn hb ht) id
      | subject => exact Or.inr (Or.inl rfl)
      | blankObject b => exact Or.inr (Or.inr ⟨b, Or.inr (Or.inr (Or.inr rfl))⟩)
      | object b => exact Or.inr (Or.inr ⟨b, Or.inr (Or.inr (Or.inl rfl))⟩)
      | noObject _ _ ho hb ht => exact Or.inl (hobj ho hb ht)
      | other _ _ _ hn => exact absurd hv hn
      | noData _ _ hn => exact absurd hv hn
      | nothing _ _ hn => exact absurd hv hn

/-! ## The slot of a value -/

theorem openRow_cons (k : Kind) (l : List Kind) : openRow (k :: l) =
    if K.LParen ∈ l then openRow l else if k = K.LParen then openRow l else openRow l + if k = K.DataBlockValue then 1 else 0 := by
  unfold openRow
  rw [List.reverse_cons]
  by_cases h : K.LParen ∈ l
  · rw [if_pos h, List.takeWhile_append, if_neg]
    intro hl
    have h1 := (List.takeWhile_prefix (fun k => k != K.LParen) (l := l.reverse)).eq_of_length hl
    have : K.LParen ∈ l.reverse.takeWhile (fun k => k != K.LParen) := by rw [h1]; simpa using h
    have hpos : ∀ (l : List Kind), ∀ x ∈ l.takeWhile (fun k => k != K.LParen), (x != K.LParen) = true := by
      intro l
      induction l with
      | nil => intro x hx; cases hx
      | cons y l ih =>
        intro x hx
        rw [List.takeWhile_cons] at hx
        split at hx
        · rcases List.mem_cons.1 hx with rfl | hx
          · assumption
          · exact ih x hx
        · cases hx
    have := hpos _ _ this
    simp at this
  · rw [if_neg h, List.takeWhile_append_of_pos (fun x hx => ?_)]
    · have hall : l.reverse.takeWhile (fun k => k != K.LParen) = l.reverse := by
        have := List.takeWhile_append_of_pos (p := fun k => k != K.LParen) (l₁ := l.reverse) (l₂ := []) (fun x hx => by
          simp only [bne_iff_ne]
          rintro rfl
          exact h (by simpa using hx))
        simpa using this
      rw [hall]
      by_cases hk : k = K.LParen
      · rw [if_pos hk, hk]; simp
      · rw [if_neg hk, List.takeWhile_cons_of_pos (by simpa using hk), List.count_append]
        simp [List.count_cons]
    · simp only [bne_iff_ne]
      rintro rfl
      exact h (by simpa using hx)

theorem slot_loop {off : Nat} : ∀ (l : List Red) (n : Nat), (∀ c ∈ l, c.start < off ∧ c.stop ≤ off) →
    slotLoop off l true n = if K.LParen ∈ l.map Red.kind then openRow (l.map Red.kind) else n + openRow (l.map Red.kind) := by
  intro l
  induction l with
  | nil => intro n _; rfl
  | cons c l ih =>
    intro n h
    obtain ⟨h1, h2⟩ := h c List.mem_cons_self
    have ih := fun n => ih n (fun x hx => h x (List.mem_cons_of_mem _ hx))
    rw [slotLoop, List.map_cons, openRow_cons]
    by_cases hc : c.kind = K.LCurly
    · have hp : c.kind ≠ K.LParen := by rw [hc]; decide
      have hd : c.kind ≠ K.DataBlockValue := by rw [hc]; decide
      rw [if_pos (by simpa using hc), ih, if_neg hp, if_neg hd]
      by_cases hl : K.LParen ∈ l.map Red.kind
      · rw [if_pos hl, if_pos hl, if_pos (List.mem_cons_of_mem _ hl)]
      · rw [if_neg hl, if_neg hl, if_neg (fun h => (List.mem_cons.1 h).elim (fun h => hp h.symm) hl)]; omega
    · rw [if_neg (by simpa using hc), if_neg (by simp)]
      dsimp only
      rw [if_neg (Nat.not_le.2 h1), ih]
      by_cases hl : K.LParen ∈ l.map Red.kind
      · rw [if_pos hl, if_pos hl, if_pos (List.mem_cons_of_mem _ hl)]
      · rw [if_neg hl, if_neg hl]
        by_cases hp : c.kind = K.LParen
        · rw [if_pos (by simpa using hp), if_pos hp, if_pos (by rw [hp]; exact List.mem_cons_self)]; omega
        · rw [if_neg (by simpa using hp), if_neg hp, if_neg (fun h => (List.mem_cons.1 h).elim (fun h => hp h.symm) hl)]
          by_cases hd : c.kind = K.DataBlockValue
          · rw [if_pos (by simp [hd, h2]), if_pos hd]; omega
          · rw [if_neg (by simp [hd]), if_neg hd]; omega

theorem slot_front {off : Nat} (c : Red) (T : List Red) (hc : c.kind = K.LCurly) : ∀ (H : List Red), (∀ x ∈ H, x.kind ≠ K.LCurly) →
    slotLoop off (H ++ c :: T) false 0 = slotLoop off T true 0 := by
  intro H
  induction H with
  | nil => intro _; rw [List.nil_append, slotLoop, if_pos (by simpa using hc)]
  | cons x H ih =>
    intro h
    rw [List.cons_append, slotLoop, if_neg (by simpa using h x List.mem_cons_self), if_pos (by simp)]
    exact ih (fun y hy => h y (List.mem_cons_of_mem _ hy))

/-- C69. A value list with rows, in the tree of the text in front of the cursor: the slot is the number of values of the row that is open
at its end. The values of a list for one variable have slot 0. -/
theorem c69_slot {d block inner c : Red} {X Y H T : List Red} {off : Nat} (hd : d.childrenT.filter Red.isNode = X ++ [block])
    (hb : block.childrenT.filter Red.isNode = inner :: Y) :
    (inner.kind = K.InlineDataFull → inner.childrenT = H ++ c :: T → (∀ x ∈ H, x.kind ≠ K.LCurly) → c.kind = K.LCurly →
      (∀ x ∈ T, x.start < off ∧ x.stop ≤ off) → slotIndex d off = openRow (T.map Red.kind)) ∧
    (inner.kind ≠ K.InlineDataFull → slotIndex d off = 0) := by
  unfold slotIndex
  rw [hd, List.getLast?_concat]
  dsimp only
  rw [hb]
  dsimp only
  constructor
  · intro h1 h2 h3 h4 h5
    rw [if_pos (by simpa using h1), h2, slot_front c T h4 H h3, slot_loop T 0 h5]
    split <;> simp
  · intro h1
    rw [if_neg (by simpa using h1)]

/-! ## Concrete cases -/

/-- The location at the end of a text, shortly: which one, where the node it names starts, and the slot. -/
def atEnd (g : Green) (off : Nat) (ks : List Kind) : Nat × Nat × Nat :=
  match getLocation (anchorOf g off) ks off with
  | .start => (0, 0, 0)
  | .predicate t => (1, t.start, 0)
  | .blankProperty t => (2, t.start, 0)
  | .subject => (3, 0, 0)
  | .object t => (4, t.start, 0)
  | .blankObject t => (5, t.start, 0)
  | .modifier => (6, 0, 0)
  | .graph => (7, 0, 0)
  | .service => (8, 0, 0)
  | .selectBinding c => (9, c.start, 0)
  | .groupCondition c => (10, c.start, 0)
  | .orderCondition => (11, 0, 0)
  | .inlineData d i => (12, d.start, i)
  | .builtIn => (13, 0, 0)
  | .unknown => (14, 0, 0)

/-- The kinds that can follow, for evaluation. -/
def contsRun (g : Green) (anchor : Option Red) : Option (List Kind) :=
  match anchor with
  | none => some []
  | some a =>
    match (backFrom g a).find? (fun t => !triviaKind t.kind) with
    | none => some []
    | some t => (endSteps (begin g t.stop).1 3000 (begin g t.stop).2).map (fun out => out.getD [])

theorem conts_run {g : Green} {anchor : Option Red} {ks : List Kind} (h : contsRun g anchor = some ks) : Conts g anchor ks := by
  unfold contsRun at h
  unfold Conts
  cases anchor with
  | none => injection h with h; exact h.symm
  | some a =>
    dsimp only at h ⊢
    cases hf : (backFrom g a).find? (fun t => !triviaKind t.kind) with
    | none => rw [hf] at h; injection h with h; exact h.symm
    | some t =>
      rw [hf] at h
      dsimp only at h ⊢
      obtain ⟨out, h1, h2⟩ := Option.map_eq_some_iff.1 h
      exact ⟨out, ends_of_steps h1, h2.symm⟩

/-- C69. Behind `SELECT * {?s` and a blank a predicate is asked for, of the triple at 10; behind `SELECT * {{?s ?p ?o`, with `?o` being typed,
an object; behind a value and a blank in a row, the value of the second slot. Four cases where the user is not served: behind a comment
the triple is not found, although a predicate can follow; in a template no object is offered; in the value list behind a query no value is;
and directly behind a complete value in a row — which is then the term to be replaced, as the anchor is the parenthesis — the slot is that of
the next value. -/
theorem c69_cases :
    ((parseSource (fun _ => 1) verbText).map Prod.fst = some verbTree ∧ Conts verbTree (anchorOf verbTree 13) [K.PropertyListPathNotEmpty] ∧
      atEnd verbTree 13 [K.PropertyListPathNotEmpty] = (1, 10, 0)) ∧
    ((parseSource (fun _ => 1) cutText).map Prod.fst = some cutTree ∧ Conts cutTree (anchorOf cutTree 19) [K.ObjectListPath] ∧
      atEnd cutTree 19 [K.ObjectListPath] = (4, 11, 0)) ∧
    ((parseSource (fun _ => 1) rowText).map Prod.fst = some rowTree ∧ Conts rowTree (anchorOf rowTree 31) [K.DataBlockValue, K.RParen] ∧
      atEnd rowTree 31 [K.DataBlockValue, K.RParen] = (12, 10, 1)) ∧
    ((parseSource (fun _ => 1) noteText).map Prod.fst = some noteTree ∧ Conts noteTree (anchorOf noteTree 16) [K.PropertyListPathNotEmpty] ∧
      atEnd noteTree 16 [K.PropertyListPathNotEmpty] = (14, 0, 0)) ∧
    ((parseSource (fun _ => 1) tmplText).map Prod.fst = some tmplTree ∧ Conts tmplTree (anchorOf tmplTree 19) [K.ObjectList] ∧
      atEnd tmplTree 19 [K.ObjectList] = (14, 0, 0)) ∧
    ((parseSource (fun _ => 1) afterText).map Prod.fst = some afterTree ∧ Conts afterTree (anchorOf afterTree 24) [K.DataBlockValue, K.RCurly] ∧
      atEnd afterTree 24 [K.DataBlockValue, K.RCurly] = (14, 0, 0)) ∧
    ((parseSource (fun _ => 1) rowEndText).map Prod.fst = some rowEndTree ∧
      (anchorOf rowEndTree 30).map (fun a => (a.kind, a.stop)) = some (K.LParen, 27) ∧
      Conts rowEndTree (anchorOf rowEndTree 30) [K.DataBlockValue, K.RParen] ∧ atEnd rowEndTree 30 [K.DataBlockValue, K.RParen] = (12, 10, 1)) :=
  ⟨⟨by rw [verbTree_parse]; rfl, conts_run (by decide +kernel), by decide +kernel⟩,
    ⟨by rw [cutTree_parse]; rfl, conts_run (by decide +kernel), by decide +kernel⟩,
    ⟨by rw [rowTree_parse]; rfl, conts_run (by decide +kernel), by decide +kernel⟩,
    ⟨by rw [noteTree_parse]; rfl, conts_run (by decide +kernel), by decide +kernel⟩,
    ⟨by rw [tmplTree_parse]; rfl, conts_run (by decide +kernel), by decide +kernel⟩,
    ⟨by rw [afterTree_parse]; rfl, conts_run (by decide +kernel), by decide +kernel⟩,
    by rw [rowEndTree_parse]; rfl, by decide +kernel, conts_run (by decide +kernel), by decide +kernel⟩

end Verif.Props
