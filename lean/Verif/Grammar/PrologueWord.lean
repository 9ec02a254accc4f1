import Verif.Grammar.Rules
import Verif.Grammar.Sparql
import Verif.Props.ParserLang
/-!
# Queries as words: the declarations of the prologue and the rest
-/
namespace Verif.Grammar

/-- The tokens of a declaration in a prologue. -/
def declWords : List (List Kind) :=
  [[K.BASE, K.IRIREF], [K.PREFIX, K.PNAME_NS, K.IRIREF], [K.VERSION, K.STRING_LITERAL1], [K.VERSION, K.STRING_LITERAL2]]

theorem Derives.node_inv {R : Kind → Option Rule} {k w r} (h : Derives R (.node k) w) (hr : R k = some r) : Derives R r w := by
  cases h with | node k r' w h d => rw [hr] at h; cases h; exact d
theorem Derives.seq_inv {R : Kind → Option Rule} {a b w} (h : Derives R (.seq a b) w) : ∃ u v, w = u ++ v ∧ Derives R a u ∧ Derives R b v := by
  cases h with | seq a b u v da db => exact ⟨u, v, rfl, da, db⟩
theorem Derives.tok_inv {R : Kind → Option Rule} {k w} (h : Derives R (.tok k) w) : w = [k] := by cases h; rfl
theorem Derives.alt_inv {R : Kind → Option Rule} {a b w} (h : Derives R (.alt a b) w) : Derives R a w ∨ Derives R b w := by
  cases h with
  | altL a b w d => exact Or.inl d
  | altR a b w d => exact Or.inr d
theorem Derives.rep_inv {R : Kind → Option Rule} {r w} (h : Derives R (.rep r) w) :
    ∃ us : List (List Kind), w = us.flatten ∧ ∀ u ∈ us, Derives R r u := by
  generalize hq : Rule.rep r = q at h
  induction h with
  | repNil r' => exact ⟨[], rfl, by simp⟩
  | repCons r' u v d ds ih1 ih2 =>
    cases hq
    obtain ⟨us, rfl, h⟩ := ih2 rfl
    exact ⟨u :: us, rfl, by simpa using ⟨d, h⟩⟩
  | _ => cases hq
theorem Derives.rep_of {R : Kind → Option Rule} {r} : ∀ {us : List (List Kind)}, (∀ u ∈ us, Derives R r u) → Derives R (.rep r) us.flatten := by
  intro us
  induction us with
  | nil => intro _; exact .repNil r
  | cons u us ih => intro h; exact .repCons r u _ (h u (by simp)) (ih (fun v hv => h v (by simp [hv])))

theorem r_query : sparqlRules K.QueryUnit = some rule_QueryUnit ∧ sparqlRules K.Query = some rule_Query ∧
    sparqlRules K.Prologue = some rule_Prologue ∧ sparqlRules K.BaseDecl = some rule_BaseDecl ∧
    sparqlRules K.PrefixDecl = some rule_PrefixDecl ∧ sparqlRules K.VersionDecl = some rule_VersionDecl ∧
    sparqlRules K.VersionSpecifier = some rule_VersionSpecifier := by decide +kernel

theorem decl_word (w : List Kind) : Derives sparqlRules (.alt (.node K.BaseDecl) (.alt (.node K.PrefixDecl) (.node K.VersionDecl))) w ↔
    w ∈ declWords := by
  obtain ⟨-, -, -, h4, h5, h6, h7⟩ := r_query
  constructor
  · intro h
    rcases h.alt_inv with h | h
    · obtain ⟨u, v, rfl, a, b⟩ := (h.node_inv h4).seq_inv
      rw [a.tok_inv, b.tok_inv]; decide
    rcases h.alt_inv with h | h
    · obtain ⟨u, v, rfl, a, b⟩ := (h.node_inv h5).seq_inv
      obtain ⟨v, x, rfl, b, c⟩ := b.seq_inv
      rw [a.tok_inv, b.tok_inv, c.tok_inv]; decide
    · obtain ⟨u, v, rfl, a, b⟩ := (h.node_inv h6).seq_inv
      rw [a.tok_inv]
      rcases (b.node_inv h7).alt_inv with b | b <;> (rw [b.tok_inv]; decide)
  · intro h
    simp only [declWords, List.mem_cons, List.not_mem_nil, or_false] at h
    rcases h with rfl | rfl | rfl | rfl
    · exact .altL _ _ _ (.node _ _ _ h4 (.seq _ _ [_] [_] (.tok _) (.tok _)))
    · exact .altR _ _ _ (.altL _ _ _ (.node _ _ _ h5 (.seq _ _ [_] [_, _] (.tok _) (.seq _ _ [_] [_] (.tok _) (.tok _)))))
    · exact .altR _ _ _ (.altR _ _ _ (.node _ _ _ h6 (.seq _ _ [_] [_] (.tok _) (.node _ _ _ h7 (.altL _ _ _ (.tok _))))))
    · exact .altR _ _ _ (.altR _ _ _ (.node _ _ _ h6 (.seq _ _ [_] [_] (.tok _) (.node _ _ _ h7 (.altR _ _ _ (.tok _))))))

theorem prologue_word (w : List Kind) : Derives sparqlRules (.node K.Prologue) w ↔ ∃ ds : List (List Kind), w = ds.flatten ∧ ∀ d ∈ ds, d ∈ declWords := by
  obtain ⟨-, -, h3, -⟩ := r_query
  constructor
  · intro h
    obtain ⟨us, e, hu⟩ := Derives.rep_inv (h.node_inv h3)
    exact ⟨us, e, fun u hu' => (decl_word u).1 (hu u hu')⟩
  · rintro ⟨ds, rfl, h⟩
    exact .node _ _ _ h3 (.rep_of fun u hu => (decl_word u).2 (h u hu))

/-- What follows the prologue of a query. -/
def Body (w : List Kind) : Prop := Derives sparqlRules
  (.seq (.alt (.node K.SelectQuery) (.alt (.node K.ConstructQuery) (.alt (.node K.DescribeQuery) (.node K.AskQuery)))) (.node K.ValuesClause)) w

theorem query_word (w : List Kind) : Derives sparqlRules (.node K.QueryUnit) w ↔
    ∃ ds b, w = List.flatten ds ++ b ∧ (∀ d ∈ ds, d ∈ declWords) ∧ Body b := by
  obtain ⟨h1, h2, -⟩ := r_query
  constructor
  · intro h
    obtain ⟨u, v, rfl, a, b⟩ := ((h.node_inv h1).node_inv h2).seq_inv
    obtain ⟨ds, rfl, hd⟩ := (prologue_word u).1 a
    exact ⟨ds, v, rfl, hd, b⟩
  · rintro ⟨ds, b, rfl, hd, hb⟩
    exact .node _ _ _ h1 (.node _ _ _ h2 (.seq _ _ _ _ ((prologue_word _).2 ⟨ds, rfl, hd⟩) hb))

/-! ### The body of a query -/

/-- Nodes that have a prologue in them. -/
def proKinds : List Kind := [K.QueryUnit, K.Query, K.UpdateUnit, K.Update, K.Prologue, K.PrefixDecl]

/-- No `PREFIX` and no node with a prologue in a rule. -/
def noPrefix : Rule → Bool
  | .tok k => k != K.PREFIX
  | .node k => !proKinds.contains k
  | .seq a b => noPrefix a && noPrefix b
  | .alt a b => noPrefix a && noPrefix b
  | .opt r => noPrefix r
  | .rep r => noPrefix r

theorem noPrefix_all : sparqlRulesTree.toList.all (fun p => proKinds.contains p.1 || noPrefix p.2) = true := by decide +kernel

theorem noPrefix_sound {r : Rule} {w : List Kind} (h : Derives sparqlRules r w) (hr : noPrefix r = true) : K.PREFIX ∉ w := by
  induction h with
  | tok k => rw [List.mem_singleton]; intro e; subst e; exact absurd hr (by decide)
  | node k r w h d ih =>
    have := List.all_eq_true.1 noPrefix_all (k, r) (sparqlRulesTree.find_mem k r h)
    simp only [Bool.or_eq_true] at this
    simp only [noPrefix, Bool.not_eq_true'] at hr
    rcases this with h' | h'
    · rw [hr] at h'; cases h'
    · exact ih h'
  | seq a b u v da db iha ihb =>
    simp only [noPrefix, Bool.and_eq_true] at hr
    rw [List.mem_append, not_or]
    exact ⟨iha hr.1, ihb hr.2⟩
  | altL a b w d ih => simp only [noPrefix, Bool.and_eq_true] at hr; exact ih hr.1
  | altR a b w d ih => simp only [noPrefix, Bool.and_eq_true] at hr; exact ih hr.2
  | optNone r => simp
  | optSome r w d ih => exact ih hr
  | repNil r => simp
  | repCons r u v d ds ih ihs =>
    rw [List.mem_append, not_or]
    exact ⟨ih hr, ihs hr⟩

theorem body_noPrefix {b : List Kind} (h : Body b) : K.PREFIX ∉ b := noPrefix_sound h (by decide +kernel)

theorem body_head {b : List Kind} (h : Body b) : ∃ k r, b = k :: r ∧ k ∈ [K.SELECT, K.CONSTRUCT, K.DESCRIBE, K.ASK] := by
  have hs : sparqlRules K.SelectQuery = some rule_SelectQuery := by decide +kernel
  have hsc : sparqlRules K.SelectClause = some rule_SelectClause := by decide +kernel
  have hc : sparqlRules K.ConstructQuery = some rule_ConstructQuery := by decide +kernel
  have hd : sparqlRules K.DescribeQuery = some rule_DescribeQuery := by decide +kernel
  have ha : sparqlRules K.AskQuery = some rule_AskQuery := by decide +kernel
  obtain ⟨u, v, rfl, a, -⟩ := Derives.seq_inv h
  rcases a.alt_inv with a | a
  · obtain ⟨x, y, rfl, c, -⟩ := (a.node_inv hs).seq_inv
    obtain ⟨x1, x2, rfl, c, -⟩ := (c.node_inv hsc).seq_inv
    rw [c.tok_inv]; exact ⟨_, _, rfl, by decide⟩
  rcases a.alt_inv with a | a
  · obtain ⟨x, y, rfl, c, -⟩ := (a.node_inv hc).seq_inv
    rw [c.tok_inv]; exact ⟨_, _, rfl, by decide⟩
  rcases a.alt_inv with a | a
  · obtain ⟨x, y, rfl, c, -⟩ := (a.node_inv hd).seq_inv
    rw [c.tok_inv]; exact ⟨_, _, rfl, by decide⟩
  · obtain ⟨x, y, rfl, c, -⟩ := (a.node_inv ha).seq_inv
    rw [c.tok_inv]; exact ⟨_, _, rfl, by decide⟩

/-! ### A declaration in a query -/

theorem flatten_split {a c : List Kind} : ∀ {ds : List (List Kind)} {b : List Kind}, (∀ d ∈ ds, d ∈ declWords) → K.PREFIX ∉ b →
    List.flatten ds ++ b = a ++ K.PREFIX :: c →
    ∃ ds1 ds2, ds = ds1 ++ [K.PREFIX, K.PNAME_NS, K.IRIREF] :: ds2 ∧ a = List.flatten ds1 ∧
      c = K.PNAME_NS :: K.IRIREF :: (List.flatten ds2 ++ b) := by
  intro ds
  induction ds generalizing a with
  | nil =>
    intro b _ hb e
    exfalso
    apply hb
    rw [show b = a ++ K.PREFIX :: c from e]; simp
  | cons d ds ih =>
    intro b hd hb e
    have hdm := hd d (by simp)
    have hds : ∀ d ∈ ds, d ∈ declWords := fun x hx => hd x (by simp [hx])
    rw [List.flatten_cons, List.append_assoc] at e
    by_cases hda : ∃ a', a = d ++ a'
    · obtain ⟨a', rfl⟩ := hda
      rw [List.append_assoc] at e
      obtain ⟨ds1, ds2, rfl, rfl, rfl⟩ := ih hds hb (List.append_cancel_left e)
      exact ⟨d :: ds1, ds2, rfl, rfl, rfl⟩
    · simp only [declWords, List.mem_cons, List.not_mem_nil, or_false] at hdm
      rcases List.append_eq_append_iff.1 e with ⟨x, h1, h2⟩ | ⟨x, h1, h2⟩
      · exact absurd ⟨x, h1⟩ hda
      · cases x with
        | nil => exact absurd ⟨[], by rw [h1]; simp⟩ hda
        | cons k x =>
          rw [List.cons_append] at h2
          injection h2 with h2 h3
          subst h2
          have hmem : K.PREFIX ∈ d := by rw [h1]; simp
          rcases hdm with rfl | rfl | rfl | rfl
          · exact absurd hmem (by decide)
          · cases a with
            | nil =>
              rw [List.nil_append] at h1
              injection h1 with _ h1
              rw [← h1] at h3
              exact ⟨[], ds, rfl, rfl, h3⟩
            | cons y a =>
              rw [List.cons_append] at h1
              injection h1 with _ h1
              exfalso
              have : K.PREFIX ∈ [K.PNAME_NS, K.IRIREF] := by rw [h1]; simp
              exact absurd this (by decide)
          · exact absurd hmem (by decide)
          · exact absurd hmem (by decide)

/-- **A `PREFIX` in a query**: a label and an IRI follow; without these three tokens it is still a query. -/
theorem query_cut {a c : List Kind} (h : Derives sparqlRules (.node K.QueryUnit) (a ++ K.PREFIX :: c)) :
    ∃ c', c = K.PNAME_NS :: K.IRIREF :: c' ∧ Derives sparqlRules (.node K.QueryUnit) (a ++ c') ∧
      (∃ k r, c' = k :: r ∧ k ∈ [K.BASE, K.PREFIX, K.VERSION, K.SELECT, K.CONSTRUCT, K.DESCRIBE, K.ASK]) ∧
      ∃ ds : List (List Kind), a = ds.flatten ∧ ∀ d ∈ ds, d ∈ declWords := by
  obtain ⟨ds, b, e, hd, hb⟩ := (query_word _).1 h
  obtain ⟨ds1, ds2, rfl, rfl, rfl⟩ := flatten_split hd (body_noPrefix hb) e.symm
  refine ⟨_, rfl, (query_word _).2 ⟨ds1 ++ ds2, b, by simp, ?_, hb⟩, ?_, ds1, rfl, ?_⟩
  · intro d h'
    rcases List.mem_append.1 h' with h' | h'
    · exact hd d (by simp [h'])
    · exact hd d (by simp [h'])
  · cases ds2 with
    | nil =>
      obtain ⟨k, r, rfl, hk⟩ := body_head hb
      refine ⟨k, r, rfl, ?_⟩
      simp only [List.mem_cons, List.not_mem_nil, or_false] at hk ⊢
      rcases hk with h | h | h | h <;> simp [h]
    | cons d ds2 =>
      have := hd d (by simp)
      simp only [declWords, List.mem_cons, List.not_mem_nil, or_false] at this
      rcases this with rfl | rfl | rfl | rfl
      · exact ⟨_, _, rfl, by decide⟩
      · exact ⟨_, _, rfl, by decide⟩
      · exact ⟨_, _, rfl, by decide⟩
      · exact ⟨_, _, rfl, by decide⟩
  · intro d h'
    exact hd d (by simp [h'])

/-- A query with one more declaration in front. -/
theorem query_cons {w : List Kind} (h : Derives sparqlRules (.node K.QueryUnit) w) :
    Derives sparqlRules (.node K.QueryUnit) (K.PREFIX :: K.PNAME_NS :: K.IRIREF :: w) := by
  obtain ⟨ds, b, rfl, hd, hb⟩ := (query_word _).1 h
  refine (query_word _).2 ⟨[K.PREFIX, K.PNAME_NS, K.IRIREF] :: ds, b, rfl, ?_, hb⟩
  intro d h'
  rcases List.mem_cons.1 h' with rfl | h'
  · decide
  · exact hd d h'

end Verif.Grammar
