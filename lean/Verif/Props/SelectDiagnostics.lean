import Verif.Features.Clause
import Verif.Features.PrefixTokens
import Verif.Features.Demo
import Verif.Props.ParserLang
/-!
# Diagnostics of the select clause: C55, C56, C57
-/
namespace Verif.Props
open Verif Verif.Grammar Verif.Lexer Verif.Features Verif.Format

/-! ## Specification -/

/-- The diagnostics report exactly these elements, in this order. -/
def Reports (text : Text) (sev : Severity) (code : DiagCode) (vs : List Red) (ds : List Diag) : Prop :=
  List.Forall₂ (fun v d => Covers text v d.range ∧ d.severity = sev ∧ d.code = code ∧ d.data = none) vs ds

/-- `t` is the `*` of a select that has a `GROUP BY` and no `VALUES` behind it. -/
def GroupedStar (g : Green) (t : Red) : Prop :=
  ∃ s c gc, IsSelect g s ∧ GroupedBy s gc ∧ (∀ v, ¬ Part s K.ValuesClause v) ∧ Part s K.SelectClause c ∧
    t ∈ c.childrenT ∧ t.isNode = false ∧ t.kind = K.Star

theorem reports_of {text g} (P : Parsed text g) (sev : Severity) (code : DiagCode) {vs : List Red} (h : ∀ v ∈ vs, InTree g v) :
    ∃ ds, unwrapAll (diagAt text sev code none) vs = some ds ∧ Reports text sev code vs ds := by
  induction vs with
  | nil => exact ⟨[], rfl, .nil⟩
  | cons v vs ih =>
    obtain ⟨ds, h1, h2⟩ := ih (fun x hx => h x (List.mem_cons_of_mem _ hx))
    obtain ⟨d, h3, h4, h5, h6, h7⟩ := diagAt_some P (h v (List.mem_cons_self ..)) sev code none
    exact ⟨d :: ds, by simp [unwrapAll, h3, h1], .cons ⟨h4, h5, h6, h7⟩ h2⟩

/-! ## Depth -/

theorem chain_depth : ∀ (up : List Site), ∀ a ∈ Red.chain up, a.up.length < up.length := by
  intro up
  induction up with
  | nil => intro a h; cases h
  | cons s up ih =>
    intro a h
    rcases List.mem_cons.1 h with rfl | h
    · simp
    · have := ih a h; simp only [List.length_cons]; omega

theorem chain_inj : ∀ (up : List Site), ∀ a ∈ Red.chain up, ∀ b ∈ Red.chain up, a.up.length = b.up.length → a = b := by
  intro up
  induction up with
  | nil => intro a h; cases h
  | cons s up ih =>
    intro a ha b hb e
    rcases List.mem_cons.1 ha with rfl | ha <;> rcases List.mem_cons.1 hb with rfl | hb
    · rfl
    · have := chain_depth up b hb; simp only at e; omega
    · have := chain_depth up a ha; simp only at e; omega
    · exact ih a ha b hb e

/-- Two ancestors of the same depth are the same. -/
theorem ancestor_inj {x a b : Red} (ha : a ∈ x.ancestors) (hb : b ∈ x.ancestors) (e : a.up.length = b.up.length) : a = b := by
  rcases List.mem_cons.1 ha with rfl | ha <;> rcases List.mem_cons.1 hb with rfl | hb
  · rfl
  · have := chain_depth _ b hb; omega
  · have := chain_depth _ a ha; omega
  · exact chain_inj _ a ha b hb e

theorem sibling_inj {r x a b : Red} (ha : a ∈ r.childrenT) (hb : b ∈ r.childrenT) (hxa : a ∈ x.ancestors) (hxb : b ∈ x.ancestors) :
    a = b := ancestor_inj hxa hxb (by rw [child_up ha, child_up hb])

theorem children_nodup (r : Red) : r.childrenT.Nodup := by
  rw [List.nodup_iff_getElem?_ne_getElem?]
  intro i j hij hj e
  have hi : i < r.childrenT.length := by omega
  have h1 := childrenT_get (List.getElem_mem hi)
  have h2 := childrenT_get (List.getElem_mem hj)
  have idx : ∀ (k : Nat) (hk : k < r.childrenT.length), (r.childrenT[k]).here.idx = k := by
    have gen : ∀ (gs : List Green) (i0 o k : Nat) (hk : k < (childSites i0 o gs).length), ((childSites i0 o gs)[k]).idx = i0 + k := by
      intro gs
      induction gs with
      | nil => intro i0 o k hk; simp [childSites] at hk
      | cons x xs ih =>
        intro i0 o k hk
        cases k with
        | zero => rfl
        | succ k =>
          simp only [childSites, List.getElem_cons_succ]
          rw [ih]; omega
    intro k hk
    unfold Red.childrenT at hk ⊢
    split at hk
    · simp at hk
    · simp only [List.length_map] at hk
      simp only [List.getElem_map]
      rw [gen]; omega
  rw [List.getElem?_eq_getElem hi, List.getElem?_eq_getElem hj, Option.some.injEq] at e
  have := idx i hi
  rw [e, idx j hj] at this
  omega

theorem descendantsT_nodup : ∀ r : Red, r.descendantsT.Nodup := by
  apply red_induction
  intro r ih
  rw [descendantsT_eq, List.nodup_cons]
  constructor
  · intro h
    obtain ⟨c, hc, hx⟩ := List.mem_flatMap.1 h
    have h1 := descendantsT_anc hx
    have h2 := child_up hc
    rcases List.mem_cons.1 h1 with h1 | h1
    · rw [h1] at h2; have := congrArg List.length h2; simp at this
    · have := chain_depth _ c h1; rw [h2] at this; simp at this; omega
  · rw [List.nodup_flatMap]
    refine ⟨ih, (children_nodup r).imp_of_mem ?_⟩
    intro a b ha hb hab x hxa hxb
    exact hab (sibling_inj ha hb (descendantsT_anc hxa) (descendantsT_anc hxb))

section
variable {text : Text} {g : Green} (P : Parsed text g) (hC : ∀ n ∈ g.nodes, Complete sparqlRules n)

theorem selectQueryRule : sparqlRules K.SelectQuery = some rule_SelectQuery := by decide +kernel
theorem subSelectRule : sparqlRules K.SubSelect = some rule_SubSelect := by decide +kernel
theorem selectClauseRule : sparqlRules K.SelectClause = some rule_SelectClause := by decide +kernel
theorem modifierRule : sparqlRules K.SolutionModifier = some rule_SolutionModifier := by decide +kernel
theorem groupClauseRule : sparqlRules K.GroupClause = some rule_GroupClause := by decide +kernel
theorem groupConditionRule : sparqlRules K.GroupCondition = some rule_GroupCondition := by decide +kernel
theorem varRule : sparqlRules K.Var = some rule_Var := by decide +kernel

/-- Nothing is behind `VALUES`, only that behind the modifiers. -/
def selectNext (a b : Sym) : Bool := a != .node K.ValuesClause && (a != .node K.SolutionModifier || b == .node K.ValuesClause)
/-- Nothing is in front of `GROUP BY`. -/
def modifierNext (_ b : Sym) : Bool := b != .node K.GroupClause
/-- Nothing is behind `*`. -/
def starNext (a _ : Sym) : Bool := a != .tok K.Star

theorem select_rule {s : Red} (hk : s.kind = K.SelectQuery ∨ s.kind = K.SubSelect) :
    ∃ R, sparqlRules s.kind = some R ∧ nexts nullNodes selectNext R = true ∧ onceRule (.node K.SelectClause) R = true ∧
      occRule (.node K.SelectClause) R ≤ 1 ∧ onceRule (.node K.SolutionModifier) R = true ∧
      occRule (.node K.SolutionModifier) R ≤ 1 ∧ onceRule (.node K.WhereClause) R = true ∧ occRule (.node K.WhereClause) R ≤ 1 := by
  rcases hk with h | h
  · exact ⟨_, h ▸ selectQueryRule, by decide +kernel⟩
  · exact ⟨_, h ▸ subSelectRule, by decide +kernel⟩

include P hC

/-- The last child node is the last significant child, when this is a node. -/
theorem lastChild_of {r : Red} (hr : InTree g r) {L : List Red} {a : Red} (h : sigC r = L ++ [a]) (hn : a.isNode = true) :
    r.lastChild = some a := by
  unfold Red.lastChild
  rw [children_sig P hr, h, List.filter_append, List.filter_cons_of_pos hn]
  simp

theorem firstChild_of {r : Red} (hr : InTree g r) {T : List Red} {a : Red} (h : sigC r = a :: T) (hn : a.isNode = true) :
    r.firstChild = some a := by
  unfold Red.firstChild
  rw [children_sig P hr, h, List.filter_cons_of_pos hn]
  simp

/-- What the tree methods find as the `GROUP BY` clause of a select. -/
theorem groupClause_iff {s gc : Red} (hs : IsSelect g s) :
    groupClause s = some gc ↔ GroupedBy s gc ∧ ∀ v, ¬ Part s K.ValuesClause v := by
  obtain ⟨hT, hn, hk⟩ := hs
  obtain ⟨R, hR, hf, -⟩ := select_rule hk
  constructor
  · intro h
    unfold groupClause at h
    split at h
    · cases h
    · next m hm =>
      split at h
      · next hmk =>
        split at h
        · cases h
        · next c hc =>
          split at h
          · next hck =>
            cases h
            have hmm := mem_children.1 (List.mem_of_getLast? hm)
            have hcm := mem_children.1 (List.mem_of_head? hc)
            refine ⟨⟨m, ⟨hmm.1, hmm.2, hmk⟩, hcm.1, hcm.2, hck⟩, ?_⟩
            intro v hv
            have hvs := mem_sigC.2 ⟨hv.1, node_sig P (hT.child hv.1) hv.2.1⟩
            obtain ⟨L, e⟩ := last_of hvs (by
              intro L T b e
              have := sigC_next P hC hT hn hR hf e
              rw [symOf_node hv.2.1, hv.2.2] at this
              simp [selectNext] at this)
            have := lastChild_of P hC hT e hv.2.1
            rw [hm] at this; cases this
            rw [hv.2.2] at hmk; exact absurd hmk (by decide)
          · cases h
      · cases h
  · rintro ⟨⟨m, hm, hgc⟩, hv⟩
    have hmT := hT.child hm.1
    obtain ⟨L, e⟩ := last_of (mem_sigC.2 ⟨hm.1, node_sig P hmT hm.2.1⟩) (by
      intro L T b e
      have := sigC_next P hC hT hn hR hf e
      rw [symOf_node hm.2.1, hm.2.2] at this
      simp only [selectNext, Bool.and_eq_true, Bool.or_eq_true, bne_self_eq_false, Bool.false_eq_true, false_or, beq_iff_eq] at this
      obtain ⟨h1, h2⟩ := symOf_eq_node.1 this.2
      have hb : b ∈ sigC s := by rw [e]; simp
      exact hv b ⟨(mem_sigC.1 hb).1, h1, h2⟩)
    obtain ⟨T, e'⟩ := first_of (mem_sigC.2 ⟨hgc.1, node_sig P (hmT.child hgc.1) hgc.2.1⟩) (by
      intro L T b e
      have := sigC_next P hC hmT hm.2.1 (hm.2.2 ▸ modifierRule) (f := modifierNext) (by decide +kernel) e
      rw [symOf_node hgc.2.1, hgc.2.2] at this
      simp [modifierNext] at this)
    unfold groupClause
    rw [lastChild_of P hC hT e hm.2.1]
    dsimp only
    rw [if_pos hm.2.2, firstChild_of P hC hmT e' hgc.2.1]
    dsimp only
    rw [if_pos hgc.2.2]

omit hC in
/-- The significant tokens of a node are those of its significant children. -/
theorem sigT_children {r : Red} (hr : InTree g r) (hn : r.isNode = true) : r.sigT = (sigC r).flatMap Red.sigT := by
  unfold Red.sigT
  rw [tokens_eq, if_pos hn, List.filter_flatMap]
  have : ∀ l : List Red, (∀ c ∈ l, c ∈ r.childrenT) → l.flatMap (fun c => c.tokens.filter (fun t => !triviaKind t.kind)) =
      (l.filter Red.sig).flatMap (fun c => c.tokens.filter (fun t => !triviaKind t.kind)) := by
    intro l
    induction l with
    | nil => intro _; rfl
    | cons c l ih =>
      intro hl
      rw [List.flatMap_cons, ih (fun x hx => hl x (List.mem_cons_of_mem _ hx))]
      cases hk : triviaKind c.kind with
      | false => rw [List.filter_cons_of_pos (by simp [Red.sig, hk]), List.flatMap_cons]
      | true =>
        rw [List.filter_cons_of_neg (by simp [Red.sig, hk]), tokens_eq,
          trivia_token P (hr.child (hl c (List.mem_cons_self ..))) hk]
        simp [hk]
  exact this _ (fun _ h => h)

omit P hC in
theorem sigT_tok {t : Red} (hn : t.isNode = false) (hk : t.sig = true) : t.sigT = [t] := by
  unfold Red.sigT
  rw [tokens_eq, if_neg (by simp [hn])]
  unfold Red.sig at hk
  simp at hk
  simp [hk]

omit hC in
/-- The last token of an inner node is its last significant one. -/
theorem lastToken_sig {r : Red} (hr : InTree g r) (hn : r.isNode = true) (hu : r.up ≠ []) : r.lastToken = r.sigT.getLast? ∧ r.sigT ≠ [] := by
  obtain ⟨-, k, t, l, h1, h2⟩ := P.tight _ (P.inner_of hr hn hu)
  have hk := (tokens_row r).1
  rw [h1] at hk
  obtain ⟨L, x, e1, -, e2⟩ : ∃ L x, r.tokens = L ++ [x] ∧ True ∧ x.kt = (k, t) := by
    rcases List.eq_nil_or_concat r.tokens with h | ⟨L, x, h⟩
    · rw [h] at hk; simp at hk
    · rw [List.concat_eq_append] at h
      rw [h, List.map_append] at hk
      refine ⟨L, x, h, trivial, ?_⟩
      have := (List.append_inj' hk rfl).2
      injection this
  have hxk : triviaKind x.kind = false := by
    have : x.kind = k := congrArg Prod.fst e2
    rw [this]; exact h2
  unfold Red.lastToken Red.sigT
  rw [e1, List.filter_append, List.filter_cons_of_pos (by simp [hxk])]
  simp

theorem inner_up {c r : Red} (h : c ∈ r.childrenT) : c.up ≠ [] := by rw [child_up h]; simp

/-- `is_star_selection` (ast/mod.rs L195-200): the clause has a `*`. -/
theorem star_iff {s c t : Red} (hs : InTree g s) (hc : Part s K.SelectClause c) :
    (c.lastToken = some t ∧ t.kind = K.Star) ↔ t ∈ c.childrenT ∧ t.isNode = false ∧ t.kind = K.Star := by
  have hcT := hs.child hc.1
  have hR : sparqlRules c.kind = some rule_SelectClause := hc.2.2 ▸ selectClauseRule
  obtain ⟨h1, h2⟩ := lastToken_sig P hcT hc.2.1 (by rw [child_up hc.1]; simp)
  have h3 := sigT_children P hcT hc.2.1
  constructor
  · rintro ⟨h4, h5⟩
    rw [h1] at h4
    rcases List.eq_nil_or_concat (sigC c) with h | ⟨L, x, h⟩
    · rw [h3, h] at h2; exact absurd rfl h2
    · rw [List.concat_eq_append] at h
      have hx := sigC_tail P hC hcT hc.2.1 hR h
      have hxm : x ∈ sigC c := by rw [h]; simp
      obtain ⟨hxc, hxs⟩ := mem_sigC.1 hxm
      rw [h3, h, List.flatMap_append, List.flatMap_singleton] at h4
      cases hn : x.isNode with
      | false =>
        rw [sigT_tok hn hxs, List.getLast?_append] at h4
        simp at h4
        subst h4
        exact ⟨hxc, hn, h5⟩
      | true =>
        exfalso
        have hxT := hcT.child hxc
        rw [symOf_node hn] at hx
        have hk : x.kind = K.Var := by
          have : ∀ k, Sym.node k ∈ tailSyms nullNodes rule_SelectClause → k = K.Var := by
            intro k hk
            have e : tailSyms nullNodes rule_SelectClause = [.node K.Var, .tok K.RParen, .node K.Var, .tok K.RParen, .tok K.Star] := by
              decide +kernel
            rw [e] at hk
            simpa using hk
          exact this _ hx
        obtain ⟨a1, a2⟩ := part_tokens hC hxT hn (hk ▸ varRule) (by intro k; simp [symbols, rule_Var])
        obtain ⟨-, b2⟩ := lastToken_sig P hxT hn (by rw [child_up hxc]; simp)
        rw [List.getLast?_append_of_ne_nil _ b2] at h4
        have htm := List.mem_of_getLast? h4
        have : Sym.tok t.kind ∈ symbols rule_Var := by
          have hw := allSyms_sound (f := fun s => (symbols rule_Var).contains s) a2 (by decide +kernel) (.tok t.kind)
            (List.mem_map.2 ⟨t, htm, rfl⟩)
          simpa using hw
        rw [h5] at this
        revert this; decide +kernel
  · rintro ⟨h4, h5, h6⟩
    have hts : t.sig = true := by simp [Red.sig, h6]; decide
    obtain ⟨L, e⟩ := last_of (mem_sigC.2 ⟨h4, hts⟩) (by
      intro L T b e
      have := sigC_next P hC hcT hc.2.1 hR (f := starNext) (by decide +kernel) e
      rw [symOf_tok h5, h6] at this
      simp [starNext] at this)
    refine ⟨?_, h6⟩
    rw [h1, h3, e, List.flatMap_append, List.flatMap_singleton, sigT_tok h5 hts]
    simp

theorem invalidStar_iff {s t : Red} (hs : IsSelect g s) : invalidStar s = some t ↔
    ∃ c gc, GroupedBy s gc ∧ (∀ v, ¬ Part s K.ValuesClause v) ∧ Part s K.SelectClause c ∧
    t ∈ c.childrenT ∧ t.isNode = false ∧ t.kind = K.Star := by
  obtain ⟨R, hR, hf, ho, h1, -⟩ := select_rule hs.2.2
  have hcl : ∀ c, s.childOf [K.SelectClause] = some c ↔ Part s K.SelectClause c := fun c => childOf_iff P hC hs.1 hs.2.1 hR ho h1
  constructor
  · intro h
    unfold invalidStar at h
    split at h
    · cases h
    · split at h
      · split at h
        · cases h
        · next c hc =>
          split at h
          · next gc t' hg ht =>
            split at h
            · next hk =>
              cases h
              have hcp := (hcl c).1 hc
              obtain ⟨a, b⟩ := (groupClause_iff P hC hs).1 hg
              exact ⟨c, gc, a, b, hcp, (star_iff P hC hs.1 hcp).1 ⟨ht, hk⟩⟩
            · cases h
          · cases h
      · cases h
  · rintro ⟨c, gc, a, b, hcp, ht⟩
    have hg := (groupClause_iff P hC hs).2 ⟨a, b⟩
    obtain ⟨h2, h3⟩ := (star_iff P hC hs.1 hcp).2 ht
    have hg' := hg
    unfold groupClause at hg'
    unfold invalidStar
    split at hg'
    · cases hg'
    · next m hm =>
      split at hg'
      · next hmk =>
        rw [if_pos hmk, (hcl c).2 hcp]
        dsimp only
        rw [hg, h2]
        dsimp only
        rw [if_pos h3]
      · cases hg'

omit P hC in
theorem descendants_nodup (r : Red) : r.descendants.Nodup := (descendantsT_nodup r).filter _

omit P hC in
theorem mem_selects {s : Red} : s ∈ (Red.root g).descendants.filter (fun s => s.kind == K.SelectQuery || s.kind == K.SubSelect) ↔
    IsSelect g s := by
  rw [List.mem_filter]
  unfold Red.descendants IsSelect
  rw [List.mem_filter, mem_descendantsT_root]
  simp [and_assoc]

end

theorem filterMap_nodup {α β : Type} {f : α → Option β} : ∀ {l : List α}, l.Nodup → (∀ a ∈ l, ∀ b ∈ l, ∀ x, f a = some x → f b = some x → a = b) →
    (l.filterMap f).Nodup := by
  intro l
  induction l with
  | nil => intro _ _; simp
  | cons a l ih =>
    intro hl hf
    obtain ⟨h1, h2⟩ := List.nodup_cons.1 hl
    have ih := ih h2 (fun x hx y hy => hf x (List.mem_cons_of_mem _ hx) y (List.mem_cons_of_mem _ hy))
    cases h : f a with
    | none => rw [List.filterMap_cons_none h]; exact ih
    | some x =>
      rw [List.filterMap_cons_some h, List.nodup_cons]
      refine ⟨?_, ih⟩
      intro hx
      obtain ⟨b, hb, e⟩ := List.mem_filterMap.1 hx
      exact h1 (hf a (List.mem_cons_self ..) b (List.mem_cons_of_mem _ hb) x h e ▸ hb)

/-- **C55.** For a valid query: an error is reported at exactly the `*` of each select or sub-select that has a `GROUP BY`,
unless a `VALUES` block follows in the sub-select; nothing is reported twice. -/
theorem c55_exact (errLen : Text → Nat) (text : Text) (g errs) (hp : parseSource errLen text = some (g, errs))
    (hd : Derives sparqlRules (.node g.kind) (kinds (lex errLen text))) :
    ∃ ts ds, added (groupbyStar text g) = some ds ∧ Reports text .error .groupbyStar ts ds ∧ ts.Nodup ∧
      ∀ t, t ∈ ts ↔ GroupedStar g t := by
  have P := parsed_of hp
  have hC := complete_of hp hd
  have hmem : ∀ t, t ∈ (((Red.root g).descendants.filter (fun s => s.kind == K.SelectQuery || s.kind == K.SubSelect)).filterMap invalidStar) ↔
      GroupedStar g t := by
    intro t
    rw [List.mem_filterMap]
    constructor
    · rintro ⟨s, hs, ht⟩
      have hs := mem_selects.1 hs
      obtain ⟨c, gc, h⟩ := (invalidStar_iff P hC hs).1 ht
      exact ⟨s, c, gc, hs, h⟩
    · rintro ⟨s, c, gc, hs, h⟩
      exact ⟨s, mem_selects.2 hs, (invalidStar_iff P hC hs).2 ⟨c, gc, h⟩⟩
  obtain ⟨ds, h1, h2⟩ := reports_of P .error .groupbyStar (vs := (((Red.root g).descendants.filter
      (fun s => s.kind == K.SelectQuery || s.kind == K.SubSelect)).filterMap invalidStar)) (by
    intro v hv
    obtain ⟨s, c, gc, hs, -, -, hc, ht, -⟩ := (hmem v).1 hv
    exact (hs.1.child hc.1).child ht)
  refine ⟨_, ds, ?_, h2, ?_, hmem⟩
  · unfold groupbyStar
    rw [h1]
    cases ds <;> simp [added]
  · refine filterMap_nodup ((descendants_nodup _).filter _) ?_
    intro a ha b hb t h3 h4
    obtain ⟨c, gc, -, -, hc, ht, -⟩ := (invalidStar_iff P hC (mem_selects.1 ha)).1 h3
    obtain ⟨c', gc', -, -, hc', ht', -⟩ := (invalidStar_iff P hC (mem_selects.1 hb)).1 h4
    have e1 := child_parent ht
    rw [child_parent ht'] at e1; cases e1
    have e2 := child_parent hc.1
    rw [child_parent hc'.1] at e2; cases e2
    rfl

/-! ## Assignments -/

/-- What may be next to each other in a select clause. -/
def assignNext (a b : Sym) : Bool :=
  (a != .node K.Expression || b == .tok K.AS) && (a != .tok K.AS || b == .node K.Var)

section
variable {text : Text} {g : Green} (P : Parsed text g) (hC : ∀ n ∈ g.nodes, Complete sparqlRules n)
include P hC

theorem assigns_iff {c e v : Red} (hc : InTree g c) (hn : c.isNode = true) (hk : c.kind = K.SelectClause) :
    (v ∈ c.childrenT ∧ v.isNode = true ∧ v.kind = K.Var ∧ prevNode v = some e ∧ e.kind = K.Expression) ↔ Assigns c e v := by
  have hR : sparqlRules c.kind = some rule_SelectClause := hk ▸ selectClauseRule
  constructor
  · rintro ⟨h1, h2, h3, h4, h5⟩
    obtain ⟨E, Y, hE⟩ := List.append_of_mem h1
    unfold prevNode at h4
    rw [(elder_eq hE).1] at h4
    have hem := List.mem_filter.1 (List.mem_of_getLast? h4)
    obtain ⟨E1, T, hE1, hT⟩ : ∃ E1 T, E = E1 ++ e :: T ∧ T.filter Red.isNode = [] := by
      have : ∀ l : List Red, (l.filter Red.isNode).getLast? = some e → ∃ E1 T, l = E1 ++ e :: T ∧ T.filter Red.isNode = [] := by
        intro l
        induction l with
        | nil => intro h; cases h
        | cons x l ih =>
          intro h
          cases hl : l.filter Red.isNode with
          | nil =>
            cases hx : x.isNode with
            | false => rw [List.filter_cons_of_neg (by simp [hx]), hl] at h; cases h
            | true =>
              rw [List.filter_cons_of_pos hx, hl] at h
              cases h
              exact ⟨[], l, rfl, hl⟩
          | cons y ys =>
            have h' : (l.filter Red.isNode).getLast? = some e := by
              cases hx : x.isNode with
              | false => rw [List.filter_cons_of_neg (by simp [hx])] at h; exact h
              | true => rw [List.filter_cons_of_pos hx, hl, List.getLast?_cons_cons] at h; rw [hl]; exact h
            obtain ⟨E1, T, e1, e2⟩ := ih h'
            exact ⟨x :: E1, T, by rw [e1]; rfl, e2⟩
      exact this E h4
    subst hE1
    have hec : e ∈ c.childrenT := by rw [hE]; simp
    have hes := node_sig P (hc.child hec) hem.2
    have hvs := node_sig P (hc.child h1) h2
    have hsc : sigC c = E1.filter Red.sig ++ e :: (T.filter Red.sig ++ v :: Y.filter Red.sig) := by
      unfold sigC
      rw [hE]
      simp [List.filter_append, List.filter_cons_of_pos, hes, hvs]
    have hTn : ∀ x ∈ T, x.isNode = false := by
      intro x hx
      cases hxn : x.isNode with
      | false => rfl
      | true => have : x ∈ T.filter Red.isNode := List.mem_filter.2 ⟨hx, hxn⟩
                rw [hT] at this; cases this
    cases hTs : T.filter Red.sig with
    | nil =>
      exfalso
      rw [hTs, List.nil_append] at hsc
      have := sigC_next P hC hc hn hR (f := assignNext) (by decide +kernel) hsc
      rw [symOf_node hem.2, h5, symOf_node h2, h3] at this
      revert this; decide
    | cons a T' =>
      rw [hTs] at hsc
      have haT : a ∈ T := (List.mem_filter.1 (by rw [hTs]; simp)).1
      have ha := sigC_next P hC hc hn hR (f := assignNext) (by decide +kernel) hsc
      rw [symOf_node hem.2, h5] at ha
      simp only [assignNext, bne_self_eq_false, Bool.false_or, Bool.and_eq_true, beq_iff_eq] at ha
      obtain ⟨ha1, ha2⟩ := symOf_eq_tok.1 ha.1
      cases T' with
      | nil => exact ⟨E1, T, Y, a, by rw [hE], hTs, ha1, ha2, hem.2, h5, h2, h3⟩
      | cons b T' =>
        exfalso
        have hbT : b ∈ T := (List.mem_filter.1 (by rw [hTs]; simp)).1
        have hb := sigC_next P hC hc hn hR (f := assignNext) (by decide +kernel) (L := E1.filter Red.sig ++ [e]) (a := a) (b := b)
          (T := T' ++ v :: Y.filter Red.sig) (by rw [hsc]; simp)
        rw [symOf_tok ha1, ha2, symOf_tok (hTn b hbT)] at hb
        simp [assignNext] at hb
  · rintro ⟨E, T, Y, a, h1, h2, h3, h4, h5, h6, h7, h8⟩
    have hvc : v ∈ c.childrenT := by rw [h1]; simp
    refine ⟨hvc, h7, h8, ?_, h6⟩
    unfold prevNode
    rw [(elder_eq (L := E ++ e :: T) (R := Y) h1).1, List.filter_append, List.filter_cons_of_pos h5]
    have : T.filter Red.isNode = [] := by
      rw [List.filter_eq_nil_iff]
      intro x hx hxn
      have hxs := node_sig P (hc.child (c := x) (by rw [h1]; simp [hx])) hxn
      have : x ∈ T.filter Red.sig := List.mem_filter.2 ⟨hx, hxs⟩
      rw [h2, List.mem_singleton] at this
      rw [this, h3] at hxn; cases hxn
    rw [this]
    simp

theorem mem_assignments {c e v : Red} (hc : InTree g c) (hn : c.isNode = true) (hk : c.kind = K.SelectClause) :
    (e, v) ∈ assignments c ↔ Assigns c e v := by
  rw [← assigns_iff P hC hc hn hk]
  unfold assignments
  simp only [List.mem_filterMap, List.mem_filter, mem_children, beq_iff_eq]
  constructor
  · rintro ⟨v', ⟨⟨h1, h2⟩, h3⟩, h4⟩
    split at h4
    · cases h4
    · next e' he =>
      split at h4
      · next hk' => cases h4; exact ⟨h1, h2, h3, he, hk'⟩
      · cases h4
  · rintro ⟨h1, h2, h3, h4, h5⟩
    exact ⟨v, ⟨⟨h1, h2⟩, h3⟩, by rw [h4]; simp [h5]⟩

theorem mem_selectedVars {c v : Red} (hc : InTree g c) (hn : c.isNode = true) (hk : c.kind = K.SelectClause) :
    v ∈ selectedVars c ↔ Selects c v := by
  unfold selectedVars Selects Part
  simp only [List.mem_filter, mem_children, beq_iff_eq, and_assoc]
  constructor
  · rintro ⟨h1, h2, h3, h4⟩
    refine ⟨h1, h2, h3, ?_⟩
    intro e he
    obtain ⟨-, -, -, h5, h6⟩ := (assigns_iff P hC hc hn hk).2 he
    rw [h5] at h4
    simp [h6] at h4
  · rintro ⟨h1, h2, h3, h4⟩
    refine ⟨h1, h2, h3, ?_⟩
    cases hp : prevNode v with
    | none => rfl
    | some e =>
      have : e.kind ≠ K.Expression := fun h => h4 e ((assigns_iff P hC hc hn hk).1 ⟨h1, h2, h3, hp, h⟩)
      simpa using this

omit hC in
theorem assigns_inj {c e v v' : Red} (hc : InTree g c) (h : Assigns c e v) (h' : Assigns c e v') : v = v' := by
  obtain ⟨E, T, Y, a, h1, h2, h3, h4, h5, h6, h7, h8⟩ := h
  obtain ⟨E', T', Y', a', g1, g2, g3, g4, g5, g6, g7, g8⟩ := h'
  have hnd := children_nodup c
  have hsplit : E = E' ∧ T ++ v :: Y = T' ++ v' :: Y' := by
    rw [h1] at hnd g1
    rw [List.append_assoc, List.cons_append] at hnd
    exact split_nodup hnd (by simpa using g1)
  have hvs := node_sig P (hc.child (c := v) (by rw [h1]; simp)) h7
  have hvs' := node_sig P (hc.child (c := v') (by rw [g1]; simp)) g7
  have := congrArg (List.filter Red.sig) hsplit.2
  rw [List.filter_append, List.filter_append, h2, g2, List.filter_cons_of_pos hvs, List.filter_cons_of_pos hvs'] at this
  simp only [List.singleton_append, List.cons.injEq] at this
  exact this.2.1

end

/-- The target of an assignment is already bound by the body of the query. -/
def Rebinds (g : Green) (v : Red) : Prop :=
  ∃ s c w e, InTree g s ∧ s.isNode = true ∧ s.kind = K.SelectQuery ∧ Part s K.SelectClause c ∧ Part s K.WhereClause w ∧
    Assigns c e v ∧ Shows w.green v.text

theorem assignments_targets (c : Red) : ((assignments c).map (·.2)).Sublist c.childrenT := by
  unfold assignments
  have : ∀ l : List Red, ((l.filterMap (fun v =>
    match Format.prevNode v with
    | none => none
    | some e => if e.kind = K.Expression then some (e, v) else none)).map (·.2)).Sublist l := by
    intro l
    induction l with
    | nil => exact .slnil
    | cons v l ih =>
      rw [List.filterMap_cons]
      split
      · exact ih.cons _
      · next p hp =>
        split at hp
        · cases hp
        · split at hp
          · cases hp; exact ih.cons_cons _
          · cases hp
  exact ((this _).trans List.filter_sublist).trans List.filter_sublist

/-- **C57.** For a valid query: an error is reported at exactly the variables that the select clause of the outer query
assigns (`.. AS ?x`) although its body binds them, in document order. -/
theorem c57_exact (errLen : Text → Nat) (text : Text) (g errs) (hp : parseSource errLen text = some (g, errs))
    (hq : g.kind = K.QueryUnit) (hd : Derives sparqlRules (.node K.QueryUnit) (kinds (lex errLen text))) :
    ∃ vs ds, added (invalidProjection text g) = some ds ∧ Reports text .error .invalidProjectionVar vs ds ∧
      vs.Pairwise (fun a b => a.stop ≤ b.start ∧ a ≠ b) ∧ ∀ v, v ∈ vs ↔ Rebinds g v := by
  have P := parsed_of hp
  have hC := complete_of hp (hq ▸ hd)
  have none_case : ∀ h : ∀ v, ¬ Rebinds g v, added (invalidProjection text g) = some [] →
      ∃ vs ds, added (invalidProjection text g) = some ds ∧ Reports text .error .invalidProjectionVar vs ds ∧
      vs.Pairwise (fun a b => a.stop ≤ b.start ∧ a ≠ b) ∧ ∀ v, v ∈ vs ↔ Rebinds g v := by
    intro h e
    exact ⟨[], [], e, .nil, .nil, fun v => ⟨(fun x => by cases x), fun x => absurd x (h v)⟩⟩
  cases hs : selectQuery g with
  | none =>
    refine none_case ?_ (by simp [invalidProjection, hs, added])
    rintro v ⟨s, c, w, e, h1, h2, h3, -⟩
    rw [(selectQuery_iff P hq s).2 ⟨h1, h2, h3⟩] at hs; cases hs
  | some s =>
    obtain ⟨hsT, hsn, hsk⟩ := (selectQuery_iff P hq s).1 hs
    obtain ⟨R, hR, -, ho, h1, -, -, ho', h1'⟩ := select_rule (s := s) (Or.inl hsk)
    have uniq : ∀ {s'}, InTree g s' → s'.isNode = true → s'.kind = K.SelectQuery → s' = s := by
      intro s' a b c
      have := (selectQuery_iff P hq s').2 ⟨a, b, c⟩
      rw [hs] at this; cases this; rfl
    have hcl : ∀ c, s.childOf [K.SelectClause] = some c ↔ Part s K.SelectClause c := fun c => childOf_iff P hC hsT hsn hR ho h1
    have hwl : ∀ c, s.childOf [K.WhereClause] = some c ↔ Part s K.WhereClause c := fun c => childOf_iff P hC hsT hsn hR ho' h1'
    cases hc : s.childOf [K.SelectClause] with
    | none =>
      refine none_case ?_ (by simp [invalidProjection, hs, hc, added])
      rintro v ⟨s', c, w, e, a, b, c', hp, -⟩
      rw [uniq a b c'] at hp
      rw [(hcl c).2 hp] at hc; cases hc
    | some c =>
      have hcp := (hcl c).1 hc
      have hcT := hsT.child hcp.1
      by_cases hem : (assignments c).isEmpty = true
      · refine none_case ?_ (by simp [invalidProjection, hs, hc, added, hem])
        rintro v ⟨s', c1, w, e, a, b, c', hp, -, ha, -⟩
        rw [uniq a b c'] at hp
        rw [(hcl c1).2 hp] at hc; cases hc
        have := (mem_assignments P hC hcT hcp.2.1 hcp.2.2).2 ha
        rw [List.isEmpty_iff.1 hem] at this; cases this
      · cases hw : s.childOf [K.WhereClause] with
        | none =>
          refine none_case ?_ (by simp [invalidProjection, hs, hc, added, hem, hw])
          rintro v ⟨s', c1, w, e, a, b, c', -, hp, -⟩
          rw [uniq a b c'] at hp
          rw [(hwl w).2 hp] at hw; cases hw
        | some w =>
          have hwp := (hwl w).1 hw
          have hmem : ∀ v, v ∈ ((assignments c).map (·.2)).filter (fun v => (attr w.green).visible.contains v.text) ↔ Rebinds g v := by
            intro v
            rw [List.mem_filter, List.contains_iff_mem, mem_visible]
            constructor
            · rintro ⟨hv, hsw⟩
              obtain ⟨⟨e, v'⟩, h3, h4⟩ := List.mem_map.1 hv
              have h4 : v' = v := h4
              subst h4
              exact ⟨s, c, w, e, hsT, hsn, hsk, hcp, hwp, (mem_assignments P hC hcT hcp.2.1 hcp.2.2).1 h3, hsw⟩
            · rintro ⟨s', c1, w1, e, a, b, c', hp1, hp2, ha, hsw⟩
              rw [uniq a b c'] at hp1 hp2
              rw [(hcl c1).2 hp1] at hc; cases hc
              rw [(hwl w1).2 hp2] at hw; cases hw
              exact ⟨List.mem_map.2 ⟨(e, v), (mem_assignments P hC hcT hcp.2.1 hcp.2.2).2 ha, rfl⟩, hsw⟩
          have hsub : (((assignments c).map (·.2)).filter (fun v => (attr w.green).visible.contains v.text)).Sublist c.childrenT :=
            List.filter_sublist.trans (assignments_targets c)
          obtain ⟨ds, e1, e2⟩ := reports_of P .error .invalidProjectionVar
            (vs := ((assignments c).map (·.2)).filter (fun v => (attr w.green).visible.contains v.text))
            (fun v hv => hcT.child (hsub.subset hv))
          refine ⟨_, ds, ?_, e2, ?_, hmem⟩
          · unfold invalidProjection
            rw [hs]
            dsimp only
            rw [hc]
            dsimp only
            rw [if_neg hem, hw]
            dsimp only
            rw [e1]
            rfl
          · exact List.pairwise_and_iff.2 ⟨(childrenT_pairwise c).sublist hsub, (children_nodup c).sublist hsub⟩

/-! ## Variables in expressions -/

theorem unaggInL_eq (cs : List Green) (idx off : Nat) (up : List Site) :
    unaggInL cs idx off up = (((childSites idx off cs).map (fun s => (⟨s, up⟩ : Red))).reverse).flatMap unaggregated := by
  induction cs generalizing idx off with
  | nil => rfl
  | cons g gs ih => simp [unaggInL, childSites, ih, unaggregated]

theorem unaggregated_eq (r : Red) : unaggregated r = (if r.isNode = true ∧ r.kind = K.Var then [r] else []) ++
    (if r.kind = K.Aggregate then [] else r.childrenT.reverse.flatMap unaggregated) := by
  obtain ⟨⟨gr, idx, off⟩, up⟩ := r
  cases gr with
  | tok k t => simp [unaggregated, unaggIn, Red.isNode, Red.childrenT]
  | node k cs =>
    simp only [unaggregated, unaggIn, Red.isNode, Red.kind, Green.kind, Red.childrenT, unaggInL_eq, true_and]
    rfl

theorem mem_unaggregated : ∀ (r x : Red), x ∈ unaggregated r ↔ x ∈ r.descendantsT ∧ x.isNode = true ∧ x.kind = K.Var ∧
    ∀ a ∈ x.ancestors, r.up.length ≤ a.up.length → a.kind ≠ K.Aggregate := by
  apply red_induction
  intro r ih x
  rw [unaggregated_eq, List.mem_append]
  have hself : ∀ a ∈ x.ancestors, x.up.length ≤ a.up.length → a = x := fun a ha h =>
    ancestor_inj ha (List.mem_cons_self ..) (by
      rcases List.mem_cons.1 ha with rfl | ha
      · rfl
      · have := chain_depth _ a ha; omega)
  constructor
  · rintro (h | h)
    · split at h
      · next hk =>
        rw [List.mem_singleton] at h
        subst h
        refine ⟨descendantsT_self _, hk.1, hk.2, ?_⟩
        intro a ha hl
        rw [hself a ha hl, hk.2]; decide
      · cases h
    · split at h
      · cases h
      · next hk =>
        obtain ⟨c, hc, hx⟩ := List.mem_flatMap.1 h
        have hc := List.mem_reverse.1 hc
        obtain ⟨h1, h2, h3, h4⟩ := (ih c hc x).1 hx
        have hr := descendantsT_anc (mem_descendantsT_of_child hc h1)
        refine ⟨mem_descendantsT_of_child hc h1, h2, h3, ?_⟩
        intro a ha hl
        by_cases e : a.up.length = r.up.length
        · rw [ancestor_inj ha hr e]; exact hk
        · exact h4 a ha (by rw [child_up hc]; simp only [List.length_cons]; omega)
  · rintro ⟨h1, h2, h3, h4⟩
    have hr := descendantsT_anc h1
    rw [descendantsT_eq] at h1
    rcases List.mem_cons.1 h1 with rfl | h1
    · left; rw [if_pos ⟨h2, h3⟩]; simp
    · right
      obtain ⟨c, hc, hx⟩ := List.mem_flatMap.1 h1
      rw [if_neg (h4 r hr (Nat.le_refl _))]
      refine List.mem_flatMap.2 ⟨c, List.mem_reverse.2 hc, (ih c hc x).2 ⟨hx, h2, h3, ?_⟩⟩
      intro a ha hl
      exact h4 a ha (by rw [child_up hc] at hl; simp only [List.length_cons] at hl; omega)

theorem unaggregated_nodup : ∀ r : Red, (unaggregated r).Nodup := by
  apply red_induction
  intro r ih
  rw [unaggregated_eq, List.nodup_append]
  have below : ∀ c ∈ r.childrenT, ∀ x ∈ unaggregated c, c ∈ x.ancestors := fun c _ x hx =>
    descendantsT_anc ((mem_unaggregated c x).1 hx).1
  refine ⟨by split <;> simp, ?_, ?_⟩
  · split
    · simp
    · rw [List.nodup_flatMap]
      refine ⟨fun c hc => ih c (List.mem_reverse.1 hc), ((List.nodup_reverse.2 (children_nodup r))).imp_of_mem ?_⟩
      intro a b ha hb hab x hxa hxb
      exact hab (sibling_inj (List.mem_reverse.1 ha) (List.mem_reverse.1 hb) (below a (List.mem_reverse.1 ha) x hxa)
        (below b (List.mem_reverse.1 hb) x hxb))
  · intro a ha b hb e
    subst e
    split at ha
    · rw [List.mem_singleton] at ha
      subst ha
      split at hb
      · cases hb
      · obtain ⟨c, hc, hx⟩ := List.mem_flatMap.1 hb
        have hc := List.mem_reverse.1 hc
        have h1 := below c hc a hx
        have h2 := child_up hc
        rcases List.mem_cons.1 h1 with h1 | h1
        · rw [h1] at h2; have := congrArg List.length h2; simp at this
        · have := chain_depth _ c h1; rw [h2] at this; simp at this; omega
    · cases ha

theorem chain_linear : ∀ (up : List Site), ∀ a ∈ Red.chain up, ∀ e ∈ Red.chain up, a.up.length < e.up.length → a ∈ Red.chain e.up := by
  intro up
  induction up with
  | nil => intro a h; cases h
  | cons s up ih =>
    intro a ha e he hl
    rcases List.mem_cons.1 he with rfl | he
    · rcases List.mem_cons.1 ha with rfl | ha
      · exact absurd hl (Nat.lt_irrefl _)
      · exact ha
    · rcases List.mem_cons.1 ha with rfl | ha
      · have := chain_depth _ e he; simp only at hl; omega
      · exact ih a ha e he hl

theorem ancestor_linear {x a e : Red} (ha : a ∈ x.ancestors) (he : e ∈ x.ancestors) (hl : a.up.length < e.up.length) :
    a ∈ Red.chain e.up := by
  rcases List.mem_cons.1 he with rfl | he
  · rcases List.mem_cons.1 ha with rfl | ha
    · exact absurd hl (Nat.lt_irrefl _)
    · exact ha
  · rcases List.mem_cons.1 ha with rfl | ha
    · have := chain_depth _ e he; omega
    · exact chain_linear _ a ha e he hl

theorem derivedIdx_none {l : List (Red × Red)} {t : Text} : derivedIdx l t = none ↔ ∀ p ∈ l, p.2.text ≠ t := by
  unfold derivedIdx
  rw [Option.map_eq_none_iff, List.getLast?_eq_none_iff, List.filter_eq_nil_iff]
  constructor
  · intro h p hp e
    obtain ⟨i, hi, rfl⟩ := List.getElem_of_mem hp
    exact h (l[i], i) (List.mem_zipIdx_iff_getElem?.2 (List.getElem?_eq_getElem hi)) (by simpa using e)
  · rintro h ⟨p, i⟩ hp
    have := List.mem_of_getElem? (List.mem_zipIdx_iff_getElem?.1 hp)
    simpa using h p this

theorem derivedIdx_some {l : List (Red × Red)} {t : Text} {j : Nat} (h : derivedIdx l t = some j) :
    (∃ p, l[j]? = some p ∧ p.2.text = t) ∧ ∀ k q, l[k]? = some q → q.2.text = t → k ≤ j := by
  unfold derivedIdx at h
  obtain ⟨⟨p, j'⟩, h1, h2⟩ := Option.map_eq_some_iff.1 h
  have h2 : j' = j := h2
  subst h2
  have hm := List.mem_filter.1 (List.mem_of_getLast? h1)
  refine ⟨⟨p, List.mem_zipIdx_iff_getElem?.1 hm.1, by simpa using hm.2⟩, ?_⟩
  intro k q hq hqt
  have hqm : (q, k) ∈ l.zipIdx.filter (fun p => p.1.2.text == t) :=
    List.mem_filter.2 ⟨List.mem_zipIdx_iff_getElem?.2 hq, by simpa using hqt⟩
  have hpw : (l.zipIdx.filter (fun p => p.1.2.text == t)).Pairwise (fun a b => a.2 < b.2) := by
    refine List.Pairwise.filter _ ?_
    have : (l.zipIdx.map (·.2)).Pairwise (· < ·) := by
      rw [List.zipIdx_map_snd]
      exact List.pairwise_lt_range'
    exact List.pairwise_map.1 this
  obtain ⟨L, e⟩ := List.getLast?_eq_some_iff.1 h1
  rw [e] at hpw hqm
  rcases List.mem_append.1 hqm with hh | hh
  · have := (List.pairwise_append.1 hpw).2.2 _ hh _ (List.mem_singleton.2 rfl)
    exact Nat.le_of_lt this
  · rw [List.mem_singleton] at hh
    cases hh; exact Nat.le_refl _

/-! ## Grouping variables -/

/-- A variable token is part of a `Var` node only. -/
theorem var_parent : sparqlRulesTree.toList.all (fun p => p.1 == K.Var ||
    (!(symbols p.2).contains (.tok K.VAR1) && !(symbols p.2).contains (.tok K.VAR2))) = true := by decide +kernel

theorem soleVar_eq : ∀ (l : List Red), soleVar (l.map Red.green) =
    (match l.filter Red.sig with | [c] => asVar c.green | _ => none) := by
  intro l
  induction l with
  | nil => rfl
  | cons c l ih =>
    rw [List.map_cons, soleVar, ih]
    have hk : c.green.kind = c.kind := rfl
    rw [hk]
    cases ht : triviaKind c.kind with
    | true => rw [if_pos rfl, List.filter_cons_of_neg (by simp [Red.sig, ht])]
    | false =>
      rw [if_neg (by simp), List.filter_cons_of_pos (by simp [Red.sig, ht])]
      have : ((l.map Red.green).all (fun d => triviaKind d.kind)) = (l.filter Red.sig).isEmpty := by
        clear ih
        induction l with
        | nil => rfl
        | cons x l ih =>
          have hx : x.green.kind = x.kind := rfl
          cases hxt : triviaKind x.kind with
          | true => rw [List.filter_cons_of_neg (by simp [Red.sig, hxt]), ← ih]; simp [hx, hxt]
          | false => rw [List.filter_cons_of_pos (by simp [Red.sig, hxt])]; simp [hx, hxt]
      rw [this]
      cases l.filter Red.sig <;> simp

section
variable {text : Text} {g : Green} (P : Parsed text g) (hC : ∀ n ∈ g.nodes, Complete sparqlRules n)
include P hC

omit hC in
theorem sigT_ne {r c : Red} (hr : InTree g r) (hc : c ∈ sigC r) : c.sigT ≠ [] := by
  obtain ⟨h1, h2⟩ := mem_sigC.1 hc
  cases hn : c.isNode with
  | false => rw [sigT_tok hn h2]; simp
  | true => exact (lastToken_sig P (hr.child h1) hn (by rw [child_up h1]; simp)).2

/-- A variable node: one token, its text. -/
theorem var_token {v : Red} (hv : InTree g v) (hn : v.isNode = true) (hk : v.kind = K.Var) (hu : v.up ≠ []) :
    ∃ x, v.sigT = [x] ∧ (x.kind = K.VAR1 ∨ x.kind = K.VAR2) ∧ x.text = v.text := by
  obtain ⟨-, h2⟩ := part_tokens hC hv hn (hk ▸ varRule) (by intro k; simp [symbols, rule_Var])
  have : ∃ x, v.sigT = [x] ∧ (x.kind = K.VAR1 ∨ x.kind = K.VAR2) := by
    have inv : ∀ w, Whole sparqlRules rule_Var w → w = [.tok K.VAR1] ∨ w = [.tok K.VAR2] := by
      intro w h
      unfold rule_Var at h
      cases h with
      | altL d => cases d; exact Or.inl rfl
      | altR d => cases d; exact Or.inr rfl
    rcases inv _ h2 with h | h
    all_goals
      obtain ⟨x, l, e, e1, e2⟩ := List.map_eq_cons_iff.1 h
      rw [List.map_eq_nil_iff] at e2
      subst e2
      injection e1 with e1
      exact ⟨x, e, by simp [e1]⟩
  obtain ⟨x, h3, h4⟩ := this
  refine ⟨x, h3, h4, ?_⟩
  obtain ⟨⟨k1, t1, l1, a1, a2⟩, k2, t2, l2, b1, b2⟩ := P.tight _ (P.inner_of hv hn hu)
  have hs := sigT_kt v
  rw [h3] at hs
  have hl : v.green.leaves = [x.kt] := by
    rw [a1, List.filter_cons_of_pos (by simp [a2])] at hs
    simp only [List.map_cons, List.map_nil, List.cons.injEq] at hs
    rw [a1] at b1
    rcases List.eq_nil_or_concat l1 with rfl | ⟨l, y, rfl⟩
    · rw [a1, hs.1]
    · exfalso
      rw [List.concat_eq_append] at b1 hs
      have := (List.append_inj' (s₁ := (k1, t1) :: l) b1 rfl).2
      injection this with h5
      have h6 := hs.2
      rw [List.filter_append, h5, List.filter_cons_of_pos (by simp [b2])] at h6
      simp at h6
  have : v.text = v.green.text := rfl
  rw [this]
  unfold Green.text
  rw [hl]
  simp [Red.kt]

/-- `Expression::as_var`: the expression is a single variable. -/
theorem asVar_iff : ∀ (r : Red), InTree g r → r.isNode = true → r.up ≠ [] → ∀ t,
    asVar r.green = some t ↔ ∃ x, r.sigT = [x] ∧ (x.kind = K.VAR1 ∨ x.kind = K.VAR2) ∧ x.text = t := by
  apply red_induction (P := fun r => InTree g r → r.isNode = true → r.up ≠ [] → ∀ t,
    asVar r.green = some t ↔ ∃ x, r.sigT = [x] ∧ (x.kind = K.VAR1 ∨ x.kind = K.VAR2) ∧ x.text = t)
  intro r ih hr hn hu t
  by_cases hk : r.kind = K.Var
  · obtain ⟨x, h1, h2, h3⟩ := var_token P hC hr hn hk hu
    have : asVar r.green = some r.text := by
      have hg : r.green = r.here.green := rfl
      unfold Red.isNode at hn
      cases he : r.here.green with
      | tok k t => rw [he] at hn; cases hn
      | node k cs =>
        have hkk : k = K.Var := by have : r.kind = r.here.green.kind := rfl; rw [this, he] at hk; exact hk
        rw [hg, he, asVar, if_pos hkk, ← he]; rfl
    rw [this]
    constructor
    · intro e; cases e; exact ⟨x, h1, h2, h3⟩
    · rintro ⟨y, e1, -, e3⟩
      rw [h1] at e1; cases e1
      rw [← e3, h3]
  · have hsole : asVar r.green = (match sigC r with | [c] => asVar c.green | _ => none) := by
      have hch := children_green r
      have hg : r.green = r.here.green := rfl
      have hn' := hn
      unfold Red.isNode at hn'
      cases he : r.here.green with
      | tok k t => rw [he] at hn'; cases hn'
      | node k cs =>
        have hkk : k ≠ K.Var := by have : r.kind = r.here.green.kind := rfl; rw [this, he] at hk; exact hk
        rw [he] at hch
        dsimp only at hch
        rw [hg, he, asVar, if_neg hkk, ← hch, soleVar_eq]
        rfl
    rw [hsole, sigT_children P hr hn]
    cases hs : sigC r with
    | nil => simp
    | cons c l =>
      have hcm : c ∈ sigC r := by rw [hs]; simp
      obtain ⟨hc1, hc2⟩ := mem_sigC.1 hcm
      have hne := sigT_ne P hr hcm
      cases l with
      | nil =>
        simp only [List.flatMap_cons, List.flatMap_nil, List.append_nil]
        cases hcn : c.isNode with
        | true => exact ih c hc1 (hr.child hc1) hcn (by rw [child_up hc1]; simp) t
        | false =>
          have hca : asVar c.green = none := by
            have hg : c.green = c.here.green := rfl
            rw [hg]
            unfold Red.isNode at hcn
            cases he : c.here.green with
            | tok k t => rfl
            | node k cs => rw [he] at hcn; cases hcn
          rw [hca]
          constructor
          · intro h; cases h
          · rintro ⟨x, h1, h2, -⟩
            exfalso
            rw [sigT_tok hcn hc2] at h1
            cases h1
            obtain ⟨-, R, hR, hRm, hw⟩ := whole_of P hC hr hn
            rw [syms_sig P hC hr (fun _ h => h)] at hw
            have hmem : Sym.tok c.kind ∈ symbols R := by
              have := allSyms_sound (f := fun s => (symbols R).contains s) hw (by
                have : ∀ (R0 R : Rule), (∀ s ∈ symbols R, s ∈ symbols R0) → allSyms (fun s => (symbols R0).contains s) R = true := by
                  intro R0 R
                  induction R with
                  | tok k => intro h; simpa [allSyms, symbols] using h
                  | node k => intro h; simpa [allSyms, symbols] using h
                  | seq a b iha ihb =>
                    intro h; simp only [symbols, List.mem_append] at h
                    simp only [allSyms, Bool.and_eq_true]; exact ⟨iha (fun s hs => h s (Or.inl hs)), ihb (fun s hs => h s (Or.inr hs))⟩
                  | alt a b iha ihb =>
                    intro h; simp only [symbols, List.mem_append] at h
                    simp only [allSyms, Bool.and_eq_true]; exact ⟨iha (fun s hs => h s (Or.inl hs)), ihb (fun s hs => h s (Or.inr hs))⟩
                  | opt a iha => intro h; exact iha h
                  | rep a iha => intro h; exact iha h
                exact this R R (fun _ h => h)) (symOf c) (List.mem_map.2 ⟨c, hcm, rfl⟩)
              rw [symOf_tok hcn] at this
              simpa using this
            have hall := List.all_eq_true.1 var_parent _ hRm
            simp only [Bool.or_eq_true, beq_iff_eq, hk, false_or, Bool.and_eq_true, Bool.not_eq_true', List.contains_eq_mem,
              decide_eq_false_iff_not] at hall
            rcases h2 with h2 | h2
            · rw [h2] at hmem; exact hall.1 hmem
            · rw [h2] at hmem; exact hall.2 hmem
      | cons d l =>
        have hdm : d ∈ sigC r := by rw [hs]; simp
        have hne' := sigT_ne P hr hdm
        constructor
        · intro h; cases h
        · rintro ⟨x, h1, -⟩
          exfalso
          have := congrArg List.length h1
          simp only [List.flatMap_cons, List.length_append, List.length_cons, List.length_nil] at this
          have a1 := List.length_pos_of_ne_nil hne
          have a2 := List.length_pos_of_ne_nil hne'
          omega

/-- What may be next to each other in a grouping condition. -/
def condNext (a b : Sym) : Bool :=
  a != .tok K.RParen && (a != .node K.Var || b == .tok K.RParen) && (a != .tok K.AS || b == .node K.Var) &&
    (a != .node K.Expression || b == .tok K.RParen || b == .tok K.AS)

theorem cond_var {cond v : Red} (hc : InTree g cond) (hn : cond.isNode = true) (hk : cond.kind = K.GroupCondition)
    (hv : Part cond K.Var v) : cond.lastChild = some v := by
  have hR : sparqlRules cond.kind = some rule_GroupCondition := hk ▸ groupConditionRule
  have next := fun {L T a b} (h : sigC cond = L ++ a :: b :: T) => sigC_next P hC hc hn hR (f := condNext) (by decide +kernel) h
  obtain ⟨L, T, e⟩ := List.append_of_mem (mem_sigC.2 ⟨hv.1, node_sig P (hc.child hv.1) hv.2.1⟩)
  cases T with
  | nil => exact lastChild_of P hC hc e hv.2.1
  | cons b T =>
    have h1 := next e
    rw [symOf_node hv.2.1, hv.2.2] at h1
    have hb : symOf b = .tok K.RParen := by
      unfold condNext at h1
      simp only [Bool.and_eq_true, Bool.or_eq_true, bne_self_eq_false, Bool.false_eq_true, false_or, beq_iff_eq] at h1
      exact h1.1.1.2
    cases T with
    | nil =>
      unfold Red.lastChild
      rw [children_sig P hc, e, List.filter_append, List.filter_cons_of_pos hv.2.1,
        List.filter_cons_of_neg (by simp [(symOf_eq_tok.1 hb).1])]
      simp
    | cons d T =>
      exfalso
      have h2 := next (L := L ++ [v]) (a := b) (b := d) (T := T) (by rw [e]; simp)
      rw [hb] at h2
      simp [condNext] at h2

theorem cond_expr {cond e : Red} (hc : InTree g cond) (hn : cond.isNode = true) (hk : cond.kind = K.GroupCondition)
    (he : Part cond K.Expression e) (hno : ∀ v, ¬ Part cond K.Var v) : cond.lastChild = some e := by
  have hR : sparqlRules cond.kind = some rule_GroupCondition := hk ▸ groupConditionRule
  have next := fun {L T a b} (h : sigC cond = L ++ a :: b :: T) => sigC_next P hC hc hn hR (f := condNext) (by decide +kernel) h
  obtain ⟨L, T, e1⟩ := List.append_of_mem (mem_sigC.2 ⟨he.1, node_sig P (hc.child he.1) he.2.1⟩)
  cases T with
  | nil => exact lastChild_of P hC hc e1 he.2.1
  | cons b T =>
    have h1 := next e1
    rw [symOf_node he.2.1, he.2.2] at h1
    have hb : symOf b = .tok K.RParen ∨ symOf b = .tok K.AS := by
      unfold condNext at h1
      simp only [Bool.and_eq_true, Bool.or_eq_true, bne_self_eq_false, Bool.false_eq_true, false_or, beq_iff_eq] at h1
      exact h1.2
    have hT : T = [] := by
      cases T with
      | nil => rfl
      | cons d T =>
        exfalso
        have h2 := next (L := L ++ [e]) (a := b) (b := d) (T := T) (by rw [e1]; simp)
        rcases hb with hb | hb
        · rw [hb] at h2
          simp [condNext] at h2
        · rw [hb] at h2
          have hd : symOf d = .node K.Var := by
            unfold condNext at h2
            simp only [Bool.and_eq_true, Bool.or_eq_true, bne_self_eq_false, Bool.false_eq_true, false_or, beq_iff_eq] at h2
            exact h2.1.2
          have hdm : d ∈ sigC cond := by rw [e1]; simp
          exact hno d ⟨(mem_sigC.1 hdm).1, (symOf_eq_node.1 hd).1, (symOf_eq_node.1 hd).2⟩
    subst hT
    have hbn : b.isNode = false := by rcases hb with hb | hb <;> exact (symOf_eq_tok.1 hb).1
    unfold Red.lastChild
    rw [children_sig P hc, e1, List.filter_append, List.filter_cons_of_pos he.2.1, List.filter_cons_of_neg (by simp [hbn])]
    simp

theorem mem_groupTexts {gc : Red} (hg : InTree g gc) (hn : gc.isNode = true) (hk : gc.kind = K.GroupClause) (t : Text) :
    t ∈ groupTexts gc ↔ GroupVar gc t := by
  have hR : sparqlRules gc.kind = some rule_GroupClause := hk ▸ groupClauseRule
  have hcond : ∀ c ∈ gc.children, Part gc K.GroupCondition c := by
    intro c hc
    obtain ⟨h1, h2⟩ := mem_children.1 hc
    refine ⟨h1, h2, ?_⟩
    have := allSyms_sound (f := fun s => match s with | .node k => k == K.GroupCondition | _ => true)
      (sigC_whole P hC hg hn hR) (by decide +kernel) (symOf c) (List.mem_map.2 ⟨c, mem_sigC.2 ⟨h1, node_sig P (hg.child h1) h2⟩, rfl⟩)
    rw [symOf_node h2] at this
    simpa using this
  unfold groupTexts
  rw [List.mem_filterMap]
  constructor
  · rintro ⟨cond, hc, h⟩
    have hp := hcond cond hc
    have hcT := hg.child hp.1
    refine ⟨cond, hp, ?_⟩
    split at h
    · cases h
    · next n hl =>
      obtain ⟨h1, h2⟩ := mem_children.1 (List.mem_of_getLast? hl)
      split at h
      · next hv =>
        cases h
        exact Or.inl ⟨n, ⟨h1, h2, hv⟩, rfl⟩
      · next hv =>
        split at h
        · next he =>
          right
          refine ⟨?_, ?_⟩
          · intro v hvp
            have := cond_var P hC hcT hp.2.1 hp.2.2 hvp
            rw [hl] at this; cases this
            exact hv hvp.2.2
          · obtain ⟨x, a, b, c⟩ := (asVar_iff P hC n (hcT.child h1) h2 (by rw [child_up h1]; simp) t).1 h
            exact ⟨n, x, ⟨h1, h2, he⟩, a, b, c⟩
        · cases h
  · rintro ⟨cond, hp, h⟩
    have hcT := hg.child hp.1
    refine ⟨cond, mem_children.2 ⟨hp.1, hp.2.1⟩, ?_⟩
    rcases h with ⟨v, hv, rfl⟩ | ⟨hno, e, x, he, h1, h2, h3⟩
    · rw [cond_var P hC hcT hp.2.1 hp.2.2 hv]
      simp [hv.2.2]
    · rw [cond_expr P hC hcT hp.2.1 hp.2.2 he hno]
      have hne : e.kind ≠ K.Var := by rw [he.2.2]; decide
      dsimp only
      rw [if_neg hne, if_pos he.2.2]
      exact (asVar_iff P hC e (hcT.child he.1) he.2.1 (by rw [child_up he.1]; simp) t).2 ⟨x, h1, h2, h3⟩

end
/-- A variable of the select clause that the grouping leaves open: it is selected as it is, or it is used in an expression
outside of all aggregates and no assignment up to this one defines it (more precisely: no assignment of the clause does, or
a later one does). -/
def Ungrouped (g : Green) (v : Red) : Prop :=
  ∃ s c gc, InTree g s ∧ s.isNode = true ∧ s.kind = K.SelectQuery ∧ Part s K.SelectClause c ∧ GroupedBy s gc ∧
    ¬ GroupVar gc v.text ∧
    (Selects c v ∨ ∃ e x, Assigns c e x ∧ FreeIn g e v ∧
      ((∀ e' x', Assigns c e' x' → x'.text ≠ v.text) ∨ ∃ e' x', Assigns c e' x' ∧ x'.text = v.text ∧ x.stop ≤ x'.start))

section
variable {text : Text} {g : Green} (P : Parsed text g) (hC : ∀ n ∈ g.nodes, Complete sparqlRules n)
include P hC

omit hC in
/-- Nothing above the select clause of the outer query is an aggregate. -/
theorem outer_chain (hq : g.kind = K.QueryUnit) {s c e : Red} (hs : InTree g s) (hsn : s.isNode = true) (hsk : s.kind = K.SelectQuery)
    (hc : Part s K.SelectClause c) (he : e ∈ c.childrenT) : ∀ a ∈ Red.chain e.up, a.kind ≠ K.Aggregate := by
  intro a ha
  rw [parent_chain (child_parent he)] at ha
  rcases List.mem_cons.1 ha with rfl | ha
  · rw [hc.2.2]; decide
  rw [parent_chain (child_parent hc.1)] at ha
  rcases List.mem_cons.1 ha with rfl | ha
  · rw [hsk]; decide
  obtain ⟨q, h1, h2, h3, h4⟩ := P.parent_kind hs hsn (by rw [hsk]; decide) (ne_root hq hsk (by decide)) [K.Query]
    (by rw [hsk]; decide +kernel)
  have hqk : q.kind = K.Query := by simpa using h4
  rw [parent_chain (child_parent h3)] at ha
  rcases List.mem_cons.1 ha with rfl | ha
  · rw [hqk]; decide
  obtain ⟨r, h5, h6, h7, h8⟩ := P.parent_kind h1 h2 (by rw [hqk]; decide) (ne_root hq hqk (by decide)) [K.QueryUnit]
    (by rw [hqk]; decide +kernel)
  rw [parent_chain (child_parent h7)] at ha
  have hr := root_only P h5 h6 (by simpa using h8)
  subst hr
  rcases List.mem_cons.1 ha with rfl | ha
  · show g.kind ≠ _; rw [hq]; decide
  · cases ha

omit hC in
theorem free_iff (hq : g.kind = K.QueryUnit) {s c e v : Red} (hs : InTree g s) (hsn : s.isNode = true) (hsk : s.kind = K.SelectQuery)
    (hc : Part s K.SelectClause c) (he : e ∈ c.childrenT) : v ∈ unaggregated e ↔ FreeIn g e v := by
  have heT := (hs.child hc.1).child he
  rw [mem_unaggregated]
  constructor
  · rintro ⟨h1, h2, h3, h4⟩
    have hT := inTree_of_mem_descendantsT e heT v h1
    have hanc := descendantsT_anc h1
    refine ⟨hT, h2, h3, hanc, ?_⟩
    intro a ha
    by_cases hl : e.up.length ≤ a.up.length
    · exact h4 a ha hl
    · exact outer_chain P hq hs hsn hsk hc he a (ancestor_linear ha hanc (by omega))
  · rintro ⟨h1, h2, h3, h4, h5⟩
    exact ⟨anc_descendantsT h1 e h4, h2, h3, fun a ha _ => h5 a ha⟩

omit hC in
theorem assign_mem {c e v : Red} (h : Assigns c e v) : e ∈ c.childrenT ∧ v ∈ c.childrenT := by
  obtain ⟨E, T, Y, a, h1, -⟩ := h
  rw [h1]; simp

theorem mem_ungroupedVars (hq : g.kind = K.QueryUnit) {s c gc : Red} (hs : InTree g s) (hsn : s.isNode = true)
    (hsk : s.kind = K.SelectQuery) (hc : Part s K.SelectClause c) (hgc : GroupedBy s gc) (v : Red) :
    v ∈ ungroupedVars gc c ↔ ¬ GroupVar gc v.text ∧
      (Selects c v ∨ ∃ e x, Assigns c e x ∧ FreeIn g e v ∧
        ((∀ e' x', Assigns c e' x' → x'.text ≠ v.text) ∨ ∃ e' x', Assigns c e' x' ∧ x'.text = v.text ∧ x.stop ≤ x'.start)) := by
  have hcT := hs.child hc.1
  obtain ⟨m, hm, hg⟩ := hgc
  have hgT := (hs.child hm.1).child hg.1
  have hG := mem_groupTexts P hC hgT hg.2.1 hg.2.2
  have hA := fun {e v} => mem_assignments P hC (e := e) (v := v) hcT hc.2.1 hc.2.2
  have hlt : ∀ {i j : Nat} {p q : Red × Red}, (assignments c)[i]? = some p → (assignments c)[j]? = some q →
      (i < j ↔ p.2.stop ≤ q.2.start) := by
    have hpw : ((assignments c).map (·.2)).Pairwise (fun a b => a.stop ≤ b.start) :=
      (childrenT_pairwise c).sublist (assignments_targets c)
    rw [List.pairwise_map] at hpw
    have fwd : ∀ {i j : Nat} {p q : Red × Red}, (assignments c)[i]? = some p → (assignments c)[j]? = some q → i < j →
        p.2.stop ≤ q.2.start := by
      intro i j p q h1 h2 hij
      obtain ⟨hi, rfl⟩ := List.getElem?_eq_some_iff.1 h1
      obtain ⟨hj, rfl⟩ := List.getElem?_eq_some_iff.1 h2
      exact List.pairwise_iff_getElem.1 hpw i j hi hj hij
    have pos : ∀ {i : Nat} {p : Red × Red}, (assignments c)[i]? = some p → p.2.start < p.2.stop := by
      intro i p h
      have hm := List.mem_of_getElem? h
      have hv := (assign_mem P (hA.1 (show (p.1, p.2) ∈ assignments c from hm))).2
      have := blen_pos (elem_nonempty P hC hcT hv)
      unfold Red.stop Red.start; omega
    intro i j p q h1 h2
    refine ⟨fwd h1 h2, fun h => ?_⟩
    rcases Nat.lt_trichotomy i j with h3 | h3 | h3
    · exact h3
    · subst h3; rw [h1] at h2; cases h2
      have := pos h1; omega
    · have := fwd h2 h1 h3
      have a1 := pos h1
      have a2 := pos h2
      omega
  unfold ungroupedVars
  rw [List.mem_append, List.mem_filter, mem_selectedVars P hC hcT hc.2.1 hc.2.2]
  simp only [List.mem_map, List.mem_filter, List.mem_flatMap, Bool.and_eq_true, Bool.not_eq_true', List.contains_eq_mem,
    decide_eq_false_iff_not, hG]
  have hcondIff : ∀ {i : Nat} {e x : Red} (t : Text), (assignments c)[i]? = some (e, x) →
      ((match derivedIdx (assignments c) t with | none => true | some j => decide (i < j)) = true ↔
        ((∀ e' x', Assigns c e' x' → x'.text ≠ t) ∨ ∃ e' x', Assigns c e' x' ∧ x'.text = t ∧ x.stop ≤ x'.start)) := by
    intro i e x t hi
    cases hd : derivedIdx (assignments c) t with
    | none =>
      have := derivedIdx_none.1 hd
      simp only [true_iff]
      exact Or.inl (fun e' x' h => this _ (hA.2 h))
    | some j =>
      obtain ⟨⟨p, h1, h2⟩, h3⟩ := derivedIdx_some hd
      simp only [decide_eq_true_iff]
      constructor
      · intro hij
        exact Or.inr ⟨p.1, p.2, hA.1 (List.mem_of_getElem? h1), h2, (hlt hi h1).1 hij⟩
      · rintro (h | ⟨e', x', h4, h5, h6⟩)
        · exact absurd h2 (h p.1 p.2 (hA.1 (List.mem_of_getElem? h1)))
        · obtain ⟨k, hk, e1⟩ := List.getElem_of_mem (hA.2 h4)
          have hk' : (assignments c)[k]? = some (e', x') := by rw [List.getElem?_eq_getElem hk, e1]
          have := (hlt hi hk').2 h6
          have := h3 k _ hk' h5
          omega
  constructor
  · rintro (⟨h1, h2⟩ | ⟨⟨i, w⟩, ⟨⟨⟨⟨e, x⟩, i'⟩, h1, h2⟩, h3, h4⟩, rfl⟩)
    · exact ⟨h2, Or.inl h1⟩
    · obtain ⟨w', h5, h6⟩ := h2
      cases h6
      have hi := List.mem_zipIdx_iff_getElem?.1 h1
      have ha := hA.1 (List.mem_of_getElem? hi)
      exact ⟨h3, Or.inr ⟨e, x, ha, (free_iff P hq hs hsn hsk hc (assign_mem P ha).1).1 h5, (hcondIff _ hi).1 h4⟩⟩
  · rintro ⟨h1, h2 | ⟨e, x, h2, h3, h4⟩⟩
    · exact Or.inl ⟨h2, h1⟩
    · right
      obtain ⟨i, hi, e1⟩ := List.getElem_of_mem (hA.2 h2)
      have hi' : (assignments c)[i]? = some (e, x) := by rw [List.getElem?_eq_getElem hi, e1]
      exact ⟨(i, v), ⟨⟨((e, x), i), List.mem_zipIdx_iff_getElem?.2 hi',
        v, (free_iff P hq hs hsn hsk hc (assign_mem P h2).1).2 h3, rfl⟩, h1, (hcondIff _ hi').2 h4⟩, rfl⟩

theorem ungroupedVars_nodup {c gc : Red} (hcT : InTree g c) (hcn : c.isNode = true) (hck : c.kind = K.SelectClause) :
    (ungroupedVars gc c).Nodup := by
  have hA := fun {e v} => mem_assignments P hC (e := e) (v := v) hcT hcn hck
  unfold ungroupedVars
  have hflat : ((assignments c).zipIdx.flatMap (fun p => (unaggregated p.1.1).map (fun v => (p.2, v)))).map (·.2) =
      (assignments c).flatMap (fun p => unaggregated p.1) := by
    rw [List.map_flatMap]
    have : ∀ (l : List (Red × Red)) (n : Nat), (l.zipIdx n).flatMap (fun p => ((unaggregated p.1.1).map (fun v => (p.2, v))).map (·.2)) =
        l.flatMap (fun p => unaggregated p.1) := by
      intro l
      induction l with
      | nil => intro n; rfl
      | cons a l ih => intro n; rw [List.zipIdx_cons, List.flatMap_cons, List.flatMap_cons, ih]; simp
    exact this _ 0
  have hsub : ((((assignments c).zipIdx.flatMap (fun p => (unaggregated p.1.1).map (fun v => (p.2, v)))).filter (fun q =>
    !(groupTexts gc).contains q.2.text &&
      (match derivedIdx (assignments c) q.2.text with
       | none => true
       | some i => decide (q.1 < i)))).map (·.2)).Sublist ((assignments c).flatMap (fun p => unaggregated p.1)) := by
    rw [← hflat]; exact List.filter_sublist.map _
  rw [List.nodup_append]
  refine ⟨?_, ?_, ?_⟩
  · unfold selectedVars Red.children
    exact ((((children_nodup c).filter _).filter _).filter _).filter _
  · refine List.Nodup.sublist hsub ?_
    rw [List.nodup_flatMap]
    refine ⟨fun p _ => unaggregated_nodup _, ?_⟩
    have h1 : ((assignments c).map (·.2)).Nodup := (children_nodup c).sublist (assignments_targets c)
    unfold List.Nodup at h1
    rw [List.pairwise_map] at h1
    refine h1.imp_of_mem ?_
    intro a b ha hb hab x hxa hxb
    have ha' := hA.1 (show (a.1, a.2) ∈ assignments c from ha)
    have hb' := hA.1 (show (b.1, b.2) ∈ assignments c from hb)
    have e := sibling_inj (assign_mem P ha').1 (assign_mem P hb').1 (descendantsT_anc ((mem_unaggregated _ _).1 hxa).1)
      (descendantsT_anc ((mem_unaggregated _ _).1 hxb).1)
    rw [e] at ha'
    exact hab (assigns_inj P hcT ha' hb')
  · intro a ha b hb e
    subst e
    have ha := (mem_selectedVars P hC hcT hcn hck).1 (List.mem_filter.1 ha).1
    obtain ⟨p, hp, hx⟩ := List.mem_flatMap.1 (hsub.subset hb)
    have hp' := hA.1 (show (p.1, p.2) ∈ assignments c from hp)
    have h1 := descendantsT_anc ((mem_unaggregated _ _).1 hx).1
    have e := sibling_inj (assign_mem P hp').1 ha.1.1 h1 (List.mem_cons_self ..)
    obtain ⟨E, T, Y, q, -, -, -, -, -, h6, -⟩ := hp'
    rw [e, ha.1.2.2] at h6
    exact absurd h6 (by decide)

end

/-- **C56.** For a valid query with `GROUP BY`: an error is reported at exactly the variables of the select clause of the
outer query that the grouping leaves open, each once. -/
theorem c56_exact (errLen : Text → Nat) (text : Text) (g errs) (hp : parseSource errLen text = some (g, errs))
    (hq : g.kind = K.QueryUnit) (hd : Derives sparqlRules (.node K.QueryUnit) (kinds (lex errLen text))) :
    ∃ vs ds, added (ungroupedSelect text g) = some ds ∧ Reports text .error .ungroupedSelectVar vs ds ∧ vs.Nodup ∧
      ∀ v, v ∈ vs ↔ Ungrouped g v := by
  have P := parsed_of hp
  have hC := complete_of hp (hq ▸ hd)
  have none_case : ∀ h : ∀ v, ¬ Ungrouped g v, added (ungroupedSelect text g) = some [] →
      ∃ vs ds, added (ungroupedSelect text g) = some ds ∧ Reports text .error .ungroupedSelectVar vs ds ∧ vs.Nodup ∧
      ∀ v, v ∈ vs ↔ Ungrouped g v := by
    intro h e
    exact ⟨[], [], e, .nil, .nil, fun v => ⟨(fun x => by cases x), fun x => absurd x (h v)⟩⟩
  cases hs : selectQuery g with
  | none =>
    refine none_case ?_ (by simp [ungroupedSelect, hs, added])
    rintro v ⟨s, c, gc, h1, h2, h3, -⟩
    rw [(selectQuery_iff P hq s).2 ⟨h1, h2, h3⟩] at hs; cases hs
  | some s =>
    obtain ⟨hsT, hsn, hsk⟩ := (selectQuery_iff P hq s).1 hs
    obtain ⟨R, hR, -, ho, h1, -, -, -, -⟩ := select_rule (s := s) (Or.inl hsk)
    have uniq : ∀ {s'}, InTree g s' → s'.isNode = true → s'.kind = K.SelectQuery → s' = s := by
      intro s' a b c
      have := (selectQuery_iff P hq s').2 ⟨a, b, c⟩
      rw [hs] at this; cases this; rfl
    have hcl : ∀ c, s.childOf [K.SelectClause] = some c ↔ Part s K.SelectClause c := fun c => childOf_iff P hC hsT hsn hR ho h1
    have hnv : ∀ v, ¬ Part s K.ValuesClause v := by
      intro v hv
      have := allSyms_sound (f := fun s => s != .node K.ValuesClause) (sigC_whole P hC hsT hsn (hsk ▸ selectQueryRule))
        (by decide +kernel) (symOf v) (List.mem_map.2 ⟨v, mem_sigC.2 ⟨hv.1, node_sig P (hsT.child hv.1) hv.2.1⟩, rfl⟩)
      rw [symOf_node hv.2.1, hv.2.2] at this
      simp at this
    have hgl : ∀ gc, groupClause s = some gc ↔ GroupedBy s gc := fun gc =>
      (groupClause_iff P hC ⟨hsT, hsn, Or.inl hsk⟩).trans ⟨fun h => h.1, fun h => ⟨h, hnv⟩⟩
    cases hg : groupClause s with
    | none =>
      refine none_case ?_ (by simp [ungroupedSelect, hs, hg, added])
      rintro v ⟨s', c, gc, a, b, c', hp, hgb, -⟩
      rw [uniq a b c'] at hgb
      rw [(hgl gc).2 hgb] at hg; cases hg
    | some gc =>
      have hgb := (hgl gc).1 hg
      cases hc : s.childOf [K.SelectClause] with
      | none =>
        refine none_case ?_ (by simp [ungroupedSelect, hs, hg, hc, added])
        rintro v ⟨s', c, gc, a, b, c', hp, -⟩
        rw [uniq a b c'] at hp
        rw [(hcl c).2 hp] at hc; cases hc
      | some c =>
        have hcp := (hcl c).1 hc
        have hcT := hsT.child hcp.1
        have hmem : ∀ v, v ∈ ungroupedVars gc c ↔ Ungrouped g v := by
          intro v
          rw [mem_ungroupedVars P hC hq hsT hsn hsk hcp hgb]
          constructor
          · intro h; exact ⟨s, c, gc, hsT, hsn, hsk, hcp, hgb, h⟩
          · rintro ⟨s', c1, gc1, a, b, c', hp1, hp2, h⟩
            rw [uniq a b c'] at hp1 hp2
            rw [(hcl c1).2 hp1] at hc; cases hc
            rw [(hgl gc1).2 hp2] at hg; cases hg
            exact h
        obtain ⟨ds, e1, e2⟩ := reports_of P .error .ungroupedSelectVar (vs := ungroupedVars gc c) (by
          intro v hv
          obtain ⟨s', c1, gc1, hs', -, -, hp1, -, -, h | ⟨e, x, -, h, -⟩⟩ := (hmem v).1 hv
          · exact (hs'.child hp1.1).child h.1.1
          · exact h.1)
        refine ⟨_, ds, ?_, e2, ungroupedVars_nodup P hC hcT hcp.2.1 hcp.2.2, hmem⟩
        simp [ungroupedSelect, hs, hc, hg, e1, added]

/-! ## Examples -/

theorem star_derives : Derives sparqlRules (.node starTree.kind) (kinds (lex (fun _ => 1) starText)) :=
  (c42_accept_iff .query _ (by decide +kernel) (by decide +kernel)).mp
    ⟨_, (Option.some_get (x := parseTokens .query (kinds (lex (fun _ => 1) starText))) (by decide +kernel)).symm, by
      have : ((parseTokens .query (kinds (lex (fun _ => 1) starText))).get (by decide +kernel)).all
        (fun e => match e with | .error _ => false | _ => true) = true := by decide +kernel
      intro x hx
      have := List.all_eq_true.mp this _ hx
      simp at this, by decide +kernel⟩

theorem grp_derives : Derives sparqlRules (.node grpTree.kind) (kinds (lex (fun _ => 1) grpText)) :=
  (c42_accept_iff .query _ (by decide +kernel) (by decide +kernel)).mp
    ⟨_, (Option.some_get (x := parseTokens .query (kinds (lex (fun _ => 1) grpText))) (by decide +kernel)).symm, by
      have : ((parseTokens .query (kinds (lex (fun _ => 1) grpText))).get (by decide +kernel)).all
        (fun e => match e with | .error _ => false | _ => true) = true := by decide +kernel
      intro x hx
      have := List.all_eq_true.mp this _ hx
      simp at this, by decide +kernel⟩

/-- Example: in `SELECT * {{SELECT * {} GROUP BY ?x}{SELECT * {} GROUP BY ?y VALUES ?z {}}} GROUP BY ?a` the star of the
outer query and of the first sub-select are reported; the one of the second sub-select is missed because of its `VALUES`. -/
theorem c55_cases : parseSource (fun _ => 1) starText = some (starTree, []) ∧
    Derives sparqlRules (.node starTree.kind) (kinds (lex (fun _ => 1) starText)) ∧
    added (groupbyStar starText starTree) = some [⟨⟨⟨0, 7⟩, ⟨0, 8⟩⟩, .error, .groupbyStar, none⟩,
      ⟨⟨⟨0, 18⟩, ⟨0, 19⟩⟩, .error, .groupbyStar, none⟩] :=
  ⟨starTree_parse, star_derives, by decide +kernel⟩

/-- Example: in `SELECT ?a ?x (?b+COUNT(?d) AS ?c) (?c AS ?e) (?f AS ?f) {?c ?p $x} GROUP BY ?x (?b)` only `?a` is reported:
`?x` and `?b` are grouped, `?d` is in an aggregate, `?c` is assigned before its use; `?f`, assigned to itself, is missed. -/
theorem c56_cases : parseSource (fun _ => 1) grpText = some (grpTree, []) ∧ grpTree.kind = K.QueryUnit ∧
    Derives sparqlRules (.node grpTree.kind) (kinds (lex (fun _ => 1) grpText)) ∧
    added (ungroupedSelect grpText grpTree) = some [⟨⟨⟨0, 7⟩, ⟨0, 9⟩⟩, .error, .ungroupedSelectVar, none⟩] :=
  ⟨grpTree_parse, by decide +kernel, grp_derives, by decide +kernel⟩

/-- Example: in the same document the target `?c` is reported since the body binds it. -/
theorem c57_cases : parseSource (fun _ => 1) grpText = some (grpTree, []) ∧ grpTree.kind = K.QueryUnit ∧
    Derives sparqlRules (.node grpTree.kind) (kinds (lex (fun _ => 1) grpText)) ∧
    added (invalidProjection grpText grpTree) = some [⟨⟨⟨0, 30⟩, ⟨0, 32⟩⟩, .error, .invalidProjectionVar, none⟩] :=
  ⟨grpTree_parse, by decide +kernel, grp_derives, by decide +kernel⟩

end Verif.Props
