import Verif.Features.Shape
import Verif.Features.Diagnostics
import Verif.Features.Demo
import Verif.Props.Text
/-!
# C36 - C38: prefix diagnostics

Specification (Features/Diagnostics.lean): `Uses`, `Declares`, `Unlabelled` speak about the whole tree of the document,
`Covers` (Features/ParseTree.lean) about ranges; none of them follows the navigation of the providers.
-/
namespace Verif.Props
open Verif Verif.Grammar Verif.Lexer Verif.Features

/-! ## Prefixes -/

theorem splitColon_of {p rest : Text} (h : ':' ∉ p) : splitColon (p ++ ':' :: rest) = some (p, rest) := by
  induction p with
  | nil => simp [splitColon]
  | cons c p ih =>
    simp only [List.mem_cons, not_or] at h
    have hc : ¬ (c = ':') := fun e => h.1 e.symm
    simp only [List.cons_append, splitColon, if_neg hc, ih h.2, Option.map_some]

theorem prefix_unique {p p' rest rest' : Text} (h : ':' ∉ p) (h' : ':' ∉ p') (e : p ++ ':' :: rest = p' ++ ':' :: rest') :
    p = p' := by
  have := splitColon_of (rest := rest) h
  rw [e, splitColon_of h'] at this
  cases this; rfl

theorem uses_unique {g : Green} {n : Red} {p p' : Text} (h : Uses g n p) (h' : Uses g n p') : p = p' := by
  obtain ⟨-, -, -, r, e, hp⟩ := h
  obtain ⟨-, -, -, r', e', hp'⟩ := h'
  exact prefix_unique hp hp' (e.symm.trans e')

theorem usePrefix_eq {g : Green} {n : Red} {p : Text} (h : Uses g n p) : usePrefix n = some p := by
  obtain ⟨-, -, -, r, e, hp⟩ := h
  simp [usePrefix, e, splitColon_of hp]

theorem pname_text {text g} (P : Parsed text g) {k : Kind} {w : Text} (h : (k, w) ∈ g.leaves) (hk : k = K.PNAME_NS ∨ k = K.PNAME_LN) :
    ∃ p rest, w = p ++ ':' :: rest ∧ ':' ∉ p ∧ (k = K.PNAME_NS → rest = []) := by
  have hE : k ≠ K.Error := by rcases hk with rfl | rfl <;> decide
  obtain ⟨r, hr, e, hm⟩ := P.lexed _ h hE
  have e : r.kind = k := e
  have hm : Matches r.re w := hm
  have := List.all_eq_true.1 pname_rules r hr
  simp only [Bool.and_eq_true, Bool.or_eq_true, bne_iff_ne, beq_iff_eq] at this
  rcases hk with rfl | rfl
  · rcases this.1 with h | h
    · exact absurd e h
    · obtain ⟨p, q, h1, h2, h3⟩ := colonSplit_sound h hm
      exact ⟨p, q, h1, h2, fun _ => h3 rfl⟩
  · rcases this.2 with h | h
    · exact absurd e h
    · obtain ⟨p, q, h1, h2, -⟩ := colonSplit_sound h hm
      exact ⟨p, q, h1, h2, fun h => absurd h (by decide)⟩

/-- Every prefixed name has a prefix. -/
theorem uses_of {text g} (P : Parsed text g) {n : Red} (h : InTree g n) (hn : n.isNode = true) (hk : n.kind = K.PrefixedName) :
    ∃ p, Uses g n p := by
  have hmem := h.green_mem hn
  have hks : (K.PrefixedName, [K.PNAME_LN, K.PNAME_NS]) ∈ nodeStarts := by decide +kernel
  obtain ⟨⟨k, w⟩, l, e, hp⟩ := P.starts _ hmem [K.PNAME_LN, K.PNAME_NS] (by
    have : n.green.kind = K.PrefixedName := hk
    rw [this]; exact hks)
  have hleaf := leaves_of_nodes hmem (k, w) (by rw [e]; simp)
  have hp : k ∈ [K.PNAME_LN, K.PNAME_NS] := hp
  have hk' : k = K.PNAME_NS ∨ k = K.PNAME_LN := by
    simp only [List.mem_cons, List.not_mem_nil, or_false] at hp
    exact hp.symm
  obtain ⟨p, rest, h1, h2, -⟩ := pname_text P hleaf hk'
  refine ⟨p, h, hn, hk, rest ++ flat l, ?_, h2⟩
  rw [← flat_leaves n, e]
  show w ++ flat l = _
  rw [h1]; simp

/-! ## Declarations -/

theorem sym_of_child {text g} (P : Parsed text g) {r c : Red} (hr : InTree g r) (hc : c ∈ r.childrenT) {R : Rule}
    (hR : sparqlRules r.kind = some R) (hE : r.kind ≠ K.Error) (hs : c.green.sym ≠ none) : ∃ s, c.green.sym = some s ∧ s ∈ symbols R := by
  have := P.child_sym hr hc
  rw [if_neg hE] at this
  rcases this with h | ⟨R', s, h1, h2, h3⟩
  · exact absurd h hs
  · rw [hR] at h1; cases h1; exact ⟨s, h2, h3⟩

theorem sym_kind {c : Green} {s : Sym} (h : c.sym = some s) : s = (if c.isTok then Sym.tok c.kind else Sym.node c.kind) := by
  cases c with
  | tok k t =>
    simp only [Green.sym] at h
    split at h
    · cases h
    · cases h; rfl
  | node k cs =>
    simp only [Green.sym] at h
    split at h
    · cases h
    · cases h; rfl

theorem declRule : sparqlRules K.PrefixDecl = some (.seq (.tok K.PREFIX) (.seq (.tok K.PNAME_NS) (.tok K.IRIREF))) := by
  decide +kernel

/-- The label token of a declaration. -/
theorem label_sym {text g} (P : Parsed text g) {d t : Red} (hd : IsDecl g d) (ht : t ∈ d.childrenT) (hk : t.kind = K.PNAME_NS) :
    t.green.sym = some (.tok K.PNAME_NS) ∧ t.isNode = false := by
  obtain ⟨h1, h2, h3⟩ := hd
  have hgk : t.green.kind = K.PNAME_NS := hk
  have hs : t.green.sym ≠ none := by
    intro h
    cases hg : t.green with
    | tok k x => rw [hg] at h hgk; have : k = K.PNAME_NS := hgk; subst this; simp only [Green.sym] at h; revert h; decide +kernel
    | node k x => rw [hg] at h hgk; have : k = K.PNAME_NS := hgk; subst this; simp only [Green.sym] at h; revert h; decide +kernel
  obtain ⟨s, h4, h5⟩ := sym_of_child P h1 ht (h3 ▸ declRule) (by rw [h3]; decide) hs
  have hsk := sym_kind h4
  rw [hgk] at hsk
  cases htok : t.green.isTok with
  | true =>
    rw [htok] at hsk
    refine ⟨by rw [h4, hsk]; rfl, ?_⟩
    have : t.here.green.isTok = true := htok
    unfold Red.isNode
    cases hg : t.here.green with
    | tok k x => rfl
    | node k x => rw [hg] at this; cases this
  | false =>
    exfalso
    rw [htok] at hsk
    simp only [Bool.false_eq_true, if_false] at hsk
    rw [hsk] at h5
    revert h5
    decide +kernel

theorem label_unique {text g} (P : Parsed text g) {d t t' : Red} (hd : IsDecl g d) (ht : t ∈ d.childrenT) (hk : t.kind = K.PNAME_NS)
    (ht' : t' ∈ d.childrenT) (hk' : t'.kind = K.PNAME_NS) : t = t' :=
  P.child_unique hd.1 (by rw [hd.2.2]; decide) (hd.2.2 ▸ declRule) (by decide +kernel) (by decide +kernel) ht ht'
    (label_sym P hd ht hk).1 (label_sym P hd ht' hk').1

theorem declares_unique {text g} (P : Parsed text g) {d : Red} {p p' : Text} (h : Declares g d p) (h' : Declares g d p') : p = p' := by
  obtain ⟨hd, t, h1, h2, h3, h4, h5⟩ := h
  obtain ⟨-, t', h1', h2', h3', h4', h5'⟩ := h'
  have := label_unique P hd (h1.parent h2).2 h3 (h1'.parent h2').2 h3'
  subst this
  exact prefix_unique h5 h5' (h4.symm.trans h4')

/-- A declaration has a label or not, and `declPrefix` finds out. -/
theorem declPrefix_cases {text g} (P : Parsed text g) {d : Red} (hd : IsDecl g d) :
    (∃ p, declPrefix d = some (some p) ∧ Declares g d p) ∨ (declPrefix d = some none ∧ Unlabelled g d) := by
  unfold declPrefix
  cases hf : d.childrenT.find? (fun c => c.kind == K.PNAME_NS) with
  | none =>
    right
    refine ⟨rfl, hd, ?_⟩
    rintro p ⟨-, t, h1, h2, h3, -⟩
    have := List.find?_eq_none.1 hf t (h1.parent h2).2
    simp [h3] at this
  | some t =>
    left
    have hm := List.mem_of_find?_eq_some hf
    have hk : t.kind = K.PNAME_NS := by simpa using List.find?_some hf
    have ht : InTree g t := .child hd.1 hm
    obtain ⟨-, hn⟩ := label_sym P hd hm hk
    have hl := Parsed.token_leaf ht hn
    rw [hk] at hl
    obtain ⟨p, rest, h1, h2, h3⟩ := pname_text P hl (Or.inl rfl)
    rw [h3 rfl] at h1
    refine ⟨p, ?_, hd, t, ht, child_parent hm, hk, h1, h2⟩
    simp [h1, splitColon_of h2]

theorem declPrefix_iff {text g} (P : Parsed text g) {d : Red} (hd : IsDecl g d) (p : Text) :
    declPrefix d = some (some p) ↔ Declares g d p := by
  rcases declPrefix_cases P hd with ⟨q, h1, h2⟩ | ⟨h1, h2⟩
  · rw [h1]
    constructor
    · intro e; cases e; exact h2
    · intro h; rw [declares_unique P h h2]
  · rw [h1]
    constructor
    · intro e; cases e
    · intro h; exact absurd h (h2.2 p)

theorem declPrefix_none_iff {text g} (P : Parsed text g) {d : Red} (hd : IsDecl g d) :
    declPrefix d = some none ↔ Unlabelled g d := by
  rcases declPrefix_cases P hd with ⟨q, h1, h2⟩ | ⟨h1, h2⟩
  · rw [h1]
    constructor
    · intro e; cases e
    · intro h; exact absurd h2 (h.2 q)
  · simp [h1, h2]

/-! ## Places in the tree -/

theorem root_up {g : Green} {x : Red} (h : InTree g x) (hx : x ≠ Red.root g) : Red.root g ∈ Red.chain x.up := by
  have : Red.root g ∈ x.ancestors := descendantsT_anc (mem_descendantsT_root.2 h)
  rcases List.mem_cons.1 this with h | h
  · exact absurd h.symm hx
  · exact h

theorem isNode_iff {r : Red} : r.isNode = !r.green.isTok := by
  unfold Red.isNode
  show _ = !r.here.green.isTok
  cases r.here.green <;> rfl

theorem children_green (r : Red) : r.childrenT.map Red.green = (match r.here.green with | .tok _ _ => [] | .node _ cs => cs) := by
  unfold Red.childrenT
  cases hg : r.here.green with
  | tok k t => rfl
  | node k cs =>
    have : ∀ (gs : List Green) (i o : Nat), (childSites i o gs).map Site.green = gs := by
      intro gs
      induction gs with
      | nil => intro i o; rfl
      | cons x xs ih => intro i o; simp [childSites, ih]
    simp only [List.map_map]
    exact this cs _ _

/-- The children of the root of a query document. -/
theorem root_children {text g} (P : Parsed text g) (hq : g.kind = K.QueryUnit) :
    ∃ a b, (Red.root g).children.map Red.kind = a ++ b ∧ (a = [] ∨ a = [K.Query]) ∧ (b = [] ∨ b = [K.Error]) := by
  obtain ⟨e, cs, a, b, h1, h2, h3, h4⟩ := P.top
  have he : e = .query := by
    cases e with
    | query => rfl
    | update => rw [h1] at hq; exact absurd (show K.UpdateUnit = K.QueryUnit from hq) (by decide)
  subst he
  refine ⟨a, b, ?_, h3, h4⟩
  rw [← h2]
  have hc := children_green (Red.root g)
  have : (Red.root g).here.green = g := rfl
  rw [this, h1] at hc
  have hc : (Red.root g).childrenT.map Red.green = cs := by rw [h1]; exact hc
  rw [← hc, List.filter_map, List.map_map]
  unfold Red.children
  have : (fun c : Red => !c.green.isTok) = Red.isNode := by funext c; rw [isNode_iff]
  show _ = List.map _ (List.filter (fun c : Red => !c.green.isTok) _)
  rw [this]; rfl

/-- Every inner node other than error nodes lies below the `Query` child of the root, which is its first child. -/
theorem under_query {text g} (P : Parsed text g) (hq : g.kind = K.QueryUnit) {x : Red} (h : InTree g x) (hn : x.isNode = true)
    (hE : x.kind ≠ K.Error) (hr : x ≠ Red.root g) :
    ∃ q, (Red.root g).firstChild = some q ∧ q ∈ (Red.root g).childrenT ∧ q.kind = K.Query ∧ q ∈ x.ancestors := by
  obtain ⟨c, hc, hca⟩ := below_child h (root_up h hr)
  have hcn : c.isNode = true := by
    rcases List.mem_cons.1 hca with rfl | h'
    · exact hn
    · exact (h.chain c h').2
  have hcT : InTree g c := .child .root hc
  have hcE : c.kind ≠ K.Error := by
    intro hk
    rcases List.mem_cons.1 hca with rfl | h'
    · exact hE hk
    · obtain ⟨d, hd, hda⟩ := below_child h h'
      have hdn : d.isNode = true := by
        rcases List.mem_cons.1 hda with rfl | h'
        · exact hn
        · exact (h.chain d h').2
      have := P.child_sym hcT hd
      rw [if_pos hk, hdn] at this
      cases this
  have hcm : c ∈ (Red.root g).children := List.mem_filter.2 ⟨hc, hcn⟩
  obtain ⟨a, b, h1, h2, h3⟩ := root_children P hq
  cases hl : (Red.root g).children with
  | nil => rw [hl] at hcm; cases hcm
  | cons q l =>
    rw [hl] at h1 hcm
    have hck : c.kind ∈ a ++ b := by rw [← h1]; exact List.mem_map_of_mem hcm
    have ha : a = [K.Query] := by
      rcases h2 with rfl | h2
      · exfalso
        rcases h3 with rfl | rfl
        · cases hck
        · simp only [List.nil_append, List.mem_singleton] at hck; exact hcE hck
      · exact h2
    subst ha
    simp only [List.map_cons, List.singleton_append, List.cons.injEq] at h1
    have hcq : c = q := by
      rcases List.mem_cons.1 hcm with h | h
      · exact h
      · exfalso
        have : c.kind ∈ b := by rw [← h1.2]; exact List.mem_map_of_mem h
        rcases h3 with rfl | rfl
        · cases this
        · simp only [List.mem_singleton] at this; exact hcE this
    subst hcq
    exact ⟨c, by simp [Red.firstChild, hl], hc, h1.1, hca⟩

theorem root_only {text g} (P : Parsed text g) {x : Red} (h : InTree g x) (hn : x.isNode = true)
    (hk : x.kind = K.QueryUnit) : x = Red.root g := by
  by_contra hr
  obtain ⟨r, -, -, -, h4⟩ := P.parent_kind h hn (by rw [hk]; decide) hr [] (by rw [hk]; decide +kernel)
  cases h4

theorem root_isNode {text g} (P : Parsed text g) : (Red.root g).isNode = true := by
  obtain ⟨e, cs, a, b, h1, -⟩ := P.top
  rw [h1]; rfl

theorem ne_root {g : Green} (hq : g.kind = K.QueryUnit) {x : Red} {k : Kind} (hk : x.kind = k) (hne : k ≠ K.QueryUnit) :
    x ≠ Red.root g := by
  rintro rfl
  exact hne (hk.symm.trans hq)

/-- The query node of a document. -/
theorem query_node {text g} (P : Parsed text g) (hq : g.kind = K.QueryUnit) {x : Red} (h : InTree g x) (hn : x.isNode = true)
    (hk : x.kind = K.Query) : (Red.root g).firstChild = some x := by
  obtain ⟨q, h1, h2, h3, h4⟩ := under_query P hq h hn (by rw [hk]; decide) (ne_root hq hk (by decide))
  obtain ⟨r, h5, h6, h7, h8⟩ := P.parent_kind h hn (by rw [hk]; decide) (ne_root hq hk (by decide)) [K.QueryUnit]
    (by rw [hk]; decide +kernel)
  have := root_only P h5 h6 (by simpa using h8)
  subst this
  rcases List.mem_cons.1 h4 with h | h
  · rw [← h]; exact h1
  · exfalso
    rw [parent_chain (child_parent h7)] at h
    simp only [Red.root, Red.chain, List.mem_singleton] at h
    have : q.kind = K.QueryUnit := by rw [h]; exact hq
    rw [h3] at this
    exact absurd this (by decide)

/-- No update node in a query document. -/
theorem no_update {text g} (P : Parsed text g) (hq : g.kind = K.QueryUnit) {x : Red} (h : InTree g x) (hn : x.isNode = true) :
    x.kind ≠ K.Update := by
  induction h with
  | root => show g.kind ≠ _; rw [hq]; decide
  | @child p c hp hc ih =>
    intro hk
    have hT : InTree g c := .child hp hc
    obtain ⟨r, h5, h6, h7, h8⟩ := P.parent_kind hT hn (by rw [hk]; decide) (ne_root hq hk (by decide)) [K.UpdateUnit, K.Update]
      (by rw [hk]; decide +kernel)
    have e : r = p := by
      have h1 := child_parent h7
      rw [child_parent hc] at h1; cases h1; rfl
    subst e
    simp only [List.mem_cons, List.not_mem_nil, or_false] at h8
    rcases h8 with h8 | h8
    · have hr : r = Red.root g ∨ r ≠ Red.root g := Classical.em _
      rcases hr with rfl | hr
      · have : g.kind = K.UpdateUnit := h8
        rw [hq] at this; exact absurd this (by decide)
      · obtain ⟨r', -, -, -, h4⟩ := P.parent_kind hp h6 (by rw [h8]; decide) hr [] (by rw [h8]; decide +kernel)
        cases h4
    · exact ih h6 h8

theorem queryRule : sparqlRules K.Query = some rule_Query := by decide +kernel

/-- The prologue node of a query document. -/
theorem prologue_node {text g} (P : Parsed text g) (hq : g.kind = K.QueryUnit) {x : Red} (h : InTree g x) (hn : x.isNode = true)
    (hk : x.kind = K.Prologue) : prologueOf g = some x := by
  obtain ⟨r, h5, h6, h7, h8⟩ := P.parent_kind h hn (by rw [hk]; decide) (ne_root hq hk (by decide)) [K.Query, K.Update]
    (by rw [hk]; decide +kernel)
  have hrk : r.kind = K.Query := by
    simp only [List.mem_cons, List.not_mem_nil, or_false] at h8
    rcases h8 with h8 | h8
    · exact h8
    · exact absurd h8 (no_update P hq h5 h6)
  have h1 := query_node P hq h5 h6 hrk
  unfold prologueOf
  rw [h1]
  simp only [Red.childOf]
  have hxm : x ∈ r.children := List.mem_filter.2 ⟨h7, hn⟩
  have hsym : ∀ y ∈ r.children, y.kind = K.Prologue → y.green.sym = some (.node K.Prologue) := by
    intro y hy hyk
    have hyn := (List.mem_filter.1 hy).2
    have hyk : y.here.green.kind = K.Prologue := hyk
    unfold Red.isNode at hyn
    show y.here.green.sym = _
    cases hg : y.here.green with
    | tok k t => rw [hg] at hyn; cases hyn
    | node k cs =>
      rw [hg] at hyk
      have : k = K.Prologue := hyk
      subst this
      simp only [Green.sym]
      decide +kernel
  cases hf : r.children.find? (fun c => decide (c.kind ∈ [K.Prologue])) with
  | none =>
    have := List.find?_eq_none.1 hf x hxm
    simp [hk] at this
  | some y =>
    have hym := List.mem_of_find?_eq_some hf
    have hyk : y.kind = K.Prologue := by simpa using List.find?_some hf
    rw [P.child_unique h5 (by rw [hrk]; decide) (hrk ▸ queryRule) (s := .node K.Prologue) (by decide +kernel) (by decide +kernel)
      (List.mem_filter.1 hym).1 h7 (hsym y hym hyk) (hsym x hxm hk)]

theorem prologueOf_inTree {g : Green} {pro : Red} (h : prologueOf g = some pro) :
    InTree g pro ∧ pro.isNode = true ∧ pro.kind = K.Prologue := by
  unfold prologueOf at h
  cases hc : (Red.root g).firstChild with
  | none => rw [hc] at h; cases h
  | some q =>
    rw [hc] at h
    have hqm : q ∈ (Red.root g).children := List.mem_of_head? hc
    have hq : InTree g q := .child .root (List.mem_filter.1 hqm).1
    have hf : q.children.find? (fun c => decide (c.kind ∈ [K.Prologue])) = some pro := h
    have hm := List.mem_of_find?_eq_some hf
    exact ⟨.child hq (List.mem_filter.1 hm).1, (List.mem_filter.1 hm).2, by simpa using List.find?_some hf⟩

/-- The declarations the providers look at are all declarations of the document. -/
theorem decl_iff {text g} (P : Parsed text g) (hq : g.kind = K.QueryUnit) (d : Red) :
    IsDecl g d ↔ ∃ pro, prologueOf g = some pro ∧ d ∈ prefixDecls pro := by
  constructor
  · rintro ⟨h1, h2, h3⟩
    obtain ⟨r, h5, h6, h7, h8⟩ := P.parent_kind h1 h2 (by rw [h3]; decide) (ne_root hq h3 (by decide)) [K.Prologue]
      (by rw [h3]; decide +kernel)
    have hrk : r.kind = K.Prologue := by simpa using h8
    refine ⟨r, prologue_node P hq h5 h6 hrk, ?_⟩
    unfold prefixDecls
    rw [List.mem_filter]
    exact ⟨List.mem_filter.2 ⟨h7, h2⟩, by simp [h3]⟩
  · rintro ⟨pro, h1, h2⟩
    obtain ⟨h3, h4, h5⟩ := prologueOf_inTree h1
    unfold prefixDecls at h2
    rw [List.mem_filter] at h2
    have := List.mem_filter.1 h2.1
    exact ⟨.child h3 this.1, this.2, by simpa using h2.2⟩

/-- The names below a node that is in the tree. -/
theorem mem_prefixedNames {text g} (P : Parsed text g) {r n : Red} (hr : InTree g r) :
    n ∈ prefixedNames r ↔ (∃ p, Uses g n p) ∧ r ∈ n.ancestors := by
  unfold prefixedNames Red.descendants
  rw [List.mem_filter, List.mem_filter]
  constructor
  · rintro ⟨⟨h1, h2⟩, h3⟩
    have h3 : n.kind = K.PrefixedName := by simpa using h3
    exact ⟨uses_of P (inTree_of_mem_descendantsT r hr n h1) h2 h3, descendantsT_anc h1⟩
  · rintro ⟨⟨p, h1, h2, h3, -⟩, h4⟩
    exact ⟨⟨anc_descendantsT h1 r h4, h2⟩, by simp [h3]⟩

/-- The select query of a document. -/
theorem selectQuery_iff {text g} (P : Parsed text g) (hq : g.kind = K.QueryUnit) (s : Red) :
    selectQuery g = some s ↔ InTree g s ∧ s.isNode = true ∧ s.kind = K.SelectQuery := by
  constructor
  · intro h
    unfold selectQuery at h
    cases hc : (Red.root g).firstChild with
    | none => rw [hc] at h; cases h
    | some q =>
      rw [hc] at h
      have hqm : q ∈ (Red.root g).children := List.mem_of_head? hc
      have hqT : InTree g q := .child .root (List.mem_filter.1 hqm).1
      have hf : q.children.find? (fun c => decide (c.kind ∈ [K.SelectQuery, K.SubSelect])) = some s := h
      have hm := List.mem_of_find?_eq_some hf
      have hk : s.kind = K.SelectQuery ∨ s.kind = K.SubSelect := by simpa using List.find?_some hf
      have hsn := (List.mem_filter.1 hm).2
      have hsT : InTree g s := .child hqT (List.mem_filter.1 hm).1
      refine ⟨hsT, hsn, ?_⟩
      rcases hk with hk | hk
      · exact hk
      · exfalso
        obtain ⟨q', h1, h2, h3, h4⟩ := under_query P hq hsT hsn (by rw [hk]; decide) (ne_root hq hk (by decide))
        rw [hc] at h1; cases h1
        obtain ⟨r, h5, h6, h7, h8⟩ := P.parent_kind hsT hsn (by rw [hk]; decide) (ne_root hq hk (by decide)) [K.GroupGraphPattern]
          (by rw [hk]; decide +kernel)
        have e := child_parent h7
        rw [child_parent (List.mem_filter.1 hm).1] at e; cases e
        rw [h3] at h8
        revert h8; decide
  · rintro ⟨h1, h2, h3⟩
    obtain ⟨r, h5, h6, h7, h8⟩ := P.parent_kind h1 h2 (by rw [h3]; decide) (ne_root hq h3 (by decide)) [K.Query]
      (by rw [h3]; decide +kernel)
    have hrk : r.kind = K.Query := by simpa using h8
    have hf := query_node P hq h5 h6 hrk
    unfold selectQuery
    rw [hf]
    simp only [Red.childOf]
    have hxm : s ∈ r.children := List.mem_filter.2 ⟨h7, h2⟩
    have hsym : ∀ y ∈ r.children, y.kind ∈ [K.SelectQuery, K.SubSelect] → y.green.sym = some (.node K.SelectQuery) := by
      intro y hy hyk
      have hyn := (List.mem_filter.1 hy).2
      have hs : y.green.sym = some (.node y.kind) := by
        show y.here.green.sym = some (.node y.here.green.kind)
        have hyk : y.here.green.kind ∈ [K.SelectQuery, K.SubSelect] := hyk
        unfold Red.isNode at hyn
        cases hg : y.here.green with
        | tok k t => rw [hg] at hyn; cases hyn
        | node k cs =>
          rw [hg] at hyk
          have hyk : k = K.SelectQuery ∨ k = K.SubSelect := by simpa [Green.kind] using hyk
          rcases hyk with rfl | rfl <;> · simp only [Green.sym, Green.kind]; decide +kernel
      obtain ⟨s', h9, h10⟩ := sym_of_child P h5 (List.mem_filter.1 hy).1 (hrk ▸ queryRule) (by rw [hrk]; decide) (by rw [hs]; simp)
      rw [hs] at h9; cases h9
      simp only [List.mem_cons, List.not_mem_nil, or_false] at hyk
      rcases hyk with hyk | hyk
      · rw [hs, hyk]
      · rw [hyk] at h10; exact absurd h10 (by decide +kernel)
    cases hf : r.children.find? (fun c => decide (c.kind ∈ [K.SelectQuery, K.SubSelect])) with
    | none =>
      have := List.find?_eq_none.1 hf s hxm
      simp [h3] at this
    | some y =>
      have hym := List.mem_of_find?_eq_some hf
      have hyk : y.kind ∈ [K.SelectQuery, K.SubSelect] := by simpa using List.find?_some hf
      rw [P.child_unique h5 (by rw [hrk]; decide) (hrk ▸ queryRule) (s := .node K.SelectQuery) (by decide +kernel) (by decide +kernel)
        (List.mem_filter.1 hym).1 h7 (hsym y hym hyk) (hsym s hxm (by simp [h3]))]


/-! ## The providers -/

theorem covers_rangeOf {text g} (P : Parsed text g) {r : Red} (h : InTree g r) :
    ∃ range, rangeOf text r = some range ∧ Covers text r range := by
  obtain ⟨a, b, h1, h2, h3, h4⟩ := pos_start P h
  refine ⟨⟨posOf a, posOf (a ++ r.text)⟩, ?_, a, b, h1, h2, rfl⟩
  simp [rangeOf, Range.fromByteOffsetRange, h3, h4]

theorem covers_unique {text : Text} {r : Red} {x y : Range} (h : Covers text r x) (h' : Covers text r y) : x = y := by
  obtain ⟨a, b, h1, h2, rfl⟩ := h
  obtain ⟨a', b', h1', h2', rfl⟩ := h'
  have : a = a' := by
    have e : a ++ (r.text ++ b) = a' ++ (r.text ++ b') := by rw [← List.append_assoc, ← List.append_assoc, ← h1, ← h1']
    exact (prefix_eq_of_blen e (h2.trans h2'.symm)).1
  rw [this]

theorem diagAt_some {text g} (P : Parsed text g) {r : Red} (h : InTree g r) (sev : Severity) (code : DiagCode) (data : Option Text) :
    ∃ d, diagAt text sev code data r = some d ∧ Covers text r d.range ∧ d.severity = sev ∧ d.code = code ∧ d.data = data := by
  obtain ⟨range, h1, h2⟩ := covers_rangeOf P h
  exact ⟨⟨range, sev, code, data⟩, by simp [diagAt, h1], h2, rfl, rfl, rfl⟩

theorem reportAll_some {test : Red → Option Bool} {diag : Red → Option Diag} : ∀ {l : List Red},
    (∀ x ∈ l, (test x).isSome = true ∧ (diag x).isSome = true) →
    ∃ ds, reportAll test diag l = some ds ∧ ds.map some = (l.filter (fun x => test x == some true)).map diag := by
  intro l
  induction l with
  | nil => intro _; exact ⟨[], rfl, rfl⟩
  | cons x l ih =>
    intro h
    obtain ⟨ds, h1, h2⟩ := ih (fun y hy => h y (List.mem_cons_of_mem _ hy))
    obtain ⟨h3, h4⟩ := h x (by simp)
    obtain ⟨b, hb⟩ := Option.isSome_iff_exists.1 h3
    obtain ⟨d, hd⟩ := Option.isSome_iff_exists.1 h4
    cases b with
    | false => exact ⟨ds, by simp [reportAll, hb, h1], by simp [hb, h2]⟩
    | true => exact ⟨d :: ds, by simp [reportAll, hb, h1, hd], by simp [hb, h2, hd]⟩

theorem unwrapAll_some {α β : Type} {f : α → Option β} : ∀ {l : List α}, (∀ x ∈ l, (f x).isSome = true) →
    ∃ ys, unwrapAll f l = some ys ∧ ys.map some = l.map f := by
  intro l
  induction l with
  | nil => intro _; exact ⟨[], rfl, rfl⟩
  | cons x l ih =>
    intro h
    obtain ⟨ys, h1, h2⟩ := ih (fun y hy => h y (List.mem_cons_of_mem _ hy))
    obtain ⟨y, hy⟩ := Option.isSome_iff_exists.1 (h x (by simp))
    exact ⟨y :: ys, by simp [unwrapAll, h1, hy], by simp [h2, hy]⟩

theorem mem_of_map_some {α β : Type} {f : α → Option β} {l : List α} {ys : List β} (h : ys.map some = l.map f) (y : β) :
    y ∈ ys ↔ ∃ x ∈ l, f x = some y := by
  have : y ∈ ys ↔ some y ∈ ys.map some := by simp
  rw [this, h, List.mem_map]

/-- Reports of nodes in document order are in document order. -/
theorem diags_sorted {text : Text} {l : List Red} {ds : List Diag} (h : List.Forall₂ (fun x d => Covers text x d.range) l ds)
    (hl : l.Pairwise (fun a b => a.stop ≤ b.start)) : ds.Pairwise (fun a b => a.range.stop.le b.range.start = true) := by
  induction h with
  | nil => exact .nil
  | @cons x d l ds hx hF ih =>
    rw [List.pairwise_cons] at hl
    refine .cons ?_ (ih hl.2)
    intro d' hd'
    have : ∀ {l : List Red} {ds : List Diag}, List.Forall₂ (fun x d => Covers text x d.range) l ds → d' ∈ ds →
        ∃ y ∈ l, Covers text y d'.range := by
      intro l ds h
      induction h with
      | nil => intro h; cases h
      | cons hy _ ih =>
        intro h
        rcases List.mem_cons.1 h with rfl | h
        · exact ⟨_, by simp, hy⟩
        · obtain ⟨y, h1, h2⟩ := ih h
          exact ⟨y, List.mem_cons_of_mem _ h1, h2⟩
    obtain ⟨y, hy, hc⟩ := this hF hd'
    have hlt := hl.1 y hy
    obtain ⟨p, q, e1, e2, e3⟩ := hx
    obtain ⟨p', q', e1', e2', e3'⟩ := hc
    rw [e3, e3']
    have hs : fromByteIndex x.stop text = some (posOf (p ++ x.text)) := by
      have : x.stop = blen (p ++ x.text) := by rw [blen_append, e2]; rfl
      rw [this, e1]; exact fromByteIndex_of_prefix _ q
    have ht : fromByteIndex y.start text = some (posOf p') := by
      rw [← e2', e1', List.append_assoc]; exact fromByteIndex_of_prefix p' _
    exact (c04_order text _ _ _ _ hs ht).2.2.2 hlt

theorem forall₂_of_map {text : Text} {f : Red → Option Diag} : ∀ {l : List Red} {ds : List Diag}, ds.map some = l.map f →
    (∀ x ∈ l, ∀ d, f x = some d → Covers text x d.range) → List.Forall₂ (fun x d => Covers text x d.range) l ds := by
  intro l
  induction l with
  | nil => intro ds h _; cases ds with | nil => exact .nil | cons d ds => cases h
  | cons x l ih =>
    intro ds h hc
    cases ds with
    | nil => cases h
    | cons d ds =>
      simp only [List.map_cons, List.cons.injEq] at h
      exact .cons (hc x (by simp) d h.1.symm) (ih h.2 (fun y hy => hc y (List.mem_cons_of_mem _ hy)))

theorem decls_pairwise (pro : Red) : (prefixDecls pro).Pairwise (fun a b => a.stop ≤ b.start) :=
  ((childrenT_pairwise pro).filter _).filter _

/-- Prefixed names are not nested. -/
theorem names_pairwise {text g} (P : Parsed text g) {r : Red} (hr : InTree g r) :
    (prefixedNames r).Pairwise (fun a b => a.stop ≤ b.start) := by
  unfold prefixedNames Red.descendants
  rw [List.filter_filter]
  refine (List.pairwise_iff_forall_sublist.2 ?_)
  intro a b hab
  have ha := List.mem_filter.1 (hab.subset (show a ∈ [a, b] by simp))
  have hb := List.mem_filter.1 (hab.subset (show b ∈ [a, b] by simp))
  have hab' := (descendantsT_order r).sublist (hab.trans List.filter_sublist)
  simp only [List.pairwise_cons, List.mem_singleton, forall_eq] at hab'
  rcases hab'.1 with h | h
  · exfalso
    simp only [Bool.and_eq_true, beq_iff_eq] at ha hb
    have haT := inTree_of_mem_descendantsT r hr a ha.1
    have hbT := inTree_of_mem_descendantsT r hr b hb.1
    have hR : sparqlRules K.PrefixedName = some (.alt (.tok K.PNAME_LN) (.tok K.PNAME_NS)) := by decide +kernel
    -- the parent of b mentions a prefixed name
    obtain ⟨c, hc, hcb⟩ := below_child hbT h
    have hcn : c.isNode = true := by
      rcases List.mem_cons.1 hcb with rfl | h'
      · exact hb.2.2
      · exact (hbT.chain c h').2
    have hcT : InTree g c := .child haT hc
    by_cases hcE : c.kind = K.Error
    · rcases List.mem_cons.1 hcb with rfl | h'
      · rw [hb.2.1] at hcE; exact absurd hcE (by decide)
      · obtain ⟨d, hd, hdb⟩ := below_child hbT h'
        have hdn : d.isNode = true := by
          rcases List.mem_cons.1 hdb with rfl | h'
          · exact hb.2.2
          · exact (hbT.chain d h').2
        have := P.child_sym hcT hd
        rw [if_pos hcE, hdn] at this
        cases this
    · have hs : c.green.sym = some (.node c.kind) := by
        show c.here.green.sym = some (.node c.here.green.kind)
        have hcE : c.here.green.kind ≠ K.Error := hcE
        unfold Red.isNode at hcn
        cases hg : c.here.green with
        | tok k t => rw [hg] at hcn; cases hcn
        | node k cs =>
          rw [hg] at hcE
          have hcE : k ≠ K.Error := hcE
          simp [Green.sym, Green.kind, hcE]
      obtain ⟨s, h1, h2⟩ := sym_of_child P haT hc (ha.2.1 ▸ hR) (by rw [ha.2.1]; decide) (by rw [hs]; simp)
      rw [hs] at h1; cases h1
      simp [symbols] at h2
  · exact h

/-- **C36.** The reports of undeclared prefixes: exactly the prefixed names of the select query whose prefix no declaration
of the document introduces, each with its range and prefix, in document order. -/
theorem c36_exact (errLen : Text → Nat) (text : Text) (g errs) (hp : parseSource errLen text = some (g, errs))
    (hq : g.kind = K.QueryUnit) :
    ∃ ds, added (undeclaredPrefix text g) = some ds ∧
      (∀ d, d ∈ ds ↔ ∃ n p, Uses g n p ∧ (∀ x, ¬ Declares g x p) ∧ (∃ s ∈ n.ancestors, s.kind = K.SelectQuery) ∧
        Covers text n d.range ∧ d.severity = .error ∧ d.code = .undeclaredPrefix ∧ d.data = some p) ∧
      ds.Pairwise (fun a b => a.range.stop.le b.range.start = true) := by
  have P := parsed_of hp
  cases hsq : selectQuery g with
  | none =>
    refine ⟨[], by simp [undeclaredPrefix, hsq, added], ?_, .nil⟩
    intro d
    constructor
    · intro h; cases h
    · rintro ⟨n, p, hu, -, ⟨s, hs, hk⟩, -⟩
      have hsT := hu.1.ancestors s hs
      have hsn : s.isNode = true := by
        rcases List.mem_cons.1 hs with rfl | h'
        · exact hu.2.1
        · exact (hu.1.chain s h').2
      rw [(selectQuery_iff P hq s).2 ⟨hsT, hsn, hk⟩] at hsq
      cases hsq
  | some sq =>
    obtain ⟨hT, hn, hk⟩ := (selectQuery_iff P hq sq).1 hsq
    have hdecl : ∀ x ∈ declsOf g, IsDecl g x := by
      intro x hx
      unfold declsOf at hx
      cases hpr : prologueOf g with
      | none => rw [hpr] at hx; cases hx
      | some pro => rw [hpr] at hx; exact (decl_iff P hq x).2 ⟨pro, hpr, hx⟩
    obtain ⟨declared, h1, h2⟩ := unwrapAll_some (f := declPrefix) (l := declsOf g)
      (by
        intro x hx
        rcases declPrefix_cases P (hdecl x hx) with ⟨p, h, -⟩ | ⟨h, -⟩ <;> simp [h])
    have hmem : ∀ p, p ∈ declared.filterMap id ↔ ∃ x, Declares g x p := by
      intro p
      rw [List.mem_filterMap]
      simp only [id_eq, exists_eq_right]
      rw [mem_of_map_some h2]
      constructor
      · rintro ⟨x, hx, h⟩
        exact ⟨x, (declPrefix_iff P (hdecl x hx) p).1 h⟩
      · rintro ⟨x, h⟩
        obtain ⟨pro, h3, h4⟩ := (decl_iff P hq x).1 h.1
        exact ⟨x, by unfold declsOf; rw [h3]; exact h4, (declPrefix_iff P h.1 p).2 h⟩
    obtain ⟨ds, h3, h4⟩ := reportAll_some
      (test := fun n => (usePrefix n).map (fun p => !(declared.filterMap id).contains p))
      (diag := fun n => diagAt text .error .undeclaredPrefix (usePrefix n) n) (l := prefixedNames sq) (by
        intro n hn'
        obtain ⟨⟨p, hu⟩, -⟩ := (mem_prefixedNames P hT).1 hn'
        obtain ⟨d, hd, -⟩ := diagAt_some P hu.1 .error .undeclaredPrefix (usePrefix n)
        constructor
        · simp [usePrefix_eq hu]
        · simp [hd])
    refine ⟨ds, by simp only [undeclaredPrefix, hsq, h1, h3, added, Option.map_some, Option.getD_some], ?_, ?_⟩
    · intro d
      rw [mem_of_map_some h4]
      constructor
      · rintro ⟨n, hn', hd⟩
        rw [List.mem_filter] at hn'
        obtain ⟨⟨p, hu⟩, hanc⟩ := (mem_prefixedNames P hT).1 hn'.1
        have ht := hn'.2
        simp only [usePrefix_eq hu, Option.map_some, beq_iff_eq, Option.some.injEq, Bool.not_eq_true', List.contains_eq_mem,
          decide_eq_false_iff_not] at ht
        rw [hmem] at ht
        obtain ⟨d', hd', h5, h6, h7, h8⟩ := diagAt_some P hu.1 .error .undeclaredPrefix (usePrefix n)
        rw [hd'] at hd; cases hd
        refine ⟨n, p, hu, fun x hx => ht ⟨x, hx⟩, ⟨sq, hanc, hk⟩, h5, h6, h7, ?_⟩
        rw [h8, usePrefix_eq hu]
      · rintro ⟨n, p, hu, hnd, ⟨s, hs, hsk⟩, h5, h6, h7, h8⟩
        have hsT := hu.1.ancestors s hs
        have hsn : s.isNode = true := by
          rcases List.mem_cons.1 hs with rfl | h'
          · exact hu.2.1
          · exact (hu.1.chain s h').2
        have e := (selectQuery_iff P hq s).2 ⟨hsT, hsn, hsk⟩
        rw [hsq] at e; cases e
        refine ⟨n, List.mem_filter.2 ⟨(mem_prefixedNames P hT).2 ⟨⟨p, hu⟩, hs⟩, ?_⟩, ?_⟩
        · simp only [usePrefix_eq hu, Option.map_some, beq_iff_eq, Option.some.injEq, Bool.not_eq_true', List.contains_eq_mem,
            decide_eq_false_iff_not]
          rw [hmem]
          rintro ⟨x, hx⟩
          exact hnd x hx
        · obtain ⟨d', hd', g5, g6, g7, g8⟩ := diagAt_some P hu.1 .error .undeclaredPrefix (usePrefix n)
          rw [hd', Option.some.injEq]
          cases d; cases d'
          simp only [Diag.mk.injEq] at *
          exact ⟨covers_unique g5 h5, g6.trans h6.symm, g7.trans h7.symm, by rw [g8, h8, usePrefix_eq hu]⟩
    · refine diags_sorted (text := text) (forall₂_of_map h4 ?_) ((names_pairwise P hT).filter _)
      · intro x hx d hd
        obtain ⟨⟨p, hu⟩, -⟩ := (mem_prefixedNames P hT).1 (List.mem_filter.1 hx).1
        obtain ⟨d', hd', g5, -⟩ := diagAt_some P hu.1 .error .undeclaredPrefix (usePrefix x)
        have hd : diagAt text .error .undeclaredPrefix (usePrefix x) x = some d := hd
        rw [hd'] at hd; cases hd
        exact g5

/-- **C36 (negative).** In a document without select query, and for names outside of it, nothing is reported. -/
theorem c36_only_select (errLen : Text → Nat) (text : Text) (g errs) (hp : parseSource errLen text = some (g, errs))
    (hq : g.kind = K.QueryUnit) (hs : ∀ s, InTree g s → s.isNode = true → s.kind ≠ K.SelectQuery) :
    added (undeclaredPrefix text g) = some [] := by
  obtain ⟨ds, h1, h2, -⟩ := c36_exact errLen text g errs hp hq
  rw [h1]
  cases ds with
  | nil => rfl
  | cons d ds =>
    exfalso
    obtain ⟨n, p, hu, -, ⟨s, hs', hk⟩, -⟩ := (h2 d).1 (by simp)
    have hsn : s.isNode = true := by
      rcases List.mem_cons.1 hs' with rfl | h'
      · exact hu.2.1
      · exact (hu.1.chain s h').2
    exact hs s (hu.1.ancestors s hs') hsn hk

/-- Examples: `c:l` is reported in `PREFIX a: .. SELECT ?x {a:k c:l ?x}`; the undeclared `a:` is not reported in
`ASK {a:k a ?x}` nor in `SELECT * {} VALUES ?x {a:b}`. -/
theorem c36_cases : added (undeclaredPrefix preText preTree) = some [⟨⟨⟨3, 15⟩, ⟨3, 18⟩⟩, .error, .undeclaredPrefix, some ['c']⟩] ∧
    added (undeclaredPrefix askText askTree) = some [] ∧ added (undeclaredPrefix valsText valsTree) = some [] := by
  decide +kernel

/-- **C37.** The reports of unused declarations: exactly the declarations whose prefix no prefixed name of the document uses;
a declaration without label counts as one of the empty prefix. -/
theorem c37_exact (errLen : Text → Nat) (text : Text) (g errs) (hp : parseSource errLen text = some (g, errs))
    (hq : g.kind = K.QueryUnit) :
    ∃ ds, added (unusedPrefix text g) = some ds ∧
      (∀ d, d ∈ ds ↔ ∃ x, Covers text x d.range ∧ d.severity = .warning ∧ d.code = .unusedPrefix ∧
        ((∃ p, Declares g x p ∧ (∀ n, ¬ Uses g n p) ∧ d.data = some p) ∨
          (Unlabelled g x ∧ (∀ n, ¬ Uses g n []) ∧ d.data = none))) ∧
      ds.Pairwise (fun a b => a.range.stop.le b.range.start = true) := by
  have P := parsed_of hp
  cases hpro : prologueOf g with
  | none =>
    refine ⟨[], by simp [unusedPrefix, hpro, added], ?_, .nil⟩
    intro d
    constructor
    · intro h; cases h
    · rintro ⟨x, -, -, -, ⟨p, h, -⟩ | ⟨h, -⟩⟩ <;>
      · obtain ⟨pro, h1, -⟩ := (decl_iff P hq x).1 h.1
        rw [hpro] at h1; cases h1
  | some pro =>
    have hstrip : stripPrologue g = (Red.root g).firstChild := by
      unfold stripPrologue Red.firstChild
      cases hl : (Red.root g).children with
      | nil => rfl
      | cons c l =>
        have : (c.kind == K.Prologue) = false := by
          obtain ⟨a, b, h1, h2, h3⟩ := root_children P hq
          rw [hl] at h1
          rcases h2 with rfl | rfl
          · rcases h3 with rfl | rfl
            · cases h1
            · simp only [List.map_cons, List.nil_append, List.cons.injEq] at h1
              rw [h1.1]; decide
          · simp only [List.map_cons, List.singleton_append, List.cons.injEq] at h1
            rw [h1.1]; decide
        simp [List.dropWhile_cons, this]
    have hnames : ∀ n, n ∈ namesOf g ↔ ∃ p, Uses g n p := by
      intro n
      unfold namesOf
      rw [hstrip]
      constructor
      · intro h
        cases hc : (Red.root g).firstChild with
        | none => rw [hc] at h; cases h
        | some q =>
          rw [hc] at h
          have hqm : q ∈ (Red.root g).children := List.mem_of_head? hc
          have hqT : InTree g q := .child .root (List.mem_filter.1 hqm).1
          exact ((mem_prefixedNames P hqT).1 h).1
      · rintro ⟨p, hu⟩
        obtain ⟨q, h1, h2, -, h4⟩ := under_query P hq hu.1 hu.2.1 (by rw [hu.2.2.1]; decide) (ne_root hq hu.2.2.1 (by decide))
        rw [h1]
        exact (mem_prefixedNames P (.child .root h2)).2 ⟨⟨p, hu⟩, h4⟩
    obtain ⟨used, h1, h2⟩ := unwrapAll_some (f := usePrefix) (l := namesOf g)
      (by
        intro n hn
        obtain ⟨p, hu⟩ := (hnames n).1 hn
        simp [usePrefix_eq hu])
    have hmem : ∀ p, p ∈ used ↔ ∃ n, Uses g n p := by
      intro p
      rw [mem_of_map_some h2]
      constructor
      · rintro ⟨n, hn, h⟩
        obtain ⟨p', hu⟩ := (hnames n).1 hn
        rw [usePrefix_eq hu] at h; cases h
        exact ⟨n, hu⟩
      · rintro ⟨n, hu⟩
        exact ⟨n, (hnames n).2 ⟨p, hu⟩, usePrefix_eq hu⟩
    have hdecl : ∀ x ∈ prefixDecls pro, IsDecl g x := fun x hx => (decl_iff P hq x).2 ⟨pro, hpro, hx⟩
    have hdiag : ∀ x ∈ prefixDecls pro, ∃ p d, declPrefix x = some p ∧
        (declPrefix x).bind (fun p => diagAt text .warning .unusedPrefix p x) = some d ∧
        Covers text x d.range ∧ d.severity = .warning ∧ d.code = .unusedPrefix ∧ d.data = p := by
      intro x hx
      rcases declPrefix_cases P (hdecl x hx) with ⟨p, h, -⟩ | ⟨h, -⟩
      · obtain ⟨d, hd, hr⟩ := diagAt_some P (hdecl x hx).1 .warning .unusedPrefix (some p)
        exact ⟨some p, d, h, by rw [h]; exact hd, hr⟩
      · obtain ⟨d, hd, hr⟩ := diagAt_some P (hdecl x hx).1 .warning .unusedPrefix none
        exact ⟨none, d, h, by rw [h]; exact hd, hr⟩
    obtain ⟨ds, h3, h4⟩ := reportAll_some
      (test := fun d => (declPrefix d).map (fun p => !used.contains (p.getD [])))
      (diag := fun d => (declPrefix d).bind (fun p => diagAt text .warning .unusedPrefix p d))
      (l := prefixDecls pro) (by
        intro x hx
        obtain ⟨p, d, h5, h6, -⟩ := hdiag x hx
        exact ⟨by simp [h5], by rw [h6]; rfl⟩)
    refine ⟨ds, by simp only [unusedPrefix, hpro, h1, h3, added, Option.map_some, Option.getD_some], ?_, ?_⟩
    · intro d
      rw [mem_of_map_some h4]
      constructor
      · rintro ⟨x, hx, hd⟩
        rw [List.mem_filter] at hx
        obtain ⟨p, d', h5, h6, h7, h8, h9, h10⟩ := hdiag x hx.1
        rw [h6] at hd; cases hd
        have ht := hx.2
        simp only [h5, Option.map_some, beq_iff_eq, Option.some.injEq, Bool.not_eq_true', List.contains_eq_mem,
          decide_eq_false_iff_not] at ht
        rw [hmem] at ht
        refine ⟨x, h7, h8, h9, ?_⟩
        cases p with
        | none => exact Or.inr ⟨(declPrefix_none_iff P (hdecl x hx.1)).1 h5, fun n hn => ht ⟨n, hn⟩, h10⟩
        | some p => exact Or.inl ⟨p, (declPrefix_iff P (hdecl x hx.1) p).1 h5, fun n hn => ht ⟨n, hn⟩, h10⟩
      · rintro ⟨x, h7, h8, h9, hcase⟩
        have hxd : IsDecl g x := by rcases hcase with ⟨p, h, -⟩ | ⟨h, -⟩ <;> exact h.1
        obtain ⟨pro', e, hx⟩ := (decl_iff P hq x).1 hxd
        rw [hpro] at e; cases e
        obtain ⟨p, d', g5, g6, g7, g8, g9, g10⟩ := hdiag x hx
        have hdata : d.data = p ∧ ∀ n, ¬ Uses g n (p.getD []) := by
          rcases hcase with ⟨q, h, hn, hdq⟩ | ⟨h, hn, hdq⟩
          · rw [(declPrefix_iff P hxd q).2 h] at g5; cases g5
            exact ⟨hdq, hn⟩
          · rw [(declPrefix_none_iff P hxd).2 h] at g5; cases g5
            exact ⟨hdq, hn⟩
        refine ⟨x, List.mem_filter.2 ⟨hx, ?_⟩, ?_⟩
        · simp only [g5, Option.map_some, beq_iff_eq, Option.some.injEq, Bool.not_eq_true', List.contains_eq_mem,
            decide_eq_false_iff_not]
          rw [hmem]
          rintro ⟨n, hn⟩
          exact hdata.2 n hn
        · rw [g6, Option.some.injEq]
          cases d; cases d'
          simp only [Diag.mk.injEq] at *
          exact ⟨covers_unique g7 h7, g8.trans h8.symm, g9.trans h9.symm, g10.trans hdata.1.symm⟩
    · refine diags_sorted (text := text) (forall₂_of_map h4 ?_) ((decls_pairwise pro).filter _)
      · intro x hx d hd
        obtain ⟨p, d', g5, g6, g7, -⟩ := hdiag x (List.mem_filter.1 hx).1
        rw [g6] at hd; cases hd
        exact g7

/-- Example: `b` is reported in `PREFIX a: <u> PREFIX b: <v> PREFIX a: <w> SELECT ?x {a:k c:l ?x}`; of
`PREFIX a: <u> PREFIX a: <u> PREFIX <v> ASK {}` all three are. -/
theorem c37_cases : added (unusedPrefix preText preTree) = some [⟨⟨⟨1, 0⟩, ⟨1, 13⟩⟩, .warning, .unusedPrefix, some ['b']⟩] ∧
    (added (unusedPrefix nolabText nolabTree)).map (fun l => l.map (·.data)) = some [some ['a'], some ['a'], none] := by
  decide +kernel

/-! ### Duplicates -/

theorem duplicateLoop_none {text g} (P : Parsed text g) : ∀ (l : List Red) (seen : List Text) (acc : List Diag),
    (∀ x ∈ l, IsDecl g x) → (∃ x ∈ l, Unlabelled g x) → duplicateLoop text l seen acc = some none := by
  intro l
  induction l with
  | nil => rintro seen acc - ⟨x, hx, -⟩; cases hx
  | cons d l ih =>
    rintro seen acc hd ⟨x, hx, hu⟩
    simp only [duplicateLoop]
    rcases declPrefix_cases P (hd d (by simp)) with ⟨p, h, h'⟩ | ⟨h, -⟩
    · have hx' : x ∈ l := by
        rcases List.mem_cons.1 hx with rfl | hx
        · exact absurd h' (hu.2 p)
        · exact hx
      obtain ⟨y, hy, -⟩ := diagAt_some P (hd d (by simp)).1 .warning .duplicatePrefix (some p)
      rw [h]
      simp only [hy]
      split
      · exact ih _ _ (fun y hy => hd y (List.mem_cons_of_mem _ hy)) ⟨x, hx', hu⟩
      · exact ih _ _ (fun y hy => hd y (List.mem_cons_of_mem _ hy)) ⟨x, hx', hu⟩
    · rw [h]

/-- The loop without unlabelled declarations. -/
theorem duplicateLoop_some {text g} (P : Parsed text g) : ∀ (l : List Red) (seen : List Text) (acc : List Diag),
    (∀ x ∈ l, ∃ p, Declares g x p) → ∃ ds, duplicateLoop text l seen acc = some (some (acc ++ ds)) ∧
      (∀ d, d ∈ ds ↔ ∃ a x b p, l = a ++ x :: b ∧ Declares g x p ∧ (p ∈ seen ∨ ∃ y ∈ a, Declares g y p) ∧
        Covers text x d.range ∧ d.severity = .warning ∧ d.code = .duplicatePrefix ∧ d.data = some p) ∧
      ∃ l' : List Red, l'.Sublist l ∧ List.Forall₂ (fun x d => Covers text x d.range) l' ds := by
  intro l
  induction l with
  | nil =>
    intro seen acc _
    refine ⟨[], by simp [duplicateLoop], ?_, [], .refl _, .nil⟩
    intro d
    constructor
    · intro h; cases h
    · rintro ⟨a, x, b, p, e, -⟩; simp at e
  | cons z l ih =>
    intro seen acc hl
    obtain ⟨p, hz⟩ := hl z (by simp)
    have hpz := (declPrefix_iff P hz.1 p).2 hz
    obtain ⟨y, hy, c1, c2, c3, c4⟩ := diagAt_some P hz.1.1 .warning .duplicatePrefix (some p)
    have hl' : ∀ x ∈ l, ∃ p, Declares g x p := fun x hx => hl x (List.mem_cons_of_mem _ hx)
    simp only [duplicateLoop, hpz, hy]
    by_cases hs : p ∈ seen
    · rw [if_pos (List.contains_iff_mem.2 hs)]
      obtain ⟨ds, h1, h2, l', h3, h4⟩ := ih seen (acc ++ [y]) hl'
      refine ⟨y :: ds, by rw [h1]; simp, ?_, ?_⟩
      · intro d
        rw [List.mem_cons, h2]
        constructor
        · rintro (rfl | ⟨a, x, b, q, e, hx, hq, hr⟩)
          · exact ⟨[], z, l, p, rfl, hz, Or.inl hs, c1, c2, c3, c4⟩
          · refine ⟨z :: a, x, b, q, by rw [e]; rfl, hx, ?_, hr⟩
            rcases hq with hq | ⟨w, hw, hq⟩
            · exact Or.inl hq
            · exact Or.inr ⟨w, List.mem_cons_of_mem _ hw, hq⟩
        · rintro ⟨a, x, b, q, e, hx, hq, hr⟩
          cases a with
          | nil =>
            left
            simp only [List.nil_append, List.cons.injEq] at e
            obtain ⟨rfl, rfl⟩ := e
            have := declares_unique P hx hz
            subst this
            cases d; cases y
            simp only [Diag.mk.injEq] at *
            exact ⟨covers_unique hr.1 c1, hr.2.1.trans c2.symm, hr.2.2.1.trans c3.symm, hr.2.2.2.trans c4.symm⟩
          | cons w a =>
            right
            simp only [List.cons_append, List.cons.injEq] at e
            obtain ⟨rfl, rfl⟩ := e
            refine ⟨a, x, b, q, rfl, hx, ?_, hr⟩
            rcases hq with hq | ⟨w, hw, hq⟩
            · exact Or.inl hq
            · rcases List.mem_cons.1 hw with rfl | hw
              · rw [declares_unique P hq hz]; exact Or.inl hs
              · exact Or.inr ⟨w, hw, hq⟩
      · exact ⟨z :: l', h3.cons_cons z, .cons c1 h4⟩
    · have hs' : ¬ (seen.contains p = true) := fun h => hs (List.contains_iff_mem.1 h)
      rw [if_neg hs']
      obtain ⟨ds, h1, h2, l', h3, h4⟩ := ih (p :: seen) acc hl'
      refine ⟨ds, h1, ?_, l', h3.cons z, h4⟩
      intro d
      rw [h2]
      constructor
      · rintro ⟨a, x, b, q, e, hx, hq, hr⟩
        refine ⟨z :: a, x, b, q, by rw [e]; rfl, hx, ?_, hr⟩
        rcases hq with hq | ⟨w, hw, hq⟩
        · rcases List.mem_cons.1 hq with rfl | hq
          · exact Or.inr ⟨z, by simp, hz⟩
          · exact Or.inl hq
        · exact Or.inr ⟨w, List.mem_cons_of_mem _ hw, hq⟩
      · rintro ⟨a, x, b, q, e, hx, hq, hr⟩
        cases a with
        | nil =>
          exfalso
          simp only [List.nil_append, List.cons.injEq] at e
          obtain ⟨rfl, rfl⟩ := e
          have := declares_unique P hx hz
          subst this
          rcases hq with hq | ⟨w, hw, -⟩
          · exact hs hq
          · cases hw
        | cons w a =>
          simp only [List.cons_append, List.cons.injEq] at e
          obtain ⟨rfl, rfl⟩ := e
          refine ⟨a, x, b, q, rfl, hx, ?_, hr⟩
          rcases hq with hq | ⟨w, hw, hq⟩
          · exact Or.inl (List.mem_cons_of_mem _ hq)
          · rcases List.mem_cons.1 hw with rfl | hw
            · rw [declares_unique P hq hz]; exact Or.inl (by simp)
            · exact Or.inr ⟨w, hw, hq⟩

/-- Declarations are ordered. -/
theorem decl_order {l : List Red} (hl : l.Pairwise (fun a b => a.stop ≤ b.start)) (hne : ∀ x ∈ l, x.start < x.stop) {x y : Red}
    (hx : x ∈ l) (hy : y ∈ l) : (∃ a b, l = a ++ x :: b ∧ y ∈ a) ↔ y.stop ≤ x.start := by
  constructor
  · rintro ⟨a, b, rfl, h⟩
    rw [List.pairwise_append] at hl
    exact hl.2.2 y h x (by simp)
  · intro h
    obtain ⟨a, b, rfl⟩ := List.append_of_mem hx
    refine ⟨a, b, rfl, ?_⟩
    rw [List.mem_append, List.mem_cons] at hy
    rcases hy with hy | rfl | hy
    · exact hy
    · have := hne y hx; omega
    · exfalso
      rw [List.pairwise_append] at hl
      have h1 := (List.pairwise_cons.1 hl.2.1).1 y hy
      have h2 := hne x hx
      have h3 := hne y (by simp [hy])
      omega

theorem decl_nonempty {text g} (P : Parsed text g) (hq : g.kind = K.QueryUnit) {x : Red} (h : IsDecl g x) : x.start < x.stop := by
  have hu : x.up ≠ [] := by
    intro e
    have := h.1.root_of_up e
    exact ne_root hq h.2.2 (by decide) this
  have := P.node_nonempty h.1 h.2.1 hu
  have hb : 0 < blen x.text := by
    cases ht : x.text with
    | nil => exact absurd ht this
    | cons c t => simp only [blen]; have := u8_pos c; omega
  show x.start < x.start + blen x.text
  omega

/-- **C38.** If all declarations have a label, the reports are exactly the declarations whose label an earlier declaration
has, in document order. -/
theorem c38_exact (errLen : Text → Nat) (text : Text) (g errs) (hp : parseSource errLen text = some (g, errs))
    (hq : g.kind = K.QueryUnit) (hlab : ∀ x, ¬ Unlabelled g x) :
    ∃ ds, added (duplicatePrefix text g) = some ds ∧
      (∀ d, d ∈ ds ↔ ∃ x y p, Declares g x p ∧ Declares g y p ∧ y.stop ≤ x.start ∧ Covers text x d.range ∧
        d.severity = .warning ∧ d.code = .duplicatePrefix ∧ d.data = some p) ∧
      ds.Pairwise (fun a b => a.range.stop.le b.range.start = true) := by
  have P := parsed_of hp
  cases hpro : prologueOf g with
  | none =>
    refine ⟨[], by simp [duplicatePrefix, hpro, added], ?_, .nil⟩
    intro d
    constructor
    · intro h; cases h
    · rintro ⟨x, y, p, h, -⟩
      obtain ⟨pro, h1, -⟩ := (decl_iff P hq x).1 h.1
      rw [hpro] at h1; cases h1
  | some pro =>
    have hdecl : ∀ x, x ∈ prefixDecls pro ↔ IsDecl g x := by
      intro x
      rw [decl_iff P hq]
      constructor
      · intro h; exact ⟨pro, hpro, h⟩
      · rintro ⟨pro', e, h⟩; rw [hpro] at e; cases e; exact h
    obtain ⟨ds, h1, h2, l', h3, h4⟩ := duplicateLoop_some P (prefixDecls pro) [] [] (by
      intro x hx
      rcases declPrefix_cases P ((hdecl x).1 hx) with ⟨p, -, h⟩ | ⟨-, h⟩
      · exact ⟨p, h⟩
      · exact absurd h (hlab x))
    refine ⟨ds, by simp [duplicatePrefix, hpro, h1, added], ?_, diags_sorted h4 ((decls_pairwise pro).sublist h3)⟩
    intro d
    rw [h2]
    have hne : ∀ x ∈ prefixDecls pro, x.start < x.stop := fun x hx => decl_nonempty P hq ((hdecl x).1 hx)
    constructor
    · rintro ⟨a, x, b, p, e, hx, hy | ⟨y, hy, hyd⟩, hr⟩
      · cases hy
      · exact ⟨x, y, p, hx, hyd, (decl_order (decls_pairwise pro) hne ((hdecl x).2 hx.1) ((hdecl y).2 hyd.1)).1 ⟨a, b, e, hy⟩, hr⟩
    · rintro ⟨x, y, p, hx, hy, hlt, hr⟩
      obtain ⟨a, b, e, hya⟩ := (decl_order (decls_pairwise pro) hne ((hdecl x).2 hx.1) ((hdecl y).2 hy.1)).2 hlt
      exact ⟨a, x, b, p, e, hx, Or.inr ⟨y, hya, hy⟩, hr⟩

theorem covers_inj {text g} (P : Parsed text g) {x y : Red} (hx : InTree g x) (hy : InTree g y) {r : Range} (h : Covers text x r)
    (h' : Covers text y r) : x.start = y.start := by
  obtain ⟨a, b, h1, h2, rfl⟩ := h
  obtain ⟨a', b', h1', h2', e⟩ := h'
  simp only [Range.mk.injEq] at e
  have hs : fromByteIndex x.start text = some (posOf a) := by
    rw [← h2, h1, List.append_assoc]; exact fromByteIndex_of_prefix a _
  have ht : fromByteIndex y.start text = some (posOf a') := by
    rw [← h2', h1', List.append_assoc]; exact fromByteIndex_of_prefix a' _
  exact (c04_order text _ _ _ _ hs ht).2.1.1 e.1

/-- **C38 (repair).** Without the reported declarations every declared prefix is declared exactly once. -/
theorem c38_unique (errLen : Text → Nat) (text : Text) (g errs) (hp : parseSource errLen text = some (g, errs))
    (hq : g.kind = K.QueryUnit) (hlab : ∀ x, ¬ Unlabelled g x) (ds) (hds : added (duplicatePrefix text g) = some ds)
    (p : Text) (hdecl : ∃ x, Declares g x p) :
    ∃! x, Declares g x p ∧ ∀ d ∈ ds, ¬ Covers text x d.range := by
  have P := parsed_of hp
  obtain ⟨ds', h1, h2, -⟩ := c38_exact errLen text g errs hp hq hlab
  rw [hds] at h1; cases h1
  obtain ⟨pro, hpro, -⟩ := (decl_iff P hq hdecl.choose).1 hdecl.choose_spec.1
  have hmem : ∀ x, x ∈ prefixDecls pro ↔ IsDecl g x := by
    intro x
    rw [decl_iff P hq]
    constructor
    · intro h; exact ⟨pro, hpro, h⟩
    · rintro ⟨pro', e, h⟩; rw [hpro] at e; cases e; exact h
  have htri : ∀ {x y}, IsDecl g x → IsDecl g y → x ≠ y → y.stop ≤ x.start ∨ x.stop ≤ y.start := by
    intro x y hx hy hne
    obtain ⟨a, b, e⟩ := List.append_of_mem ((hmem x).2 hx)
    have hpw := decls_pairwise pro
    have hy' := (hmem y).2 hy
    rw [e] at hpw hy'
    rw [List.pairwise_append] at hpw
    rw [List.mem_append, List.mem_cons] at hy'
    rcases hy' with h | rfl | h
    · exact Or.inl (hpw.2.2 y h x (by simp))
    · exact absurd rfl hne
    · exact Or.inr ((List.pairwise_cons.1 hpw.2.1).1 y h)
  -- not reported: no earlier declaration
  have hrep : ∀ x, Declares g x p → ((∀ d ∈ ds, ¬ Covers text x d.range) ↔ ∀ y, Declares g y p → ¬ y.stop ≤ x.start) := by
    intro x hx
    constructor
    · intro h y hy hlt
      obtain ⟨d, hd, c1, c2, c3, c4⟩ := diagAt_some P hx.1.1 .warning .duplicatePrefix (some p)
      exact h d ((h2 d).2 ⟨x, y, p, hx, hy, hlt, c1, c2, c3, c4⟩) c1
    · intro h d hd hc
      obtain ⟨x', y, q, hx', hy, hlt, c1, -⟩ := (h2 d).1 hd
      have hs := covers_inj P hx.1.1 hx'.1.1 hc c1
      have hxx : x = x' := by
        by_contra hne
        have := decl_nonempty P hq hx.1
        have := decl_nonempty P hq hx'.1
        rcases htri hx.1 hx'.1 hne with h | h <;> omega
      subst hxx
      rw [declares_unique P hx' hx] at hy
      exact h y hy hlt
  -- the first declaration
  obtain ⟨x0, hx0⟩ := hdecl
  have hmin : ∃ x, Declares g x p ∧ ∀ y, Declares g y p → x.start ≤ y.start := by
    have key : ∀ n : Nat, ∀ x, Declares g x p → x.start ≤ n → ∃ x, Declares g x p ∧ ∀ y, Declares g y p → x.start ≤ y.start := by
      intro n
      induction n with
      | zero => intro x hx hn; exact ⟨x, hx, fun y _ => by omega⟩
      | succ n ih =>
        intro x hx hn
        by_cases h : ∃ y, Declares g y p ∧ y.start ≤ n
        · obtain ⟨y, hy, hyn⟩ := h
          exact ih y hy hyn
        · refine ⟨x, hx, fun y hy => ?_⟩
          by_contra hlt
          exact h ⟨y, hy, by omega⟩
    exact key x0.start x0 hx0 (Nat.le_refl _)
  obtain ⟨x, hx, hxm⟩ := hmin
  refine ⟨x, ⟨hx, (hrep x hx).2 ?_⟩, ?_⟩
  · intro y hy hlt
    have := hxm y hy
    have := decl_nonempty P hq hy.1
    omega
  · rintro z ⟨hz, hzr⟩
    by_contra hne
    have hz' := (hrep z hz).1 hzr
    rcases htri hz.1 hx.1 hne with h | h
    · exact hz' x hx h
    · have := hxm z hz
      have := decl_nonempty P hq hz.1
      omega

/-- **C38 (negative).** One declaration without a label suppresses all reports of duplicates. -/
theorem c38_unlabelled (errLen : Text → Nat) (text : Text) (g errs) (hp : parseSource errLen text = some (g, errs))
    (hq : g.kind = K.QueryUnit) (hx : ∃ x, Unlabelled g x) : added (duplicatePrefix text g) = some [] := by
  have P := parsed_of hp
  obtain ⟨x, hx⟩ := hx
  obtain ⟨pro, hpro, hm⟩ := (decl_iff P hq x).1 hx.1
  have := duplicateLoop_none P (prefixDecls pro) [] [] (fun y hy => (decl_iff P hq y).2 ⟨pro, hpro, hy⟩) ⟨x, hm, hx⟩
  simp [duplicatePrefix, hpro, this, added]

/-- Examples: the third declaration is reported in `PREFIX a: <u> PREFIX b: <v> PREFIX a: <w> SELECT ..`; nothing is in
`PREFIX a: <u> PREFIX a: <u> PREFIX <v> ASK {}`. -/
theorem c38_cases : added (duplicatePrefix preText preTree) = some [⟨⟨⟨2, 0⟩, ⟨2, 13⟩⟩, .warning, .duplicatePrefix, some ['a']⟩] ∧
    added (duplicatePrefix nolabText nolabTree) = some [] := by decide +kernel

end Verif.Props
