import Verif.Features.Surgery
import Verif.Props.SameSubject
/-!
# Adding to a group graph pattern

Behind a triple (and its dot) of a valid document there is room for another member of the group graph pattern.
-/
namespace Verif.Props
open Verif Verif.Grammar Verif.Lexer Verif.Features Verif.Format

/-! ## Words of groups -/

theorem not_null {k : Kind} (h : nullNodes.contains k = false) : ¬ Derives sparqlRules (.node k) [] := by
  intro hd
  have h2 : nullNodes.contains k = true := null_derives null_ok hd rfl
  rw [h] at h2; cases h2

theorem whole_node {k : Kind} (hk : nullNodes.contains k = false) {l : List Sym} (h : Whole sparqlRules (.node k) l) : l = [.node k] := by
  cases h with
  | node => rfl
  | empty _ h => exact absurd h (not_null hk)

theorem whole_tok {k : Kind} {l : List Sym} (h : Whole sparqlRules (.tok k) l) : l = [.tok k] := by cases h; rfl

def ruleBlock : Rule := .seq (.node K.TriplesSameSubjectPath) (.opt (.seq (.tok K.Dot) (.opt (.node K.TriplesBlock))))
def ruleElem : Rule := .seq (.node K.GraphPatternNotTriples) (.seq (.opt (.tok K.Dot)) (.opt (.node K.TriplesBlock)))
def ruleSub : Rule := .seq (.opt (.node K.TriplesBlock)) (.rep ruleElem)
def rulePattern : Rule := .seq (.tok K.LCurly) (.seq (.alt (.node K.SubSelect) (.node K.GroupGraphPatternSub)) (.tok K.RCurly))

theorem r_block : sparqlRules K.TriplesBlock = some ruleBlock := by decide +kernel
theorem r_sub : sparqlRules K.GroupGraphPatternSub = some ruleSub := by decide +kernel
theorem r_pattern : sparqlRules K.GroupGraphPattern = some rulePattern := by decide +kernel

theorem whole_block {l : List Sym} (h : Whole sparqlRules ruleBlock l) : l = [.node K.TriplesSameSubjectPath] ∨
    l = [.node K.TriplesSameSubjectPath, .tok K.Dot] ∨ l = [.node K.TriplesSameSubjectPath, .tok K.Dot, .node K.TriplesBlock] := by
  cases h with
  | seq h1 h2 =>
    rw [whole_node (by decide +kernel) h1]
    cases h2 with
    | optNone => exact .inl rfl
    | optSome h2 =>
      cases h2 with
      | seq h2 h3 =>
        rw [whole_tok h2]
        cases h3 with
        | optNone => exact .inr (.inl rfl)
        | optSome h3 => rw [whole_node (by decide +kernel) h3]; exact .inr (.inr rfl)

theorem whole_elem {l : List Sym} (h : Whole sparqlRules ruleElem l) : ∃ d, (d = [] ∨ d = [.tok K.Dot]) ∧
    (l = .node K.GraphPatternNotTriples :: d ∨ l = .node K.GraphPatternNotTriples :: d ++ [.node K.TriplesBlock]) := by
  cases h with
  | seq h1 h2 =>
    rw [whole_node (by decide +kernel) h1]
    cases h2 with
    | @seq _ _ d _ h2 h3 =>
      have hd : d = [] ∨ d = [.tok K.Dot] := by
        cases h2 with
        | optNone => exact .inl rfl
        | optSome h2 => exact .inr (whole_tok h2)
      refine ⟨d, hd, ?_⟩
      cases h3 with
      | optNone => exact .inl (by simp)
      | optSome h3 => rw [whole_node (by decide +kernel) h3]; exact .inr (by simp)

theorem whole_rep_split {r : Rule} {l : List Sym} (h : Whole sparqlRules r l) : r = .rep ruleElem → ∀ {u v}, l = u ++ .node K.TriplesBlock :: v →
    Whole sparqlRules (.rep ruleElem) v ∧ ∀ m, Whole sparqlRules (.rep ruleElem) m → Whole sparqlRules (.rep ruleElem) (u ++ .node K.TriplesBlock :: m) := by
  induction h with
  | tok => intro e; cases e
  | node => intro e; cases e
  | empty => intro e; cases e
  | seq => intro e; cases e
  | altL => intro e; cases e
  | altR => intro e; cases e
  | optNone => intro e; cases e
  | optSome => intro e; cases e
  | repNil => intro _ u v e; cases u <;> cases e
  | @repCons r' x y d ds _ ih =>
    intro e
    cases e
    intro u v e
    rcases List.append_eq_append_iff.1 e with ⟨z, e1, e2⟩ | ⟨z, e1, e2⟩
    · obtain ⟨h1, h2⟩ := ih rfl e2
      refine ⟨h1, fun m hm => ?_⟩
      rw [e1, List.append_assoc]
      exact .repCons d (h2 m hm)
    · cases z with
      | nil =>
        obtain ⟨h1, h2⟩ := ih rfl (u := []) e2.symm
        refine ⟨h1, fun m hm => ?_⟩
        rw [List.append_nil] at e1
        rw [← e1]
        exact .repCons d (h2 m hm)
      | cons c z =>
        injection e2 with e2 e3
        subst e2
        obtain ⟨dd, hd, h⟩ := whole_elem d
        have hz : z = [] := by
          rcases h with h | h
          · exfalso
            have : Sym.node K.TriplesBlock ∈ x := by rw [e1]; simp
            rw [h] at this
            rcases hd with hd | hd <;> rw [hd] at this <;> revert this <;> decide
          · cases hh : z.reverse with
            | nil => simpa using hh
            | cons a b =>
              exfalso
              have : z = b.reverse ++ [a] := by rw [← List.reverse_reverse z, hh]; simp
              rw [e1, this] at h
              have h' : (u ++ Sym.node K.TriplesBlock :: b.reverse) ++ [a] = (Sym.node K.GraphPatternNotTriples :: dd) ++ [Sym.node K.TriplesBlock] := by
                rw [← h]; simp
              have := (List.append_inj' h' rfl).1
              have hm : Sym.node K.TriplesBlock ∈ Sym.node K.GraphPatternNotTriples :: dd := by rw [← this]; simp
              rcases hd with hd | hd <;> rw [hd] at hm <;> revert hm <;> decide
        subst hz
        have e3 : v = y := e3
        subst e3
        refine ⟨ds, fun m hm => ?_⟩
        have := Whole.repCons d hm
        rw [e1] at this
        simpa using this

theorem whole_sub_split {u v : List Sym} (h : Whole sparqlRules ruleSub (u ++ .node K.TriplesBlock :: v)) :
    Whole sparqlRules (.rep ruleElem) v ∧ ∀ m, Whole sparqlRules (.rep ruleElem) m → Whole sparqlRules ruleSub (u ++ .node K.TriplesBlock :: m) := by
  generalize hl : u ++ .node K.TriplesBlock :: v = l at h
  cases h with
  | @seq _ _ x y h1 h2 =>
    cases h1 with
    | optNone =>
      obtain ⟨k1, k2⟩ := whole_rep_split h2 rfl hl.symm
      exact ⟨k1, fun m hm => .seq (u := []) (.optNone _) (k2 m hm)⟩
    | optSome h1 =>
      have e := whole_node (by decide +kernel) h1
      rw [e] at hl
      cases u with
      | nil =>
        injection hl with _ e2
        rw [e2]
        refine ⟨h2, fun m hm => .seq (u := [_]) (.optSome (.node _)) hm⟩
      | cons c u =>
        injection hl with e1 e2
        rw [e1]
        obtain ⟨k1, k2⟩ := whole_rep_split h2 rfl e2.symm
        exact ⟨k1, fun m hm => .seq (u := [_]) (.optSome (.node _)) (k2 m hm)⟩

theorem elem_add (m : List Sym) (h : Whole sparqlRules (.rep ruleElem) m) : Whole sparqlRules (.rep ruleElem) (.node K.GraphPatternNotTriples :: m) ∧
    Whole sparqlRules (.rep ruleElem) (.node K.GraphPatternNotTriples :: .node K.TriplesBlock :: m) := by
  constructor
  · exact .repCons (u := [_]) (.seq (u := [_]) (v := []) (.node _) (.seq (u := []) (v := []) (.optNone _) (.optNone _))) h
  · exact .repCons (u := [_, _]) (.seq (u := [_]) (v := [_]) (.node _) (.seq (u := []) (v := [_]) (.optNone _) (.optSome (.node _)))) h

/-- What a derived word begins with. -/
theorem first_derives {r : Rule} {w : List Kind} (h : Derives sparqlRules r w) : ∀ {k rest}, w = k :: rest →
    ∃ s ∈ headSyms nullNodes r, (symFirst s).testBit k = true := by
  induction h with
  | tok k =>
    intro k' rest e
    injection e with e _
    subst e
    exact ⟨.tok k, by simp [headSyms], by simp [symFirst, Nat.testBit_shiftLeft]⟩
  | node k r w hr d ih =>
    intro k' rest e
    obtain ⟨s, h1, h2⟩ := ih e
    have ht := List.all_eq_true.1 first_table (k, r) (sparqlRulesTree.find_mem k r hr)
    exact ⟨.node k, by simp [headSyms], sub_mask (List.all_eq_true.1 ht s h1) h2⟩
  | seq a b u v da db iha ihb =>
    intro k' rest e
    cases u with
    | nil =>
      obtain ⟨s, h1, h2⟩ := ihb e
      have hn := null_derives null_ok da rfl
      exact ⟨s, by simp [headSyms, hn, h1], h2⟩
    | cons c u =>
      injection e with e1 e2
      obtain ⟨s, h1, h2⟩ := iha (by rw [e1])
      refine ⟨s, ?_, h2⟩
      unfold headSyms
      split <;> simp [h1]
  | altL a b w d ih => intro k' rest e; obtain ⟨s, h1, h2⟩ := ih e; exact ⟨s, by simp [headSyms, h1], h2⟩
  | altR a b w d ih => intro k' rest e; obtain ⟨s, h1, h2⟩ := ih e; exact ⟨s, by simp [headSyms, h1], h2⟩
  | optNone r => intro k' rest e; cases e
  | optSome r w d ih => intro k' rest e; obtain ⟨s, h1, h2⟩ := ih e; exact ⟨s, by simpa [headSyms] using h1, h2⟩
  | repNil r => intro k' rest e; cases e
  | repCons r u v d ds iha ihb =>
    intro k' rest e
    cases u with
    | nil => exact ihb e
    | cons c u =>
      injection e with e1 e2
      obtain ⟨s, h1, h2⟩ := iha (by rw [e1])
      exact ⟨s, by simpa [headSyms] using h1, h2⟩

/-- A node that can be derived from a nonempty word only. -/
theorem derives_ne {k : Kind} (hk : nullNodes.contains k = false) {w : List Kind} (h : Derives sparqlRules (.node k) w) : w ≠ [] := by
  rintro rfl; exact not_null hk h

/-! ## Room behind a triple -/

/-- What may be written behind a triple of a group: another triple, another pattern or the end of the group. -/
def aheadMask : Nat := symFirst (.node K.TriplesBlock) ||| symFirst (.node K.GraphPatternNotTriples) ||| (1 <<< K.RCurly)

section
variable {text : Text} {g : Green} (P : Parsed text g) (hC : ∀ n ∈ g.nodes, Complete sparqlRules n)

/-- A block can be ended between `X` and `Y`. -/
structure Room (b : Red) (X Y : List Red) : Prop where
  eq : b.tokens = X ++ Y
  left : Derives sparqlRules (.node K.TriplesBlock) (sigKs X)
  right : sigKs Y = [] ∨ Derives sparqlRules (.node K.TriplesBlock) (sigKs Y)

include P in
theorem flat_nil {r : Red} (hr : InTree g r) {l : List Red} (hl : ∀ c ∈ l, c ∈ r.childrenT) (hs : l.filter Red.sig = []) :
    sigKs (l.flatMap Red.tokens) = [] := by
  rw [flat_words P hr hl, hs]; rfl

include P hC

/-- From a nested block to the block around it. -/
theorem room_up {b p : Red} (hp : InTree g p) (hpk : p.kind = K.TriplesBlock) (hbp : b ∈ p.childrenT) (hbn : b.isNode = true)
    (hbk : b.kind = K.TriplesBlock) {X Y : List Red} (h : Room b X Y) : ∃ a c, p.childrenT = a ++ b :: c ∧
      Room p (a.flatMap Red.tokens ++ X) (Y ++ c.flatMap Red.tokens) := by
  obtain ⟨a, c, hac⟩ := List.append_of_mem hbp
  refine ⟨a, c, hac, ?_⟩
  have hpn := child_isNode hbp
  have hw := sigC_whole P hC hp hpn (by rw [hpk]; exact r_block)
  have hcs : c.filter Red.sig = [] := by
    have hsig : sigC p = a.filter Red.sig ++ b :: c.filter Red.sig := by
      unfold sigC; rw [hac, List.filter_append, List.filter_cons_of_pos (node_sig P (hp.child hbp) hbn)]
    rw [hsig, List.map_append, List.map_cons, symOf_node hbn, hbk] at hw
    have hlen : ∀ {u v : List Sym}, (u ++ Sym.node K.TriplesBlock :: v = [.node K.TriplesSameSubjectPath] ∨
      u ++ Sym.node K.TriplesBlock :: v = [.node K.TriplesSameSubjectPath, .tok K.Dot] ∨
      u ++ Sym.node K.TriplesBlock :: v = [.node K.TriplesSameSubjectPath, .tok K.Dot, .node K.TriplesBlock]) → v = [] := by
      intro u v h
      rcases h with h | h | h
      · have : Sym.node K.TriplesBlock ∈ [Sym.node K.TriplesSameSubjectPath] := by rw [← h]; simp
        exfalso; revert this; decide
      · have : Sym.node K.TriplesBlock ∈ [Sym.node K.TriplesSameSubjectPath, .tok K.Dot] := by rw [← h]; simp
        exfalso; revert this; decide
      · match u, h with
        | [], h => injection h with h _; exfalso; revert h; decide
        | [_], h => injection h with _ h; injection h with h _; cases h
        | [_, _], h => injection h with _ h; injection h with _ h; injection h with _ h
        | _ :: _ :: _ :: u, h =>
          injection h with _ h; injection h with _ h; injection h with _ h
          cases u <;> cases h
    have := hlen (whole_block hw)
    simpa using this
  have hc0 : sigKs (c.flatMap Red.tokens) = [] := flat_nil P hp (fun x hx => by rw [hac]; simp [hx]) hcs
  refine ⟨?_, ?_, ?_⟩
  · rw [tokens_eq p, if_pos hpn, hac, List.flatMap_append, List.flatMap_cons, h.eq]; simp
  · have := exchange_child P hC hp hac hbn (w := sigKs X) (by rw [hbk]; exact h.left)
    rw [hc0, List.append_nil, hpk] at this
    rw [sigKs_append]; exact this
  · rw [sigKs_append, hc0, List.append_nil]; exact h.right

omit hC in
/-- Where a block stands. -/
theorem block_parent {b : Red} (hb : InTree g b) (hn : b.isNode = true) (hk : b.kind = K.TriplesBlock) :
    ∃ p, InTree g p ∧ p.isNode = true ∧ b ∈ p.childrenT ∧ (p.kind = K.TriplesBlock ∨ p.kind = K.GroupGraphPatternSub) := by
  obtain ⟨p, h1, h2, h3, h4⟩ := P.parent_kind hb hn (by rw [hk]; decide) (by
    rintro rfl
    have := P.root
    rcases this with h | h <;> rw [show (Red.root g).kind = g.kind from rfl, h] at hk <;> revert hk <;> decide)
    [K.TriplesBlock, K.GroupGraphPatternSub] (by rw [hk]; decide +kernel)
  exact ⟨p, h1, h2, h3, by simpa using h4⟩

omit hC in
theorem sub_parent {s : Red} (hs : InTree g s) (hn : s.isNode = true) (hk : s.kind = K.GroupGraphPatternSub) :
    ∃ p, InTree g p ∧ p.isNode = true ∧ s ∈ p.childrenT ∧ p.kind = K.GroupGraphPattern := by
  obtain ⟨p, h1, h2, h3, h4⟩ := P.parent_kind hs hn (by rw [hk]; decide) (by
    rintro rfl
    have := P.root
    rcases this with h | h <;> rw [show (Red.root g).kind = g.kind from rfl, h] at hk <;> revert hk <;> decide)
    [K.GroupGraphPattern] (by rw [hk]; decide +kernel)
  exact ⟨p, h1, h2, h3, by simpa using h4⟩

/-- There is room for another pattern. -/
structure Opening (g : Green) (A B : List Red) : Prop where
  eq : (Red.root g).tokens = A ++ B
  fill : ∀ F, Derives sparqlRules (.node K.GraphPatternNotTriples) F → Derives sparqlRules (.node g.kind) (sigKs A ++ F ++ sigKs B)
  ahead : ∃ k rest, sigKs B = k :: rest ∧ aheadMask.testBit k = true

/-- Room in a block of a group. -/
theorem room_sub {b s : Red} (hs : InTree g s) (hsk : s.kind = K.GroupGraphPatternSub) (hbs : b ∈ s.childrenT) (hbn : b.isNode = true)
    (hbk : b.kind = K.TriplesBlock) {X Y : List Red} (h : Room b X Y) : ∃ L R, Opening g (L ++ X) (Y ++ R) := by
  have hsn := child_isNode hbs
  obtain ⟨p, hp, hpn, hsp, hpk⟩ := sub_parent P hs hsn hsk
  obtain ⟨L, R, e, hx⟩ := exchange P hC hp hpn
  obtain ⟨pa, pc, hpac⟩ := List.append_of_mem hsp
  obtain ⟨a, c, hac⟩ := List.append_of_mem hbs
  have hpc : ∃ rest, sigKs (pc.flatMap Red.tokens) = K.RCurly :: rest := by
    have hpcm : ∀ x ∈ pc, x ∈ p.childrenT := fun x hx => by rw [hpac]; simp [hx]
    rw [flat_words P hp hpcm]
    have hsig : sigC p = pa.filter Red.sig ++ s :: pc.filter Red.sig := by
      unfold sigC; rw [hpac, List.filter_append, List.filter_cons_of_pos (node_sig P hs hsn)]
    cases hf : pc.filter Red.sig with
    | nil =>
      exfalso
      rw [hf] at hsig
      have := sigC_tail P hC hp hpn (by rw [hpk]; exact r_pattern) hsig
      rw [symOf_node hsn, hsk] at this
      revert this; decide
    | cons y T =>
      rw [hf] at hsig
      have := sigC_next P hC hp hpn (by rw [hpk]; exact r_pattern) (f := fun a b => a != .node K.GroupGraphPatternSub || b == .tok K.RCurly)
        (by decide +kernel) hsig
      rw [symOf_node hsn, hsk] at this
      have : symOf y = .tok K.RCurly := by simpa using this
      obtain ⟨h1, h2⟩ := symOf_eq_tok.1 this
      have hy := List.mem_filter.1 (show y ∈ pc.filter Red.sig by rw [hf]; simp)
      exact ⟨_, by rw [List.map_cons, List.flatten_cons, word_tok h1 hy.2, h2]; rfl⟩
  have ham : ∀ x ∈ a, x ∈ s.childrenT := fun x hx => by rw [hac]; simp [hx]
  have hcm : ∀ x ∈ c, x ∈ s.childrenT := fun x hx => by rw [hac]; simp [hx]
  have hsig : sigC s = a.filter Red.sig ++ b :: c.filter Red.sig := by
    unfold sigC; rw [hac, List.filter_append, List.filter_cons_of_pos (node_sig P (hs.child hbs) hbn)]
  have hw := sigC_whole P hC hs hsn (by rw [hsk]; exact r_sub)
  rw [hsig, List.map_append, List.map_cons, symOf_node hbn, hbk] at hw
  obtain ⟨hv, hm⟩ := whole_sub_split hw
  have key : ∀ l : List Red, (∀ x ∈ l, x ∈ s.childrenT) → ∀ x ∈ l.filter Red.sig, x ∈ s.childrenT ∧ x.sig = true := by
    intro l hl x hx
    obtain ⟨h1, h2⟩ := List.mem_filter.1 hx
    exact ⟨hl x h1, h2⟩
  have hwa := words_derive P hC hs (key a ham)
  have hwc := words_derive P hC hs (key c hcm)
  refine ⟨L ++ pa.flatMap Red.tokens ++ a.flatMap Red.tokens, c.flatMap Red.tokens ++ pc.flatMap Red.tokens ++ R, ?_, ?_, ?_⟩
  · have e1 : s.tokens = a.flatMap Red.tokens ++ (X ++ Y) ++ c.flatMap Red.tokens := by
      rw [tokens_eq s, if_pos hsn, hac, ← h.eq]; simp
    have e2 : p.tokens = pa.flatMap Red.tokens ++ s.tokens ++ pc.flatMap Red.tokens := by
      rw [tokens_eq p, if_pos hpn, hpac]; simp
    rw [e, e2, e1]; simp
  · intro F hF
    have hS : Derives sparqlRules (.node s.kind) (sigKs (a.flatMap Red.tokens) ++ sigKs X ++ F ++ sigKs Y ++ sigKs (c.flatMap Red.tokens)) := by
      rw [hsk]
      refine .node _ _ _ r_sub ?_
      rw [flat_words P hs ham, flat_words P hs hcm]
      rcases h.right with h0 | h0
      · have := whole_subst (hm _ (elem_add _ hv).1) (List.rel_append hwa (.cons h.left (.cons hF hwc)))
        rw [h0]
        simpa using this
      · have := whole_subst (hm _ (elem_add _ hv).2) (List.rel_append hwa (.cons h.left (.cons hF (.cons h0 hwc))))
        simpa using this
    have := hx _ (exchange_child P hC hp hpac hsn hS)
    simp only [sigKs_append]
    simpa using this
  · have htb : ∀ {w : List Kind}, Derives sparqlRules (.node K.TriplesBlock) w → ∃ k rest, w = k :: rest ∧ aheadMask.testBit k = true := by
      intro w hd
      cases hw' : w with
      | nil => exact absurd hw' (derives_ne (by decide +kernel) hd)
      | cons k rest =>
        obtain ⟨x, h1, h2⟩ := first_derives hd hw'
        have : x = .node K.TriplesBlock := by simpa [headSyms] using h1
        subst this
        exact ⟨k, rest, rfl, by simp [aheadMask, Nat.testBit_or, h2]⟩
    have hgp : ∀ {w : List Kind}, Derives sparqlRules (.rep ruleElem) w → w = [] ∨ ∃ k rest, w = k :: rest ∧ aheadMask.testBit k = true := by
      intro w hd
      cases hw' : w with
      | nil => exact .inl rfl
      | cons k rest =>
        obtain ⟨x, h1, h2⟩ := first_derives hd hw'
        have hh : headSyms nullNodes (.rep ruleElem) = [.node K.GraphPatternNotTriples] := by decide +kernel
        rw [hh] at h1
        have : x = .node K.GraphPatternNotTriples := by simpa using h1
        subst this
        exact .inr ⟨k, rest, rfl, by simp [aheadMask, Nat.testBit_or, h2]⟩
    have ext : ∀ {w v : List Kind}, (∃ k rest, w = k :: rest ∧ aheadMask.testBit k = true) → ∃ k rest, w ++ v = k :: rest ∧ aheadMask.testBit k = true := by
      rintro w v ⟨k, rest, rfl, h⟩
      exact ⟨k, rest ++ v, rfl, h⟩
    simp only [sigKs_append]
    rcases h.right with h0 | h0
    · rw [h0, List.nil_append]
      rcases hgp (w := sigKs (c.flatMap Red.tokens)) (by rw [flat_words P hs hcm]; exact whole_subst hv hwc) with h1 | h1
      · rw [h1, List.nil_append]
        obtain ⟨rest, h2⟩ := hpc
        exact ext ⟨_, rest, h2, by decide +kernel⟩
      · rw [List.append_assoc]; exact ext h1
    · exact ext (htb h0)

/-- Room in a block. -/
theorem room_open {b : Red} (hb : InTree g b) : b.isNode = true → b.kind = K.TriplesBlock → ∀ {X Y : List Red}, Room b X Y →
    ∃ L R, Opening g (L ++ X) (Y ++ R) := by
  induction hb with
  | root =>
    intro _ hk
    exfalso
    have := P.root
    rcases this with h | h <;> rw [show (Red.root g).kind = g.kind from rfl, h] at hk <;> revert hk <;> decide
  | @child p b hp hc ih =>
    intro hn hk X Y h
    obtain ⟨p', h1, h2, h3, h4⟩ := block_parent P (hp.child hc) hn hk
    have : p' = p := by
      have e1 := child_parent h3
      have e2 := child_parent hc
      rw [e1] at e2; injection e2
    subst this
    rcases h4 with h4 | h4
    · obtain ⟨a, c, -, hr⟩ := room_up P hC hp h4 hc hn hk h
      obtain ⟨L, R, ho⟩ := ih (child_isNode hc) h4 hr
      exact ⟨L ++ a.flatMap Red.tokens, c.flatMap Red.tokens ++ R, by simpa using ho⟩
    · exact room_sub P hC hp h4 hc hn hk h

end
end Verif.Props
