import Verif.Props.Tree
import Verif.Props.Lexer
import Verif.Features.Spans
/-!
# Facts about the tree of a document
-/
namespace Verif.Features
open Verif Verif.Grammar Verif.Lexer Verif.Props

/-- What is used about the tree of a document. -/
structure Parsed (text : Text) (g : Green) : Prop where
  text_eq : g.text = text
  root : g.kind = K.QueryUnit ∨ g.kind = K.UpdateUnit
  follows : ∀ n ∈ g.nodes, Follows sparqlRules n
  nonempty : ∀ n ∈ g.inner, n.text ≠ []
  leaf_nonempty : ∀ p ∈ g.leaves, p.2 ≠ []
  tight : ∀ n ∈ g.inner, n.Tight
  starts : ∀ n ∈ g.nodes, ∀ ks, (n.kind, ks) ∈ nodeStarts → ∃ p l, n.leaves = p :: l ∧ p.1 ∈ ks
  top : ∃ e : Entry, ∃ cs a b, g = .node e.kind cs ∧ (cs.filter (fun c => !c.isTok)).map Green.kind = a ++ b ∧
    (a = [] ∨ a = [e.inner]) ∧ (b = [] ∨ b = [K.Error])
  lexed : ∀ p ∈ g.leaves, p.1 ≠ K.Error → ∃ r ∈ lexRules, r.kind = p.1 ∧ Matches r.re p.2

theorem leavesL_mem {gs : List Green} {p} : p ∈ Green.leavesL gs ↔ ∃ g ∈ gs, p ∈ g.leaves := by
  induction gs with
  | nil => simp [Green.leavesL]
  | cons g gs ih => simp [Green.leavesL, ih]

/-- The leaves of a node are leaves of the tree. -/
theorem leaves_of_nodes {g n : Green} (h : n ∈ g.nodes) : ∀ p ∈ n.leaves, p ∈ g.leaves := by
  revert n
  induction g using Green.rec (motive_2 := fun cs => ∀ g ∈ cs, ∀ n, n ∈ g.nodes → ∀ p ∈ n.leaves, p ∈ g.leaves) with
  | tok k t => intro n h; simp [Green.nodes] at h
  | node k cs ih =>
    intro n h p hp
    simp only [Green.nodes, List.mem_cons] at h
    rcases h with rfl | h
    · exact hp
    · obtain ⟨g', hg, hn⟩ := nodesL_mem.1 h
      rw [Green.leaves]
      exact leavesL_mem.2 ⟨g', hg, ih g' hg n hn p hp⟩
  | nil => rename_i h _ _ _ _; cases h
  | cons g gs ih1 ih2 =>
    rename_i g' hg n h p hp
    rcases List.mem_cons.1 hg with rfl | hg
    · exact ih1 h p hp
    · exact ih2 g' hg n h p hp

theorem parsedText {e : Entry} {text : Text} {tokens : List Tok} (hL : Lexed text tokens)
    (hne : ∀ t ∈ tokens, t.text ≠ [])
    (hlex : ∀ t ∈ tokens, t.kind ≠ K.Error → ∃ r ∈ lexRules, r.kind = t.kind ∧ Matches r.re t.text) {g errs} (h : parseText e tokens = some (g, errs)) : Parsed text g := by
  have hleaf : ∀ p ∈ g.leaves, p.2 ≠ [] := by
    intro p hp
    rw [c09_leaves e text tokens hL g errs h] at hp
    obtain ⟨t, ht, rfl⟩ := List.mem_map.1 hp
    exact hne t ht
  have hk : g.kind = e.kind := by
    obtain ⟨F, cs, -, -, rfl, -⟩ := parseText_some hL h
    rfl
  have htight : ∀ n ∈ g.inner, n.Tight := by
    obtain ⟨F, cs, -, -, rfl, -, -, -, h7⟩ := parseText_some hL h
    exact h7
  refine ⟨c09_lossless e text tokens hL g errs h, ?_, c46_follows e text tokens hL g errs h, ?_, hleaf, htight,
    c48_starts e text tokens hL g errs h, ⟨e, c48_root e text tokens hL g errs h⟩, ?_⟩
  · rw [hk]; cases e
    · exact Or.inl rfl
    · exact Or.inr rfl
  · intro n hn hnil
    obtain ⟨⟨k, t, l, e1, -⟩, -⟩ := htight n hn
    have hmem : n ∈ g.nodes := by
      cases g with
      | tok k t => cases hn
      | node k cs => simp only [Green.nodes, List.mem_cons]; exact Or.inr hn
    have := hleaf (k, t) (leaves_of_nodes hmem _ (by rw [e1]; simp))
    unfold Green.text at hnil
    rw [e1] at hnil
    simp only [List.map_cons, List.flatten_cons, List.append_eq_nil_iff] at hnil
    exact this hnil.1
  · intro p hp
    rw [c09_leaves e text tokens hL g errs h] at hp
    obtain ⟨t, ht, rfl⟩ := List.mem_map.1 hp
    exact hlex t ht

/-- The tree of any document text. -/
theorem parsed_of {errLen : Text → Nat} {text : Text} {g errs} (h : parseSource errLen text = some (g, errs)) :
    Parsed text g := by
  unfold parseSource parseDocument at h
  have hlex : ∀ t ∈ lex errLen text, t.kind ≠ K.Error → ∃ r ∈ lexRules, r.kind = t.kind ∧ Matches r.re t.text := by
    intro t ht
    exact lexes_rule (c47_longest_match errLen text) (t.kind, t.text) (List.mem_map.2 ⟨t, ht, rfl⟩)
  split at h <;> exact parsedText (c47_lossless errLen text) (c47_nonempty errLen text) hlex h

namespace Parsed
variable {text : Text} {g : Green} (P : Parsed text g)
include P

theorem hroot : g.kind ≠ K.SubSelect ∧ g.kind ≠ K.SelectQuery := by
  rcases P.root with h | h <;> rw [h] <;> decide

theorem at_ {r : Red} (h : InTree g r) : At text r.start r.text := by
  obtain ⟨a, b, h1, h2⟩ := h.text
  exact ⟨a, b, by rw [← P.text_eq, h1], h2⟩

theorem stop_le {r : Red} (h : InTree g r) : r.stop ≤ blen text := by
  obtain ⟨a, b, h1, h2⟩ := P.at_ h
  unfold Red.stop
  have := congrArg blen h1
  simp only [blen_append] at this
  have e : r.here.off = r.start := rfl
  omega

theorem inner_of {r : Red} (h : InTree g r) (hn : r.isNode = true) (hu : r.up ≠ []) : r.green ∈ g.inner := by
  cases h with
  | root => exact absurd rfl hu
  | @child p c hp hc =>
    have hpn := InTree.green_mem hp (child_isNode hc)
    -- the child is a node strictly below a node
    have hcp : r.green ∈ Green.inner p.green := by
      unfold Red.childrenT at hc
      have hg : p.green = p.here.green := rfl
      rw [hg]
      cases hk : p.here.green with
      | tok k t => rw [hk] at hc; cases hc
      | node k cs =>
        rw [hk] at hc
        simp only [List.mem_map] at hc
        obtain ⟨s, hs, rfl⟩ := hc
        obtain ⟨a, b, e, _, _⟩ := mem_childSites hs
        refine nodesL_mem.2 ⟨s.green, by rw [e]; simp, ?_⟩
        unfold Red.green
        unfold Red.isNode at hn
        simp only at hn ⊢
        cases hs' : s.green with
        | tok k t => rw [hs'] at hn; cases hn
        | node k cs => simp [Green.nodes]
    have hin : ∀ x ∈ g.nodes, ∀ y ∈ Green.inner x, y ∈ Green.inner g := by
      intro x hx y hy
      have hy' : y ∈ x.nodes := by
        cases x with
        | tok k t => cases hy
        | node k cs => simp only [Green.nodes, List.mem_cons]; exact Or.inr hy
      cases g with
      | tok k t => cases hx
      | node k cs =>
        simp only [Green.nodes, List.mem_cons] at hx
        rcases hx with rfl | hx
        · exact hy
        · obtain ⟨g', hg', hx'⟩ := nodesL_mem.1 hx
          exact nodesL_mem.2 ⟨g', hg', nodes_trans hx' hy'⟩
    exact hin _ hpn _ hcp

theorem node_nonempty {r : Red} (h : InTree g r) (hn : r.isNode = true) (hu : r.up ≠ []) : r.text ≠ [] :=
  P.nonempty _ (P.inner_of h hn hu)

/-- A child of a node obeys the grammar. -/
theorem child_sym {r c : Red} (h : InTree g r) (hc : c ∈ r.childrenT) :
    if r.kind = K.Error then c.isNode = false
    else c.green.sym = none ∨ ∃ R s, sparqlRules r.kind = some R ∧ c.green.sym = some s ∧ s ∈ symbols R := by
  have hf := P.follows _ (h.green_mem (child_isNode hc))
  unfold Red.childrenT at hc
  have hk : r.kind = r.here.green.kind := rfl
  have hg : r.green = r.here.green := rfl
  rw [hg] at hf
  rw [hk]
  cases hgr : r.here.green with
  | tok k t => rw [hgr] at hc; cases hc
  | node k cs =>
    rw [hgr] at hc hf
    simp only [List.mem_map] at hc
    obtain ⟨s, hs, rfl⟩ := hc
    obtain ⟨a, b, e, _, _⟩ := mem_childSites hs
    have hm : s.green ∈ cs := by rw [e]; simp
    simp only [Follows] at hf
    show if k = K.Error then _ else _
    split
    · next hE =>
      rw [if_pos hE] at hf
      have := hf _ hm
      unfold Red.isNode
      cases hs' : s.green with
      | tok k t => simp only [hs']
      | node k cs => rw [hs'] at this; cases this
    · next hE =>
      rw [if_neg hE] at hf
      obtain ⟨R, hR, w, hw, hsub⟩ := hf
      cases hsym : s.green.sym with
      | none => left; exact hsym
      | some y =>
        right
        refine ⟨R, y, hR, hsym, word_symbols hw y (hsub.subset ?_)⟩
        rw [List.mem_filterMap]
        exact ⟨s.green, hm, hsym⟩

end Parsed
end Verif.Features
