import Verif.Features.Prefix
import Verif.Props.ContinuationsValid
/-!
# What follows does not change what stands in front (C68)

Specification: `front` (Grammar/Front.lean), `faces`, `surroundings` (Features/Prefix.lean).
-/
namespace Verif.Props
open Verif Verif.Grammar Verif.Lexer Verif.Features Verif.Format

/-! ## Trees -/

/-- The tree of a document, by its tokens. -/
theorem parsed_kinds {errLen : Text → Nat} {text : Text} {g errs} (hp : parseSource errLen text = some (g, errs)) :
    ∃ (e : Entry) (F : Forest) (cs : List Green) (n : Nat) (s : PState), g = .node e.kind cs ∧
      parseEntry sparql n e.kind (kinds (lex errLen text)) = .next s ∧ s.events = Forest.ser (.node e.kind F .nil) ∧
      K.Eof ∉ kinds (lex errLen text) ∧ sigKinds g.leaves = kinds (lex errLen text) ∧ Green.shapeL cs = F.prune.dropErr := by
  have key : ∀ e, parseText e (lex errLen text) = some (g, errs) → ∃ (e : Entry) (F : Forest) (cs : List Green) (n : Nat) (s : PState), g = .node e.kind cs ∧
      parseEntry sparql n e.kind (kinds (lex errLen text)) = .next s ∧ s.events = Forest.ser (.node e.kind F .nil) ∧
      K.Eof ∉ kinds (lex errLen text) ∧ sigKinds g.leaves = kinds (lex errLen text) ∧ Green.shapeL cs = F.prune.dropErr := by
    intro e h
    have hL := c47_lossless errLen text
    obtain ⟨F, cs, h1, -, h3, -, h5, h6, -⟩ := parseText_some hL h
    obtain ⟨n, s, h7, h8⟩ := parseTokens_some h1
    refine ⟨e, F, cs, n, s, h3, h7, h8, kinds_noEof hL.noEof, ?_, h6⟩
    rw [h3, Green.leaves, h5]
    unfold sigKinds kinds significant
    rw [List.filter_map, List.map_map]
    rfl
  unfold parseSource parseDocument at hp
  split at hp <;> exact key _ hp

theorem entry_inj {e e' : Entry} (h : e.kind = e'.kind) : e = e' := by
  cases e <;> cases e' <;> first | rfl | exact absurd h (by decide)

theorem front_node {n : Nat} {k : Kind} {c : Forest} (h1 : c.toks ≠ 0) (h2 : n ≠ 0) : front n (.node k c .nil) = .node k (front n c) .nil := by
  rw [front, if_neg h1, if_neg h2]
  rfl

/-- C68. Two documents — any texts, with errors or without — whose first tokens have the same kinds: the part of the syntax tree that
holds these tokens is the same. -/
theorem c68_front {errLen errLen' : Text → Nat} {text text' : Text} {g g' errs errs'} (hp : parseSource errLen text = some (g, errs))
    (hp' : parseSource errLen' text' = some (g', errs')) (hk : g.kind = g'.kind) (a : List Kind)
    (ha : a <+: kinds (lex errLen text)) (ha' : a <+: kinds (lex errLen' text')) :
    front a.length (g.shape .nil) = front a.length (g'.shape .nil) := by
  by_cases h0 : a = []
  · subst h0
    rw [List.length_nil, front_zero, front_zero]
  obtain ⟨e, F, cs, n, s, rfl, h1, h2, h3, h4, h5⟩ := parsed_kinds hp
  obtain ⟨e', F', cs', n', s', rfl, h1', h2', h3', h4', h5'⟩ := parsed_kinds hp'
  have := entry_inj hk
  subst this
  obtain ⟨x, hx⟩ := ha
  obtain ⟨y, hy⟩ := ha'
  rw [← hx] at h1 h3 h4
  rw [← hy] at h1' h4'
  have h := parse_front h0 h3 h1 h1' h2 h2'
  have hpos : a.length ≠ 0 := fun h => h0 (List.length_eq_zero_iff.1 h)
  have hc : (Green.shapeL cs).toks ≠ 0 := by
    rw [toks_shapeL, show sigKinds (Green.leavesL cs) = a ++ x from h4, List.length_append]; omega
  have hc' : (Green.shapeL cs').toks ≠ 0 := by
    rw [toks_shapeL, show sigKinds (Green.leavesL cs') = a ++ y from h4', List.length_append]; omega
  show front _ (.node e.kind (Green.shapeL cs) .nil) = front _ (.node e.kind (Green.shapeL cs') .nil)
  rw [front_node hc hpos, front_node hc' hpos, h5, h5', front_dropErr, front_dropErr, front_prune, front_prune, h]

/-! ## The nodes around a token -/

theorem sigKs_kinds (l : List Red) : sigKs l = sigKinds (l.map Red.kt) := by
  unfold sigKs sigKinds
  rw [List.filter_map, List.map_map]
  rfl

/-- The tokens in front of an offset are the first ones. -/
theorem row_front : ∀ {l : List Red} {o : Nat}, Row o l → ∀ off, l.filter (fun z => decide (z.start < off)) <+: l := by
  intro l
  induction l with
  | nil => intro o _ off; exact List.prefix_refl _
  | cons t l ih =>
    intro o h off
    obtain ⟨h1, h2⟩ := h
    by_cases ht : t.start < off
    · rw [List.filter_cons_of_pos (by simpa using ht)]
      obtain ⟨T, hT⟩ := ih h2 off
      exact ⟨T, by rw [List.cons_append, hT]⟩
    · have : ∀ (l : List Red) (o : Nat), Row o l → off ≤ o → l.filter (fun z => decide (z.start < off)) = [] := by
        intro l
        induction l with
        | nil => intros; rfl
        | cons x l ih =>
          intro o h ho
          obtain ⟨h1, h2⟩ := h
          rw [List.filter_cons_of_neg (by simp; omega)]
          exact ih _ h2 (by have : x.stop = x.start + blen x.text := rfl; omega)
      rw [List.filter_cons_of_neg (by simpa using ht), this l _ h2 (by have : t.stop = t.start + blen t.text := rfl; omega)]
      exact List.nil_prefix

theorem before_prefix {g : Green} (off : Nat) : before (Red.root g) off <+: sigKinds g.leaves := by
  obtain ⟨h1, h2⟩ := tokens_row (Red.root g)
  have h1 : (Red.root g).tokens.map Red.kt = g.leaves := h1
  rw [← h1, ← sigKs_kinds]
  obtain ⟨T, hT⟩ := row_front h2 off
  exact ⟨sigKs T, by unfold before; rw [← sigKs_append, hT]⟩

section
variable {text : Text} {g : Green} (P : Parsed text g)
include P

theorem inner_nodes {x : Red} (hx : InTree g x) (hu : x.up ≠ []) : ∀ n ∈ x.green.nodes, n.Tight := by
  intro n hn
  cases hxn : x.isNode with
  | false =>
    exfalso
    have hg : x.green = x.here.green := rfl
    unfold Red.isNode at hxn
    rw [hg] at hn
    cases h : x.here.green with
    | tok k t => rw [h] at hn; cases hn
    | node k cs => rw [h] at hxn; cases hxn
  | true =>
    refine P.tight n ?_
    have h := P.inner_of hx hxn hu
    cases g with
    | tok k t => cases h
    | node k cs =>
      obtain ⟨g', h1, h2⟩ := nodesL_mem.1 h
      exact nodesL_mem.2 ⟨g', h1, nodes_trans h2 hn⟩

/-- A significant element has a token in front of the end of any token inside. -/
theorem before_ne {x : Red} (hx : InTree g x) (hs : x.sig = true) (hu : x.up ≠ []) {off : Nat} (ho : x.start < off) : before x off ≠ [] := by
  obtain ⟨⟨k, w, l, el, hkx⟩, -⟩ : x.green.Tight := by
    cases hn : x.isNode with
    | true => exact P.tight _ (P.inner_of hx hn hu)
    | false =>
      have := token_leaves hn
      have hs : triviaKind x.kind = false := by simpa [Red.sig] using hs
      exact ⟨⟨x.kind, x.text, [], this, hs⟩, ⟨x.kind, x.text, [], this, hs⟩⟩
  obtain ⟨h1, h2⟩ := tokens_row x
  rw [el] at h1
  cases hz : x.tokens with
  | nil => rw [hz] at h1; cases h1
  | cons z zs =>
    rw [hz] at h1 h2
    injection h1 with h1 _
    have hzk : z.kind = k := congrArg Prod.fst h1
    have hzs : z.start = x.start := h2.1
    unfold before
    rw [hz, List.filter_cons_of_pos (by simp; omega)]
    unfold sigKs
    rw [List.filter_cons_of_pos (by rw [hzk, hkx]; rfl)]
    simp

/-- The children of a node around a token. -/
theorem node_parts {t : Red} (ht : InTree g t) (hk : triviaKind t.kind = false) (hpos : t.start < t.stop)
    {q c : Red} (hqT : InTree g q) (hc : c ∈ q.childrenT) (hca : c ∈ t.ancestors) :
    ∃ D B, q.childrenT = D ++ c :: B ∧ (∀ x ∈ D, x.stop ≤ c.start) ∧ (∀ x ∈ D, x.start < t.stop) ∧ c.start < t.stop ∧ c.sig = true ∧
      (∀ x ∈ B, t.stop ≤ x.start) ∧ (∀ x ∈ B, c.stop ≤ x.start) ∧
      faces q t.stop = (D ++ [c]).filterMap (fun c => c.green.face) ∧ done q t.stop = (D ++ [c]).filterMap (fun c => c.green.sym) ∧
      before q t.stop = sigKs (D.flatMap Red.tokens) ++ before c t.stop := by
  have hqn := child_isNode hc
  have hw := ht.anc_within c hca
  have hcs : triviaKind c.kind = false := by
    rcases List.mem_cons.1 hca with rfl | h
    · exact hk
    · have := node_sig P (hqT.child hc) (ht.chain c h).2
      simpa [Red.sig] using this
  obtain ⟨D, B, hDB⟩ := List.append_of_mem hc
  have hpw := childrenT_pairwise q
  rw [hDB, List.pairwise_append, List.pairwise_cons] at hpw
  obtain ⟨-, ⟨hB, -⟩, hD⟩ := hpw
  have hcl : c.start < t.stop := Nat.lt_of_le_of_lt hw.1 hpos
  have hDl : ∀ x ∈ D, x.start < t.stop := fun x hx => by
    have h1 := hD x hx c List.mem_cons_self
    have h2 : x.start ≤ x.stop := by show x.start ≤ x.start + _; omega
    omega
  have hBl : ∀ x ∈ B, t.stop ≤ x.start := fun x hx => Nat.le_trans hw.2 (hB x hx)
  have hfilter : q.childrenT.filter (fun c => decide (c.start < t.stop)) = D ++ [c] := by
    rw [hDB, List.append_cons, List.filter_append, List.filter_eq_self.2 (fun x hx => ?_),
      List.filter_eq_nil_iff.2 (fun x hx => by simpa using hBl x hx), List.append_nil]
    rcases List.mem_append.1 hx with h | h
    · simpa using hDl x h
    · rw [List.mem_singleton.1 h]; simpa using hcl
  refine ⟨D, B, hDB, fun x hx => hD x hx c List.mem_cons_self, hDl, hcl, by simp [Red.sig, hcs], hBl, hB, by unfold faces; rw [hfilter],
    by unfold done; rw [hfilter], ?_⟩
  have hin : ∀ x ∈ D ++ c :: B, InTree g x := fun x hx => hqT.child (by rw [hDB]; exact hx)
  unfold before
  rw [tokens_eq q, if_pos hqn, hDB, List.flatMap_append, List.flatMap_cons, List.filter_append, List.filter_append, sigKs_append, sigKs_append,
    (List.filter_eq_self (l := D.flatMap Red.tokens)).2 (fun z hz => ?_), (List.filter_eq_nil_iff (l := B.flatMap Red.tokens)).2 (fun z hz => ?_)]
  · show _ ++ (_ ++ []) = _
    rw [List.append_nil]
  · obtain ⟨x, hx, hzx⟩ := List.mem_flatMap.1 hz
    have := token_within (hin x (by simp [hx])) hzx
    have := hBl x hx
    simp; omega
  · obtain ⟨x, hx, hzx⟩ := List.mem_flatMap.1 hz
    have := token_within (hin x (by simp [hx])) hzx
    have := hD x hx c List.mem_cons_self
    have h3 : z.start ≤ z.stop := by show z.start ≤ z.start + _; omega
    simp; omega

omit P in
theorem leaves_tokens (l : List Red) : sigKinds (Green.leavesL (l.map Red.green)) = sigKs (l.flatMap Red.tokens) := by
  induction l with
  | nil => rfl
  | cons x l ih =>
    simp only [List.map_cons, Green.leavesL, List.flatMap_cons, sigKs_append, sigKinds_append, ih]
    rw [show sigKinds x.green.leaves = sigKs x.tokens from by rw [← (tokens_row x).1, ← sigKs_kinds]]

omit P in
theorem before_length {x : Red} (off : Nat) : (before x off).length ≤ (x.green.shape .nil).toks := by
  rw [toks_shape]
  have : sigKinds x.green.leaves = sigKs x.tokens := by rw [← (tokens_row x).1, ← sigKs_kinds]
  rw [this]
  unfold before sigKs
  simp only [List.length_map, Forest.toks, Nat.add_zero]
  exact (List.Sublist.filter _ List.filter_sublist).length_le

/-- The nodes around a token can be read off the part of the tree that ends with it. -/
theorem surroundings_trail {t : Red} (ht : InTree g t) (htn : t.isNode = false) (hk : triviaKind t.kind = false) (hpos : t.start < t.stop) :
    surroundings t = trail (front (before (Red.root g) t.stop).length (g.shape .nil)) (before (Red.root g) t.stop) := by
  have main : ∀ x : Red, InTree g x → x ∈ t.ancestors →
      trail (front (before (Red.root g) t.stop).length (g.shape .nil)) (before (Red.root g) t.stop) =
        trail (front (before x t.stop).length (x.green.shape .nil)) (before x t.stop) ++
          (Red.chain x.up).map (fun q => (q.kind, faces q t.stop)) := by
    intro x hx
    induction hx with
    | root => intro _; simp [Red.root, Red.chain, Red.green]
    | @child r c hr hc ih =>
      intro hca
      have hrn := child_isNode hc
      have hra : r ∈ t.ancestors := ancestors_trans hca (by unfold Red.ancestors; rw [parent_chain (child_parent hc)]; simp)
      have hcu : c.up ≠ [] := by rw [child_up hc]; simp
      obtain ⟨D, B, hDB, hD, hDl, hcl, hcs, hBl, hB, hfaces, -, hbef⟩ := node_parts P ht hk hpos hr hc hca
      rw [ih hra, parent_chain (child_parent hc), List.map_cons, ← List.singleton_append, ← List.append_assoc]
      congr 1
      have hcT := hr.child hc
      have hgr : r.green = .node r.kind (D.map Red.green ++ c.green :: B.map Red.green) := by
        have h1 := children_green r
        have hg : r.green = r.here.green := rfl
        unfold Red.isNode at hrn
        cases h : r.here.green with
        | tok k w => rw [h] at hrn; cases hrn
        | node k cs =>
          rw [h, hDB] at h1
          have hkk : r.kind = k := by unfold Red.kind; rw [h]; rfl
          have h1 : (D ++ c :: B).map Red.green = cs := h1
          rw [hg, h, ← h1, hkk]; simp
      have hne := before_ne P hcT hcs hcu hcl
      have hn : 0 < (before c t.stop).length := List.length_pos_iff.2 hne
      have hDt : ∀ n ∈ Green.nodesL (D.map Red.green), n.Tight := by
        intro n hn
        obtain ⟨g', h1, h2⟩ := nodesL_mem.1 hn
        obtain ⟨x, hx, rfl⟩ := List.mem_map.1 h1
        have hxc : x ∈ r.childrenT := by rw [hDB]; simp [hx]
        exact inner_nodes P (hr.child hxc) (by rw [child_up hxc]; simp) n h2
      have hlen : (before r t.stop).length = (Green.shapeL (D.map Red.green)).toks + (before c t.stop).length := by
        rw [hbef, List.length_append, toks_shapeL, leaves_tokens]
      have hface : facesF (front (before c t.stop).length (c.green.shape .nil)) (before c t.stop) = [c.green.face].reduceOption := by
        cases hcg : c.green with
        | tok k w =>
          have hck : c.kind = k := by show c.green.kind = k; rw [hcg]; rfl
          have hkt : triviaKind k = false := by rw [← hck]; simpa [Red.sig] using hcs
          have hcn : c.isNode = false := by
            have hcg : c.here.green = .tok k w := hcg
            unfold Red.isNode; rw [hcg]
          have hb : before c t.stop = [k] := by
            unfold before
            rw [tokens_eq c, if_neg (by simp [hcn])]
            simp [sigKs, hcl, hck, hkt]
          rw [hb]
          simp [Green.shape, hkt, front, facesF, Green.face]
          rfl
        | node k cs =>
          have hle := before_length (x := c) t.stop
          rw [hcg] at hle
          simp only [Green.shape, Forest.toks] at hle ⊢
          rw [front, if_neg (by omega), if_neg (by omega)]
          simp [front, facesF, Green.face]
          rfl
      have hfin : (D.map Red.green).filterMap Green.face ++ facesF (front (before c t.stop).length (c.green.shape .nil)) (before c t.stop) =
          faces r t.stop := by
        rw [hfaces, List.filterMap_append, List.filterMap_map, hface]
        congr 1
      rw [hlen, hgr, hbef, ← leaves_tokens D, trail_level _ _ _ _ hDt hn (before_length _), hfin]
  rw [main t ht List.mem_cons_self]
  have : trail (front (before t t.stop).length (t.green.shape .nil)) (before t t.stop) = [] := by
    cases hg : t.green with
    | node k cs =>
      have hg : t.here.green = .node k cs := hg
      unfold Red.isNode at htn; rw [hg] at htn; cases htn
    | tok k w =>
      have hkk : t.kind = k := by show t.green.kind = k; rw [hg]; rfl
      rw [hkk] at hk
      simp only [Green.shape, hk, Bool.false_eq_true, if_false]
      rw [front]
      split <;> rfl
  rw [this]
  rfl

end

/-- C68. Behind the same tokens the same nodes are open, and they have the same elements so far. -/
theorem c68_around {errLen errLen' : Text → Nat} {text text' : Text} {g g' errs errs'} (hp : parseSource errLen text = some (g, errs))
    (hp' : parseSource errLen' text' = some (g', errs')) (hk : g.kind = g'.kind) {t t' : Red} (ht : t ∈ (Red.root g).tokens)
    (ht' : t' ∈ (Red.root g').tokens) (hs : triviaKind t.kind = false) (hs' : triviaKind t'.kind = false)
    (hb : before (Red.root g) t.stop = before (Red.root g') t'.stop) : surroundings t = surroundings t' := by
  obtain ⟨h1, h2, h3⟩ := token_pos (parsed_of hp) ht
  obtain ⟨h1', h2', h3'⟩ := token_pos (parsed_of hp') ht'
  rw [surroundings_trail (parsed_of hp) h1 h2 hs h3, surroundings_trail (parsed_of hp') h1' h2' hs' h3', ← hb]
  congr 1
  refine c68_front hp hp' hk _ ?_ ?_
  · obtain ⟨e, F, cs, n, s, -, -, -, -, h4, -⟩ := parsed_kinds hp
    rw [← h4]; exact before_prefix _
  · obtain ⟨e, F, cs, n, s, -, -, -, -, h4, -⟩ := parsed_kinds hp'
    rw [← h4, hb]; exact before_prefix _

end Verif.Props
