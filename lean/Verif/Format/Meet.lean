import Verif.Format.Edge
import Verif.Format.Lca
/-!
# Neighbouring tokens of a query
-/
namespace Verif.Format
open Verif Verif.Grammar Verif.Lexer Verif.Features Verif.Props

/-- The symbol of an element. -/
def symOf (r : Red) : Sym := if r.isNode then .node r.kind else .tok r.kind

theorem null_ok : NullTable sparqlRules nullNodes := by
  intro k r h hn
  have := List.all_eq_true.1 null_table (k, r) (sparqlRulesTree.find_mem k r h)
  rw [hn] at this
  simpa using this

theorem allSyms_sound {f : Sym → Bool} {R : Kind → Option Rule} {r : Rule} {l : List Sym} (d : Whole R r l) : allSyms f r = true → ∀ s ∈ l, f s = true := by
  induction d with
  | tok k => intro h s hs; rw [List.mem_singleton.1 hs]; exact h
  | node k => intro h s hs; rw [List.mem_singleton.1 hs]; exact h
  | empty k h => intro h s hs; cases hs
  | seq _ _ ih1 ih2 =>
    intro h s hs
    simp only [allSyms, Bool.and_eq_true] at h
    rcases List.mem_append.1 hs with hs | hs
    · exact ih1 h.1 s hs
    · exact ih2 h.2 s hs
  | altL _ ih => intro h s hs; simp only [allSyms, Bool.and_eq_true] at h; exact ih h.1 s hs
  | altR _ ih => intro h s hs; simp only [allSyms, Bool.and_eq_true] at h; exact ih h.2 s hs
  | optNone => intro h s hs; cases hs
  | optSome _ ih => intro h s hs; exact ih h s hs
  | repNil => intro h s hs; cases hs
  | repCons _ _ ih1 ih2 =>
    intro h s hs
    rcases List.mem_append.1 hs with hs | hs
    · exact ih1 h s hs
    · exact ih2 h s hs

section
variable {text : Text} {g : Green} (P : Parsed text g) (hC : ∀ n ∈ g.nodes, Complete sparqlRules n)
include P hC

/-- The rule of a node, and its children. -/
theorem whole_of {r : Red} (hr : InTree g r) (hn : r.isNode = true) : r.kind ≠ K.Error ∧ ∃ rule, sparqlRules r.kind = some rule ∧
    (r.kind, rule) ∈ sparqlRulesTree.toList ∧ Whole sparqlRules rule ((r.childrenT.map Red.green).filterMap Green.sym) := by
  have h := hC _ (hr.green_mem hn)
  have hg := children_green r
  cases hrg : r.here.green with
  | tok k t => unfold Red.isNode at hn; rw [hrg] at hn; cases hn
  | node k cs =>
    have hk : r.kind = k := by unfold Red.kind; rw [hrg]; rfl
    have e : r.green = .node k cs := hrg
    rw [e] at h
    obtain ⟨h1, rule, h2, h3⟩ := h
    rw [hrg] at hg
    dsimp only at hg
    rw [hk, hg]
    exact ⟨h1, rule, h2, sparqlRulesTree.find_mem _ _ h2, h3⟩

/-- The symbol of a significant child. -/
theorem sym_eq {c : Red} (hc : InTree g c) (hk : triviaKind c.kind = false) : c.green.sym = some (symOf c) := by
  cases hcg : c.here.green with
  | tok k t =>
    have e : c.green = .tok k t := hcg
    have hkk : c.kind = k := by unfold Red.kind; rw [hcg]; rfl
    have hn : c.isNode = false := by unfold Red.isNode; rw [hcg]
    rw [e]
    unfold symOf
    rw [hn, hkk]
    rw [hkk] at hk
    show (if triviaKind k then none else some (Sym.tok k)) = _
    rw [hk]; rfl
  | node k cs =>
    have e : c.green = .node k cs := hcg
    have hkk : c.kind = k := by unfold Red.kind; rw [hcg]; rfl
    have hn : c.isNode = true := by unfold Red.isNode; rw [hcg]
    have := (whole_of P hC hc hn).1
    rw [e]
    unfold symOf
    rw [hn, hkk]
    rw [hkk] at this
    show (if k = K.Error then none else some (Sym.node k)) = _
    rw [if_neg this]; rfl

omit hC in
theorem trivia_sym {c : Red} (hc : InTree g c) (hk : triviaKind c.kind = true) : c.green.sym = none := by
  have hn := trivia_token P hc hk
  cases hcg : c.here.green with
  | tok k t =>
    have e : c.green = .tok k t := hcg
    have hkk : c.kind = k := by unfold Red.kind; rw [hcg]; rfl
    rw [hkk] at hk
    rw [e]
    show (if triviaKind k then none else some (Sym.tok k)) = _
    rw [hk]; rfl
  | node k cs => unfold Red.isNode at hn; rw [hcg] at hn; cases hn

omit hC in
theorem trivia_syms {r : Red} (hr : InTree g r) {T : List Red} (hT : ∀ t ∈ T, t ∈ r.childrenT) (ht : ∀ t ∈ T, triviaKind t.kind = true) :
    (T.map Red.green).filterMap Green.sym = [] := by
  rw [List.filterMap_eq_nil_iff]
  intro x hx
  obtain ⟨t, h1, rfl⟩ := List.mem_map.1 hx
  exact trivia_sym P (.child hr (hT t h1)) (ht t h1)

/-- What an element begins with. -/
theorem first_sound : ∀ (r : Red), InTree g r → triviaKind r.kind = false → ∀ {y : Kind × Text} {B}, r.green.leaves = y :: B → triviaKind y.1 = false →
    (symFirst (symOf r)).testBit y.1 = true := by
  intro r
  refine red_induction (P := fun r => InTree g r → triviaKind r.kind = false → ∀ {y : Kind × Text} {B}, r.green.leaves = y :: B → triviaKind y.1 = false →
    (symFirst (symOf r)).testBit y.1 = true) ?_ r
  intro r ih hr hk y B h hy
  cases hn : r.isNode with
  | false =>
    rw [token_leaves hn] at h
    injection h with h1 h2
    have : y.1 = r.kind := by rw [← h1]; rfl
    rw [this]
    unfold symOf
    rw [hn]
    show (1 <<< r.kind).testBit r.kind = true
    rw [Nat.one_shiftLeft, Nat.testBit_two_pow_self]
  | true =>
    rw [children_leaves hn] at h
    obtain ⟨T, b, Y, B', e1, e2, e3, e4, e5, e6⟩ := trivia_run P hr (X := r.childrenT) (fun c hc => hc) (M := []) (by simp) hy h
    have hb : b ∈ r.childrenT := by rw [e1]; simp
    have hbt := ih b hb (.child hr hb) e3 e4 hy
    obtain ⟨-, rule, h1, h2, h3⟩ := whole_of P hC hr hn
    have hT := trivia_syms P hr (T := T) (fun t ht => by rw [e1]; simp [ht]) e2
    have hsy := sym_eq P hC (.child hr hb) e3
    rw [e1, List.map_append, List.filterMap_append, hT, List.nil_append, List.map_cons, List.filterMap_cons_some hsy] at h3
    have hm := headSyms_sound null_ok h3 rfl
    have := List.all_eq_true.1 (List.all_eq_true.1 first_table _ h2) _ hm
    have e : symOf r = .node r.kind := by unfold symOf; rw [hn]; rfl
    rw [e]
    exact sub_mask this hbt

omit hC in
/-- The last leaf of some elements. -/
theorem lv_last {r : Red} (hr : InTree g r) {X : List Red} (hX : ∀ c ∈ X, c ∈ r.childrenT) {A : List (Kind × Text)} {x : Kind × Text} (h : lv X = A ++ [x]) :
    ∃ X' a A', X = X' ++ [a] ∧ a.green.leaves = A' ++ [x] := by
  obtain ⟨X', a, Y, A', B', e1, e2, e3, e4⟩ := lv_split h
  obtain ⟨h1, h2⟩ := List.append_eq_nil_iff.1 e4.symm
  subst h1
  have : Y = [] := by
    cases Y with
    | nil => rfl
    | cons c Y =>
      exfalso
      have e : lv (c :: Y) = c.green.leaves ++ lv Y := rfl
      rw [e] at h2
      have h3 := (List.append_eq_nil_iff.1 h2).1
      have hc := hX c (by rw [e1]; simp)
      have h4 := child_pos P hr hc
      have h5 : c.stop = c.start + blen (flat c.green.leaves) := rfl
      rw [h3] at h5
      have : blen (flat []) = 0 := rfl
      omega
  exact ⟨X', a, A', by rw [e1, this], e2⟩

/-- What may be written behind an element. -/
theorem behind_gen (sb : Sym → Nat) (tm : Kind → Nat) (htm : ∀ k, sb (.tok k) = tm k)
    (htab : sparqlRulesTree.toList.all (fun p => (tailSyms nullNodes p.2).all (fun s => subMask (sb (.node p.1)) (sb s))) = true) :
    ∀ (r : Red), InTree g r → triviaKind r.kind = false → ∀ {x : Kind × Text} {A}, r.green.leaves = A ++ [x] → triviaKind x.1 = false →
    ∀ k, (sb (symOf r)).testBit k = true → (tm x.1).testBit k = true := by
  intro r
  refine red_induction (P := fun r => InTree g r → triviaKind r.kind = false → ∀ {x : Kind × Text} {A}, r.green.leaves = A ++ [x] → triviaKind x.1 = false →
    ∀ k, (sb (symOf r)).testBit k = true → (tm x.1).testBit k = true) ?_ r
  intro r ih hr hk x A h hx k hb
  cases hn : r.isNode with
  | false =>
    rw [token_leaves hn] at h
    have h0 : [] ++ [r.kt] = A ++ [x] := h
    have h1 := (List.append_inj' h0 rfl).2
    injection h1 with h1 h2
    have : x.1 = r.kind := by rw [← h1]; rfl
    rw [this]
    unfold symOf at hb
    rw [hn] at hb
    rw [← htm]
    exact hb
  | true =>
    rw [children_leaves hn] at h
    obtain ⟨X, a, A', e1, e2⟩ := lv_last P hr (X := r.childrenT) (fun c hc => hc) h
    have ha : a ∈ r.childrenT := by rw [e1]; simp
    have hak : triviaKind a.kind = false := by
      cases hk : triviaKind a.kind with
      | false => rfl
      | true =>
        have := token_leaves (trivia_token P (.child hr ha) hk)
        rw [e2] at this
        have hm : x ∈ [a.kt] := by rw [← this]; simp
        rw [List.mem_singleton.1 hm] at hx
        have : a.kt.1 = a.kind := rfl
        rw [this, hk] at hx
        cases hx
    obtain ⟨-, rule, h1, h2, h3⟩ := whole_of P hC hr hn
    have hsy := sym_eq P hC (.child hr ha) hak
    have e3 : (r.childrenT.map Red.green).filterMap Green.sym = (X.map Red.green).filterMap Green.sym ++ [symOf a] := by
      rw [e1, List.map_append, List.filterMap_append, List.map_singleton, List.filterMap_cons_some hsy, List.filterMap_nil]
    have hm := tailSyms_sound null_ok h3 e3
    have := List.all_eq_true.1 (List.all_eq_true.1 htab _ h2) _ hm
    have e : symOf r = .node r.kind := by unfold symOf; rw [hn]; rfl
    rw [e] at hb
    exact ih a ha (.child hr ha) hak e2 hx k (sub_mask this hb)

/-- The nodes and tokens of a query. -/
theorem query_sound (hq : g.kind = K.QueryUnit) : ∀ r, InTree g r → (r.isNode = true → queryNodes.testBit r.kind = true) ∧
    (r.isNode = false → triviaKind r.kind = false → r.kind ∉ updateKinds ∧ r.kind ≠ K.Error) := by
  intro r hr
  induction hr with
  | root =>
    refine ⟨fun _ => ?_, fun h => ?_⟩
    · have : (Red.root g).kind = g.kind := rfl
      rw [this, hq]; decide
    · rw [root_isNode P] at h; cases h
  | @child r c hr hc ih =>
    have hn : r.isNode = true := by
      cases hn : r.isNode with
      | true => rfl
      | false =>
        exfalso
        unfold Red.isNode at hn
        unfold Red.childrenT at hc
        cases hrg : r.here.green with
        | tok k t => rw [hrg] at hc; cases hc
        | node k cs => rw [hrg] at hn; cases hn
    obtain ⟨-, rule, h1, h2, h3⟩ := whole_of P hC hr hn
    have h4 := List.all_eq_true.1 query_table _ h2
    dsimp only at h4
    rw [ih.1 hn] at h4
    have h5 := allSyms_sound h3 (by simpa using h4)
    have key : triviaKind c.kind = false → querySym (symOf c) = true := by
      intro hk
      refine h5 _ (List.mem_filterMap.2 ⟨c.green, List.mem_map_of_mem hc, sym_eq P hC (.child hr hc) hk⟩)
    constructor
    · intro hcn
      have hk : triviaKind c.kind = false := by
        cases hk : triviaKind c.kind with
        | false => rfl
        | true => rw [trivia_token P (.child hr hc) hk] at hcn; cases hcn
      have := key hk
      unfold symOf at this
      rw [hcn] at this
      exact this
    · intro hcn hk
      have := key hk
      unfold symOf at this
      rw [hcn] at this
      simpa [querySym] using this

/-- The pair of symbols of two neighbouring children. -/
theorem pair_sound (hq : g.kind = K.QueryUnit) {r a b : Red} {X T Y : List Red} (hr : InTree g r) (hn : r.isNode = true)
    (h : r.childrenT = X ++ a :: (T ++ b :: Y)) (hT : ∀ t ∈ T, triviaKind t.kind = true) (ha : triviaKind a.kind = false)
    (hb : triviaKind b.kind = false) : pairFine r.kind (symOf a) (symOf b) = true := by
  obtain ⟨-, rule, h1, h2, h3⟩ := whole_of P hC hr hn
  have hTs := trivia_syms P hr (T := T) (fun t ht => by rw [h]; simp [ht]) hT
  have hsa := sym_eq P hC (.child hr (by rw [h]; simp)) ha
  have hsb := sym_eq P hC (.child hr (by rw [h]; simp)) hb
  have h4 := List.all_eq_true.1 pair_table _ h2
  dsimp only at h4
  rw [(query_sound P hC hq r hr).1 hn] at h4
  refine nexts_sound (f := pairFine r.kind) null_ok h3 (by simpa using h4) (l1 := (X.map Red.green).filterMap Green.sym)
    (l2 := (Y.map Red.green).filterMap Green.sym) ?_
  rw [h, List.map_append, List.filterMap_append, List.map_cons, List.filterMap_cons_some hsa, List.map_append, List.filterMap_append, hTs, List.nil_append,
    List.map_cons, List.filterMap_cons_some hsb]

end
end Verif.Format
