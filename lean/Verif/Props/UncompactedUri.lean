import Verif.Features.UncompactedUri
import Verif.Props.Single
import Verif.Props.SelectDiagnostics
/-!
# IRIs that can be shortened: C60
-/
namespace Verif.Props
open Verif Verif.Grammar Verif.Lexer Verif.Features

theorem iriref_is : lexRules.all (fun r => r.kind != K.IRIREF || r.re == rule_IRIREF.re) = true := by decide +kernel

/-- An `IRIREF` token is `<raw>`. -/
theorem iriref_text {text g} (P : Parsed text g) {t : Red} (h : InTree g t) (hn : t.isNode = false) (hk : t.kind = K.IRIREF) :
    ∃ raw, t.text = '<' :: (raw ++ ['>']) := by
  obtain ⟨r, hr, e, hm⟩ := P.lexed _ (Parsed.token_leaf h hn) (by show t.kind ≠ _; rw [hk]; decide)
  have := List.all_eq_true.1 iriref_is r hr
  have e : r.kind = K.IRIREF := e.trans hk
  have e' : r.re = rule_IRIREF.re := by simpa [e] using this
  rw [e'] at hm
  obtain ⟨u, v, h1, h2, h3⟩ := matches_seq.1 hm
  obtain ⟨c, rfl, hc⟩ := matches_cls.1 h2
  obtain ⟨raw, z, rfl, -, h5⟩ := matches_seq.1 h3
  obtain ⟨d, rfl, hd⟩ := matches_cls.1 h5
  have same : ∀ {x : Char} {n : Nat}, Class.has [(n, n)] x = true → x.toNat = n := by
    intro x n h
    simp only [Class.has, List.any_cons, List.any_nil, Bool.or_false, Bool.and_eq_true, Nat.ble_eq] at h
    omega
  have e1 : c = '<' := Char.ext (UInt32.toNat_inj.1 (same hc))
  have e2 : d = '>' := Char.ext (UInt32.toNat_inj.1 (same hd))
  subst e1; subst e2
  exact ⟨raw, h1⟩

section
variable {errLen : Text → Nat} {text : Text} {g : Green} {errs : List SyntaxErr} (hp : parseSource errLen text = some (g, errs))
include hp

/-- An `iri` node has one child. -/
theorem iri_one {r : Red} (h : InTree g r) (hn : r.isNode = true) (hk : r.kind = K.iri) : ∃ c, r.childrenT = [c] := by
  have P := parsed_of hp
  obtain ⟨p, hl, -⟩ := single_of hp (h.green_mem hn) (Or.inr (Or.inl hk))
  have hne : ∀ c ∈ r.childrenT, c.green.leaves ≠ [] := by
    intro c hc
    have hcT := h.child hc
    have : c.text ≠ [] := by
      cases hcn : c.isNode with
      | true => exact P.node_nonempty hcT hcn (by rw [child_up hc]; simp)
      | false => exact P.leaf_nonempty _ (Parsed.token_leaf hcT hcn)
    intro e
    apply this
    show c.green.text = []
    simp [Green.text, e]
  obtain ⟨⟨gr, idx, off⟩, up⟩ := r
  cases gr with
  | tok k t => cases hn
  | node k cs =>
    have hl : Green.leavesL cs = [p] := hl
    match cs, hl, hne with
    | [], hl, _ => simp [Green.leavesL] at hl
    | [c], _, _ => exact ⟨⟨⟨c, 0, off⟩, _⟩, rfl⟩
    | c :: d :: cs, hl, hne =>
      exfalso
      have h1 := hne ⟨⟨c, 0, off⟩, ⟨.node k (c :: d :: cs), idx, off⟩ :: up⟩ (by simp [Red.childrenT, childSites])
      have h2 := hne ⟨⟨d, 1, off + blen c.text⟩, ⟨.node k (c :: d :: cs), idx, off⟩ :: up⟩ (by simp [Red.childrenT, childSites])
      have h1 : c.leaves ≠ [] := h1
      have h2 : d.leaves ≠ [] := h2
      rw [Green.leavesL, Green.leavesL] at hl
      have := congrArg List.length hl
      simp only [List.length_append, List.length_cons, List.length_nil] at this
      have := List.length_pos_iff.2 h1
      have := List.length_pos_iff.2 h2
      omega

omit hp in
/-- The text of a node with one child. -/
theorem one_text {r c : Red} (h : r.childrenT = [c]) : r.text = c.text := by
  obtain ⟨⟨gr, idx, off⟩, up⟩ := r
  cases gr with
  | tok k t => cases h
  | node k cs =>
    match cs, h with
    | [], h => simp [Red.childrenT, childSites] at h
    | [d], h =>
      simp only [Red.childrenT, childSites, List.map_cons, List.map_nil, List.cons.injEq, and_true] at h
      rw [← h]
      show (Green.node k [d]).text = d.text
      simp [Green.text, Green.leaves, Green.leavesL]
    | d :: e :: cs, h => simp [Red.childrenT, childSites] at h

omit hp in
theorem no_iriref_node {text : Text} (P : Parsed text g) {c : Red} (h : InTree g c) (hk : c.kind = K.IRIREF) : c.isNode = false := by
  cases hn : c.isNode with
  | false => rfl
  | true =>
    exfalso
    have := P.follows _ (h.green_mem hn)
    have hg : c.green = c.here.green := rfl
    have hk' : c.here.green.kind = K.IRIREF := hk
    unfold Red.isNode at hn
    rw [hg] at this
    cases hc : c.here.green with
    | tok k t => rw [hc] at hn; cases hn
    | node k cs =>
      rw [hc] at this hk'
      have hk' : k = K.IRIREF := hk'
      subst hk'
      have hE : K.IRIREF ≠ K.Error := by decide
      simp only [Follows, if_neg hE] at this
      obtain ⟨r, hr, -⟩ := this
      rw [show sparqlRules K.IRIREF = none by decide +kernel] at hr
      cases hr

/-- `raw_iri` never panics and gives the text between the angle brackets. -/
theorem rawIri_spec {r : Red} (h : InTree g r) (hn : r.isNode = true) (hk : r.kind = K.iri) :
    (∃ raw, rawIri r = some (some raw) ∧ Written r raw) ∨ (rawIri r = some none ∧ ∀ raw, ¬ Written r raw) := by
  have P := parsed_of hp
  obtain ⟨c, hc⟩ := iri_one hp h hn hk
  have hcT := h.child (show c ∈ r.childrenT by rw [hc]; simp)
  unfold rawIri
  rw [hc]
  simp only [List.head?_cons]
  by_cases hck : c.kind = K.IRIREF
  · left
    have hcn := no_iriref_node P hcT hck
    obtain ⟨raw, hraw⟩ := iriref_text P hcT hcn hck
    have ht : r.text = '<' :: (raw ++ ['>']) := by rw [one_text hc, hraw]
    have hb : blen r.text = blen ('<' :: raw) + 1 := by
      rw [ht, show '<' :: (raw ++ ['>']) = ('<' :: raw) ++ ['>'] from rfl, blen_append]
      rfl
    have hb' : blen ('<' :: raw) = 1 + blen raw := by
      rw [show '<' :: raw = ['<'] ++ raw from rfl, blen_append]; rfl
    refine ⟨raw, ?_, c, by rw [hc]; simp, hcn, hck, hraw⟩
    rw [if_pos ⟨hck, by omega⟩]
    have h1 : splitAtByte r.text (blen r.text - 1) = some ('<' :: raw, ['>']) := by
      rw [show blen r.text - 1 = blen ('<' :: raw) by omega, ht]
      exact splitAtByte_append ('<' :: raw) ['>']
    have h2 : splitAtByte ('<' :: raw) 1 = some (['<'], raw) := splitAtByte_append ['<'] raw
    simp [byteSlice, h1, h2]
  · right
    rw [if_neg (fun x => hck x.1)]
    refine ⟨rfl, ?_⟩
    rintro raw ⟨t, ht, -, htk, -⟩
    rw [hc] at ht
    simp only [List.mem_singleton] at ht
    rw [ht] at htk
    exact hck htk

omit hp in
theorem written_unique {r : Red} {raw raw' : Text} {c : Red} (hc : r.childrenT = [c]) (h : Written r raw) (h' : Written r raw') : raw = raw' := by
  obtain ⟨t, ht, -, -, e⟩ := h
  obtain ⟨t', ht', -, -, e'⟩ := h'
  rw [hc] at ht ht'
  simp only [List.mem_singleton] at ht ht'
  rw [ht] at e; rw [ht'] at e'
  rw [e] at e'
  simpa using e'

/-- One node. -/
theorem uriDiag_spec (shorten : Text → Option Short) {r : Red} (h : InTree g r) (hn : r.isNode = true) (hk : r.kind = K.iri) :
    (∃ raw s d, Written r raw ∧ shorten raw = some s ∧ uriDiag shorten text r = some (some d) ∧ Covers text r d.range ∧
      d.severity = .information ∧ d.code = .uncompactedUri ∧ d.data = s) ∨
    (uriDiag shorten text r = some none ∧ ∀ raw, Written r raw → shorten raw = none) := by
  have P := parsed_of hp
  obtain ⟨c, hc⟩ := iri_one hp h hn hk
  unfold uriDiag
  rcases rawIri_spec hp h hn hk with ⟨raw, h1, h2⟩ | ⟨h1, h2⟩
  · rw [h1]
    dsimp only
    cases hs : shorten raw with
    | none =>
      right
      refine ⟨rfl, fun raw' h' => ?_⟩
      rw [← written_unique hc h2 h']; exact hs
    | some s =>
      left
      obtain ⟨range, h3, h4⟩ := covers_rangeOf P h
      exact ⟨raw, s, ⟨range, .information, .uncompactedUri, s⟩, h2, hs, by rw [h3], h4, rfl, rfl, rfl⟩
  · rw [h1]
    exact Or.inr ⟨rfl, fun raw h => absurd h (h2 raw)⟩

end

/-- An IRI of the outer select query written in full that has a short form. -/
def Shortenable (shorten : Text → Option Short) (g : Green) (r : Red) : Prop := ∃ raw s, FullIri g r raw ∧ shorten raw = some s

/-- The report of an IRI: it marks the IRI and carries its short form. -/
def UriReport (shorten : Text → Option Short) (text : Text) (r : Red) (d : UriDiag) : Prop :=
  Covers text r d.range ∧ d.severity = .information ∧ d.code = .uncompactedUri ∧ ∃ raw, Written r raw ∧ shorten raw = some d.data

/-- **C60.** For every query document, also a broken one, and every prefix map: the check does not panic and reports, in document
order, exactly the IRIs of the select query that are written in full and have a short form. -/
theorem c60_exact (shorten : Text → Option Short) (errLen : Text → Nat) (text : Text) (g errs)
    (hp : parseSource errLen text = some (g, errs)) (hq : g.kind = K.QueryUnit) :
    ∃ rs ds, uncompactedUri shorten text g = some ds ∧ (∀ r, r ∈ rs ↔ Shortenable shorten g r) ∧
      rs.Pairwise (fun a b => a.stop ≤ b.start ∧ a ≠ b) ∧ List.Forall₂ (UriReport shorten text) rs ds := by
  have P := parsed_of hp
  cases hsq : selectQuery g with
  | none =>
    refine ⟨[], [], by simp [uncompactedUri, hsq], ?_, .nil, .nil⟩
    intro r
    refine ⟨fun h => (by cases h), ?_⟩
    rintro ⟨raw, s, ⟨h1, h2, -, -, sq, hs, hsk⟩, -⟩
    have hsn : sq.isNode = true := by
      rcases List.mem_cons.1 hs with rfl | h'
      · exact h2
      · exact (h1.chain sq h').2
    rw [(selectQuery_iff P hq sq).2 ⟨h1.ancestors sq hs, hsn, hsk⟩] at hsq
    cases hsq
  | some sq =>
    obtain ⟨hT, hn, hk⟩ := (selectQuery_iff P hq sq).1 hsq
    have hl : ∀ r, r ∈ sq.descendants.filter (fun r => r.kind == K.iri) ↔ InTree g r ∧ r.isNode = true ∧ r.kind = K.iri ∧ sq ∈ r.ancestors := by
      intro r
      unfold Red.descendants
      rw [List.mem_filter, List.mem_filter]
      constructor
      · rintro ⟨⟨h1, h2⟩, h3⟩
        exact ⟨inTree_of_mem_descendantsT sq hT r h1, h2, by simpa using h3, descendantsT_anc h1⟩
      · rintro ⟨h1, h2, h3, h4⟩
        exact ⟨⟨anc_descendantsT h1 sq h4, h2⟩, by simp [h3]⟩
    have key : ∀ l : List Red, (∀ r ∈ l, InTree g r ∧ r.isNode = true ∧ r.kind = K.iri) →
        ∃ os, unwrapAll (uriDiag shorten text) l = some os ∧
          List.Forall₂ (UriReport shorten text) (l.filter (fun r => (uriDiag shorten text r).join.isSome)) (os.filterMap id) := by
      intro l
      induction l with
      | nil => intro _; exact ⟨[], rfl, .nil⟩
      | cons r l ih =>
        intro h
        obtain ⟨os, h1, h2⟩ := ih (fun x hx => h x (List.mem_cons_of_mem _ hx))
        obtain ⟨hr1, hr2, hr3⟩ := h r (List.mem_cons_self ..)
        rcases uriDiag_spec hp shorten hr1 hr2 hr3 with ⟨raw, s, d, h3, h4, h5, h6, h7, h8, h9⟩ | ⟨h3, h4⟩
        · refine ⟨some d :: os, by simp [unwrapAll, h1, h5], ?_⟩
          rw [List.filter_cons_of_pos (by rw [h5]; rfl), show (some d :: os).filterMap id = d :: os.filterMap id from rfl]
          exact .cons ⟨h6, h7, h8, raw, h3, by rw [h9]; exact h4⟩ h2
        · refine ⟨none :: os, by simp [unwrapAll, h1, h3], ?_⟩
          rw [List.filter_cons_of_neg (by rw [h3]; simp), show (none :: os).filterMap id = os.filterMap id from rfl]
          exact h2
    obtain ⟨os, h1, h2⟩ := key (sq.descendants.filter (fun r => r.kind == K.iri)) (fun r hr => by
      have := (hl r).1 hr; exact ⟨this.1, this.2.1, this.2.2.1⟩)
    have hmem : ∀ r, r ∈ (sq.descendants.filter (fun r => r.kind == K.iri)).filter (fun r => (uriDiag shorten text r).join.isSome) ↔
        Shortenable shorten g r := by
      intro r
      rw [List.mem_filter, hl]
      constructor
      · rintro ⟨⟨g1, g2, g3, g4⟩, g5⟩
        rcases uriDiag_spec hp shorten g1 g2 g3 with ⟨raw, s, d, h3, h4, -⟩ | ⟨h3, -⟩
        · exact ⟨raw, s, ⟨g1, g2, g3, h3, sq, g4, hk⟩, h4⟩
        · rw [h3] at g5; cases g5
      · rintro ⟨raw, s, ⟨g1, g2, g3, h3, sq', g4, hk'⟩, h4⟩
        have hsn : sq'.isNode = true := by
          rcases List.mem_cons.1 g4 with rfl | h'
          · exact g2
          · exact (g1.chain sq' h').2
        have e := (selectQuery_iff P hq sq').2 ⟨g1.ancestors sq' g4, hsn, hk'⟩
        rw [hsq] at e; cases e
        refine ⟨⟨g1, g2, g3, g4⟩, ?_⟩
        rcases uriDiag_spec hp shorten g1 g2 g3 with ⟨_, _, d, -, -, h5, -⟩ | ⟨-, h5⟩
        · rw [h5]; rfl
        · rw [h5 raw h3] at h4; cases h4
    refine ⟨_, os.filterMap id, by simp [uncompactedUri, hsq, h1], hmem, ?_, h2⟩
    refine List.pairwise_iff_forall_sublist.2 ?_
    intro a b hab
    have ha := (hmem a).1 (hab.subset (show a ∈ [a, b] by simp))
    have hb := (hmem b).1 (hab.subset (show b ∈ [a, b] by simp))
    have hab0 : [a, b].Sublist sq.descendantsT := by
      refine hab.trans (List.filter_sublist.trans (List.filter_sublist.trans ?_))
      exact List.filter_sublist
    have hab' := (descendantsT_order sq).sublist hab0
    have hnd := (descendantsT_nodup sq).sublist hab0
    simp only [List.pairwise_cons, List.mem_singleton, forall_eq] at hab'
    refine ⟨?_, by simpa using hnd⟩
    rcases hab'.1 with h | h
    · exfalso
      obtain ⟨raw, s, ⟨a1, a2, a3, ⟨t, ht, htn, -⟩, -⟩, -⟩ := ha
      obtain ⟨raw', s', ⟨b1, b2, -⟩, -⟩ := hb
      obtain ⟨c, hc, hcb⟩ := below_child b1 h
      have hcn : c.isNode = true := by
        rcases List.mem_cons.1 hcb with rfl | h'
        · exact b2
        · exact (b1.chain c h').2
      obtain ⟨c', hone⟩ := iri_one hp a1 a2 a3
      rw [hone] at ht hc
      simp only [List.mem_singleton] at ht hc
      rw [hc, ← ht, htn] at hcn
      cases hcn
    · exact h

/-! ## A concrete document: `SELECT * { <e/a> a:b <f> . ?x <e/c }` with the prefix `e` for `e/` -/

/-- The prefix map of the example. -/
def demoShorten : Text → Option Short
  | 'e' :: '/' :: r => some (['e'], ['e', '/'], 'e' :: ':' :: r)
  | _ => none

theorem c60_cases : (∃ errs, parseSource (fun _ => 1) uriText = some (uriTree, errs)) ∧ uriTree.kind = K.QueryUnit ∧
    uncompactedUri demoShorten uriText uriTree =
      some [⟨⟨⟨0, 11⟩, ⟨0, 16⟩⟩, .information, .uncompactedUri, (['e'], ['e', '/'], ['e', ':', 'a'])⟩] :=
  ⟨⟨_, uriTree_parse⟩, rfl, by decide +kernel⟩

end Verif.Props
