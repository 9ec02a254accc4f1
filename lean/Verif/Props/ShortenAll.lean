import Verif.Features.ShortenAll
import Verif.Features.DemoShorten
import Verif.Props.UncompactedUri
/-!
# Shortening all IRIs: C72
-/
namespace Verif.Props
open Verif Verif.Grammar Verif.Lexer Verif.Features

section
variable {errLen : Text → Nat} {text : Text} {g : Green} {errs : List SyntaxErr} (hp : parseSource errLen text = some (g, errs))
include hp

theorem uncompressed_iff {r : Red} (h : InTree g r) (hn : r.isNode = true) (hk : r.kind = K.iri) :
    isUncompressed r = true ↔ ∃ raw, Written r raw ∧ rawIri r = some (some raw) := by
  have P := parsed_of hp
  obtain ⟨c, hc⟩ := iri_one hp h hn hk
  unfold isUncompressed Red.firstChildT
  rw [hc]
  simp only [List.head?_cons, beq_iff_eq]
  rcases rawIri_spec hp h hn hk with ⟨raw, h1, h2⟩ | ⟨h1, h2⟩
  · constructor
    · intro _; exact ⟨raw, h2, h1⟩
    · intro _
      obtain ⟨t, ht, -, htk, -⟩ := h2
      rw [hc] at ht; simp only [List.mem_singleton] at ht; rw [← ht]; exact htk
  · constructor
    · intro hck
      have hcT := h.child (show c ∈ r.childrenT by rw [hc]; simp)
      have hcn := no_iriref_node P hcT hck
      obtain ⟨raw, hraw⟩ := iriref_text P hcT hcn hck
      exact absurd ⟨c, by rw [hc]; simp, hcn, hck, hraw⟩ (h2 raw)
    · rintro ⟨raw, h3, -⟩; exact absurd h3 (h2 raw)

omit hp in
/-- The range of an element with text is not the beginning of the document. -/
theorem covers_ne_start {r : Red} {range : Range} (hne : r.text ≠ []) (h : Covers text r range) : range ≠ docStart := by
  obtain ⟨a, b, -, -, rfl⟩ := h
  intro e
  have h1 : posOf a = ⟨0, 0⟩ := congrArg Range.start e
  have h2 : posOf (a ++ r.text) = ⟨0, 0⟩ := congrArg Range.stop e
  have := posOf_before a r.text hne
  rw [h1, h2] at this
  exact Before.irrefl _ this

theorem written_text {r : Red} (h : InTree g r) (hn : r.isNode = true) (hk : r.kind = K.iri) {raw : Text} (hw : Written r raw) : r.text ≠ [] := by
  obtain ⟨c, hc⟩ := iri_one hp h hn hk
  obtain ⟨t, ht, -, -, e⟩ := hw
  rw [hc] at ht; simp only [List.mem_singleton] at ht
  rw [one_text hc, ← ht, e]; simp

/-- The loop. -/
theorem shortenLoop_spec (shorten : Text → Option Short) : ∀ (rs : List Red) (seen : List Text),
    (∀ r ∈ rs, InTree g r ∧ r.isNode = true ∧ r.kind = K.iri ∧ ∃ raw, Written r raw ∧ rawIri r = some (some raw)) →
    ∃ es, shortenLoop shorten text rs seen = some es ∧
      List.Forall₂ (Shortens shorten text) (rs.filter (fun r => ((rawIri r).join.bind shorten).isSome)) (es.filter (fun e => decide (e.range ≠ docStart))) ∧
      ∃ ds : List (Text × Text), es.filter (fun e => decide (e.range = docStart)) = ds.map (fun d => ⟨docStart, declLine d.1 d.2⟩) ∧
        (ds.map (·.2)).Nodup ∧
        (∀ d ∈ ds, d.2 ∉ seen ∧ ∃ r ∈ rs, ∃ raw c, Written r raw ∧ shorten raw = some (d.1, d.2, c)) ∧
        (∀ r ∈ rs, ∀ raw s, Written r raw → shorten raw = some s → s.2.1 ∈ seen ∨ s.2.1 ∈ ds.map (·.2)) := by
  have P := parsed_of hp
  intro rs
  induction rs with
  | nil => intro seen _; exact ⟨[], rfl, .nil, [], rfl, by simp, by simp, by simp⟩
  | cons r rs ih =>
    intro seen h
    have ih := fun seen => ih seen (fun x hx => h x (List.mem_cons_of_mem _ hx))
    obtain ⟨h1, h2, h3, raw, h4, h5⟩ := h r (List.mem_cons_self ..)
    obtain ⟨c0, hc0⟩ := iri_one hp h1 h2 h3
    cases hs : shorten raw with
    | none =>
      obtain ⟨es, e1, e2, ds, d1, d2, d3, d4⟩ := ih seen
      refine ⟨es, by simp only [shortenLoop, h5, hs]; exact e1, ?_, ds, d1, d2, ?_, ?_⟩
      · rw [List.filter_cons_of_neg (by simp [h5, hs])]; exact e2
      · intro d hd
        obtain ⟨a, x, hx, b⟩ := d3 d hd
        exact ⟨a, x, List.mem_cons_of_mem _ hx, b⟩
      · intro x hx raw' s hw he
        rcases List.mem_cons.1 hx with rfl | hx
        · rw [← written_unique hc0 h4 hw, hs] at he; cases he
        · exact d4 x hx raw' s hw he
    | some s =>
      obtain ⟨p, ns, c⟩ := s
      obtain ⟨range, r1, r2⟩ := covers_rangeOf P h1
      have hr := covers_ne_start (written_text hp h1 h2 h3 h4) r2
      by_cases hin : ns ∈ seen
      · obtain ⟨es, e1, e2, ds, d1, d2, d3, d4⟩ := ih seen
        refine ⟨⟨range, c⟩ :: es, by simp [shortenLoop, h5, hs, r1, hin, e1], ?_, ds, ?_, d2, ?_, ?_⟩
        · rw [List.filter_cons_of_pos (by simp [h5, hs]), List.filter_cons_of_pos (by simpa using hr)]
          exact .cons ⟨r2, raw, p, ns, h4, hs⟩ e2
        · rw [List.filter_cons_of_neg (by simpa using hr)]; exact d1
        · intro d hd
          obtain ⟨a, x, hx, b⟩ := d3 d hd
          exact ⟨a, x, List.mem_cons_of_mem _ hx, b⟩
        · intro x hx raw' s hw he
          rcases List.mem_cons.1 hx with rfl | hx
          · rw [← written_unique hc0 h4 hw, hs] at he
            cases he; exact Or.inl hin
          · exact d4 x hx raw' s hw he
      · obtain ⟨es, e1, e2, ds, d1, d2, d3, d4⟩ := ih (ns :: seen)
        refine ⟨⟨range, c⟩ :: ⟨docStart, declLine p ns⟩ :: es, by simp [shortenLoop, h5, hs, r1, hin, e1], ?_, (p, ns) :: ds, ?_, ?_, ?_, ?_⟩
        · rw [List.filter_cons_of_pos (by simp [h5, hs]), List.filter_cons_of_pos (by simpa using hr),
            List.filter_cons_of_neg (by simp)]
          exact .cons ⟨r2, raw, p, ns, h4, hs⟩ e2
        · rw [List.filter_cons_of_neg (by simpa using hr), List.filter_cons_of_pos (by simp), d1]; rfl
        · rw [List.map_cons, List.nodup_cons]
          refine ⟨fun hm => ?_, d2⟩
          obtain ⟨d, hd, e⟩ := List.mem_map.1 hm
          exact (d3 d hd).1 (by rw [e]; simp)
        · intro d hd
          rcases List.mem_cons.1 hd with rfl | hd
          · exact ⟨hin, r, List.mem_cons_self .., raw, c, h4, hs⟩
          · obtain ⟨a, x, hx, b⟩ := d3 d hd
            exact ⟨fun hm => a (List.mem_cons_of_mem _ hm), x, List.mem_cons_of_mem _ hx, b⟩
        · intro x hx raw' s hw he
          rcases List.mem_cons.1 hx with rfl | hx
          · rw [← written_unique hc0 h4 hw, hs] at he
            cases he; exact Or.inr (by simp)
          · rcases d4 x hx raw' s hw he with hm | hm
            · rcases List.mem_cons.1 hm with hm | hm
              · exact Or.inr (by simp [hm])
              · exact Or.inl hm
            · exact Or.inr (by rw [List.map_cons]; exact List.mem_cons_of_mem _ hm)

/-- The namespace of a declaration. -/
theorem rawUriPrefix_spec {d : Red} (hd : IsDecl g d) : (∃ ns, rawUriPrefix d = some (some ns) ∧ ∀ x, Written d x ↔ x = ns) ∨
    (rawUriPrefix d = some none ∧ ∀ x, ¬ Written d x) := by
  have P := parsed_of hp
  unfold rawUriPrefix
  cases hf : d.childrenT.find? (fun c => c.kind == K.IRIREF) with
  | none =>
    refine Or.inr ⟨rfl, ?_⟩
    rintro x ⟨t, ht, -, hk, -⟩
    have := List.find?_eq_none.1 hf t ht
    simp [hk] at this
  | some t =>
    left
    have hm := List.mem_of_find?_eq_some hf
    have hk : t.kind = K.IRIREF := by simpa using List.find?_some hf
    have ht := hd.1.child hm
    have hn := no_iriref_node P ht hk
    obtain ⟨raw, hraw⟩ := iriref_text P ht hn hk
    have hb : blen t.text = blen ('<' :: raw) + 1 := by
      rw [hraw, show '<' :: (raw ++ ['>']) = ('<' :: raw) ++ ['>'] from rfl, blen_append]
      rfl
    have hb' : blen ('<' :: raw) = 1 + blen raw := by
      rw [show '<' :: raw = ['<'] ++ raw from rfl, blen_append]; rfl
    have h1 : splitAtByte t.text (blen t.text - 1) = some ('<' :: raw, ['>']) := by
      rw [show blen t.text - 1 = blen ('<' :: raw) by omega, hraw]
      exact splitAtByte_append ('<' :: raw) ['>']
    have h2 : splitAtByte ('<' :: raw) 1 = some (['<'], raw) := splitAtByte_append ['<'] raw
    refine ⟨raw, ?_, ?_⟩
    · simp only [byteSlice, h1, h2]
      rw [if_pos (by omega)]
    · intro x
      constructor
      · rintro ⟨t', ht', hn', hk', e'⟩
        have key : ∀ y ∈ d.childrenT, y.isNode = false → y.kind = K.IRIREF → y.green.sym = some (.tok K.IRIREF) := by
          intro y _ hyn hyk
          have hyk : y.here.green.kind = K.IRIREF := hyk
          unfold Red.isNode at hyn
          show y.here.green.sym = _
          cases hg : y.here.green with
          | node k cs => rw [hg] at hyn; cases hyn
          | tok k x =>
            rw [hg] at hyk
            have : k = K.IRIREF := hyk
            subst this
            simp only [Green.sym]
            decide +kernel
        have : t = t' := P.child_unique hd.1 (by rw [hd.2.2]; decide) (hd.2.2 ▸ declRule) (by decide +kernel) (by decide +kernel) hm ht'
          (key t hm hn hk) (key t' ht' hn' hk')
        rw [← this, hraw] at e'
        simpa using e'.symm
      · rintro rfl; exact ⟨t, hm, hn, hk, hraw⟩

theorem declared_spec : ∃ l, unwrapAll rawUriPrefix (findPrefixDeclarations g) = some l ∧ ∀ ns, ns ∈ l.filterMap id ↔ HasNamespace g ns := by
  have P := parsed_of hp
  have hd : ∀ d, d ∈ findPrefixDeclarations g ↔ ∃ q p, (Red.root g).children.head? = some q ∧ q.children.head? = some p ∧ p.kind = K.Prologue ∧
      d ∈ p.children ∧ d.kind = K.PrefixDecl := by
    intro d
    unfold findPrefixDeclarations Red.firstChild
    cases h1 : (Red.root g).children.head? with
    | none => simp
    | some q =>
      dsimp only
      cases h2 : q.children.head? with
      | none => simp [h2]
      | some p =>
        dsimp only
        by_cases hk : p.kind = K.Prologue
        · rw [if_pos hk]; simp [prefixDecls, h2, hk]
        · rw [if_neg hk]; simp [h2, hk]
  have hdT : ∀ d ∈ findPrefixDeclarations g, IsDecl g d := by
    intro d h
    obtain ⟨q, p, h1, h2, -, h4, h5⟩ := (hd d).1 h
    have hq := InTree.child .root (List.mem_filter.1 (List.mem_of_head? h1)).1
    have hpT := InTree.child hq (List.mem_filter.1 (List.mem_of_head? h2)).1
    exact ⟨.child hpT (List.mem_filter.1 h4).1, (List.mem_filter.1 h4).2, h5⟩
  have key : ∀ l : List Red, (∀ d ∈ l, IsDecl g d) → ∃ o, unwrapAll rawUriPrefix l = some o ∧ ∀ ns, ns ∈ o.filterMap id ↔ ∃ d ∈ l, Written d ns := by
    intro l
    induction l with
    | nil => intro _; exact ⟨[], rfl, by simp⟩
    | cons d l ih =>
      intro h
      obtain ⟨o, h1, h2⟩ := ih (fun x hx => h x (List.mem_cons_of_mem _ hx))
      rcases rawUriPrefix_spec hp (h d (List.mem_cons_self ..)) with ⟨ns, h3, h4⟩ | ⟨h3, h4⟩
      · refine ⟨some ns :: o, by simp [unwrapAll, h1, h3], fun x => ?_⟩
        rw [show (some ns :: o).filterMap id = ns :: o.filterMap id from rfl, List.mem_cons, h2]
        simp [h4]
      · refine ⟨none :: o, by simp [unwrapAll, h1, h3], fun x => ?_⟩
        rw [show (none :: o).filterMap id = o.filterMap id from rfl, h2]
        simp [h4]
  obtain ⟨l, h1, h2⟩ := key _ hdT
  refine ⟨l, h1, fun ns => (h2 ns).trans ?_⟩
  constructor
  · rintro ⟨d, h, hw⟩
    obtain ⟨q, p, a, b, c, e, f⟩ := (hd d).1 h
    exact ⟨q, p, d, a, b, c, e, f, hw⟩
  · rintro ⟨q, p, d, a, b, c, e, f, hw⟩
    exact ⟨d, (hd d).2 ⟨q, p, a, b, c, e, f⟩, hw⟩

theorem scope_inTree : InTree g (shortenScope g) := by
  unfold shortenScope
  cases hpro : prologueOf g with
  | none => exact .root
  | some p =>
    dsimp only
    cases hnx : Format.nextNode p with
    | none => exact .root
    | some n =>
      obtain ⟨h1, -, -⟩ := prologueOf_inTree hpro
      have hm := (List.mem_filter.1 (List.mem_of_head? hnx)).1
      unfold Format.younger Format.siblings at hm
      have hm := List.mem_of_mem_drop hm
      cases hpar : p.parent with
      | none => rw [hpar] at hm; cases hm
      | some q =>
        rw [hpar] at hm
        exact .child (h1.parent hpar).1 hm

theorem looked_iff (hq : g.kind = K.QueryUnit) {r : Red} (h : InTree g r) : shortenScope g ∈ r.ancestors ↔ Looked g r := by
  have P := parsed_of hp
  have hroot : Red.root g ∈ r.ancestors := by
    induction h with
    | root => exact List.mem_cons_self ..
    | @child x c hx hc ih =>
      have : Red.ancestors c = c :: Red.ancestors x := by
        unfold Red.ancestors
        rw [child_up hc]
        rfl
      rw [this]
      exact List.mem_cons_of_mem _ ih
  unfold shortenScope Looked
  cases hpro : prologueOf g with
  | none =>
    refine ⟨fun _ p s h1 h2 h3 _ => ?_, fun _ => hroot⟩
    rw [prologue_node P hq h1 h2 h3] at hpro; cases hpro
  | some p =>
    obtain ⟨hT, hn, hk⟩ := prologueOf_inTree hpro
    dsimp only
    cases hnx : Format.nextNode p with
    | none =>
      refine ⟨fun _ p' s h1 h2 h3 h4 => ?_, fun _ => hroot⟩
      have := prologue_node P hq h1 h2 h3
      rw [hpro] at this; cases this
      rw [hnx] at h4; cases h4
    | some n =>
      dsimp only
      constructor
      · intro hm p' s h1 h2 h3 h4
        have := prologue_node P hq h1 h2 h3
        rw [hpro] at this; cases this
        rw [hnx] at h4; cases h4
        exact hm
      · intro hm; exact hm p n hT hn hk hnx

end

/-- **C72.** For every query document, also a broken one, and every prefix map: the action does not panic. It is there exactly if an IRI
is written in full. Its edits are the short forms in place of exactly the IRIs that have one, in document order and without overlap, and
declarations at the beginning of the document: none for a namespace the prologue already has, one for every other
namespace that is used, never two for one namespace. -/
theorem c72_exact (shorten : Text → Option Short) (errLen : Text → Nat) (text : Text) (g errs)
    (hp : parseSource errLen text = some (g, errs)) (hq : g.kind = K.QueryUnit) :
    ∃ o, shortenAll shorten text g = some o ∧ (o = none ↔ ∀ r raw, ¬ LongIri g r raw) ∧
      ∀ es, o = some es → ∃ rs ds,
        (∀ r, r ∈ rs ↔ ∃ raw s, LongIri g r raw ∧ shorten raw = some s) ∧ rs.Pairwise (fun a b => a.stop ≤ b.start ∧ a ≠ b) ∧
        List.Forall₂ (Shortens shorten text) rs (es.filter (fun e => decide (e.range ≠ docStart))) ∧
        es.filter (fun e => decide (e.range = docStart)) =
          (ds : List (Text × Text)).map (fun d => ⟨docStart, "PREFIX ".toList ++ d.1 ++ ": <".toList ++ d.2 ++ ">\n".toList⟩) ∧
        (ds.map (·.2)).Nodup ∧
        (∀ d ∈ ds, ¬ HasNamespace g d.2 ∧ ∃ r raw c, LongIri g r raw ∧ shorten raw = some (d.1, d.2, c)) ∧
        (∀ r raw p ns c, LongIri g r raw → shorten raw = some (p, ns, c) → HasNamespace g ns ∨ ns ∈ ds.map (·.2)) := by
  have P := parsed_of hp
  obtain ⟨l, hl1, hl2⟩ := declared_spec hp
  have hsT := scope_inTree hp
  generalize hirs : (shortenScope g).descendants.filter (fun r => r.kind == K.iri && isUncompressed r) = irs
  have hmem : ∀ r, r ∈ irs ↔ ∃ raw, LongIri g r raw ∧ rawIri r = some (some raw) := by
    intro r
    rw [← hirs]
    unfold Red.descendants
    rw [List.mem_filter, List.mem_filter]
    constructor
    · rintro ⟨⟨h1, h2⟩, h3⟩
      simp only [Bool.and_eq_true, beq_iff_eq] at h3
      have hT := inTree_of_mem_descendantsT _ hsT r h1
      obtain ⟨raw, h4, h5⟩ := (uncompressed_iff hp hT h2 h3.1).1 h3.2
      exact ⟨raw, ⟨hT, h2, h3.1, h4, (looked_iff hp hq hT).1 (descendantsT_anc h1)⟩, h5⟩
    · rintro ⟨raw, ⟨h1, h2, h3, h4, h5⟩, h6⟩
      refine ⟨⟨anc_descendantsT h1 _ ((looked_iff hp hq h1).2 h5), h2⟩, ?_⟩
      simp only [Bool.and_eq_true, beq_iff_eq]
      exact ⟨h3, (uncompressed_iff hp h1 h2 h3).2 ⟨raw, h4, h6⟩⟩
  have hraw : ∀ {r raw}, LongIri g r raw → rawIri r = some (some raw) := by
    rintro r raw ⟨h1, h2, h3, h4, -⟩
    obtain ⟨c, hc⟩ := iri_one hp h1 h2 h3
    rcases rawIri_spec hp h1 h2 h3 with ⟨raw', h5, h6⟩ | ⟨-, h6⟩
    · rw [written_unique hc h4 h6]; exact h5
    · exact absurd h4 (h6 raw)
  obtain ⟨es, e1, e2, ds, d1, d2, d3, d4⟩ := shortenLoop_spec hp shorten irs (l.filterMap id) (fun r hr => by
    obtain ⟨raw, h1, h2⟩ := (hmem r).1 hr
    exact ⟨h1.1, h1.2.1, h1.2.2.1, raw, h1.2.2.2.1, h2⟩)
  refine ⟨if irs.isEmpty then none else some es, by simp only [shortenAll, findUncompactedIris, if_pos hq, hirs, hl1, e1], ?_, ?_⟩
  · cases hc : irs with
    | nil =>
      simp only [List.isEmpty_nil, if_true, true_iff]
      intro r raw h
      have := (hmem r).2 ⟨raw, h, hraw h⟩
      rw [hc] at this; cases this
    | cons r rs =>
      simp only [List.isEmpty_cons, Bool.false_eq_true, if_false, reduceCtorEq, false_iff]
      intro h
      obtain ⟨raw, h1, -⟩ := (hmem r).1 (by rw [hc]; simp)
      exact h r raw h1
  · intro es' he
    have : es' = es := by
      split at he
      · cases he
      · cases he; rfl
    subst this
    have hmem2 : ∀ r, r ∈ irs.filter (fun r => ((rawIri r).join.bind shorten).isSome) ↔ ∃ raw s, LongIri g r raw ∧ shorten raw = some s := by
      intro r
      rw [List.mem_filter, hmem]
      constructor
      · rintro ⟨⟨raw, h1, h2⟩, h3⟩
        rw [h2] at h3
        obtain ⟨s, h3⟩ := Option.isSome_iff_exists.1 h3
        exact ⟨raw, s, h1, h3⟩
      · rintro ⟨raw, s, h1, h2⟩
        exact ⟨⟨raw, h1, hraw h1⟩, by rw [hraw h1]; simp [h2]⟩
    refine ⟨_, ds, hmem2, ?_, e2, d1, d2, ?_, ?_⟩
    · refine List.pairwise_iff_forall_sublist.2 ?_
      intro a b hab
      obtain ⟨raw, -, ⟨a1, a2, a3, ⟨t, ht, htn, -⟩, -⟩, -⟩ := (hmem2 a).1 (hab.subset (show a ∈ [a, b] by simp))
      obtain ⟨raw', -, ⟨b1, b2, -⟩, -⟩ := (hmem2 b).1 (hab.subset (show b ∈ [a, b] by simp))
      have hab0 : [a, b].Sublist (shortenScope g).descendantsT := by
        refine hab.trans (List.filter_sublist.trans ?_)
        rw [← hirs]
        exact List.filter_sublist.trans List.filter_sublist
      have hab' := (descendantsT_order (shortenScope g)).sublist hab0
      have hnd := (descendantsT_nodup (shortenScope g)).sublist hab0
      simp only [List.pairwise_cons, List.mem_singleton, forall_eq] at hab'
      refine ⟨?_, by simpa using hnd⟩
      rcases hab'.1 with h | h
      · exfalso
        obtain ⟨c, hc, hcb⟩ := below_child b1 h
        have hcn : c.isNode = true := by
          rcases List.mem_cons.1 hcb with rfl | h'
          · exact b2
          · exact (b1.chain c h').2
        obtain ⟨c', hone⟩ := iri_one hp a1 a2 a3
        rw [hone] at ht hc
        simp only [List.mem_singleton] at ht hc
        rw [hc, ← ht, htn] at hcn
        cases hcn
      · exact h
    · intro d hd
      obtain ⟨h1, r, hr, raw, c, h2, h3⟩ := d3 d hd
      obtain ⟨raw', h4, -⟩ := (hmem r).1 hr
      obtain ⟨c0, hc0⟩ := iri_one hp h4.1 h4.2.1 h4.2.2.1
      rw [written_unique hc0 h2 h4.2.2.2.1] at h3
      exact ⟨fun h => h1 ((hl2 _).2 h), r, raw', c, h4, h3⟩
    · intro r raw p ns c h1 h2
      rcases d4 r ((hmem r).2 ⟨raw, h1, hraw h1⟩) raw _ h1.2.2.2.1 h2 with h | h
      · exact Or.inl ((hl2 _).1 h)
      · exact Or.inr h

/-- Not for other documents. -/
theorem c72_other (shorten : Text → Option Short) (text : Text) (g : Green) (hq : g.kind ≠ K.QueryUnit) : shortenAll shorten text g = some none := by
  simp [shortenAll, findUncompactedIris, hq]

/-! ## Concrete documents: `SELECT * {<e/a> ?p <f>, <e/a>} VALUES ?x {<e/c>}`, without and with the prologue `PREFIX s: <e/>`; the
prefix map gives `e` for `e/` -/

theorem c72_cases : (∃ errs, parseSource (fun _ => 1) shortNewText = some (shortNewTree, errs)) ∧ shortNewTree.kind = K.QueryUnit ∧
    shortenAll demoShorten shortNewText shortNewTree = some (some
      [⟨⟨⟨0, 10⟩, ⟨0, 15⟩⟩, "e:a".toList⟩, ⟨⟨⟨0, 0⟩, ⟨0, 0⟩⟩, "PREFIX e: <e/>\n".toList⟩, ⟨⟨⟨0, 24⟩, ⟨0, 29⟩⟩, "e:a".toList⟩,
       ⟨⟨⟨0, 42⟩, ⟨0, 47⟩⟩, "e:c".toList⟩]) :=
  ⟨⟨_, shortNewTree_parse⟩, rfl, by decide +kernel⟩

/-- What the action leaves undone: if the namespace is declared under another label, the label the action uses is not declared; and in
a document with a prologue the `VALUES` clause at the end is not looked at. -/
theorem c72_other_label : (∃ errs, parseSource (fun _ => 1) shortOtherText = some (shortOtherTree, errs)) ∧ shortOtherTree.kind = K.QueryUnit ∧
    shortenAll demoShorten shortOtherText shortOtherTree = some (some
      [⟨⟨⟨1, 10⟩, ⟨1, 15⟩⟩, "e:a".toList⟩, ⟨⟨⟨1, 25⟩, ⟨1, 30⟩⟩, "e:a".toList⟩]) ∧
    HasNamespace shortOtherTree ['e', '/'] :=
  ⟨⟨_, shortOtherTree_parse⟩, rfl, by decide +kernel, by
    obtain ⟨l, h1, h2⟩ := declared_spec shortOtherTree_parse
    have : unwrapAll rawUriPrefix (findPrefixDeclarations shortOtherTree) = some [some ['e', '/']] := by decide +kernel
    rw [this] at h1; cases h1
    exact (h2 _).1 (by simp)⟩

end Verif.Props
