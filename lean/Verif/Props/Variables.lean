import Verif.Features.Rename
import Verif.Features.OccurrencesLemmas
import Verif.Features.Parsed
/-!
# Properties of variable features: occurrences (C25), rename (C26), variable names (C27)

Specification (Features/Occurrences.lean): `Occurs g v`: `v` is a `Var` node of the tree. `SameVariable g u v`: same name,
and the scopes of `u` and `v` are linked by sub-selects that project the name. `scopeOf`: the innermost sub-select.
-/
namespace Verif.Props
open Verif Verif.Grammar Verif.Lexer Verif.Features

/-! ## C25 -/

theorem sameVariable_symm {g u v} (h : SameVariable g u v) : SameVariable g v u :=
  ⟨h.1.symm, by rw [h.1]; exact .symm _ _ h.2⟩

theorem sameVariable_trans {g u v w} (h : SameVariable g u v) (h' : SameVariable g v w) : SameVariable g u w := by
  refine ⟨h.1.trans h'.1, ?_⟩
  have := h.2
  rw [h'.1] at this
  exact .trans _ _ _ this h'.2

theorem sameVariable_refl (g : Green) (v : Red) : SameVariable g v v := ⟨rfl, .refl _⟩

/-- The children of a variable node are tokens or error nodes. -/
theorem var_desc {text g} (P : Parsed text g) {v x : Red} (hv : Occurs g v) (hx : v ∈ Red.chain x.up) (hxt : InTree g x) :
    x.isVar = false := by
  -- a child of `v` on the way to `x`
  have key : ∀ {x : Red}, InTree g x → v ∈ Red.chain x.up → x.isNode = true → x.kind = K.Error := by
    intro x hxt
    induction hxt with
    | root => intro h; cases h
    | @child p c hp hc ih =>
      intro hx hn
      rw [parent_chain (child_parent hc)] at hx
      rcases List.mem_cons.1 hx with rfl | hx
      · have hs := P.child_sym hp hc
        have hvk : v.kind = K.Var := by
          have := hv.2
          simp only [Red.isVar, Bool.and_eq_true, beq_iff_eq] at this
          exact this.2
        rw [if_neg (by rw [hvk]; decide)] at hs
        by_contra hne
        have hcs : c.green.sym = some (.node c.kind) := by
          unfold Red.isNode at hn
          unfold Red.kind at hne ⊢
          unfold Red.green
          cases hg : c.here.green with
          | tok k t => rw [hg] at hn; cases hn
          | node k cs =>
            rw [hg] at hne
            simp only [Green.kind] at hne
            simp only [Green.sym, Green.kind, if_neg hne]
        rcases hs with hs | ⟨R, s, hR, hs, hm⟩
        · rw [hcs] at hs; cases hs
        · rw [hcs] at hs
          cases hs
          rw [hvk] at hR
          have hR' : sparqlRules K.Var = some (.alt (.tok K.VAR1) (.tok K.VAR2)) := by decide +kernel
          rw [hR'] at hR
          cases hR
          simp [symbols] at hm
      · have h1 := ih hx (child_isNode hc)
        have hs := P.child_sym hp hc
        rw [if_pos h1] at hs
        rw [hs] at hn; cases hn
  unfold Red.isVar
  cases hn : x.isNode with
  | false => rfl
  | true =>
    rw [key hxt hx hn]
    decide

/-- **C25.** In every document, for every variable occurrence `t`: the analysis does not panic and yields exactly the
occurrences of the same variable, in document order and without overlap. -/
theorem c25_exact (errLen : Text → Nat) (text : Text) (g errs) (hp : parseSource errLen text = some (g, errs)) (t : Red)
    (ht : Occurs g t) :
    ∃ l, findOccurrences t = some l ∧ (∀ v, v ∈ l ↔ Occurs g v ∧ SameVariable g v t) ∧
      l.Pairwise (fun a b => a.stop ≤ b.start) := by
  have P := parsed_of hp
  obtain ⟨p, h1, h2⟩ := findOccurrences_spec P.hroot ht
  have hdesc : ∀ v, Occurs g v → v ∈ (Red.root g).descendants := by
    intro v hv
    unfold Red.descendants
    rw [List.mem_filter]
    refine ⟨mem_descendantsT_root.2 hv.1, ?_⟩
    have := hv.2
    simp only [Red.isVar, Bool.and_eq_true] at this
    exact this.1
  have hmem : ∀ v, v ∈ (Red.root g).descendants.filter p ↔ Occurs g v ∧ SameVariable g v t := by
    intro v
    rw [List.mem_filter]
    constructor
    · rintro ⟨hv, hpv⟩; exact (h2 v hv).1 hpv
    · intro h; exact ⟨hdesc v h.1, (h2 v (hdesc v h.1)).2 h⟩
  refine ⟨_, h1, hmem, ?_⟩
  have ho := (descendantsT_order (Red.root g)).sublist
    ((List.filter_sublist (p := p) (l := (Red.root g).descendants)).trans (List.filter_sublist))
  refine ho.imp_of_mem ?_
  intro a b ha hb hab
  have oa := ((hmem a).1 ha).1
  have ob := ((hmem b).1 hb).1
  rcases hab with hab | hab
  · have := var_desc P oa hab ob.1
    rw [ob.2] at this; cases this
  · exact hab

/-- **C25.** The selected occurrence is among the results. -/
theorem c25_self (errLen : Text → Nat) (text : Text) (g errs) (hp : parseSource errLen text = some (g, errs)) (t : Red)
    (ht : Occurs g t) : ∃ l, findOccurrences t = some l ∧ t ∈ l := by
  obtain ⟨l, h1, h2, -⟩ := c25_exact errLen text g errs hp t ht
  exact ⟨l, h1, (h2 t).2 ⟨ht, sameVariable_refl g t⟩⟩

/-- **C25.** It does not matter from which occurrence one starts: all give the same list. -/
theorem c25_same_from_everywhere (errLen : Text → Nat) (text : Text) (g errs)
    (hp : parseSource errLen text = some (g, errs)) (t : Red) (ht : Occurs g t) (l : List Red)
    (hl : findOccurrences t = some l) (v : Red) (hv : v ∈ l) : findOccurrences v = some l := by
  have P := parsed_of hp
  obtain ⟨p, h1, h2⟩ := findOccurrences_spec P.hroot ht
  rw [h1] at hl
  cases hl
  obtain ⟨hvd, hpv⟩ := List.mem_filter.1 hv
  obtain ⟨hov, hsv⟩ := (h2 v hvd).1 hpv
  obtain ⟨p', h1', h2'⟩ := findOccurrences_spec P.hroot hov
  rw [h1']
  congr 1
  apply List.filter_congr
  intro x hx
  rw [Bool.eq_iff_iff, h2' x hx, h2 x hx]
  constructor
  · rintro ⟨a, b⟩; exact ⟨a, sameVariable_trans b hsv⟩
  · rintro ⟨a, b⟩; exact ⟨a, sameVariable_trans b (sameVariable_symm hsv)⟩

/-- **C25.** Occurrences of different variables have no common results. -/
theorem c25_disjoint (errLen : Text → Nat) (text : Text) (g errs)
    (hp : parseSource errLen text = some (g, errs)) (t t' : Red) (ht : Occurs g t) (ht' : Occurs g t') (l l' : List Red)
    (hl : findOccurrences t = some l) (hl' : findOccurrences t' = some l') : l = l' ∨ ∀ v ∈ l, v ∉ l' := by
  by_cases h : ∃ v ∈ l, v ∈ l'
  · obtain ⟨v, h1, h2⟩ := h
    left
    have e1 := c25_same_from_everywhere errLen text g errs hp t ht l hl v h1
    have e2 := c25_same_from_everywhere errLen text g errs hp t' ht' l' hl' v h2
    rw [e1] at e2; cases e2; rfl
  · right
    intro v h1 h2
    exact h ⟨v, h1, h2⟩

/-- **C25, negative result.** Occurrences with equal names are the same variable whenever no sub-select separates them.
In particular the branches of a `UNION` are not separated, although the documentation of the function says they are
(common/mod.rs L18-20). -/
theorem c25_union_not_separated (g : Green) (u v : Red) (hn : u.varName = v.varName) (hs : scopeOf u = scopeOf v) :
    SameVariable g u v := ⟨hn, by rw [hs]; exact .refl _⟩

/-- A variable that no sub-select projects is confined to its scope. -/
theorem c25_confined (g : Green) (u v : Red) (h : SameVariable g u v)
    (hnone : ∀ s, InTree g s → s.isSub = true → ∀ t, Shows s.green t → varName t ≠ v.varName) : scopeOf u = scopeOf v := by
  have : ∀ a b, Relation.EqvGen (Shares g v.varName) a b → a = b := by
    intro a b hab
    induction hab with
    | rel a b h =>
      obtain ⟨s, h1, h2, h3, -⟩ := h
      exact absurd h3 (by rintro ⟨t, a, b⟩; exact hnone s h1 h2 t a b)
    | refl => rfl
    | symm _ _ _ ih => exact ih.symm
    | trans _ _ _ _ _ ih1 ih2 => exact ih1.trans ih2
  exact this _ _ h.2

/-- **C25, negative result.** `$x` and `?x` are the same variable in SPARQL; they are never taken to be the same here,
since only `?` is stripped from the name. -/
theorem c25_dollar_differs (g : Green) (u v : Red) (n m : Text) (hu : u.text = '$' :: n) (hv : v.text = '?' :: m)
    (hm : '$' ∉ m) : ¬ SameVariable g u v := by
  intro h
  have := h.1
  unfold Red.varName at this
  rw [hu, hv] at this
  simp only [varName] at this
  apply hm
  rw [← this]; simp

/-! ## C26 -/

theorem unwrapAll_map {α β : Type} {f : α → Option β} {l : List α} {ys : List β} :
    unwrapAll f l = some ys ↔ l.map f = ys.map some := by
  induction l generalizing ys with
  | nil => cases ys <;> simp [unwrapAll]
  | cons x xs ih =>
    unfold unwrapAll
    cases hx : f x with
    | none => cases ys <;> simp [hx]
    | some y =>
      cases hxs : unwrapAll f xs with
      | none =>
        cases ys with
        | nil => simp
        | cons z zs =>
          simp only [List.map_cons, hx, List.cons.injEq, Option.some.injEq, reduceCtorEq, false_iff, not_and]
          intro _ h
          rw [← ih] at h
          rw [hxs] at h; cases h
      | some ys' =>
        cases ys with
        | nil => simp
        | cons z zs =>
          simp only [List.map_cons, hx, List.cons.injEq, Option.some.injEq]
          rw [← ih, hxs]
          simp

theorem tokenAtLeft_spec {g : Green} {o : Nat} {t : Red} (h : (Red.root g).tokenAtLeft o = some t) :
    InTree g t ∧ t.isNode = false ∧ t.start ≤ o ∧ o ≤ t.stop ∧ t.text ≠ [] := by
  unfold Red.tokenAtLeft at h
  have hm := List.mem_of_find?_eq_some h
  have hp := List.find?_some h
  simp only [Bool.and_eq_true, decide_eq_true_eq] at hp
  unfold Red.tokens at hm
  obtain ⟨h1, h2⟩ := List.mem_filter.1 hm
  exact ⟨mem_descendantsT_root.1 h1, by simpa using h2, hp.1.2, hp.2, hp.1.1⟩

theorem selectToken_ok {text g pos t} (h : selectToken text g pos = .ok t) :
    ∃ o, byteIndex pos text = some o ∧ (Red.root g).tokenAtLeft o = some t := by
  unfold selectToken at h
  split at h
  · cases h
  · next o ho =>
    split at h
    · cases h
    · split at h
      · cases h
      · next t' ht => cases h; exact ⟨o, ho, ht⟩

theorem selectToken_no_panic {text g pos} (P : Parsed text g) : selectToken text g pos ≠ .panic := by
  unfold selectToken
  split
  · simp
  · next o ho =>
    have hle := byteIndex_le ho
    have : (Red.root g).stop = blen text := by
      show 0 + blen g.text = _
      rw [P.text_eq]; omega
    rw [this, if_neg (by omega)]
    split <;> simp

theorem parentVar_some {g : Green} {t v : Red} (ht : InTree g t) (h : parentVar t = some v) :
    Occurs g v ∧ t ∈ v.childrenT := by
  unfold parentVar at h
  split at h
  · next p hp =>
    split at h
    · next hv => cases h; exact ⟨⟨(ht.parent hp).1, hv⟩, (ht.parent hp).2⟩
    · cases h
  · cases h

/-- A variable is not the root. -/
theorem occurs_up {text g} (P : Parsed text g) {v : Red} (h : Occurs g v) : v.up ≠ [] := by
  intro hu
  have := h.1.root_of_up hu
  have hv := h.2
  rw [this] at hv
  simp only [Red.isVar, Bool.and_eq_true, beq_iff_eq] at hv
  have hk : g.kind = K.Var := hv.2
  rcases P.root with h | h <;> rw [h] at hk <;> exact absurd hk (by decide)

/-- Replacing nodes that do not overlap. -/
theorem replace_nodes {text g} (P : Parsed text g) (new : Text) (l : List Red) (hl : ∀ v ∈ l, Occurs g v)
    (ho : l.Pairwise (fun a b => a.stop ≤ b.start)) :
    ∃ segs last edits, text = origOf segs ++ last ∧ edits = editsOf [] segs ∧
      segs.map (·.old) = l.map Red.text ∧ startsOf 0 segs = l.map Red.start ∧ (∀ s ∈ segs, s.new = new) ∧
      unwrapAll (fun v => (rangeOf text v).map (fun r => (⟨r, new⟩ : TextEdit))) l = some edits ∧
      applyTextEdits text edits = some (ensureNL (resultOf segs ++ last)) := by
  obtain ⟨segs, last, h1, h2, h3, h4⟩ := exists_segs_sorted text (l.map (fun v => (v.start, v.text, new)))
    (by
      intro p hp
      obtain ⟨v, hv, rfl⟩ := List.mem_map.1 hp
      exact P.at_ (hl v hv).1)
    (by rw [List.pairwise_map]; exact ho)
  have hold : segs.map (·.old) = l.map Red.text := by
    have := congrArg (List.map Prod.fst) h2
    simpa [List.map_map, Function.comp_def] using this
  have hnew : ∀ s ∈ segs, s.new = new := by
    intro s hs
    have : (s.old, s.new) ∈ segs.map (fun s => (s.old, s.new)) := List.mem_map.2 ⟨s, hs, rfl⟩
    rw [h2] at this
    simp only [List.map_map, List.mem_map, Function.comp_def, Prod.mk.injEq] at this
    obtain ⟨_, _, _, h⟩ := this
    exact h.symm
  have hne : ∀ s ∈ segs, s.old ≠ [] := by
    intro s hs
    have : s.old ∈ segs.map (·.old) := List.mem_map.2 ⟨s, hs, rfl⟩
    rw [hold] at this
    obtain ⟨v, hv, e⟩ := List.mem_map.1 this
    rw [← e]
    have hv' := (hl v hv).2
    simp only [Red.isVar, Bool.and_eq_true] at hv'
    exact P.node_nonempty (hl v hv).1 hv'.1 (occurs_up P (hl v hv))
  refine ⟨segs, last, editsOf [] segs, h1, rfl, hold, ?_, hnew, ?_, ?_⟩
  · rw [h4]; simp [List.map_map, Function.comp_def]
  · rw [unwrapAll_map, ← h3]
    simp only [List.map_map, Function.comp_def]
    rfl
  · rw [h1]
    exact applyTextEdits_segs segs last _ (List.Perm.refl _) (editsOf_ranges_ne segs [] hne).1

/-- **C26.** A successful rename in any document: there is a variable `v` at the cursor; the edits, in document order,
replace exactly the occurrences of that variable, each by `?` and the new name; applying them changes these pieces of the
text and nothing else. -/
theorem c26_rename (errLen : Text → Nat) (text : Text) (g errs) (hp : parseSource errLen text = some (g, errs))
    (pos : Position) (newName : Text) (edits : List TextEdit) (h : rename text g pos newName = .ok edits) :
    ∃ (v : Red) (o : Nat) (occs : List Red) (segs : List Seg) (last : Text),
      Occurs g v ∧ byteIndex pos text = some o ∧ v.start ≤ o ∧ o ≤ v.stop ∧
      isValidVariableName (stripSigil newName) = true ∧
      (∀ u, u ∈ occs ↔ Occurs g u ∧ SameVariable g u v) ∧
      occs.map (fun u => (rangeOf text u).map (fun r => (⟨r, '?' :: stripSigil newName⟩ : TextEdit))) = edits.map some ∧
      text = origOf segs ++ last ∧ edits = editsOf [] segs ∧
      segs.map (·.old) = occs.map Red.text ∧ startsOf 0 segs = occs.map Red.start ∧
      (∀ s ∈ segs, s.new = '?' :: stripSigil newName) ∧
      applyTextEdits text edits = some (ensureNL (resultOf segs ++ last)) := by
  have P := parsed_of hp
  unfold rename at h
  split at h
  · cases h
  · cases h
  · next token htok =>
    split at h
    · cases h
    · split at h
      · cases h
      · next hval =>
        split at h
        · cases h
        · next v hv =>
          obtain ⟨o, ho, hsel⟩ := selectToken_ok htok
          obtain ⟨t1, t2, t3, t4, t5⟩ := tokenAtLeft_spec hsel
          obtain ⟨hocc, hch⟩ := parentVar_some t1 hv
          obtain ⟨l, e1, e2, e3⟩ := c25_exact errLen text g errs hp v hocc
          rw [e1] at h
          simp only at h
          obtain ⟨segs, last, edits', r1, r2, r3, r7, r4, r5, r6⟩ :=
            replace_nodes P ('?' :: stripSigil newName) l (fun u hu => ((e2 u).1 hu).1) e3
          rw [r5] at h
          cases h
          have hw := child_within hch
          exact ⟨v, o, l, segs, last, hocc, ho, Nat.le_trans hw.1 t3, Nat.le_trans t4 hw.2, by simpa using hval, e2,
            unwrapAll_map.1 r5, r1, r2, r3, r7, r4, r6⟩

/-- **C26.** Renaming never panics. -/
theorem c26_no_panic (errLen : Text → Nat) (text : Text) (g errs) (hp : parseSource errLen text = some (g, errs))
    (pos : Position) (newName : Text) : rename text g pos newName ≠ .panic := by
  have P := parsed_of hp
  unfold rename
  split
  · next h => exact absurd h (selectToken_no_panic P)
  · simp
  · next token htok =>
    split
    · simp
    · split
      · simp
      · split
        · simp
        · next v hv =>
          obtain ⟨o, ho, hsel⟩ := selectToken_ok htok
          obtain ⟨t1, -⟩ := tokenAtLeft_spec hsel
          obtain ⟨hocc, -⟩ := parentVar_some t1 hv
          obtain ⟨l, e1, e2, e3⟩ := c25_exact errLen text g errs hp v hocc
          rw [e1]
          simp only
          obtain ⟨segs, last, edits', -, -, -, -, -, r5, -⟩ :=
            replace_nodes P ('?' :: stripSigil newName) l (fun u hu => ((e2 u).1 hu).1) e3
          rw [r5]
          simp

/-- **C26.** Renaming succeeds iff the token left of (or around) the cursor is a variable token of a variable node and the
new name, without sigil, is a variable name. In particular names that are no variable names are rejected. -/
theorem c26_succeeds_iff (errLen : Text → Nat) (text : Text) (g errs) (hp : parseSource errLen text = some (g, errs))
    (pos : Position) (newName : Text) :
    (∃ edits, rename text g pos newName = .ok edits) ↔
    ∃ o t v, byteIndex pos text = some o ∧ (Red.root g).tokenAtLeft o = some t ∧ (t.kind = K.VAR1 ∨ t.kind = K.VAR2) ∧
      t.parent = some v ∧ v.isVar = true ∧ isValidVariableName (stripSigil newName) = true := by
  have P := parsed_of hp
  constructor
  · rintro ⟨edits, h⟩
    unfold rename at h
    split at h
    · cases h
    · cases h
    · next token htok =>
      split at h
      · cases h
      · next hk =>
        split at h
        · cases h
        · next hval =>
          split at h
          · cases h
          · next v hv =>
            obtain ⟨o, ho, hsel⟩ := selectToken_ok htok
            unfold parentVar at hv
            split at hv
            · next p hpar =>
              split at hv
              · next hpv => cases hv; exact ⟨o, token, _, ho, hsel, not_not.1 hk, hpar, hpv, by simpa using hval⟩
              · cases hv
            · cases hv
  · rintro ⟨o, t, v, h1, h2, h3, h4, h5, h6⟩
    have hnp := c26_no_panic errLen text g errs hp pos newName
    have hsel : selectToken text g pos = .ok t := by
      unfold selectToken
      rw [h1]
      have hle := byteIndex_le h1
      have : (Red.root g).stop = blen text := by
        show 0 + blen g.text = _
        rw [P.text_eq]; omega
      simp only []
      rw [this, if_neg (by omega), h2]
    have hpv : parentVar t = some v := by unfold parentVar; rw [h4]; simp [h5]
    unfold rename at hnp ⊢
    rw [hsel] at hnp ⊢
    simp only [] at hnp ⊢
    rw [if_neg (not_not.2 h3), if_neg (by simp [h6]), hpv] at hnp ⊢
    simp only [] at hnp ⊢
    split at hnp
    · exact absurd rfl hnp
    · split at hnp
      · exact absurd rfl hnp
      · exact ⟨_, rfl⟩

/-- **C25.** References and highlights: never a panic; on a variable, exactly the ranges of its occurrences, in document
order; elsewhere nothing. -/
theorem c25_references (errLen : Text → Nat) (text : Text) (g errs) (hp : parseSource errLen text = some (g, errs))
    (pos : Position) :
    references text g pos ≠ .panic ∧
    ∀ r, references text g pos = .ok r →
      ∃ o t, byteIndex pos text = some o ∧ (Red.root g).tokenAtLeft o = some t ∧
        match parentVar t with
        | none => r = none
        | some v => ∃ (occs : List Red) (rs : List Range), r = some rs ∧ (∀ u, u ∈ occs ↔ Occurs g u ∧ SameVariable g u v) ∧
            occs.Pairwise (fun a b => a.stop ≤ b.start) ∧ occs.map (rangeOf text) = rs.map some := by
  have P := parsed_of hp
  have key : ∀ t v, InTree g t → parentVar t = some v → ∃ occs rs, findOccurrences v = some occs ∧
      unwrapAll (rangeOf text) occs = some rs ∧ (∀ u, u ∈ occs ↔ Occurs g u ∧ SameVariable g u v) ∧
            occs.Pairwise (fun a b => a.stop ≤ b.start) := by
    intro t v ht hv
    obtain ⟨hocc, -⟩ := parentVar_some ht hv
    obtain ⟨l, e1, e2, e3⟩ := c25_exact errLen text g errs hp v hocc
    obtain ⟨segs, last, edits', -, -, -, -, -, r5, -⟩ := replace_nodes P [] l (fun u hu => ((e2 u).1 hu).1) e3
    refine ⟨l, edits'.map (·.range), e1, ?_, e2, e3⟩
    rw [unwrapAll_map] at r5 ⊢
    have := congrArg (List.map (Option.map TextEdit.range)) r5
    simp only [List.map_map, Function.comp_def, Option.map_some, Option.map_map] at this ⊢
    simpa using this
  constructor
  · unfold references
    split
    · next h => exact absurd h (selectToken_no_panic P)
    · simp
    · next t htok =>
      obtain ⟨o, ho, hsel⟩ := selectToken_ok htok
      split
      · simp
      · next v hv =>
        obtain ⟨occs, rs, k1, k2, -⟩ := key t v (tokenAtLeft_spec hsel).1 hv
        rw [k1]
        simp only []
        rw [k2]
        simp
  · intro r h
    unfold references at h
    split at h
    · cases h
    · cases h
    · next t htok =>
      obtain ⟨o, ho, hsel⟩ := selectToken_ok htok
      refine ⟨o, t, ho, hsel, ?_⟩
      split at h
      · next hv => cases h; rw [hv]
      · next v hv =>
        rw [hv]
        obtain ⟨occs, rs, k1, k2, k3, k4⟩ := key t v (tokenAtLeft_spec hsel).1 hv
        rw [k1] at h
        simp only [] at h
        rw [k2] at h
        cases h
        exact ⟨occs, rs, rfl, k3, k4, unwrapAll_map.1 k2⟩

end Verif.Props
