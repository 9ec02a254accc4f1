import Verif.Features.DiagnosticHandler
import Verif.Props.SelectDiagnostics
import Verif.Props.SyntaxDiagnostics
import Verif.Props.SameSubject
import Verif.Props.UncompactedUri
/-!
# The diagnostics request: C61
-/
namespace Verif.Props
open Verif Verif.Grammar Verif.Lexer Verif.Features Verif.Format

/-! ## Byte indices grow with positions -/

theorem skipLines_ge {l : Nat} : ∀ {t : Text} {i b : Nat} {r : Text} {y : Nat}, skipLines l t i b = some (r, y) → b ≤ y := by
  intro t i b
  fun_induction skipLines l t i b <;> intro r y h <;> simp_all <;> omega

theorem skipCols_ge {c : Nat} : ∀ {t : Text} {i b y : Nat}, skipCols c t i b = some y → b ≤ y := by
  intro t i b
  fun_induction skipCols c t i b <;> intro y h <;> simp_all <;> omega
theorem skipCols_mono {c d : Nat} (hcd : c ≤ d) : ∀ {t : Text} {i b x y : Nat}, skipCols c t i b = some x → skipCols d t i b = some y → x ≤ y := by
  intro t i b
  fun_induction skipCols c t i b <;> intro x y h h'
  case case1 => cases h
  case case2 => cases h; exact skipCols_ge h'
  case case3 => cases h
  case case4 hi hn ih => rw [skipCols, if_pos (Nat.lt_of_lt_of_le hi hcd), if_neg hn] at h'; exact ih h h'
  case case5 => cases h
  case case6 hi _ _ hd hn ih => rw [skipCols, if_pos (Nat.lt_of_lt_of_le hi hcd), if_neg hn] at h'; exact ih h (by simpa [hd] using h')
  case case7 hi hn _ _ hd ih => rw [skipCols, if_pos (Nat.lt_of_lt_of_le hi hcd), if_neg hn] at h'; exact ih h (by simpa [hd] using h')
  case case8 => cases h; exact skipCols_ge h'

theorem skipLines_skipLines {k l : Nat} (hkl : k ≤ l) : ∀ {t : Text} {j b x y : Nat} {r s : Text}, j ≤ k → skipLines k t j b = some (r, x) →
    skipLines l t j b = some (s, y) → skipLines l r k x = some (s, y) := by
  intro t j b
  fun_induction skipLines k t j b <;> intro x y r s hj h h'
  case case1 => cases h
  case case2 hj' =>
    injection h with h; injection h with h1 h2; subst h1; subst h2
    have := Nat.le_antisymm hj (Nat.not_lt.1 hj')
    subst this; exact h'
  case case3 hi ih => rw [skipLines.eq_def] at h'; dsimp only at h'; rw [if_pos (Nat.lt_of_lt_of_le hi hkl), if_pos rfl] at h'; exact ih (by omega) h h'
  case case4 hi hn ih => rw [skipLines, if_pos (Nat.lt_of_lt_of_le hi hkl), if_neg hn] at h'; exact ih hj h h'
  case case5 hi hn _ _ hc ih => rw [skipLines, if_pos (Nat.lt_of_lt_of_le hi hkl), if_neg hn, if_pos hc] at h'; exact ih (by omega) h h'
  case case6 hi hn _ _ hc ih => rw [skipLines, if_pos (Nat.lt_of_lt_of_le hi hkl), if_neg hn, if_neg hc] at h'; exact ih hj h h'
  case case7 hj' =>
    injection h with h; injection h with h1 h2; subst h1; subst h2
    have := Nat.le_antisymm hj (Nat.not_lt.1 hj')
    subst this; exact h'

theorem skipCols_skipLines {c l : Nat} : ∀ {t : Text} {i b b' j x y : Nat} {r : Text}, b ≤ b' → j < l → skipCols c t i b = some x →
    skipLines l t j b' = some (r, y) → x ≤ y := by
  intro t i b
  fun_induction skipCols c t i b <;> intro b' j x y r hb hj h h'
  case case1 => cases h
  case case2 => cases h; have := skipLines_ge h'; omega
  case case3 => cases h
  case case4 hn ih => rw [skipLines, if_pos hj, if_neg hn] at h'; exact ih (by omega) hj h h'
  case case5 => cases h
  case case6 hi d cs hd hn ih =>
    rw [skipLines, if_pos hj, if_neg hn, if_neg (by simp [hd])] at h'
    cases cs with
    | nil =>
      have h2 := skipLines_ge h'
      rw [skipCols] at h
      split at h
      · cases h
      · cases h; omega
    | cons e cs =>
      rw [skipLines, if_pos hj, if_neg hd] at h'
      by_cases he : d = '\r' ∧ e = '\n'
      · rw [if_pos he] at h'
        have hu : u8 '\r' = 1 := by decide
        refine ih (r := r) (b' := b' + 1 + 1) (j := j) (by rw [hu]; omega) hj h ?_
        rw [skipLines.eq_def]
        dsimp only
        rw [if_pos hj, if_pos he.2]
        have : u8 '\r' = 1 := by decide
        rw [this] at h'
        exact h'
      · rw [if_neg he] at h'
        exact ih (by omega) hj h h'
  case case7 hi hn _ _ hd ih => rw [skipLines, if_pos hj, if_neg hn, if_neg (fun x => hd x.1)] at h'; exact ih (by omega) hj h h'
  case case8 => cases h; have := skipLines_ge h'; omega

theorem byteIndex_eq (p : Position) (text : Text) : byteIndex p text = (skipLines p.line text 0 0).bind (fun x => skipCols p.character x.1 0 x.2) := by
  unfold byteIndex
  split
  · next h => rw [h.1, h.2.1, h.2.2]; rfl
  · cases skipLines p.line text 0 0 <;> rfl

/-- The byte index of a position does not grow beyond that of a later one, in every text. -/
theorem byteIndex_mono {p q : Position} {text : Text} (h : p.le q = true) {a b : Nat} (ha : byteIndex p text = some a)
    (hb : byteIndex q text = some b) : a ≤ b := by
  rw [byteIndex_eq] at ha hb
  obtain ⟨⟨r, x⟩, h1, h2⟩ := Option.bind_eq_some_iff.1 ha
  obtain ⟨⟨s, y⟩, h3, h4⟩ := Option.bind_eq_some_iff.1 hb
  dsimp only at h2 h4
  unfold Position.le at h
  split at h
  · next e =>
    rw [e, h3] at h1; cases h1
    exact skipCols_mono (by simpa using h) h2 h4
  · have hl : p.line < q.line := by simpa using h
    have h5 := skipLines_skipLines (Nat.le_of_lt hl) (Nat.zero_le _) h1 h3
    exact Nat.le_trans (skipCols_skipLines (Nat.le_refl _) hl h2 h5) (skipCols_ge h4)

/-! ## No panic -/

theorem covers_inText {text : Text} {r : Red} {x : Range} (h : Covers text r x) : InText text x := by
  obtain ⟨a, b, h1, -, h3⟩ := h
  exact ⟨a, r.text, b, h1, h3⟩

theorem inText_le {text : Text} {x : Range} (h : InText text x) : x.start.le x.stop = true := by
  obtain ⟨a, m, b, -, rfl⟩ := h
  exact Format.posOf_le a m

theorem fromByte_inText {text : Text} {a b : Nat} (hab : a ≤ b) {x : Range} (h : Range.fromByteOffsetRange a b text = some x) : InText text x := by
  unfold Range.fromByteOffsetRange at h
  split at h
  · cases h
  · next p hp =>
    split at h
    · cases h
    · next q hq =>
      cases h
      obtain ⟨u, v, h1, h2, h3⟩ := prefix_of_fromByteIndex hp
      obtain ⟨u', v', h1', h2', h3'⟩ := prefix_of_fromByteIndex hq
      rcases prefix_cases (h1.symm.trans h1') with ⟨m, rfl, hm⟩ | ⟨m, hm, rfl, -⟩
      · exact ⟨u, m, v', h1', by rw [h3, h3']⟩
      · rw [blen_append] at h2
        have := blen_pos hm
        omega

theorem cover_within (a b : Nat) : (∀ (g : Green) (idx off : Nat) (up : List Site),
      coverAt a b g idx off up = ⟨⟨g, idx, off⟩, up⟩ ∨ ((coverAt a b g idx off up).start ≤ a ∧ b ≤ (coverAt a b g idx off up).stop)) ∧
    (∀ (cs : List Green) (idx off : Nat) (up : List Site) (r : Red), coverIn a b cs idx off up = some r → r.start ≤ a ∧ b ≤ r.stop) := by
  have step : ∀ (cs : List Green), (∀ g ∈ cs, ∀ (idx off : Nat) (up : List Site),
      coverAt a b g idx off up = ⟨⟨g, idx, off⟩, up⟩ ∨ ((coverAt a b g idx off up).start ≤ a ∧ b ≤ (coverAt a b g idx off up).stop)) →
      ∀ (idx off : Nat) (up : List Site) (r : Red), coverIn a b cs idx off up = some r → r.start ≤ a ∧ b ≤ r.stop := by
    intro cs
    induction cs with
    | nil => intro _ idx off up r h; simp [coverIn] at h
    | cons g gs ih =>
      intro hg idx off up r h
      rw [coverIn] at h
      split at h
      · next hab =>
        injection h with h
        rcases hg g (List.mem_cons_self ..) idx off up with h1 | h1
        · rw [h1] at h; subst h; exact hab
        · rw [h] at h1; exact h1
      · exact ih (fun x hx => hg x (List.mem_cons_of_mem _ hx)) _ _ _ _ h
  have main : ∀ (g : Green) (idx off : Nat) (up : List Site),
      coverAt a b g idx off up = ⟨⟨g, idx, off⟩, up⟩ ∨ ((coverAt a b g idx off up).start ≤ a ∧ b ≤ (coverAt a b g idx off up).stop) := by
    intro g
    refine Green.rec (motive_1 := fun g => ∀ (idx off : Nat) (up : List Site),
      coverAt a b g idx off up = ⟨⟨g, idx, off⟩, up⟩ ∨ ((coverAt a b g idx off up).start ≤ a ∧ b ≤ (coverAt a b g idx off up).stop))
      (motive_2 := fun cs => ∀ g ∈ cs, ∀ (idx off : Nat) (up : List Site),
      coverAt a b g idx off up = ⟨⟨g, idx, off⟩, up⟩ ∨ ((coverAt a b g idx off up).start ≤ a ∧ b ≤ (coverAt a b g idx off up).stop)) ?_ ?_ ?_ ?_ g
    · intro k t idx off up; left; simp [coverAt]
    · intro k cs ih idx off up
      rw [coverAt]
      cases h : coverIn a b cs 0 off (⟨.node k cs, idx, off⟩ :: up) with
      | none => left; rfl
      | some r => right; exact step cs ih _ _ _ _ h
    · intro g hg; cases hg
    · intro g gs h1 h2 x hx
      rcases List.mem_cons.1 hx with rfl | hx
      · exact h1
      · exact h2 x hx
  exact ⟨main, fun cs => step cs (fun g _ => main g)⟩

section
variable {text : Text} {g : Green}

/-- A selected part of the tree is in the tree. -/
theorem childOf_inTree {r c : Red} (hr : InTree g r) {ks : List Kind} (h : r.childOf ks = some c) : InTree g c :=
  .child hr (mem_children.1 (List.mem_of_find?_eq_some h)).1

theorem selectQuery_inTree {sq : Red} (h : selectQuery g = some sq) : InTree g sq := by
  unfold selectQuery at h
  split at h
  · cases h
  · next q hq =>
    refine childOf_inTree ?_ h
    exact .child .root (mem_children.1 (List.mem_of_mem_head? hq)).1

theorem prevNode_inTree {v e : Red} (hv : InTree g v) (h : prevNode v = some e) : InTree g e := by
  unfold prevNode at h
  have h1 := (List.mem_filter.1 (List.mem_of_getLast? h)).1
  unfold elder at h1
  have h2 := List.mem_of_mem_take h1
  unfold siblings at h2
  split at h2
  · cases h2
  · next p hp => exact .child (hv.parent hp).1 h2

theorem assignments_inTree {c : Red} (hc : InTree g c) : ∀ p ∈ assignments c, InTree g p.1 ∧ InTree g p.2 := by
  intro p hp
  unfold assignments at hp
  obtain ⟨v, h1, h2⟩ := List.mem_filterMap.1 hp
  have hv : InTree g v := .child hc (mem_children.1 (List.mem_filter.1 h1).1).1
  split at h2
  · cases h2
  · next e he =>
    split at h2
    · cases h2; exact ⟨prevNode_inTree hv he, hv⟩
    · cases h2

theorem ungroupedVars_inTree {gc c : Red} (hc : InTree g c) : ∀ v ∈ ungroupedVars gc c, InTree g v := by
  intro v hv
  unfold ungroupedVars at hv
  rcases List.mem_append.1 hv with h | h
  · have h1 := (List.mem_filter.1 h).1
    unfold selectedVars at h1
    exact .child hc (mem_children.1 (List.mem_filter.1 (List.mem_filter.1 h1).1).1).1
  · obtain ⟨q, h1, rfl⟩ := List.mem_map.1 h
    obtain ⟨⟨p, i⟩, h2, h3⟩ := List.mem_flatMap.1 (List.mem_filter.1 h1).1
    obtain ⟨v, h4, rfl⟩ := List.mem_map.1 h3
    have hp := List.mem_zipIdx h2
    have hp' : p ∈ assignments c := by
      rw [hp.2.2]; exact List.getElem_mem _
    exact inTree_of_mem_descendantsT _ (assignments_inTree hc p hp').1 _ ((mem_unaggregated _ _).1 h4).1

theorem invalidStar_inTree {s t : Red} (hs : InTree g s) (h : invalidStar s = some t) : InTree g t := by
  unfold invalidStar at h
  split at h
  · cases h
  · split at h
    · split at h
      · cases h
      · next c hc =>
        split at h
        · next t' _ ht =>
          split at h
          · cases h
            have hcT := childOf_inTree hs hc
            have : t ∈ c.tokens := List.mem_of_getLast? ht
            obtain ⟨L, R, e⟩ := inTree_tokens hcT
            exact (mem_tokens.1 (by rw [e]; simp [this])).1
          · cases h
        · cases h
    · cases h

variable (P : Parsed text g)
include P

theorem reports_inText {sev code vs ds} (h : Reports text sev code vs ds) : ∀ d ∈ ds, InText text d.range ∧ d.code = code := by
  unfold Reports at h
  induction h with
  | nil => intro d hd; cases hd
  | cons hx _ ih =>
    intro d hd
    rcases List.mem_cons.1 hd with rfl | hd
    · exact ⟨covers_inText hx.1, hx.2.2.1⟩
    · exact ih d hd

theorem unwrap_safe (sev : Severity) (code : DiagCode) {vs : List Red} (h : ∀ v ∈ vs, InTree g v) :
    ∃ ds, unwrapAll (diagAt text sev code none) vs = some ds ∧ ∀ d ∈ ds, InText text d.range ∧ d.code = code := by
  obtain ⟨ds, h1, h2⟩ := reports_of P sev code h
  exact ⟨ds, h1, reports_inText P h2⟩

theorem groupbyStar_safe : ∃ ds, added (groupbyStar text g) = some ds ∧ ∀ d ∈ ds, InText text d.range ∧ d.code = .groupbyStar := by
  obtain ⟨ds, h1, h2⟩ := unwrap_safe P .error .groupbyStar
    (vs := (((Red.root g).descendants.filter (fun s => s.kind == K.SelectQuery || s.kind == K.SubSelect)).filterMap invalidStar)) (by
      intro v hv
      obtain ⟨s, h1, h2⟩ := List.mem_filterMap.1 hv
      exact invalidStar_inTree (mem_descendantsT_root.1 (List.mem_filter.1 (List.mem_filter.1 h1).1).1) h2)
  unfold groupbyStar
  rw [h1]
  cases ds with
  | nil => exact ⟨[], rfl, fun d hd => by cases hd⟩
  | cons d ds => exact ⟨d :: ds, rfl, h2⟩

theorem ungroupedSelect_safe : ∃ ds, added (ungroupedSelect text g) = some ds ∧ ∀ d ∈ ds, InText text d.range ∧ d.code = .ungroupedSelectVar := by
  have nil : ∃ ds, added (some none) = some ds ∧ ∀ d ∈ ds, InText text d.range ∧ d.code = .ungroupedSelectVar :=
    ⟨[], rfl, fun d hd => by cases hd⟩
  unfold ungroupedSelect
  split
  · exact nil
  · next sq hsq =>
    split
    · exact nil
    · next gc hgc =>
      split
      · exact nil
      · next c hc =>
        obtain ⟨ds, h1, h2⟩ := unwrap_safe P .error .ungroupedSelectVar (ungroupedVars_inTree (gc := gc) (childOf_inTree (selectQuery_inTree hsq) hc))
        exact ⟨ds, by rw [h1]; rfl, h2⟩

theorem invalidProjection_safe : ∃ ds, added (invalidProjection text g) = some ds ∧ ∀ d ∈ ds, InText text d.range ∧ d.code = .invalidProjectionVar := by
  have nil : ∃ ds, added (some none) = some ds ∧ ∀ d ∈ ds, InText text d.range ∧ d.code = .invalidProjectionVar :=
    ⟨[], rfl, fun d hd => by cases hd⟩
  unfold invalidProjection
  split
  · exact nil
  · next sq hsq =>
    split
    · exact nil
    · next c hc =>
      split
      · exact nil
      · split
        · exact nil
        · next w hw =>
          obtain ⟨ds, h1, h2⟩ := unwrap_safe P .error .invalidProjectionVar
            (vs := ((assignments c).map (·.2)).filter (fun v => (attr w.green).visible.contains v.text)) (by
              intro v hv
              obtain ⟨p, h1, rfl⟩ := List.mem_map.1 (List.mem_filter.1 hv).1
              exact (assignments_inTree (childOf_inTree (selectQuery_inTree hsq) hc) p h1).2)
          exact ⟨ds, by rw [h1]; rfl, h2⟩

/-- The removal of any piece of the document that a range marks does not panic, and its edit marks a piece of the document. -/
theorem removePrefix_safe (hq : g.kind = K.QueryUnit) {range : Range} (h : InText text range) : ∃ e, removePrefix text g range = some e ∧ InText text e.range ∧ e.newText = [] := by
  unfold removePrefix
  split
  · exact ⟨_, rfl, h, rfl⟩
  · next a b hab =>
    have hle : a ≤ b := by
      unfold Range.toByteIndexRange at hab
      split at hab
      · next x y hx hy => cases hab; exact byteIndex_mono (inText_le h) hx hy
      · cases hab
    rw [if_neg (by omega)]
    refine ⟨_, rfl, ?_, rfl⟩
    dsimp only
    cases ho : optimalRange text g a b with
    | none => exact h
    | some r =>
      unfold optimalRange at ho
      dsimp only at ho
      split at ho
      · next hk =>
        split at ho
        · cases ho
        · next n hn =>
          refine fromByte_inText ?_ ho
          have h1 := List.find?_some hn
          simp only [Bool.and_eq_true, decide_eq_true_eq] at h1
          rcases (cover_within a b).1 g 0 0 [] with h2 | h2
          · exfalso
            unfold covering at hk
            rw [h2] at hk
            exact absurd (hq.symm.trans hk) (by decide)
          · have := h1.1
            unfold covering at this
            omega
      · cases ho

end

/-! ## The fixes -/

/-- The diagnostics `auto_fix_prefixes` looks at: those with a text as data that no earlier one has. -/
def fresh : List AnyDiag → List Text → List AnyDiag
  | [], _ => []
  | d :: ds, seen =>
    match d.str with
    | none => fresh ds seen
    | some p => if seen.contains p then fresh ds seen else d :: fresh ds (p :: seen)

theorem autoFix_eq {env text g} : ∀ {ds : List AnyDiag} {seen : List Text} (f : AnyDiag → Option TextEdit), (∀ d ∈ ds, fixOf env text g d = some (f d)) →
    autoFix env text g ds seen = some ((fresh ds seen).filterMap f) := by
  intro ds
  induction ds with
  | nil => intros; rfl
  | cons d ds ih =>
    intro seen f h
    have ih' := fun seen => ih (seen := seen) f (fun x hx => h x (List.mem_cons_of_mem _ hx))
    rw [autoFix, fresh]
    cases hs : d.str with
    | none => exact ih' seen
    | some p =>
      dsimp only
      split
      · exact ih' seen
      · rw [h d (List.mem_cons_self ..), ih']
        cases hf : f d with
        | none => simp [List.filterMap_cons, hf]
        | some e => simp [List.filterMap_cons, hf]

theorem mem_fresh : ∀ {ds : List AnyDiag} {seen : List Text} {d : AnyDiag}, d ∈ fresh ds seen ↔
    ∃ A B p, ds = A ++ d :: B ∧ d.str = some p ∧ p ∉ seen ∧ ∀ x ∈ A, x.str ≠ some p := by
  intro ds
  induction ds with
  | nil => intro seen d; simp [fresh]
  | cons x ds ih =>
    intro seen d
    rw [fresh]
    cases hs : x.str with
    | none =>
      dsimp only
      rw [ih]
      constructor
      · rintro ⟨A, B, p, rfl, h2, h3, h4⟩
        exact ⟨x :: A, B, p, rfl, h2, h3, fun y hy => by
          rcases List.mem_cons.1 hy with rfl | hy
          · rw [hs]; simp
          · exact h4 y hy⟩
      · rintro ⟨A, B, p, h1, h2, h3, h4⟩
        cases A with
        | nil =>
          simp only [List.nil_append, List.cons.injEq] at h1
          rw [h1.1, h2] at hs; cases hs
        | cons y A =>
          simp only [List.cons_append, List.cons.injEq] at h1
          exact ⟨A, B, p, h1.2, h2, h3, fun z hz => h4 z (List.mem_cons_of_mem _ hz)⟩
    | some q =>
      dsimp only
      by_cases hq : q ∈ seen
      · rw [if_pos (by simpa using hq), ih]
        constructor
        · rintro ⟨A, B, p, rfl, h2, h3, h4⟩
          exact ⟨x :: A, B, p, rfl, h2, h3, fun y hy => by
            rcases List.mem_cons.1 hy with rfl | hy
            · rw [hs]; rintro ⟨⟩; exact h3 hq
            · exact h4 y hy⟩
        · rintro ⟨A, B, p, h1, h2, h3, h4⟩
          cases A with
          | nil =>
            simp only [List.nil_append, List.cons.injEq] at h1
            rw [h1.1, h2] at hs; cases hs
            exact absurd hq h3
          | cons y A =>
            simp only [List.cons_append, List.cons.injEq] at h1
            exact ⟨A, B, p, h1.2, h2, h3, fun z hz => h4 z (List.mem_cons_of_mem _ hz)⟩
      · rw [if_neg (by simpa using hq), List.mem_cons, ih]
        constructor
        · rintro (rfl | ⟨A, B, p, rfl, h2, h3, h4⟩)
          · exact ⟨[], ds, q, rfl, hs, hq, fun y hy => by cases hy⟩
          · exact ⟨x :: A, B, p, rfl, h2, fun hp => h3 (List.mem_cons_of_mem _ hp), fun y hy => by
              rcases List.mem_cons.1 hy with rfl | hy
              · rw [hs]; rintro ⟨⟩; exact h3 (List.mem_cons_self ..)
              · exact h4 y hy⟩
        · rintro ⟨A, B, p, h1, h2, h3, h4⟩
          cases A with
          | nil =>
            simp only [List.nil_append, List.cons.injEq] at h1
            exact Or.inl h1.1.symm
          | cons y A =>
            simp only [List.cons_append, List.cons.injEq] at h1
            refine Or.inr ⟨A, B, p, h1.2, h2, fun hp => ?_, fun z hz => h4 z (List.mem_cons_of_mem _ hz)⟩
            rcases List.mem_cons.1 hp with rfl | hp
            · exact h4 x (by rw [h1.1]; exact List.mem_cons_self ..) hs
            · exact h3 hp

theorem fresh_append : ∀ {A B : List AnyDiag} {seen : List Text}, ∃ seen', fresh (A ++ B) seen = fresh A seen ++ fresh B seen' ∧
    ∀ p, p ∈ seen' ↔ p ∈ seen ∨ ∃ d ∈ A, d.str = some p := by
  intro A
  induction A with
  | nil => intro B seen; exact ⟨seen, rfl, fun p => by simp⟩
  | cons d A ih =>
    intro B seen
    rw [List.cons_append, fresh, fresh]
    cases hs : d.str with
    | none =>
      obtain ⟨s, h1, h2⟩ := ih (B := B) (seen := seen)
      exact ⟨s, h1, fun p => by rw [h2]; simp [hs]⟩
    | some q =>
      dsimp only
      by_cases hq : q ∈ seen
      · rw [if_pos (by simpa using hq), if_pos (by simpa using hq)]
        obtain ⟨s, h1, h2⟩ := ih (B := B) (seen := seen)
        refine ⟨s, h1, fun p => ?_⟩
        rw [h2]
        constructor
        · rintro (h | ⟨x, hx, h⟩)
          · exact Or.inl h
          · exact Or.inr ⟨x, List.mem_cons_of_mem _ hx, h⟩
        · rintro (h | ⟨x, hx, h⟩)
          · exact Or.inl h
          · rcases List.mem_cons.1 hx with rfl | hx
            · rw [hs] at h; cases h; exact Or.inl hq
            · exact Or.inr ⟨x, hx, h⟩
      · rw [if_neg (by simpa using hq), if_neg (by simpa using hq)]
        obtain ⟨s, h1, h2⟩ := ih (B := B) (seen := q :: seen)
        refine ⟨s, by rw [h1]; rfl, fun p => ?_⟩
        rw [h2]
        constructor
        · rintro (h | ⟨x, hx, h⟩)
          · rcases List.mem_cons.1 h with rfl | h
            · exact Or.inr ⟨d, List.mem_cons_self .., hs⟩
            · exact Or.inl h
          · exact Or.inr ⟨x, List.mem_cons_of_mem _ hx, h⟩
        · rintro (h | ⟨x, hx, h⟩)
          · exact Or.inl (List.mem_cons_of_mem _ h)
          · rcases List.mem_cons.1 hx with rfl | hx
            · rw [hs] at h; cases h; exact Or.inl (List.mem_cons_self ..)
            · exact Or.inr ⟨x, hx, h⟩

/-- The data of the diagnostics that are looked at are distinct. -/
theorem fresh_nodup : ∀ {ds : List AnyDiag} {seen : List Text}, ((fresh ds seen).map AnyDiag.str).Nodup := by
  intro ds
  induction ds with
  | nil => intro seen; exact .nil
  | cons d ds ih =>
    intro seen
    rw [fresh]
    cases hs : d.str with
    | none => exact ih
    | some p =>
      dsimp only
      split
      · exact ih
      · rw [List.map_cons, List.nodup_cons]
        refine ⟨?_, ih⟩
        intro h
        obtain ⟨x, h1, h2⟩ := List.mem_map.1 h
        obtain ⟨A, B, q, -, h4, h5, -⟩ := mem_fresh.1 h1
        rw [hs, h4] at h2
        cases h2
        exact h5 (List.mem_cons_self ..)

theorem fresh_sublist : ∀ {ds : List AnyDiag} {seen : List Text}, (fresh ds seen).Sublist ds := by
  intro ds
  induction ds with
  | nil => intro seen; exact .slnil
  | cons d ds ih =>
    intro seen
    rw [fresh]
    split
    · exact ih.cons _
    · split
      · exact ih.cons _
      · exact ih.cons₂ _

/-! ## All providers -/

section
variable {errLen : Text → Nat} {text : Text} {g : Green} {errs : List SyntaxErr}
variable (hp : parseSource errLen text = some (g, errs))
include hp

theorem unusedPrefix_safe (hq : g.kind = K.QueryUnit) :
    ∃ ds, added (unusedPrefix text g) = some ds ∧ ∀ d ∈ ds, InText text d.range ∧ d.code = .unusedPrefix := by
  obtain ⟨ds, h1, h2, -⟩ := c37_exact errLen text g errs hp hq
  refine ⟨ds, h1, fun d hd => ?_⟩
  obtain ⟨x, h3, -, h4, -⟩ := (h2 d).1 hd
  exact ⟨covers_inText h3, h4⟩

theorem undeclaredPrefix_safe (hq : g.kind = K.QueryUnit) :
    ∃ ds, added (undeclaredPrefix text g) = some ds ∧ ∀ d ∈ ds, InText text d.range ∧ d.code = .undeclaredPrefix := by
  obtain ⟨ds, h1, h2, -⟩ := c36_exact errLen text g errs hp hq
  refine ⟨ds, h1, fun d hd => ?_⟩
  obtain ⟨n, p, -, -, -, h3, -, h4, -⟩ := (h2 d).1 hd
  exact ⟨covers_inText h3, h4⟩

theorem duplicatePrefix_safe (hq : g.kind = K.QueryUnit) :
    ∃ ds, added (duplicatePrefix text g) = some ds ∧ ∀ d ∈ ds, InText text d.range ∧ d.code = .duplicatePrefix := by
  by_cases hl : ∃ x, Unlabelled g x
  · exact ⟨[], c38_unlabelled errLen text g errs hp hq hl, fun d hd => by cases hd⟩
  · obtain ⟨ds, h1, h2, -⟩ := c38_exact errLen text g errs hp hq (fun x hx => hl ⟨x, hx⟩)
    refine ⟨ds, h1, fun d hd => ?_⟩
    obtain ⟨x, y, p, -, -, -, h3, -, h4, -⟩ := (h2 d).1 hd
    exact ⟨covers_inText h3, h4⟩

theorem syntaxError_safe : ∃ ds, added (syntaxError errLen text) = some ds ∧ ∀ d ∈ ds, InText text d.range ∧ d.code = .syntaxError := by
  have htx : tokText (lex errLen text) = text := (c47_lossless errLen text).tiles.2
  obtain ⟨ds, h1, h2⟩ := c58_exact errLen text g errs hp
  refine ⟨ds, h1, fun d hd => ?_⟩
  rcases h2 with ⟨-, rfl⟩ | ⟨A, t, B, h3, -, rfl, -⟩ | ⟨A, B, h3, -, -, rfl, -⟩
  · cases hd
  · rcases List.mem_singleton.1 hd with rfl
    refine ⟨⟨tokText A, t.text, tokText B, ?_, ?_⟩, rfl⟩
    · rw [← htx, h3]; simp [tokText]
    · simp [tokText]
  · rcases List.mem_singleton.1 hd with rfl
    refine ⟨⟨tokText A, [], tokText B, ?_, ?_⟩, rfl⟩
    · rw [← htx, h3]; simp [tokText]
    · simp

theorem sameSubject_safe : ∃ ds, sameSubject text g = some ds ∧ ∀ d ∈ ds, InText text d.range ∧ d.code = .sameSubject := by
  obtain ⟨ts, ds, h1, -, -, h2⟩ := c59_exact errLen text g errs hp
  refine ⟨ds, h1, ?_⟩
  clear h1
  induction h2 with
  | nil => intro d hd; cases hd
  | cons hx _ ih =>
    intro d hd
    rcases List.mem_cons.1 hd with rfl | hd
    · exact ⟨covers_inText hx.1, hx.2.2.1⟩
    · exact ih d hd

theorem uncompactedUri_safe (shorten : Text → Option Short) (hq : g.kind = K.QueryUnit) :
    ∃ ds, uncompactedUri shorten text g = some ds ∧ ∀ d ∈ ds, InText text d.range ∧ d.code = .uncompactedUri := by
  obtain ⟨ts, ds, h1, -, -, h2⟩ := c60_exact shorten errLen text g errs hp hq
  refine ⟨ds, h1, ?_⟩
  clear h1
  induction h2 with
  | nil => intro d hd; cases hd
  | cons hx _ ih =>
    intro d hd
    rcases List.mem_cons.1 hd with rfl | hd
    · exact ⟨covers_inText hx.1, hx.2.2.1⟩
    · exact ih d hd

/-- The reports of all providers. -/
theorem allDiags_some (env : DiagEnv) (hq : g.kind = K.QueryUnit) : ∃ (a b : List Diag) (rest ds : List AnyDiag),
    added (unusedPrefix text g) = some a ∧ added (undeclaredPrefix text g) = some b ∧ allDiags env errLen text g = some ds ∧
    ds = a.map .plain ++ (b.map .plain ++ rest) ∧ (∀ d ∈ ds, InText text d.range) ∧ (∀ d ∈ a, d.code = .unusedPrefix) ∧
    (∀ d ∈ b, d.code = .undeclaredPrefix) ∧ ∀ d ∈ rest, d.code ≠ .unusedPrefix ∧ d.code ≠ .undeclaredPrefix := by
  have P := parsed_of hp
  obtain ⟨a, a1, a2⟩ := unusedPrefix_safe hp hq
  obtain ⟨b, b1, b2⟩ := undeclaredPrefix_safe hp hq
  obtain ⟨c, c1, c2⟩ := uncompactedUri_safe hp env.shorten hq
  obtain ⟨d, d1, d2⟩ := ungroupedSelect_safe P
  obtain ⟨e, e1, e2⟩ := invalidProjection_safe P
  obtain ⟨f, f1, f2⟩ := sameSubject_safe hp
  obtain ⟨h, h1, h2⟩ := syntaxError_safe hp
  obtain ⟨i, i1, i2⟩ := duplicatePrefix_safe hp hq
  obtain ⟨j, j1, j2⟩ := groupbyStar_safe P
  refine ⟨a, b, c.map .uri ++ (d.map .plain ++ (e.map .plain ++ (f.map .triple ++ (h.map .plain ++ (i.map .plain ++ j.map .plain))))), _, a1, b1, by unfold allDiags; rw [a1, b1, c1, d1, e1, f1, h1, i1, j1],
    by simp only [List.append_assoc], ?_,
    fun x hx => (a2 x hx).2, fun x hx => (b2 x hx).2, ?_⟩
  · intro x hx
    simp only [List.mem_append, List.mem_map, or_assoc] at hx
    rcases hx with ⟨y, hy, rfl⟩ | ⟨y, hy, rfl⟩ | ⟨y, hy, rfl⟩ | ⟨y, hy, rfl⟩ | ⟨y, hy, rfl⟩ | ⟨y, hy, rfl⟩ | ⟨y, hy, rfl⟩ | ⟨y, hy, rfl⟩ | ⟨y, hy, rfl⟩
    · exact (a2 y hy).1
    · exact (b2 y hy).1
    · exact (c2 y hy).1
    · exact (d2 y hy).1
    · exact (e2 y hy).1
    · exact (f2 y hy).1
    · exact (h2 y hy).1
    · exact (i2 y hy).1
    · exact (j2 y hy).1
  · intro x hx
    simp only [List.mem_append, List.mem_map] at hx
    rcases hx with ⟨y, hy, rfl⟩ | ⟨y, hy, rfl⟩ | ⟨y, hy, rfl⟩ | ⟨y, hy, rfl⟩ | ⟨y, hy, rfl⟩ | ⟨y, hy, rfl⟩ | ⟨y, hy, rfl⟩
    · simp [AnyDiag.code, (c2 y hy).2]
    · simp [AnyDiag.code, (d2 y hy).2]
    · simp [AnyDiag.code, (e2 y hy).2]
    · simp [AnyDiag.code, (f2 y hy).2]
    · simp [AnyDiag.code, (h2 y hy).2]
    · simp [AnyDiag.code, (i2 y hy).2]
    · simp [AnyDiag.code, (j2 y hy).2]

theorem fixOf_safe (env : DiagEnv) (hq : g.kind = K.QueryUnit) {d : AnyDiag} (hd : InText text d.range) :
    ∃ o, fixOf env text g d = some o ∧ ∀ e, o = some e → InText text e.range := by
  have P := parsed_of hp
  unfold fixOf
  split
  · refine ⟨_, rfl, fun e he => ?_⟩
    unfold declarePrefix at he
    split at he
    · cases he
    · split at he
      · cases he
      · cases he
        exact ⟨[], [], text, rfl, rfl⟩
  · split
    · obtain ⟨e, h1, h2, -⟩ := removePrefix_safe P hq hd
      exact ⟨some e, by rw [h1]; rfl, fun e' he => by cases he; exact h2⟩
    · exact ⟨none, rfl, fun e he => by cases he⟩

end

/-- **C61.** On every document, also a broken one, with all settings and prefix maps, a diagnostics request does not panic; it is
refused exactly if the document is not a query; and every diagnostic and every edit sent marks a piece of the document. -/
theorem c61_safe (env : DiagEnv) (errLen : Text → Nat) (text : Text) (g errs) (hp : parseSource errLen text = some (g, errs)) :
    ∃ reply, diagnosticRequest env errLen text g = some reply ∧ (reply = .error ↔ g.kind ≠ K.QueryUnit) ∧
      ∀ edits diags, reply = .ok edits diags → (∀ d ∈ diags, InText text d.range) ∧ ∀ e ∈ edits, InText text e.range := by
  unfold diagnosticRequest
  by_cases hq : g.kind = K.QueryUnit
  · rw [if_pos hq]
    obtain ⟨a, b, rest, ds, -, -, h1, -, h2, -⟩ := allDiags_some hp env hq
    rw [h1]
    dsimp only
    split
    · have hf : ∀ d ∈ ds, fixOf env text g d = some ((fixOf env text g d).getD none) := by
        intro d hd
        obtain ⟨o, h3, -⟩ := fixOf_safe hp env hq (h2 d hd)
        rw [h3]; rfl
      rw [autoFix_eq _ hf]
      refine ⟨_, rfl, by simp [hq], ?_⟩
      intro edits diags h
      injection h with h3 h4
      subst h3; subst h4
      refine ⟨h2, fun e he => ?_⟩
      obtain ⟨d, h5, h6⟩ := List.mem_filterMap.1 he
      obtain ⟨o, h7, h8⟩ := fixOf_safe hp env hq (h2 d (fresh_sublist.subset h5))
      rw [h7] at h6
      exact h8 e h6
    · refine ⟨_, rfl, by simp [hq], ?_⟩
      intro edits diags h
      injection h with h3 h4
      subst h3; subst h4
      exact ⟨h2, fun e he => by cases he⟩
  · rw [if_neg hq]
    exact ⟨_, rfl, by simp [hq], fun edits diags h => by cases h⟩

/-- The report, if it is one with this code. -/
def plainOf (c : DiagCode) : AnyDiag → Option Diag
  | .plain x => if x.code = c then some x else none
  | _ => none

/-- The report, if it is one of an IRI. -/
def uriOf : AnyDiag → Option UriDiag
  | .uri x => some x
  | _ => none

/-- The report, if it is one of a triple. -/
def groupOf : AnyDiag → Option TripleDiag
  | .triple x => some x
  | _ => none

theorem plainOf_map {c : DiagCode} {l : List Diag} (h : ∀ d ∈ l, d.code = c) : (l.map AnyDiag.plain).filterMap (plainOf c) = l := by
  induction l with
  | nil => rfl
  | cons d l ih =>
    rw [List.map_cons, List.filterMap_cons_some (b := d) (by simp [plainOf, h d (List.mem_cons_self ..)]),
      ih (fun x hx => h x (List.mem_cons_of_mem _ hx))]

theorem plainOf_other {c c' : DiagCode} {l : List Diag} (h : ∀ d ∈ l, d.code = c') (hne : c' ≠ c) : (l.map AnyDiag.plain).filterMap (plainOf c) = [] := by
  rw [List.filterMap_eq_nil_iff]
  intro x hx
  obtain ⟨d, hd, rfl⟩ := List.mem_map.1 hx
  simp [plainOf, h d hd, hne]

theorem plainOf_uri {c : DiagCode} {l : List UriDiag} : (l.map AnyDiag.uri).filterMap (plainOf c) = [] := by
  rw [List.filterMap_eq_nil_iff]
  intro x hx
  obtain ⟨d, hd, rfl⟩ := List.mem_map.1 hx
  rfl

theorem plainOf_triple {c : DiagCode} {l : List TripleDiag} : (l.map AnyDiag.triple).filterMap (plainOf c) = [] := by
  rw [List.filterMap_eq_nil_iff]
  intro x hx
  obtain ⟨d, hd, rfl⟩ := List.mem_map.1 hx
  rfl

theorem uriOf_plain {l : List Diag} : (l.map AnyDiag.plain).filterMap uriOf = [] := by
  rw [List.filterMap_eq_nil_iff]
  intro x hx
  obtain ⟨d, hd, rfl⟩ := List.mem_map.1 hx
  rfl

theorem uriOf_triple {l : List TripleDiag} : (l.map AnyDiag.triple).filterMap uriOf = [] := by
  rw [List.filterMap_eq_nil_iff]
  intro x hx
  obtain ⟨d, hd, rfl⟩ := List.mem_map.1 hx
  rfl

theorem uriOf_map {l : List UriDiag} : (l.map AnyDiag.uri).filterMap uriOf = l := by
  induction l with
  | nil => rfl
  | cons d l ih => rw [List.map_cons, List.filterMap_cons_some (f := uriOf) (b := d) rfl, ih]

theorem groupOf_plain {l : List Diag} : (l.map AnyDiag.plain).filterMap groupOf = [] := by
  rw [List.filterMap_eq_nil_iff]
  intro x hx
  obtain ⟨d, hd, rfl⟩ := List.mem_map.1 hx
  rfl

theorem groupOf_uri {l : List UriDiag} : (l.map AnyDiag.uri).filterMap groupOf = [] := by
  rw [List.filterMap_eq_nil_iff]
  intro x hx
  obtain ⟨d, hd, rfl⟩ := List.mem_map.1 hx
  rfl

theorem groupOf_map {l : List TripleDiag} : (l.map AnyDiag.triple).filterMap groupOf = l := by
  induction l with
  | nil => rfl
  | cons d l ih => rw [List.map_cons, List.filterMap_cons_some (f := groupOf) (b := d) rfl, ih]

/-- **C61, collection.** The diagnostics sent are those of the nine providers and no other: sorted by code they are the lists of
C36-C38 and C55-C60. -/
theorem c61_each (env : DiagEnv) (errLen : Text → Nat) (text : Text) (g errs) (hp : parseSource errLen text = some (g, errs))
    (edits diags) (h : diagnosticRequest env errLen text g = some (.ok edits diags)) :
    added (unusedPrefix text g) = some (diags.filterMap (plainOf .unusedPrefix)) ∧
    added (undeclaredPrefix text g) = some (diags.filterMap (plainOf .undeclaredPrefix)) ∧
    uncompactedUri env.shorten text g = some (diags.filterMap uriOf) ∧
    added (ungroupedSelect text g) = some (diags.filterMap (plainOf .ungroupedSelectVar)) ∧
    added (invalidProjection text g) = some (diags.filterMap (plainOf .invalidProjectionVar)) ∧
    sameSubject text g = some (diags.filterMap groupOf) ∧
    added (syntaxError errLen text) = some (diags.filterMap (plainOf .syntaxError)) ∧
    added (duplicatePrefix text g) = some (diags.filterMap (plainOf .duplicatePrefix)) ∧
    added (groupbyStar text g) = some (diags.filterMap (plainOf .groupbyStar)) ∧
    ∀ d ∈ diags, d.code ∈ [DiagCode.unusedPrefix, .undeclaredPrefix, .uncompactedUri, .ungroupedSelectVar, .invalidProjectionVar, .sameSubject,
      .syntaxError, .duplicatePrefix, .groupbyStar] := by
  have P := parsed_of hp
  unfold diagnosticRequest at h
  by_cases hq : g.kind = K.QueryUnit
  · rw [if_pos hq] at h
    obtain ⟨a, a1, a2⟩ := unusedPrefix_safe hp hq
    obtain ⟨b, b1, b2⟩ := undeclaredPrefix_safe hp hq
    obtain ⟨c, c1, c2⟩ := uncompactedUri_safe hp env.shorten hq
    obtain ⟨d, d1, d2⟩ := ungroupedSelect_safe P
    obtain ⟨e, e1, e2⟩ := invalidProjection_safe P
    obtain ⟨f, f1, f2⟩ := sameSubject_safe hp
    obtain ⟨k, k1, k2⟩ := syntaxError_safe hp
    obtain ⟨i, i1, i2⟩ := duplicatePrefix_safe hp hq
    obtain ⟨j, j1, j2⟩ := groupbyStar_safe P
    replace a2 := fun x hx => (a2 x hx).2
    replace b2 := fun x hx => (b2 x hx).2
    replace d2 := fun x hx => (d2 x hx).2
    replace e2 := fun x hx => (e2 x hx).2
    replace k2 := fun x hx => (k2 x hx).2
    replace i2 := fun x hx => (i2 x hx).2
    replace j2 := fun x hx => (j2 x hx).2
    have hall : allDiags env errLen text g = some (a.map .plain ++ b.map .plain ++ c.map .uri ++ d.map .plain ++ e.map .plain ++ f.map .triple ++
        k.map .plain ++ i.map .plain ++ j.map .plain) := by
      unfold allDiags; rw [a1, b1, c1, d1, e1, f1, k1, i1, j1]
    rw [hall] at h
    dsimp only at h
    have hd : diags = a.map .plain ++ b.map .plain ++ c.map .uri ++ d.map .plain ++ e.map .plain ++ f.map .triple ++
        k.map .plain ++ i.map .plain ++ j.map .plain := by
      split at h
      · obtain ⟨es, -, h'⟩ := Option.map_eq_some_iff.1 h
        injection h' with _ h'; exact h'.symm
      · injection h with h; injection h with _ h; exact h.symm
    clear h hall
    subst hd
    rw [a1, b1, c1, d1, e1, f1, k1, i1, j1]
    simp only [List.filterMap_append, plainOf_uri, plainOf_triple, uriOf_plain, uriOf_triple, uriOf_map, groupOf_plain, groupOf_uri, groupOf_map,
      List.append_nil, List.nil_append, true_and]
    refine ⟨?_, ?_, ?_, ?_, ?_, ?_, ?_, ?_⟩
    · rw [plainOf_map a2, plainOf_other b2 (by decide), plainOf_other d2 (by decide), plainOf_other e2 (by decide), plainOf_other k2 (by decide), plainOf_other i2 (by decide), plainOf_other j2 (by decide)]; simp
    · rw [plainOf_other a2 (by decide), plainOf_map b2, plainOf_other d2 (by decide), plainOf_other e2 (by decide), plainOf_other k2 (by decide), plainOf_other i2 (by decide), plainOf_other j2 (by decide)]; simp
    · rw [plainOf_other a2 (by decide), plainOf_other b2 (by decide), plainOf_map d2, plainOf_other e2 (by decide), plainOf_other k2 (by decide), plainOf_other i2 (by decide), plainOf_other j2 (by decide)]; simp
    · rw [plainOf_other a2 (by decide), plainOf_other b2 (by decide), plainOf_other d2 (by decide), plainOf_map e2, plainOf_other k2 (by decide), plainOf_other i2 (by decide), plainOf_other j2 (by decide)]; simp
    · rw [plainOf_other a2 (by decide), plainOf_other b2 (by decide), plainOf_other d2 (by decide), plainOf_other e2 (by decide), plainOf_map k2, plainOf_other i2 (by decide), plainOf_other j2 (by decide)]; simp
    · rw [plainOf_other a2 (by decide), plainOf_other b2 (by decide), plainOf_other d2 (by decide), plainOf_other e2 (by decide), plainOf_other k2 (by decide), plainOf_map i2, plainOf_other j2 (by decide)]; simp
    · rw [plainOf_other a2 (by decide), plainOf_other b2 (by decide), plainOf_other d2 (by decide), plainOf_other e2 (by decide), plainOf_other k2 (by decide), plainOf_other i2 (by decide), plainOf_map j2]; simp
    · intro x hx
      simp only [List.mem_append, List.mem_map, or_assoc] at hx
      rcases hx with ⟨y, hy, rfl⟩ | ⟨y, hy, rfl⟩ | ⟨y, hy, rfl⟩ | ⟨y, hy, rfl⟩ | ⟨y, hy, rfl⟩ | ⟨y, hy, rfl⟩ | ⟨y, hy, rfl⟩ | ⟨y, hy, rfl⟩ | ⟨y, hy, rfl⟩
      · simp [AnyDiag.code, a2 y hy]
      · simp [AnyDiag.code, b2 y hy]
      · simp [AnyDiag.code, (c2 y hy).2]
      · simp [AnyDiag.code, d2 y hy]
      · simp [AnyDiag.code, e2 y hy]
      · simp [AnyDiag.code, (f2 y hy).2]
      · simp [AnyDiag.code, k2 y hy]
      · simp [AnyDiag.code, i2 y hy]
      · simp [AnyDiag.code, j2 y hy]
  · rw [if_neg hq] at h; cases h

/-- The first declaration of an unused prefix. -/
def FirstUnused (g : Green) (x : Red) : Prop :=
  ∃ p, Declares g x p ∧ (∀ n, ¬ Uses g n p) ∧ ∀ y, Declares g y p → y = x ∨ x.stop ≤ y.start

/-- A prefix that the outer select query uses and no declaration declares. -/
def Missing (g : Green) (p : Text) : Prop :=
  (∃ n, Uses g n p ∧ ∃ s ∈ n.ancestors, s.kind = K.SelectQuery) ∧ ∀ x, ¬ Declares g x p


theorem nodup_map_inj {α β : Type} {f : α → β} : ∀ {l : List α}, (l.map f).Nodup → ∀ a ∈ l, ∀ b ∈ l, f a = f b → a = b := by
  intro l
  induction l with
  | nil => intro _ a ha; cases ha
  | cons x l ih =>
    intro h a ha b hb e
    rw [List.map_cons, List.nodup_cons] at h
    rcases List.mem_cons.1 ha with ha | ha <;> rcases List.mem_cons.1 hb with hb | hb
    · rw [ha, hb]
    · exact absurd (List.mem_map.2 ⟨b, hb, by rw [← e, ha]⟩) h.1
    · exact absurd (List.mem_map.2 ⟨a, ha, by rw [e, hb]⟩) h.1
    · exact ih h.2 a ha b hb e

theorem nodup_of_map {α β : Type} {f : α → β} : ∀ {l : List α}, (l.map f).Nodup → l.Nodup := by
  intro l
  induction l with
  | nil => intro _; exact .nil
  | cons x l ih =>
    intro h
    rw [List.map_cons, List.nodup_cons] at h
    exact List.nodup_cons.2 ⟨fun hx => h.1 (List.mem_map.2 ⟨x, hx, rfl⟩), ih h.2⟩

theorem first_with {p : Text} : ∀ {l : List AnyDiag}, (∃ d ∈ l, d.str = some p) → ∃ A d B, l = A ++ d :: B ∧ d.str = some p ∧ ∀ x ∈ A, x.str ≠ some p := by
  intro l
  induction l with
  | nil => rintro ⟨d, hd, -⟩; cases hd
  | cons x l ih =>
    rintro ⟨d, hd, hs⟩
    by_cases hx : x.str = some p
    · exact ⟨[], x, l, rfl, hx, fun y hy => by cases hy⟩
    · rcases List.mem_cons.1 hd with rfl | hd
      · exact absurd hs hx
      · obtain ⟨A, d', B, rfl, h2, h3⟩ := ih ⟨d, hd, hs⟩
        exact ⟨x :: A, d', B, rfl, h2, fun y hy => by
          rcases List.mem_cons.1 hy with rfl | hy
          · exact hx
          · exact h3 y hy⟩

theorem choose_list {α β : Type} {R : α → β → Prop} : ∀ {l : List α}, (∀ a ∈ l, ∃ b, R a b) → ∃ bs, List.Forall₂ R l bs := by
  intro l
  induction l with
  | nil => intro _; exact ⟨[], .nil⟩
  | cons a l ih =>
    intro h
    obtain ⟨b, hb⟩ := h a (List.mem_cons_self ..)
    obtain ⟨bs, hbs⟩ := ih (fun x hx => h x (List.mem_cons_of_mem _ hx))
    exact ⟨b :: bs, .cons hb hbs⟩

theorem forall₂_mem_left {α β : Type} {R : α → β → Prop} {l : List α} {bs : List β} (h : List.Forall₂ R l bs) : ∀ b ∈ bs, ∃ a ∈ l, R a b := by
  induction h with
  | nil => intro b hb; cases hb
  | cons hx _ ih =>
    intro b hb
    rcases List.mem_cons.1 hb with rfl | hb
    · exact ⟨_, List.mem_cons_self .., hx⟩
    · obtain ⟨a, h1, h2⟩ := ih b hb
      exact ⟨a, List.mem_cons_of_mem _ h1, h2⟩

theorem forall₂_mem_right {α β : Type} {R : α → β → Prop} {l : List α} {bs : List β} (h : List.Forall₂ R l bs) : ∀ a ∈ l, ∃ b ∈ bs, R a b := by
  induction h with
  | nil => intro b hb; cases hb
  | cons hx _ ih =>
    intro b hb
    rcases List.mem_cons.1 hb with rfl | hb
    · exact ⟨_, List.mem_cons_self .., hx⟩
    · obtain ⟨a, h1, h2⟩ := ih b hb
      exact ⟨a, List.mem_cons_of_mem _ h1, h2⟩

section
variable {text : Text} {g : Green} (P : Parsed text g) (hq : g.kind = K.QueryUnit)
include P hq

theorem decls_linear {x y : Red} (hx : IsDecl g x) (hy : IsDecl g y) : x = y ∨ x.stop ≤ y.start ∨ y.stop ≤ x.start := by
  obtain ⟨pro, hpro, h1⟩ := (decl_iff P hq x).1 hx
  obtain ⟨pro', hpro', h2⟩ := (decl_iff P hq y).1 hy
  rw [hpro] at hpro'; cases hpro'
  obtain ⟨a, b, e⟩ := List.append_of_mem h1
  have hpw := decls_pairwise pro
  rw [e] at hpw h2
  rw [List.pairwise_append] at hpw
  rw [List.mem_append, List.mem_cons] at h2
  rcases h2 with h | rfl | h
  · exact Or.inr (Or.inr (hpw.2.2 y h x (by simp)))
  · exact Or.inl rfl
  · exact Or.inr (Or.inl ((List.pairwise_cons.1 hpw.2.1).1 y h))

theorem decls_same {x y : Red} (hx : IsDecl g x) (hy : IsDecl g y) {r : Range} (h : Covers text x r) (h' : Covers text y r) : x = y := by
  have hs := covers_inj P hx.1 hy.1 h h'
  have := decl_nonempty P hq hx
  have := decl_nonempty P hq hy
  rcases decls_linear P hq hx hy with h | h | h
  · exact h
  · omega
  · omega

omit P hq in
theorem covers_order {x y : Red} {r s : Range} (h : Covers text x r) (h' : Covers text y s) (hle : r.stop.le s.start = true) : x.stop ≤ y.start := by
  obtain ⟨a, b, h1, h2, rfl⟩ := h
  obtain ⟨c, d, h3, h4, rfl⟩ := h'
  dsimp only at hle
  have e : c ++ (y.text ++ d) = (a ++ x.text) ++ b := by rw [← List.append_assoc, ← h3, h1]
  have hn : ¬ (posOf c).Before (posOf (a ++ x.text)) := by
    intro hb
    rw [not_le_of_lt hb] at hle; cases hle
  rw [posOf_before_iff e, blen_append] at hn
  have : x.stop = x.start + blen x.text := rfl
  omega

end

theorem splitColon_inj {p q a b : Text} (hp : ':' ∉ p) (hq : ':' ∉ q) (h : p ++ ':' :: a = q ++ ':' :: b) : p = q := by
  induction p generalizing q with
  | nil =>
    cases q with
    | nil => rfl
    | cons c q => simp only [List.nil_append, List.cons_append, List.cons.injEq] at h; exact absurd (by rw [h.1]; simp) hq
  | cons c p ih =>
    cases q with
    | nil => simp only [List.nil_append, List.cons_append, List.cons.injEq] at h; exact absurd (by rw [h.1]; simp) hp
    | cons d q =>
      simp only [List.cons_append, List.cons.injEq] at h
      rw [h.1, ih (fun h => hp (List.mem_cons_of_mem _ h)) (fun h => hq (List.mem_cons_of_mem _ h)) h.2]

/-- **C61, fixes.** If the client supports workspace edits, the edits sent with the diagnostics are, in this order: the removal of the
first declaration of each unused prefix (if enabled), in document order; and the insertion at the beginning of the document of a
declaration of each missing prefix the prefix map knows (if enabled), each once. -/
theorem c61_fixes (env : DiagEnv) (errLen : Text → Nat) (text : Text) (g errs) (hp : parseSource errLen text = some (g, errs))
    (hq : g.kind = K.QueryUnit) (hw : env.workspaceEdits = true) :
    ∃ xs removals inserts diags, diagnosticRequest env errLen text g = some (.ok (removals ++ inserts) diags) ∧
      (∀ x, x ∈ xs ↔ env.removeUnused = true ∧ FirstUnused g x) ∧ xs.Pairwise (fun a b => a.stop ≤ b.start) ∧
      List.Forall₂ (fun x e => ∃ range, Covers text x range ∧ removePrefix text g range = some e) xs removals ∧
      (∀ e, e ∈ inserts ↔ env.addMissing = true ∧ ∃ p uri, Missing g p ∧ env.find p = some uri ∧ e = ⟨⟨⟨0, 0⟩, ⟨0, 0⟩⟩, declText p uri⟩) ∧
      inserts.Nodup := by
  have P := parsed_of hp
  obtain ⟨a, b, rest, ds, ha, hb, h1, h2, h3, hca, hcb, hcr⟩ := allDiags_some hp env hq
  obtain ⟨a', ha', am, apw⟩ := c37_exact errLen text g errs hp hq
  rw [ha] at ha'; cases ha'
  obtain ⟨b', hb', bm, -⟩ := c36_exact errLen text g errs hp hq
  rw [hb] at hb'; cases hb'
  let f : AnyDiag → Option TextEdit := fun d => (fixOf env text g d).getD none
  have hf : ∀ d ∈ ds, fixOf env text g d = some (f d) := by
    intro d hd
    obtain ⟨o, h4, -⟩ := fixOf_safe hp env hq (h3 d hd)
    simp only [f, h4]; rfl
  obtain ⟨s1, e1, m1⟩ := fresh_append (A := a.map .plain) (B := b.map .plain ++ rest) (seen := [])
  obtain ⟨s2, e2, m2⟩ := fresh_append (A := b.map .plain) (B := rest) (seen := s1)
  have hrest : (fresh rest s2).filterMap f = [] := by
    rw [List.filterMap_eq_nil_iff]
    intro d hd
    have := hcr d (fresh_sublist.subset hd)
    simp only [f, fixOf]
    rw [if_neg (fun h => this.2 h.1), if_neg (fun h => this.1 h.1)]
    rfl
  have hfix : autoFix env text g ds [] = some ((fresh (a.map .plain) []).filterMap f ++ (fresh (b.map .plain) s1).filterMap f) := by
    rw [autoFix_eq f hf, h2, e1, e2, List.filterMap_append, List.filterMap_append, hrest, List.append_nil]
  -- the reports of unused declarations
  have hA : ∀ d ∈ fresh (a.map .plain) [], ∃ x, FirstUnused g x ∧ Covers text x d.range := by
    intro d hd
    obtain ⟨A, B, p, h4, h5, -, h6⟩ := mem_fresh.1 hd
    have hd' : d ∈ a.map AnyDiag.plain := by rw [h4]; simp
    obtain ⟨d0, hd0, rfl⟩ := List.mem_map.1 hd'
    obtain ⟨x, hx1, -, -, hx2⟩ := (am d0).1 hd0
    have hdec : Declares g x p ∧ ∀ n, ¬ Uses g n p := by
      have h5' : d0.data = some p := h5
      rcases hx2 with ⟨q, hx3, hx4, hx5⟩ | ⟨-, -, hx5⟩
      · rw [h5'] at hx5; cases hx5; exact ⟨hx3, hx4⟩
      · rw [h5'] at hx5; cases hx5
    refine ⟨x, ⟨p, hdec.1, hdec.2, fun y hy => ?_⟩, hx1⟩
    obtain ⟨ry, hry, hcy⟩ := covers_rangeOf P hy.1.1
    have hy0 : (⟨ry, .warning, .unusedPrefix, some p⟩ : Diag) ∈ a := (am _).2 ⟨y, hcy, rfl, rfl, Or.inl ⟨p, hy, hdec.2, rfl⟩⟩
    have hy1 : AnyDiag.plain ⟨ry, .warning, .unusedPrefix, some p⟩ ∈ A ++ .plain d0 :: B := by
      rw [← h4]; exact List.mem_map.2 ⟨_, hy0, rfl⟩
    have hpw : (a.map AnyDiag.plain).Pairwise (fun u v => u.range.stop.le v.range.start = true) := by
      rw [List.pairwise_map]; exact apw
    rw [h4, List.pairwise_append, List.pairwise_cons] at hpw
    rcases List.mem_append.1 hy1 with h | h
    · exact absurd rfl (h6 _ h)
    · rcases List.mem_cons.1 h with h | h
      · left
        have : ry = d0.range := by injection h with h; rw [← h]
        rw [this] at hcy
        exact decls_same P hq hy.1 hdec.1.1 hcy hx1
      · right
        exact covers_order hx1 hcy (hpw.2.1.1 _ h)
  have hA' : ∀ x, FirstUnused g x → ∃ d ∈ fresh (a.map .plain) [], Covers text x d.range := by
    rintro x ⟨p, hx, hu, hfirst⟩
    obtain ⟨r, hr, hc⟩ := covers_rangeOf P hx.1.1
    have hd0 : (⟨r, .warning, .unusedPrefix, some p⟩ : Diag) ∈ a := (am _).2 ⟨x, hc, rfl, rfl, Or.inl ⟨p, hx, hu, rfl⟩⟩
    refine ⟨.plain ⟨r, .warning, .unusedPrefix, some p⟩, ?_, hc⟩
    obtain ⟨A, B, e⟩ := List.append_of_mem (List.mem_map.2 ⟨_, hd0, rfl⟩ : AnyDiag.plain ⟨r, .warning, .unusedPrefix, some p⟩ ∈ a.map .plain)
    refine mem_fresh.2 ⟨A, B, p, e, rfl, (fun h => by cases h), fun z hz hs => ?_⟩
    have hz' : z ∈ a.map AnyDiag.plain := by rw [e]; simp [hz]
    obtain ⟨z0, hz0, rfl⟩ := List.mem_map.1 hz'
    have hpw : (a.map AnyDiag.plain).Pairwise (fun u v => u.range.stop.le v.range.start = true) := by
      rw [List.pairwise_map]; exact apw
    rw [e, List.pairwise_append] at hpw
    obtain ⟨y, hy1, -, -, hy2⟩ := (am z0).1 hz0
    have hs' : z0.data = some p := hs
    have hdec : Declares g y p := by
      rcases hy2 with ⟨q, hx3, hx4, hx5⟩ | ⟨-, -, hx5⟩
      · rw [hs'] at hx5; cases hx5; exact hx3
      · rw [hs'] at hx5; cases hx5
    have hlt := covers_order hy1 hc (hpw.2.2 _ hz _ (List.mem_cons_self ..))
    have := decl_nonempty P hq hx.1
    have := decl_nonempty P hq hdec.1
    rcases hfirst y hdec with rfl | h <;> omega
  have hremove : ∃ xs, (∀ x, x ∈ xs ↔ env.removeUnused = true ∧ FirstUnused g x) ∧ xs.Pairwise (fun a b => a.stop ≤ b.start) ∧
      List.Forall₂ (fun x e => ∃ range, Covers text x range ∧ removePrefix text g range = some e) xs ((fresh (a.map .plain) []).filterMap f) := by
    by_cases hr : env.removeUnused = true
    · obtain ⟨xs, hxs⟩ := choose_list hA
      refine ⟨xs, fun x => ?_, ?_, ?_⟩
      · constructor
        · intro hx
          obtain ⟨d, -, h4, -⟩ := forall₂_mem_left hxs x hx
          exact ⟨hr, h4⟩
        · rintro ⟨-, hx⟩
          obtain ⟨d, hd, hc⟩ := hA' x hx
          obtain ⟨y, hy, h4, h5⟩ := forall₂_mem_right hxs d hd
          obtain ⟨p, h6, -⟩ := hx
          obtain ⟨q, h7, -⟩ := h4
          rw [decls_same P hq h6.1 h7.1 hc h5]; exact hy
      · have hpw : (fresh (a.map AnyDiag.plain) []).Pairwise (fun u v => u.range.stop.le v.range.start = true) := by
          refine List.Pairwise.sublist fresh_sublist ?_
          rw [List.pairwise_map]; exact apw
        clear hA hA' e1 hfix
        generalize fresh (a.map AnyDiag.plain) [] = L at hpw hxs
        induction hxs with
        | nil => exact .nil
        | @cons d x L xs hd hxs ih =>
          rw [List.pairwise_cons] at hpw
          refine List.pairwise_cons.2 ⟨fun y hy => ?_, ih hpw.2⟩
          obtain ⟨d', hd', -, h5⟩ := forall₂_mem_left hxs y hy
          exact covers_order hd.2 h5 (hpw.1 d' hd')
      · have hcode : ∀ d ∈ fresh (a.map AnyDiag.plain) [], d.code = .unusedPrefix ∧ InText text d.range := by
          intro d hd
          have hd' := fresh_sublist.subset hd
          refine ⟨?_, h3 d (by rw [h2]; exact List.mem_append_left _ hd')⟩
          obtain ⟨d0, hd0, rfl⟩ := List.mem_map.1 hd'
          exact hca d0 hd0
        clear hA hA' e1 hfix
        generalize fresh (a.map AnyDiag.plain) [] = L at hcode hxs
        induction hxs with
        | nil => exact .nil
        | @cons d x L xs hd hxs ih =>
          have ih := ih (fun d hd => hcode d (List.mem_cons_of_mem _ hd))
          obtain ⟨h4, h5⟩ := hcode d (List.mem_cons_self ..)
          obtain ⟨e, h6, -⟩ := removePrefix_safe P hq h5
          have hfd : f d = some e := by
            simp only [f, fixOf]
            rw [if_neg (by rw [h4]; simp), if_pos ⟨h4, hr⟩, h6]
            rfl
          rw [List.filterMap_cons_some hfd]
          exact .cons ⟨d.range, hd.2, h6⟩ ih
    · refine ⟨[], fun x => by simp [hr], .nil, ?_⟩
      have : (fresh (a.map AnyDiag.plain) []).filterMap f = [] := by
        rw [List.filterMap_eq_nil_iff]
        intro d hd
        obtain ⟨d0, hd0, rfl⟩ := List.mem_map.1 (fresh_sublist.subset hd)
        have : (AnyDiag.plain d0).code = .unusedPrefix := hca d0 hd0
        simp only [f, fixOf]
        rw [if_neg (by rw [this]; simp), if_neg (fun h => hr h.2)]
        rfl
      rw [this]; exact .nil
  -- the reports of undeclared prefixes
  have hfb : ∀ d ∈ fresh (b.map .plain) s1, f d = if env.addMissing = true then (declarePrefix env.find d.str).getD none else none := by
    intro d hd
    obtain ⟨d0, hd0, rfl⟩ := List.mem_map.1 (fresh_sublist.subset hd)
    have : (AnyDiag.plain d0).code = .undeclaredPrefix := hcb d0 hd0
    simp only [f, fixOf]
    by_cases ha : env.addMissing = true
    · rw [if_pos ⟨this, ha⟩, if_pos ha]; rfl
    · rw [if_neg (fun h => ha h.2), if_neg (by rw [this]; simp), if_neg ha]; rfl
  have hB : ∀ p, (∃ d ∈ fresh (b.map .plain) s1, d.str = some p) ↔ Missing g p := by
    intro p
    constructor
    · rintro ⟨d, hd, hs⟩
      obtain ⟨d0, hd0, rfl⟩ := List.mem_map.1 (fresh_sublist.subset hd)
      obtain ⟨n, q, h4, h5, h6, -, -, -, h7⟩ := (bm d0).1 hd0
      have hs' : d0.data = some p := hs
      rw [hs'] at h7; cases h7
      exact ⟨⟨n, h4, h6⟩, h5⟩
    · rintro ⟨⟨n, h4, h6⟩, h5⟩
      obtain ⟨r, hr, hc⟩ := covers_rangeOf P h4.1
      have hd0 : (⟨r, .error, .undeclaredPrefix, some p⟩ : Diag) ∈ b := (bm _).2 ⟨n, p, h4, h5, h6, hc, rfl, rfl, rfl⟩
      obtain ⟨A, d, B, e, h7, h8⟩ := first_with (p := p) (l := b.map .plain) ⟨_, List.mem_map.2 ⟨_, hd0, rfl⟩, rfl⟩
      refine ⟨d, mem_fresh.2 ⟨A, B, p, e, h7, fun hs => ?_, h8⟩, h7⟩
      rcases (m1 p).1 hs with h | ⟨z, hz, hzs⟩
      · cases h
      · obtain ⟨z0, hz0, rfl⟩ := List.mem_map.1 hz
        have hzs' : z0.data = some p := hzs
        obtain ⟨y, -, -, -, hy2⟩ := (am z0).1 hz0
        rcases hy2 with ⟨q, hx3, hx4, hx5⟩ | ⟨-, -, hx5⟩
        · rw [hzs'] at hx5; cases hx5; exact h5 y hx3
        · rw [hzs'] at hx5; cases hx5
  obtain ⟨xs, hx1, hx2, hx3⟩ := hremove
  refine ⟨xs, _, (fresh (b.map .plain) s1).filterMap f, ds, ?_, hx1, hx2, hx3, ?_, ?_⟩
  · unfold diagnosticRequest
    rw [if_pos hq, h1]
    dsimp only
    rw [if_pos hw, hfix]
    rfl
  · intro e
    rw [List.mem_filterMap]
    constructor
    · rintro ⟨d, hd, he⟩
      rw [hfb d hd] at he
      split at he
      · next ha =>
        refine ⟨ha, ?_⟩
        unfold declarePrefix at he
        split at he
        · cases he
        · next p hs =>
          split at he
          · cases he
          · next uri hu =>
            cases he
            exact ⟨p, uri, (hB p).1 ⟨d, hd, hs⟩, hu, rfl⟩
      · cases he
    · rintro ⟨ha, p, uri, hm, hu, rfl⟩
      obtain ⟨d, hd, hs⟩ := (hB p).2 hm
      refine ⟨d, hd, ?_⟩
      rw [hfb d hd, if_pos ha, hs]
      simp [declarePrefix, hu]
  · refine filterMap_nodup (nodup_of_map fresh_nodup) ?_
    intro d hd d' hd' e he he'
    refine nodup_map_inj fresh_nodup d hd d' hd' ?_
    have hcol : ∀ d ∈ fresh (b.map .plain) s1, f d = some e → ∃ p uri, d.str = some p ∧ ':' ∉ p ∧ e.newText = declText p uri := by
      intro d hd he
      rw [hfb d hd] at he
      split at he
      · unfold declarePrefix at he
        split at he
        · cases he
        · next p hs =>
          split at he
          · cases he
          · next uri hu =>
            cases he
            obtain ⟨⟨n, h4, -⟩, -⟩ := (hB p).1 ⟨d, hd, hs⟩
            obtain ⟨-, -, -, r, -, hc⟩ := h4
            exact ⟨p, uri, hs, hc, rfl⟩
      · cases he
    obtain ⟨p, u, h4, h5, h6⟩ := hcol d hd he
    obtain ⟨p', u', h4', h5', h6'⟩ := hcol d' hd' he'
    rw [h4, h4', splitColon_inj h5 h5' (by
      rw [h6] at h6'
      simp only [declText, List.append_assoc, List.cons_append, List.nil_append, List.cons.injEq, true_and] at h6'
      exact h6')]

/-- Example: in the document of C36-C38 the unused declaration of `b` is removed and one of `c` inserted. The removal comes first;
were the unused declaration at the beginning of the document, the list would have an insertion behind a removal with the same start. -/
theorem c61_cases : parseSource (fun _ => 1) preText = some (preTree, []) ∧ preTree.kind = K.QueryUnit ∧
    (∃ diags, diagnosticRequest ⟨fun _ => none, fun _ => some ['n'], true, true, true⟩ (fun _ => 1) preText preTree =
      some (.ok [⟨⟨⟨1, 0⟩, ⟨2, 0⟩⟩, []⟩, ⟨⟨⟨0, 0⟩, ⟨0, 0⟩⟩, declText ['c'] ['n']⟩] diags) ∧
      diags.map AnyDiag.code = [.unusedPrefix, .undeclaredPrefix, .duplicatePrefix]) ∧
    ∃ diags, diagnosticRequest ⟨fun _ => none, fun _ => some ['n'], false, false, true⟩ (fun _ => 1) preText preTree = some (.ok [] diags) := by
  have hs : syntaxError (fun _ => 1) preText = some none := by unfold syntaxError; rw [preTree_parse]
  refine ⟨preTree_parse, by decide +kernel, ⟨[.plain ⟨⟨⟨1, 0⟩, ⟨1, 13⟩⟩, .warning, .unusedPrefix, some ['b']⟩,
    .plain ⟨⟨⟨3, 15⟩, ⟨3, 18⟩⟩, .error, .undeclaredPrefix, some ['c']⟩, .plain ⟨⟨⟨2, 0⟩, ⟨2, 13⟩⟩, .warning, .duplicatePrefix, some ['a']⟩], ?_, by decide⟩,
    [.plain ⟨⟨⟨1, 0⟩, ⟨1, 13⟩⟩, .warning, .unusedPrefix, some ['b']⟩,
    .plain ⟨⟨⟨3, 15⟩, ⟨3, 18⟩⟩, .error, .undeclaredPrefix, some ['c']⟩, .plain ⟨⟨⟨2, 0⟩, ⟨2, 13⟩⟩, .warning, .duplicatePrefix, some ['a']⟩], ?_⟩
  · unfold diagnosticRequest allDiags; rw [hs]; decide +kernel
  · unfold diagnosticRequest allDiags; rw [hs]; decide +kernel

end Verif.Props
