import Verif.Format.Made
/-!
# Every edit of the walk is of one of the kinds
-/
namespace Verif.Format
open Verif Verif.Grammar Verif.Lexer Verif.Features Verif.Props

/-- What a walker through a document knows. -/
structure Walks (σ : Bool) (w : Walker) (text : Text) (g : Green) : Prop where
  parsed : Parsed text g
  text : w.text = text
  tree : w.g = g
  indent : Spaces w.indent
  signs : σ = true ∨ ∀ r, InTree g r → r.kind ∈ signedKinds → numberFollows r = false

theorem linebreak_spaces {w : Walker} (h : Spaces w.indent) (n : Nat) : Spaces (linebreak w n) :=
  spaces_nl (spaces_repeat h n)

theorem blank_spaces : Spaces [' '] := spaces_sp spaces_nil

theorem pair_mem {cs : List Red} {a b : Red} (h : (a, b) ∈ cs.zip (cs.drop 1)) : a ∈ cs ∧ b ∈ cs := by
  obtain ⟨h1, h2⟩ := List.of_mem_zip h
  exact ⟨h1, List.mem_of_mem_drop h2⟩

section
variable {σ : Bool} {w : Walker} {text : Text} {g : Green} (W : Walks σ w text g)
include W

omit W in
theorem fmt_mem {r c : Red} (hc : c ∈ fmtChildren r) : c ∈ r.childrenT := (List.mem_filter.1 hc).1

theorem fmt_solid {r c : Red} (hr : InTree g r) (hE : r.kind ≠ K.Error) (hc : c ∈ fmtChildren r) : Solid g c := by
  obtain ⟨h1, h2⟩ := List.mem_filter.1 hc
  refine child_solid W.parsed hr h1 ?_
  simp only [Bool.and_eq_true, Bool.or_eq_true, decide_eq_true_eq, hE, or_false] at h2
  simp [triviaKind, h2.1, h2.2]

theorem sig_solid {r c : Red} (hr : InTree g r) (hc : c ∈ sigChildren r) : Solid g c := by
  obtain ⟨h1, h2⟩ := List.mem_filter.1 hc
  exact child_solid W.parsed hr h1 (by simpa using h2)

omit W in
theorem before_kinds {r : Red} {ks : List Kind} {t : Text} {cs : List Red} (hs : ∀ c ∈ cs, Solid g c) (ht : Spaces t) :
    ∀ e ∈ beforeKinds ks t cs, Made σ g r e := by
  intro e he
  obtain ⟨c, hc, h⟩ := List.mem_filterMap.1 he
  split at h
  · cases h; exact .before (hs c hc) ht
  · cases h

omit W in
theorem after_kinds {r : Red} {ks : List Kind} {t : Text} {cs : List Red} (hs : ∀ c ∈ cs, Solid g c) (ht : Spaces t) :
    ∀ e ∈ afterKinds ks t cs, Made σ g r e := by
  intro e he
  obtain ⟨c, hc, h⟩ := List.mem_filterMap.1 he
  split at h
  · cases h; exact .behind (hs c hc) ht
  · cases h

theorem align_made {r : Red} {cs : List Red} (hs : ∀ c ∈ cs, Solid g c) : ∀ e ∈ alignPrefixes w cs, Made σ g r e := by
  intro e he
  obtain ⟨x, hx, rfl⟩ := List.mem_map.1 he
  obtain ⟨c, hc, h⟩ := List.mem_filterMap.1 hx
  refine .behind ?_ (spaces_replicate _)
  unfold prefixLabel at h
  split at h
  · cases h
  · next y hy =>
    split at h
    · cases h
      exact sig_solid W (hs c hc).1 (List.mem_of_getElem? hy)
    · cases h

theorem select_made {r : Red} {cs : List Red} {level idx : Nat} {a b : Red} {e : SEdit} (hb : Solid g b)
    (h : selectEdit w cs level idx a b = some e) : Made σ g r e := by
  unfold selectEdit at h
  split at h
  · cases h
  · split at h
    · cases h
    · split at h
      · cases h; exact .before hb blank_spaces
      · split at h
        · cases h; exact .before hb (spaces_nl (spaces_replicate _))
        · cases h; exact .before hb blank_spaces

omit W in
theorem group_made {r a b : Red} {e : SEdit} (hb : Solid g b) (h : groupEdit a b = some e) : Made σ g r e := by
  unfold groupEdit at h
  split at h
  · cases h
  · split at h
    · cases h
    · cases h; exact .before hb blank_spaces

omit W in
theorem construct_made {r c : Red} {e : SEdit} (hc : Solid g c) (h : constructEdit c = some e) : Made σ g r e := by
  unfold constructEdit at h
  split at h
  · cases h; exact .behind hc blank_spaces
  · split at h
    · cases h; exact .before hc blank_spaces
    · split at h
      · cases h; exact .before hc (spaces_nl spaces_nil)
      · cases h

theorem everyThird_mem {α : Type} : ∀ (n : Nat) (l : List α), l.length ≤ n → ∀ x ∈ everyThird l, x ∈ l := by
  intro n
  induction n using Nat.strongRecOn with
  | _ n ih =>
    intro l hl x hx
    match l with
    | [] => cases hx
    | [a] => exact hx
    | [a, b] =>
      simp only [everyThird, List.mem_singleton] at hx
      rw [hx]; simp
    | a :: b :: c :: l' =>
      simp only [everyThird, List.mem_cons] at hx
      rcases hx with rfl | hx
      · simp
      · simp only [List.length_cons] at hl
        have := ih (n - 3) (by omega) l' (by omega) x hx
        simp [this]

theorem breaks_made {r list : Red} {t : Text} (hl : InTree g list) (ht : Spaces t) : ∀ e ∈ predicateBreaks t list, Made σ g r e := by
  intro e he
  obtain ⟨c, hc, rfl⟩ := List.mem_map.1 he
  have := everyThird_mem W _ _ (Nat.le_refl _) c (List.mem_of_mem_drop hc)
  exact .before (sig_solid W hl this) ht

theorem blankNode_made {r : Red} {cs : List Red} {level : Nat} (hs : ∀ c ∈ cs, Solid g c) : ∀ e ∈ blankNodeEdits w level cs, Made σ g r e := by
  unfold blankNodeEdits
  split
  · simp
  · next list hl =>
    split
    · exact breaks_made W (hs _ (List.mem_of_getElem? hl)).1 (spaces_append (linebreak_spaces W.indent _) (spaces_sp blank_spaces))
    · simp

theorem triple_made {r : Red} {cs : List Red} {level : Nat} (hs : ∀ c ∈ cs, Solid g c) : ∀ e ∈ tripleEdits w level cs, Made σ g r e := by
  unfold tripleEdits
  split
  · next s l h1 h2 =>
    split
    · refine breaks_made W (hs _ (List.mem_of_getLast? h2)).1 (spaces_append (linebreak_spaces W.indent _) ?_)
      split
      · exact spaces_replicate _
      · exact spaces_sp blank_spaces
    · simp
  · simp

theorem modify_made {r c : Red} {level : Nat} (hc : Solid g c) : ∀ e ∈ modifyEdits w level c, Made σ g r e := by
  unfold modifyEdits
  intro e he
  split at he
  · simp at he; rw [he]; exact .before hc blank_spaces
  · split at he
    · simp at he; rw [he]; exact .before hc (linebreak_spaces W.indent _)
    · split at he
      · simp only [List.mem_cons, List.not_mem_nil, or_false] at he
        rcases he with rfl | rfl
        · exact .before hc (linebreak_spaces W.indent _)
        · exact .behind hc blank_spaces
      · cases he

omit W in
theorem bind_made {r c : Red} (hc : Solid g c) : ∀ e ∈ bindEdits c, Made σ g r e := by
  unfold bindEdits
  intro e he
  split at he
  · simp at he; rw [he]; exact .before hc blank_spaces
  · split at he
    · simp only [List.mem_cons, List.not_mem_nil, or_false] at he
      rcases he with rfl | rfl
      · exact .before hc blank_spaces
      · exact .behind hc blank_spaces
    · cases he

theorem quads_made {r c : Red} {level : Nat} {e : SEdit} (hc : Solid g c) (h : quadsEdit w level c = some e) : Made σ g r e := by
  unfold quadsEdit at h
  split at h
  · cases h; exact .behind hc blank_spaces
  · split at h
    · cases h; exact .behind hc blank_spaces
    · split at h
      · cases h; exact .before hc (linebreak_spaces W.indent _)
      · cases h

/-! ## Tokens -/

omit W in
theorem lower_upper (c : Char) : c.toUpper.toLower = c.toLower := by
  have key : ∀ n, n < 128 → (Char.ofNat n).toUpper.toLower = (Char.ofNat n).toLower := by decide +kernel
  by_cases h : c.toNat < 128
  · have := key c.toNat h
    rwa [Char.ofNat_toNat] at this
  · have : c.toUpper = c := by
      unfold Char.toUpper
      split
      · next hc =>
        exfalso
        have h2 : c.val ≤ 'z'.val := hc.2
        rw [UInt32.le_iff_toNat_le] at h2
        have : c.val.toNat = c.toNat := rfl
        have h3 : 'z'.val.toNat = 122 := rfl
        omega
      · rfl
    rw [this]

omit W in
theorem upper_space {c : Char} (h1 : c.toNat < 128) (h2 : isSpace c = false) : isSpace c.toUpper = false := by
  have key : ∀ n, n < 128 → isSpace (Char.ofNat n) = false → isSpace (Char.ofNat n).toUpper = false := by decide +kernel
  have := key c.toNat h1
  rw [Char.ofNat_toNat] at this
  exact this h2

omit W in
theorem letters_upper {w : Text} {x : Text} (_h : Letters w) (hx : w.map Char.toLower = x.map Char.toLower) {k : Kind} (hk : k ∈ caseKinds)
    (hne : ∃ c cs, x = c :: cs ∧ isSpace c = false) : Firm (k, w) x := by
  exact ⟨.inr (.inl ⟨hk, hx.symm⟩), hne⟩

theorem keyword_made {r : Red} (hr : InTree g r) : ∀ e ∈ keywordEdits w r, Made σ g r e := by
  unfold keywordEdits
  intro e he
  have P := W.parsed
  have hK : ∀ k ∈ keywords, triviaKind k = false ∧ k ≠ K.Comma ∧ secondWord k = none ∧ k ∉ signed ∧ k ≠ K.Error := by decide +kernel
  have hkw : keywords.all (fun k => lexRules.any (fun x => x.kind == k)) = true := by decide +kernel
  split at he
  · next hk =>
    have hmem : r.kind ∈ keywords := by rw [hk]; decide
    obtain ⟨h1, h2, h3, h4, h5⟩ := hK _ hmem
    have hn := is_token P hr hmem hkw
    have ht := in_text (token_rule P hr hn h5) hk
    simp at he
    rw [he]
    refine .restyle hr hn h1 h2 (pieces_one h3 h4) ⟨.inr (.inl ⟨List.mem_cons_of_mem _ (List.mem_cons_of_mem _ (List.mem_cons_of_mem _ (List.mem_cons_of_mem _ hmem))), ?_⟩), ?_⟩
    · rw [ht]; split <;> rfl
    · split
      · exact ⟨_, _, rfl, by decide⟩
      · exact ⟨_, _, rfl, by decide⟩
  · split at he
    · next hk =>
      obtain ⟨hmem, -⟩ := hk
      obtain ⟨h1, h2, h3, h4, h5⟩ := hK _ hmem
      have hn := is_token P hr hmem hkw
      obtain ⟨c, cs, e1, e2, e3⟩ := keyword_first (token_rule P hr hn h5) hmem
      simp at he
      rw [he]
      refine .restyle hr hn h1 h2 (pieces_one h3 h4) ⟨.inr (.inl ⟨List.mem_cons_of_mem _ (List.mem_cons_of_mem _ (List.mem_cons_of_mem _ (List.mem_cons_of_mem _ hmem))), ?_⟩), ?_⟩
      · rw [List.map_map]
        refine List.map_congr_left ?_
        intro d _
        exact lower_upper d
      · have e1 : r.text = c :: cs := e1
        exact ⟨c.toUpper, cs.map Char.toUpper, by rw [e1]; rfl, upper_space e2 e3⟩
    · cases he

/-- The kinds of single tokens the formatter rewrites, apart from keywords. -/
def tokenArms : List Kind := [K.ANON, K.DELETE, K.a, K.DELETE_WHERE, K.DELETE_DATA, K.INSERT_DATA]

theorem tokenArms_rules : ∀ k ∈ tokenArms, triviaKind k = false ∧ k ≠ K.Comma ∧ k ∉ signed ∧ k ≠ K.Error := by decide

theorem anon_made {r : Red} (hr : InTree g r) (hk : r.kind = K.ANON) : Made σ g r (replace r ['[', ']']) := by
  have hmem : r.kind ∈ tokenArms := by rw [hk]; decide
  obtain ⟨h1, h2, h3, h4⟩ := tokenArms_rules W _ hmem
  exact .restyle hr (is_token W.parsed hr hmem (by decide +kernel)) h1 h2
    (pieces_one (show secondWord r.kind = none by rw [hk]; decide) h3) ⟨.inr (.inr ⟨hk, rfl⟩), _, _, rfl, by decide⟩

theorem a_made {r : Red} (hr : InTree g r) (hk : r.kind = K.a) : Made σ g r (replace r ['a']) := by
  have hmem : r.kind ∈ tokenArms := by rw [hk]; decide
  obtain ⟨h1, h2, h3, h4⟩ := tokenArms_rules W _ hmem
  have hn := is_token W.parsed hr hmem (by decide +kernel)
  exact .restyle hr hn h1 h2
    (pieces_one (show secondWord r.kind = none by rw [hk]; decide) h3)
      ⟨.inl (a_text (token_rule W.parsed hr hn h4) hk).symm, _, _, rfl, by decide⟩

theorem delete_made {r : Red} (hr : InTree g r) (hk : r.kind = K.DELETE) : ∀ e ∈ deleteEdits w r, Made σ g r e := by
  have hmem : r.kind ∈ tokenArms := by rw [hk]; decide
  obtain ⟨h1, h2, h3, h4⟩ := tokenArms_rules W _ hmem
  have hn := is_token W.parsed hr hmem (by decide +kernel)
  obtain ⟨ht, hl⟩ := delete_text (token_rule W.parsed hr hn h4) hk
  unfold deleteEdits
  intro e he
  split at he
  · simp at he
    rw [he]
    exact .restyle hr hn h1 h2 (pieces_one (show secondWord r.kind = none by rw [hk]; decide) h3)
      ⟨.inr (.inl ⟨by show r.kind ∈ caseKinds; rw [hk]; decide, by rw [ht]; decide⟩), _, _, rfl, by decide⟩
  · split at he
    · next hlen =>
      exfalso
      have hlen2 : r.text.length = 6 := by
        have := congrArg List.length ht
        simpa [Red.kt] using this
      have hb : blen r.text = 6 := by rw [← hlen2]; exact letters_blen hl
      have : r.stop = r.start + blen r.text := rfl
      omega
    · cases he

theorem two_made {r : Red} (hr : InTree g r) {n : Nat} {f s x y : Text} (hn2 : secondWord r.kind = some n) (hmem : r.kind ∈ tokenArms)
    (hx : x.length = 6) (hy : y.length = n) (ht : TwoWords r.text x y) (hf : f.map Char.toLower = x) (hs : s.map Char.toLower = y)
    (hf2 : ∃ c cs, f = c :: cs ∧ isSpace c = false) (hs2 : ∃ c cs, s = c :: cs ∧ isSpace c = false) :
    ∀ e ∈ twoWords w r n f s, Made σ g r e := by
  obtain ⟨h1, h2, h3, h4⟩ := tokenArms_rules W _ hmem
  have hn := is_token W.parsed hr hmem (by decide +kernel)
  obtain ⟨a, m, b, e1, e2, e3, e4, e5, e6, e7, e8, e9⟩ := pieces_two hn2 hx hy ht
  have hp : pieces σ r.kt = [(r.kind, a), (K.WHITESPACE, m), (r.kind, b)] := e7
  have hcase : r.kind ∈ caseKinds := by
    rcases secondWord_cases hn2 with ⟨h, _⟩ | ⟨h, _⟩ | ⟨h, _⟩ <;> rw [h] <;> decide
  intro e he
  unfold twoWords at he
  rcases List.mem_cons.1 he with rfl | he
  · have := Made.middle (g := g) (r := r) (t := [' ']) hr hn h1 h2 hp blank_spaces
    rwa [e8, e9] at this
  · split at he
    · simp only [List.mem_cons, List.not_mem_nil, or_false] at he
      rcases he with rfl | rfl
      · have := Made.first (g := g) (r := r) (t := f) hr hn h1 h2 hp ⟨.inr (.inl ⟨hcase, by rw [hf, e3]⟩), hf2⟩
        rwa [e8] at this
      · have := Made.second (g := g) (r := r) (t := s) hr hn h1 h2 hp ⟨.inr (.inl ⟨hcase, by rw [hs, e4]⟩), hs2⟩
        rwa [e9] at this
    · cases he

/-! ## Gaps -/

/-- Consecutive elements of a filtered list. -/
theorem pair_split {α : Type} {q : α → Bool} : ∀ {l : List α} {a b : α}, (a, b) ∈ (l.filter q).zip ((l.filter q).drop 1) →
    ∃ X T Y, l = (X ++ [a]) ++ (T ++ b :: Y) ∧ q a = true ∧ q b = true ∧ ∀ t ∈ T, q t = false := by
  intro l
  induction l with
  | nil => intro a b h; cases h
  | cons x l ih =>
    intro a b h
    by_cases hx : q x = true
    · rw [List.filter_cons_of_pos hx, List.drop_one, List.tail_cons] at h
      have key : ∀ m : List α, (a, b) ∈ (x :: m).zip m → (a = x ∧ m.head? = some b) ∨ (a, b) ∈ m.zip (m.drop 1) := by
        intro m hm
        cases m with
        | nil => cases hm
        | cons y m =>
          rw [List.zip_cons_cons] at hm
          rcases List.mem_cons.1 hm with h | h
          · cases h; exact .inl ⟨rfl, rfl⟩
          · exact .inr (by simpa using h)
      rcases key _ h with ⟨rfl, hb⟩ | h
      · have hb2 : ∃ T Y, l = T ++ b :: Y ∧ q b = true ∧ ∀ t ∈ T, q t = false := by
          clear ih h key
          induction l with
          | nil => cases hb
          | cons y l ih =>
            by_cases hy : q y = true
            · rw [List.filter_cons_of_pos hy] at hb
              cases hb
              exact ⟨[], l, rfl, hy, by simp⟩
            · rw [List.filter_cons_of_neg hy] at hb
              obtain ⟨T, Y, e, h1, h2⟩ := ih hb
              refine ⟨y :: T, Y, by rw [e]; rfl, h1, ?_⟩
              intro t ht
              rcases List.mem_cons.1 ht with rfl | ht
              · simpa using hy
              · exact h2 t ht
        obtain ⟨T, Y, e, h1, h2⟩ := hb2
        exact ⟨[], T, Y, by rw [e]; rfl, hx, h1, h2⟩
      · obtain ⟨X, T, Y, e, h1⟩ := ih h
        exact ⟨x :: X, T, Y, by rw [e]; rfl, h1⟩
    · rw [List.filter_cons_of_neg hx] at h
      obtain ⟨X, T, Y, e, h1⟩ := ih h
      exact ⟨x :: X, T, Y, by rw [e]; rfl, h1⟩

/-- The filter of the children, outside error nodes. -/
theorem fmt_eq {r : Red} (hE : r.kind ≠ K.Error) : fmtChildren r = r.childrenT.filter (fun c => !triviaKind c.kind) := by
  unfold fmtChildren
  refine List.filter_congr ?_
  intro c _
  simp only [triviaKind, hE, decide_false, Bool.or_false, Bool.not_or, ne_eq, decide_not]
  rfl

theorem pair_gap {r a b : Red} (hE : r.kind ≠ K.Error) (h : (a, b) ∈ (fmtChildren r).zip ((fmtChildren r).drop 1)) :
    ∃ X T Y, Gap g r (X ++ [a]) T (b :: Y) := by
  rw [fmt_eq W hE] at h
  obtain ⟨X, T, Y, e, h1, h2, h3⟩ := pair_split W h
  refine ⟨X, T, Y, e, ?_, .inr ⟨X, a, rfl, by simpa using h1⟩, .inr ⟨b, Y, rfl, by simpa using h2⟩⟩
  intro t ht
  simpa using h3 t ht

omit W in
theorem gap_places {r : Red} {X T Y : List Red} (hg : Gap g r X T Y) :
    (∀ X' a, X = X' ++ [a] → a.stop = r.start + blen (flat (lv X))) ∧
    (∀ b Y', Y = b :: Y' → b.start = r.start + blen (flat (lv X)) + blen (flat (lv T))) := by
  constructor
  · exact (child_places hg.split).1
  · intro b Y' hY
    have h2 : r.childrenT = (X ++ T) ++ Y := by rw [hg.split, List.append_assoc]
    rw [(child_places h2).2 b Y' hY, lv_append, flat_app, blen_append, Nat.add_assoc]

theorem sep_made {r a b : Red} {level : Nat} {e : SEdit} (hr : InTree g r) (hE : r.kind ≠ K.Error)
    (hp : (a, b) ∈ (fmtChildren r).zip ((fmtChildren r).drop 1)) (h : sepEdit w r level a b = some e) : Made σ g r e := by
  obtain ⟨X, T, Y, hg⟩ := pair_gap W hE hp
  have hpl := gap_places hg
  have h1 : a.stop = _ := hpl.1 X a rfl
  have h2 : b.start = _ := hpl.2 b Y rfl
  unfold sepEdit at h
  split at h
  · cases h; exact .gap hr hg h1 h2 (linebreak_spaces W.indent _)
  · cases h; exact .gap hr hg h1 h2 blank_spaces
  · cases h
    refine .gap hr hg h1 h2 ?_
    show Spaces (if b.kind = K.Error then [' '] else [])
    split
    · exact blank_spaces
    · exact spaces_nil
  · cases h

theorem row_end {r : Red} (hn : r.isNode = true) : r.stop = r.start + blen (flat (lv r.childrenT)) := by
  rw [← children_leaves hn, blen_leaves]; rfl

omit W in
/-- The first element of a filtered list. -/
theorem head_split {α : Type} {q : α → Bool} : ∀ {l : List α} {b : α}, (l.filter q).head? = some b →
    ∃ T Y, l = T ++ b :: Y ∧ q b = true ∧ ∀ t ∈ T, q t = false := by
  intro l
  induction l with
  | nil => intro b h; cases h
  | cons y l ih =>
    intro b hb
    by_cases hy : q y = true
    · rw [List.filter_cons_of_pos hy] at hb
      cases hb
      exact ⟨[], l, rfl, hy, by simp⟩
    · rw [List.filter_cons_of_neg hy] at hb
      obtain ⟨T, Y, e, h1, h2⟩ := ih hb
      refine ⟨y :: T, Y, by rw [e]; rfl, h1, ?_⟩
      intro t ht
      rcases List.mem_cons.1 ht with rfl | ht
      · simpa using hy
      · exact h2 t ht

omit W in
theorem last_split {α : Type} {q : α → Bool} {l : List α} {b : α} (h : (l.filter q).getLast? = some b) :
    ∃ X T, l = (X ++ [b]) ++ T ∧ q b = true ∧ ∀ t ∈ T, q t = false := by
  have : ((l.reverse).filter q).head? = some b := by rw [List.filter_reverse, List.head?_reverse]; exact h
  obtain ⟨T, Y, e, h1, h2⟩ := head_split this
  refine ⟨Y.reverse, T.reverse, ?_, h1, fun t ht => h2 t (List.mem_reverse.1 ht)⟩
  have := congrArg List.reverse e
  rw [List.reverse_reverse] at this
  rw [this]; simp

/-- The gaps of the root. -/
theorem unit_gaps {r : Red} (hroot : r = Red.root g) (hE : r.kind ≠ K.Error) :
    (∀ first last, (fmtChildren r).head? = some first → (fmtChildren r).getLast? = some last →
      (∃ T Y, Gap g r [] T (first :: Y)) ∧ (∃ X T, Gap g r (X ++ [last]) T [])) ∧
    (fmtChildren r = [] → Gap g r [] r.childrenT []) := by
  rw [fmt_eq W hE]
  constructor
  · intro first last h1 h2
    obtain ⟨T, Y, e1, e2, e3⟩ := head_split h1
    obtain ⟨X, T', e4, e5, e6⟩ := last_split h2
    refine ⟨⟨T, Y, e1, fun t ht => by simpa using e3 t ht, .inl ⟨rfl, hroot⟩, .inr ⟨first, Y, rfl, by simpa using e2⟩⟩,
      ⟨X, T', by rw [List.append_nil]; exact e4, fun t ht => by simpa using e6 t ht, .inr ⟨X, last, rfl, by simpa using e5⟩, .inl ⟨rfl, hroot⟩⟩⟩
  · intro h
    refine ⟨by simp, ?_, .inl ⟨rfl, hroot⟩, .inl ⟨rfl, hroot⟩⟩
    intro t ht
    have := List.filter_eq_nil_iff.1 h t ht
    simpa using this

omit W in
theorem unitEdits_cases (r : Red) (cs : List Red) :
    (∃ first last, cs.head? = some first ∧ cs.getLast? = some last ∧ unitEdits r cs = [⟨0, first.start, []⟩, ⟨last.stop, r.stop, []⟩]) ∨
    (cs = [] ∧ unitEdits r cs = [⟨0, r.stop, []⟩]) := by
  cases cs with
  | nil => exact .inr ⟨rfl, rfl⟩
  | cons c cs =>
    left
    have hl : (c :: cs).getLast? = some ((c :: cs).getLast (by simp)) := List.getLast?_eq_some_getLast _
    refine ⟨c, _, rfl, hl, ?_⟩
    unfold unitEdits
    rw [hl]
    rfl

theorem unit_made {r : Red} (hroot : r = Red.root g) (hE : r.kind ≠ K.Error) : ∀ e ∈ unitEdits r (fmtChildren r), Made σ g r e := by
  have hr : InTree g r := by rw [hroot]; exact .root
  have hn : r.isNode = true := by rw [hroot]; exact root_isNode W.parsed
  have hs0 : r.start = 0 := by rw [hroot]; rfl
  obtain ⟨hU1, hU2⟩ := unit_gaps W hroot hE
  have hend := row_end W hn
  intro e he
  rcases unitEdits_cases r (fmtChildren r) with ⟨first, last, h1, h2, hu⟩ | ⟨h1, hu⟩
  · rw [hu] at he
    obtain ⟨⟨T, Y, hg⟩, ⟨X, T', hg'⟩⟩ := hU1 first last h1 h2
    simp only [List.mem_cons, List.not_mem_nil, or_false] at he
    rcases he with rfl | rfl
    · exact .gap hr hg (by rw [hs0]; rfl) ((gap_places hg).2 first Y rfl) spaces_nil
    · refine .gap hr hg' ((gap_places hg').1 X last rfl) ?_ spaces_nil
      show r.stop = _
      rw [hend, hg'.split, List.append_nil, lv_append, flat_app, blen_append, Nat.add_assoc]
  · rw [hu] at he
    simp only [List.mem_cons, List.not_mem_nil, or_false] at he
    subst he
    refine .gap hr (hU2 h1) (by rw [hs0]; rfl) ?_ spaces_nil
    show r.stop = _
    rw [hend]; rfl

/-! ## All arms -/

omit W in
theorem block_spaces {w : Walker} (hi : Spaces w.indent) (r : Red) (n : Nat) : Spaces (blockBreak w r n) := by
  unfold blockBreak
  split
  · exact linebreak_spaces hi _
  · split
    · exact linebreak_spaces hi _
    · split
      · exact blank_spaces
      · exact linebreak_spaces hi _

/-- The kinds with a rule for the text in front of them or behind them. -/
def edgeKinds : List Kind := [K.ConstructTriples, K.SolutionModifier, K.DatasetClause, K.TriplesTemplate, K.UNION, K.TriplesBlock,
  K.GraphPatternNotTriples, K.SubSelect, K.GroupGraphPatternSub, K.Filter, K.QuadsNotTriples, K.UpdateOne,
  K.PropertyListPathNotEmpty, K.PropertyListNotEmpty, K.WhereClause, K.Prologue]

omit W in
theorem ite_some {c : Prop} [Decidable c] {A B : Option Text} {t : Text} (h : (if c then A else B) = some t) :
    (c ∧ A = some t) ∨ (¬ c ∧ B = some t) := by
  by_cases hc : c
  · rw [if_pos hc] at h; exact .inl ⟨hc, h⟩
  · rw [if_neg hc] at h; exact .inr ⟨hc, h⟩

omit W in
theorem opt_some {c : Prop} [Decidable c] {a t : Text} (ha : Spaces a) (h : (if c then some a else none) = some t) : Spaces t := by
  split at h
  · cases h; exact ha
  · cases h

omit W in
theorem opt_two {c : Prop} [Decidable c] {a b t : Text} (ha : Spaces a) (hb : Spaces b) (h : (if c then some a else some b) = some t) : Spaces t := by
  split at h
  · cases h; exact ha
  · cases h; exact hb

omit W in
theorem pre_text {w : Walker} (hi : Spaces w.indent) {r : Red} {n : Nat} {t : Text} (h : preText w r n = some t) :
    Spaces t ∧ r.kind ∈ edgeKinds := by
  have hl := linebreak_spaces hi n
  unfold preText at h
  by_cases h1 : r.kind ∈ [K.ConstructTriples, K.SolutionModifier, K.DatasetClause, K.TriplesTemplate, K.UNION]
  · rw [if_pos h1] at h
    cases h
    refine ⟨hl, ?_⟩
    have : ∀ k ∈ [K.ConstructTriples, K.SolutionModifier, K.DatasetClause, K.TriplesTemplate, K.UNION], k ∈ edgeKinds := by decide
    exact this _ h1
  rw [if_neg h1] at h
  by_cases h2 : r.kind = K.TriplesBlock
  · rw [if_pos h2] at h; exact ⟨opt_some hl h, by rw [h2]; decide⟩
  rw [if_neg h2] at h
  by_cases h3 : r.kind = K.GraphPatternNotTriples
  · rw [if_pos h3] at h
    refine ⟨?_, by rw [h3]; decide⟩
    split at h
    · exact opt_some hl h
    · cases h
  rw [if_neg h3] at h
  by_cases h4 : r.kind = K.SubSelect ∨ r.kind = K.GroupGraphPatternSub
  · rw [if_pos h4] at h; cases h
    exact ⟨block_spaces hi _ _, by rcases h4 with h4 | h4 <;> rw [h4] <;> decide⟩
  rw [if_neg h4] at h
  by_cases h5 : r.kind = K.Filter
  · rw [if_pos h5] at h
    refine ⟨?_, by rw [h5]; decide⟩
    unfold filterText at h
    split at h
    · cases h
    · exact opt_two blank_spaces hl h
  rw [if_neg h5] at h
  by_cases h6 : r.kind = K.QuadsNotTriples ∨ r.kind = K.UpdateOne
  · rw [if_pos h6] at h
    refine ⟨?_, by rcases h6 with h6 | h6 <;> rw [h6] <;> decide⟩
    split at h
    · cases h
    · exact opt_some hl h
  rw [if_neg h6] at h
  by_cases h7 : r.kind = K.PropertyListPathNotEmpty ∨ r.kind = K.PropertyListNotEmpty
  · rw [if_pos h7] at h
    refine ⟨?_, by rcases h7 with h7 | h7 <;> rw [h7] <;> decide⟩
    split at h
    · exact opt_two hl blank_spaces h
    · cases h
  rw [if_neg h7] at h
  by_cases h8 : r.kind = K.WhereClause
  · rw [if_pos h8] at h
    exact ⟨opt_two hl blank_spaces h, by rw [h8]; decide⟩
  rw [if_neg h8] at h
  cases h

omit W in
theorem post_text {w : Walker} (hi : Spaces w.indent) {r : Red} {n : Nat} {t : Text} (h : postText w r n = some t) :
    Spaces t ∧ r.kind ∈ edgeKinds := by
  unfold postText at h
  by_cases h0 : r.kind ∈ [K.Prologue, K.PropertyListPathNotEmpty, K.PropertyListNotEmpty, K.ConstructTriples, K.GroupGraphPatternSub,
      K.SubSelect] ∧ errorFollows w r = true
  · rw [if_pos h0] at h; cases h
  rw [if_neg h0] at h
  by_cases h1 : r.kind = K.UNION
  · rw [if_pos h1] at h; cases h; exact ⟨blank_spaces, by rw [h1]; decide⟩
  rw [if_neg h1] at h
  by_cases h2 : r.kind = K.Prologue ∧ prologueBreak w r = true
  · rw [if_pos h2] at h; cases h; exact ⟨linebreak_spaces hi _, by rw [h2.1]; decide⟩
  rw [if_neg h2] at h
  by_cases h3 : r.kind = K.PropertyListPathNotEmpty ∨ r.kind = K.PropertyListNotEmpty
  · rw [if_pos h3] at h
    refine ⟨?_, by rcases h3 with h3 | h3 <;> rw [h3] <;> decide⟩
    split at h
    · exact opt_two (linebreak_spaces hi _) blank_spaces h
    · cases h
  rw [if_neg h3] at h
  rcases ite_some h with ⟨h4, h⟩ | ⟨-, h⟩
  · cases h; exact ⟨linebreak_spaces hi _, by rw [h4.1]; decide⟩
  by_cases h5 : r.kind = K.GroupGraphPatternSub ∨ r.kind = K.SubSelect
  · rw [if_pos h5] at h; cases h
    exact ⟨block_spaces hi _ _, by rcases h5 with h5 | h5 <;> rw [h5] <;> decide⟩
  rw [if_neg h5] at h; cases h

theorem edge_solid {r : Red} (hr : InTree g r) (h : r.kind ∈ edgeKinds) : Solid g r := by
  have key : ∀ k ∈ edgeKinds, triviaKind k = false ∧ k ≠ K.QueryUnit ∧ k ≠ K.UpdateUnit := by decide
  obtain ⟨h1, h2, h3⟩ := key _ h
  refine ⟨hr, ?_, h1⟩
  rintro rfl
  rcases W.parsed.root with h4 | h4
  · exact h2 h4
  · exact h3 h4

theorem pre_made {r : Red} {n : Nat} (hr : InTree g r) : ∀ e ∈ (preNode w r n).toList, Made σ g r e := by
  intro e he
  unfold preNode at he
  rw [Option.mem_toList, Option.map_eq_some_iff] at he
  obtain ⟨t, ht, rfl⟩ := he
  obtain ⟨h1, h2⟩ := pre_text W.indent ht
  exact .before (edge_solid W hr h2) h1

theorem post_made {r : Red} {n : Nat} (hr : InTree g r) : ∀ e ∈ (postNode w r n).toList, Made σ g r e := by
  intro e he
  unfold postNode at he
  rw [Option.mem_toList, Option.map_eq_some_iff] at he
  obtain ⟨t, ht, rfl⟩ := he
  obtain ⟨h1, h2⟩ := post_text W.indent ht
  exact .behind (edge_solid W hr h2) h1

/-- The root is the only element with its kind. -/
theorem unit_root {r : Red} (hr : InTree g r) (hk : r.kind = K.QueryUnit ∨ r.kind = K.UpdateUnit) : r = Red.root g := by
  have P := W.parsed
  have hE : r.kind ≠ K.Error := by rcases hk with h | h <;> rw [h] <;> decide
  have hn : r.isNode = true := by
    cases hn : r.isNode with
    | true => rfl
    | false =>
      exfalso
      obtain ⟨x, hx, h1, -⟩ := token_rule P hr hn hE
      have key : lexRules.all (fun x => x.kind != K.QueryUnit && x.kind != K.UpdateUnit) = true := by decide +kernel
      have := List.all_eq_true.1 key x hx
      simp only [Bool.and_eq_true, bne_iff_ne] at this
      have h1 : x.kind = r.kind := h1
      rcases hk with h | h
      · exact this.1 (h1.trans h)
      · exact this.2 (h1.trans h)
  by_contra hne
  obtain ⟨p, -, -, -, h4⟩ := P.parent_kind hr hn hE hne [] (by rcases hk with h | h <;> rw [h] <;> decide +kernel)
  cases h4

omit W in
theorem ite_made {c : Prop} [Decidable c] {A B : List SEdit} {Q : SEdit → Prop} (hA : c → ∀ e ∈ A, Q e) (hB : ¬ c → ∀ e ∈ B, Q e) :
    ∀ e ∈ (if c then A else B), Q e := by
  by_cases h : c
  · rw [if_pos h]; exact hA h
  · rw [if_neg h]; exact hB h

theorem in_made {r : Red} {n : Nat} (hr : InTree g r) (hE : r.kind ≠ K.Error) : ∀ e ∈ inNode w r (fmtChildren r) n, Made σ g r e := by
  have hs : ∀ c ∈ fmtChildren r, Solid g c := fun c hc => fmt_solid W hr hE hc
  unfold inNode
  refine ite_made (fun hk => ?_) (fun _ => ?_)
  · exact unit_made W (unit_root W hr hk) hE
  refine ite_made (fun hk => ?_) (fun _ => ?_)
  · exact align_made W hs
  refine ite_made (fun hk => ?_) (fun _ => ?_)
  · intro e he
    obtain ⟨⟨⟨a, b⟩, i⟩, hp, h⟩ := List.mem_filterMap.1 he
    have hab : (a, b) ∈ (fmtChildren r).zip ((fmtChildren r).drop 1) := by
      obtain ⟨-, -, h3⟩ := List.mem_zipIdx hp
      rw [h3]; exact List.getElem_mem _
    exact select_made W (hs b (pair_mem hab).2) h
  refine ite_made (fun hk => ?_) (fun _ => ?_)
  · intro e he
    obtain ⟨⟨a, b⟩, hp, h⟩ := List.mem_filterMap.1 he
    exact group_made (hs b (pair_mem hp).2) h
  refine ite_made (fun hk => ?_) (fun _ => ?_)
  · intro e he
    obtain ⟨c, hc, h⟩ := List.mem_filterMap.1 he
    exact construct_made (hs c hc) h
  refine ite_made (fun hk => ?_) (fun _ => ?_)
  · exact before_kinds hs blank_spaces
  refine ite_made (fun hk => ?_) (fun _ => ?_)
  · exact blankNode_made W hs
  refine ite_made (fun hk => ?_) (fun _ => ?_)
  · exact triple_made W hs
  refine ite_made (fun hk => ?_) (fun _ => ?_)
  · exact before_kinds hs blank_spaces
  refine ite_made (fun hk => ?_) (fun _ => ?_)
  · intro e he
    obtain ⟨c, hc, h⟩ := List.mem_filterMap.1 he
    split at h
    · next hk => cases h; exact .comma hr (fmt_mem hc) hk
    · cases h
  refine ite_made (fun hk => ?_) (fun _ => ?_)
  · exact before_kinds hs blank_spaces
  refine ite_made (fun hk => ?_) (fun _ => ?_)
  · intro e he
    obtain ⟨c, hc, h⟩ := List.mem_flatMap.1 he
    exact modify_made W (hs c hc) e h
  refine ite_made (fun hk => ?_) (fun _ => ?_)
  · exact after_kinds hs blank_spaces
  refine ite_made (fun hk => ?_) (fun _ => ?_)
  · exact before_kinds hs blank_spaces
  refine ite_made (fun hk => ?_) (fun _ => ?_)
  · intro e he; simp at he; rw [he]; exact anon_made W hr hk
  refine ite_made (fun hk => ?_) (fun _ => ?_)
  · intro e he
    obtain ⟨c, hc, h⟩ := List.mem_flatMap.1 he
    exact bind_made (hs c hc) e h
  refine ite_made (fun hk => ?_) (fun _ => ?_)
  · intro e he; simp at he; rw [he]
    have hmem : r.kind ∈ signed := hk.1
    have hσ : σ = true := by
      rcases W.signs with h | h
      · exact h
      · have := h r hr hk.1; rw [hk.2] at this; cases this
    exact .sign hσ hr (is_token W.parsed hr hmem (by decide +kernel)) hmem blank_spaces
  refine ite_made (fun hk => ?_) (fun _ => ?_)
  · exact delete_made W hr hk
  refine ite_made (fun hk => ?_) (fun _ => ?_)
  · exact before_kinds hs (spaces_nl spaces_nil)
  refine ite_made (fun hk => ?_) (fun _ => ?_)
  · intro e he
    obtain ⟨c, hc, h⟩ := List.mem_filterMap.1 he
    exact quads_made W (hs c hc) h
  have tok : ∀ k ∈ tokenArms, r.kind = k → HasRule r.kt := by
    intro k hk h
    have hmem : r.kind ∈ tokenArms := by rw [h]; exact hk
    exact token_rule W.parsed hr (is_token W.parsed hr hmem (by decide +kernel)) hE
  refine ite_made (fun hk => ?_) (fun _ => ?_)
  · exact two_made W hr (x := ['d', 'e', 'l', 'e', 't', 'e']) (y := ['w', 'h', 'e', 'r', 'e']) (by rw [hk]; decide) (by rw [hk]; decide) rfl rfl
      (deleteWhere_text (tok _ (by decide) hk) hk) (by decide) (by decide) ⟨_, _, rfl, by decide⟩ ⟨_, _, rfl, by decide⟩
  refine ite_made (fun hk => ?_) (fun _ => ?_)
  · exact two_made W hr (x := ['d', 'e', 'l', 'e', 't', 'e']) (y := ['d', 'a', 't', 'a']) (by rw [hk]; decide) (by rw [hk]; decide) rfl rfl
      (deleteData_text (tok _ (by decide) hk) hk) (by decide) (by decide) ⟨_, _, rfl, by decide⟩ ⟨_, _, rfl, by decide⟩
  refine ite_made (fun hk => ?_) (fun _ => ?_)
  · exact two_made W hr (x := ['i', 'n', 's', 'e', 'r', 't']) (y := ['d', 'a', 't', 'a']) (by rw [hk]; decide) (by rw [hk]; decide) rfl rfl
      (insertData_text (tok _ (by decide) hk) hk) (by decide) (by decide) ⟨_, _, rfl, by decide⟩ ⟨_, _, rfl, by decide⟩
  refine ite_made (fun hk => ?_) (fun _ => ?_)
  · intro e he; simp at he; rw [he]; exact a_made W hr hk
  · simp

/-- No edits inside of error nodes. -/
theorem error_edits {r : Red} (hE : r.kind = K.Error) : elemEdits w r = [] := by
  unfold elemEdits nodeAug
  have h1 : ∀ cs n, inNode w r cs n = [] := by
    intro cs n
    unfold inNode
    rw [hE]
    rfl
  have h2 : ∀ n, preText w r n = none := by
    intro n
    cases h : preText w r n with
    | none => rfl
    | some t => have := (pre_text W.indent h).2; rw [hE] at this; exact absurd this (by decide)
  have h3 : ∀ n, postText w r n = none := by
    intro n
    cases h : postText w r n with
    | none => rfl
    | some t => have := (post_text W.indent h).2; rw [hE] at this; exact absurd this (by decide)
  have h4 : keywordEdits w r = [] := by
    unfold keywordEdits
    rw [hE, if_neg (by decide), if_neg (fun h => absurd h.1 (by decide))]
  have h5 : separator r.kind = .unknown := by rw [hE]; decide
  unfold preNode postNode
  rw [h1, h2, h3, h4]
  simp only [Option.map_none, Option.toList_none, List.append_nil, List.nil_append]
  rw [List.filterMap_eq_nil_iff]
  intro p _
  unfold sepEdit
  rw [h5]

theorem elem_made {r : Red} (hr : InTree g r) : ∀ e ∈ elemEdits w r, Made σ g r e := by
  intro e he
  by_cases hE : r.kind = K.Error
  · rw [error_edits W hE] at he; cases he
  · unfold elemEdits nodeAug at he
    simp only [List.mem_append] at he
    rcases he with ((((he | he) | he) | he) | he)
    · exact in_made W hr hE e he
    · exact pre_made W hr e he
    · exact post_made W hr e he
    · exact keyword_made W hr e he
    · obtain ⟨⟨a, b⟩, hp, h⟩ := List.mem_filterMap.1 he
      exact sep_made W hr hE hp h

end
end Verif.Format
