import Verif.Format.Owner
/-!
# No two edits of the walk replace text from the same place on
-/
namespace Verif.Format
open Verif Verif.Grammar Verif.Lexer Verif.Features Verif.Props

/-- Edits that are not insertions start at different places. -/
def Distinct (a b : SEdit) : Prop := a.start < a.stop → b.start < b.stop → a.start ≠ b.start

theorem pairwise_ins {l : List SEdit} (h : ∀ e ∈ l, e.start = e.stop) : l.Pairwise Distinct := by
  induction l with
  | nil => exact .nil
  | cons e l ih =>
    refine .cons ?_ (ih (fun x hx => h x (List.mem_cons_of_mem _ hx)))
    intro b _ h1
    have := h e List.mem_cons_self
    omega

/-- The kinds with edits that are not insertions, apart from keywords and separators. -/
def liveKinds : List Kind := [K.QueryUnit, K.UpdateUnit, K.ExpressionList, K.ObjectList, K.ObjectListPath] ++ tokenArms

theorem before_ins (ks : List Kind) (t : Text) (cs : List Red) : ∀ e ∈ beforeKinds ks t cs, e.start = e.stop := by
  intro e he
  obtain ⟨c, -, h⟩ := List.mem_filterMap.1 he
  split at h
  · cases h; rfl
  · cases h

theorem after_ins (ks : List Kind) (t : Text) (cs : List Red) : ∀ e ∈ afterKinds ks t cs, e.start = e.stop := by
  intro e he
  obtain ⟨c, -, h⟩ := List.mem_filterMap.1 he
  split at h
  · cases h; rfl
  · cases h

theorem breaks_ins (t : Text) (list : Red) : ∀ e ∈ predicateBreaks t list, e.start = e.stop := by
  intro e he
  obtain ⟨c, -, rfl⟩ := List.mem_map.1 he
  rfl

theorem in_live {w : Walker} {r : Red} {cs : List Red} {n : Nat} :
    ∀ e ∈ inNode w r cs n, e.start = e.stop ∨ r.kind ∈ liveKinds := by
  unfold inNode
  refine ite_made (fun hk => ?_) (fun _ => ?_)
  · intro e _; right; rcases hk with h | h <;> rw [h] <;> decide
  refine ite_made (fun hk => ?_) (fun _ => ?_)
  · intro e he
    obtain ⟨x, -, rfl⟩ := List.mem_map.1 he
    exact .inl rfl
  refine ite_made (fun hk => ?_) (fun _ => ?_)
  · intro e he
    obtain ⟨⟨⟨a, b⟩, i⟩, -, h⟩ := List.mem_filterMap.1 he
    left
    dsimp only at h
    unfold selectEdit at h
    split at h
    · cases h
    · split at h
      · cases h
      · split at h
        · cases h; rfl
        · split at h <;> cases h <;> rfl
  refine ite_made (fun hk => ?_) (fun _ => ?_)
  · intro e he
    obtain ⟨⟨a, b⟩, -, h⟩ := List.mem_filterMap.1 he
    left
    dsimp only at h
    unfold groupEdit at h
    split at h
    · cases h
    · split at h <;> cases h; rfl
  refine ite_made (fun hk => ?_) (fun _ => ?_)
  · intro e he
    obtain ⟨c, -, h⟩ := List.mem_filterMap.1 he
    left
    unfold constructEdit at h
    split at h
    · cases h; rfl
    · split at h
      · cases h; rfl
      · split at h <;> cases h; rfl
  refine ite_made (fun hk => ?_) (fun _ => ?_)
  · exact fun e he => .inl (before_ins _ _ _ e he)
  refine ite_made (fun hk => ?_) (fun _ => ?_)
  · intro e he
    left
    unfold blankNodeEdits at he
    split at he
    · cases he
    · split at he
      · exact breaks_ins _ _ e he
      · cases he
  refine ite_made (fun hk => ?_) (fun _ => ?_)
  · intro e he
    left
    unfold tripleEdits at he
    split at he
    · split at he
      · exact breaks_ins _ _ e he
      · cases he
    · cases he
  refine ite_made (fun hk => ?_) (fun _ => ?_)
  · exact fun e he => .inl (before_ins _ _ _ e he)
  refine ite_made (fun hk => ?_) (fun _ => ?_)
  · intro e _; right; rcases hk with h | h | h <;> rw [h] <;> decide
  refine ite_made (fun hk => ?_) (fun _ => ?_)
  · exact fun e he => .inl (before_ins _ _ _ e he)
  refine ite_made (fun hk => ?_) (fun _ => ?_)
  · intro e he
    left
    obtain ⟨c, -, h⟩ := List.mem_flatMap.1 he
    unfold modifyEdits at h
    split at h
    · simp at h; rw [h]; rfl
    · split at h
      · simp at h; rw [h]; rfl
      · split at h
        · simp only [List.mem_cons, List.not_mem_nil, or_false] at h
          rcases h with rfl | rfl <;> rfl
        · cases h
  refine ite_made (fun hk => ?_) (fun _ => ?_)
  · exact fun e he => .inl (after_ins _ _ _ e he)
  refine ite_made (fun hk => ?_) (fun _ => ?_)
  · exact fun e he => .inl (before_ins _ _ _ e he)
  refine ite_made (fun hk => ?_) (fun _ => ?_)
  · intro e _; right; rw [hk]; decide
  refine ite_made (fun hk => ?_) (fun _ => ?_)
  · intro e he
    left
    obtain ⟨c, -, h⟩ := List.mem_flatMap.1 he
    unfold bindEdits at h
    split at h
    · simp at h; rw [h]; rfl
    · split at h
      · simp only [List.mem_cons, List.not_mem_nil, or_false] at h
        rcases h with rfl | rfl <;> rfl
      · cases h
  refine ite_made (fun hk => ?_) (fun _ => ?_)
  · intro e he; left; simp at he; rw [he]; rfl
  refine ite_made (fun hk => ?_) (fun _ => ?_)
  · intro e _; right; rw [hk]; decide
  refine ite_made (fun hk => ?_) (fun _ => ?_)
  · exact fun e he => .inl (before_ins _ _ _ e he)
  refine ite_made (fun hk => ?_) (fun _ => ?_)
  · intro e he
    left
    obtain ⟨c, -, h⟩ := List.mem_filterMap.1 he
    unfold quadsEdit at h
    split at h
    · cases h; rfl
    · split at h
      · cases h; rfl
      · split at h <;> cases h; rfl
  refine ite_made (fun hk => ?_) (fun _ => ?_)
  · intro e _; right; rw [hk]; decide
  refine ite_made (fun hk => ?_) (fun _ => ?_)
  · intro e _; right; rw [hk]; decide
  refine ite_made (fun hk => ?_) (fun _ => ?_)
  · intro e _; right; rw [hk]; decide
  refine ite_made (fun hk => ?_) (fun _ => ?_)
  · intro e _; right; rw [hk]; decide
  · simp

/-! ## The arms with such edits -/

section
variable {w : Walker} {r : Red} {cs : List Red} {n : Nat}

theorem in_unit (h : r.kind = K.QueryUnit ∨ r.kind = K.UpdateUnit) : inNode w r cs n = unitEdits r cs := by
  unfold inNode; rw [if_pos h]
theorem in_comma (h : r.kind ∈ [K.ExpressionList, K.ObjectList, K.ObjectListPath]) : inNode w r cs n =
    cs.filterMap (fun c => if c.kind = K.Comma then some (replace c [',', ' ']) else none) := by
  simp only [List.mem_cons, List.not_mem_nil, or_false] at h
  unfold inNode
  rcases h with h | h | h <;> rw [h] <;> rfl
theorem in_anon (h : r.kind = K.ANON) : inNode w r cs n = [replace r ['[', ']']] := by unfold inNode; rw [h]; rfl
theorem in_delete (h : r.kind = K.DELETE) : inNode w r cs n = deleteEdits w r := by unfold inNode; rw [h]; rfl
theorem in_a (h : r.kind = K.a) : inNode w r cs n = [replace r ['a']] := by unfold inNode; rw [h]; rfl
theorem in_two {m : Nat} (h : secondWord r.kind = some m) : ∃ f s, inNode w r cs n = twoWords w r m f s := by
  rcases secondWord_cases h with ⟨hk, rfl⟩ | ⟨hk, rfl⟩ | ⟨hk, rfl⟩
  · exact ⟨['D', 'E', 'L', 'E', 'T', 'E'], ['W', 'H', 'E', 'R', 'E'], by unfold inNode; rw [hk]; rfl⟩
  · exact ⟨['D', 'E', 'L', 'E', 'T', 'E'], ['D', 'A', 'T', 'A'], by unfold inNode; rw [hk]; rfl⟩
  · exact ⟨['I', 'N', 'S', 'E', 'R', 'T'], ['D', 'A', 'T', 'A'], by unfold inNode; rw [hk]; rfl⟩
end

theorem zip_fst_sublist {α β : Type} : ∀ (l : List α) (m : List β), ((l.zip m).map Prod.fst).Sublist l := by
  intro l
  induction l with
  | nil => intro m; simp
  | cons x l ih =>
    intro m
    cases m with
    | nil => simp
    | cons y m => rw [List.zip_cons_cons, List.map_cons]; exact (ih m).cons_cons x

section
variable {σ : Bool} {w : Walker} {text : Text} {g : Green} (W : Walks σ w text g)
include W

theorem children_asc {r : Red} (hr : InTree g r) : (fmtChildren r).Pairwise (fun a b => a.start < a.stop ∧ a.stop ≤ b.start ∧ a.stop < b.stop) := by
  have h := (childrenT_pairwise r).sublist (List.filter_sublist (p := fun c => decide (c.kind ≠ K.WHITESPACE) && (decide (c.kind ≠ K.Comment) || decide (r.kind = K.Error))))
  refine List.Pairwise.imp_of_mem ?_ h
  intro a b ha hb hab
  have h1 := child_pos W.parsed hr (fmt_mem ha)
  have h2 := child_pos W.parsed hr (fmt_mem hb)
  omega

omit W in
theorem token_children {r : Red} (hn : r.isNode = false) : r.childrenT = [] := by
  cases hc : r.childrenT with
  | nil => rfl
  | cons c cs => have := child_isNode (r := r) (c := c) (by rw [hc]; simp); rw [hn] at this; cases this

theorem two_blen {r : Red} (hr : InTree g r) (hn : r.isNode = false) {m : Nat} (h : secondWord r.kind = some m) : r.start + 6 + m < r.stop := by
  have hE : r.kind ≠ K.Error := by
    intro hE; rw [hE] at h; exact absurd h (by rw [show secondWord K.Error = none from by decide]; simp)
  obtain ⟨x, y, hx, hy, ht⟩ := second_text (token_rule W.parsed hr hn hE) h
  obtain ⟨a, q, b, e1, e2, -, -, -, -, -, e8, e9⟩ := pieces_two (σ := σ) h hx hy ht
  have e1 : r.text = a ++ (q ++ b) := e1
  have := blen_pos e2
  show r.start + 6 + m < r.start + blen r.text
  rw [e1, blen_append, blen_append]
  omega

theorem in_distinct {r : Red} {n : Nat} (hr : InTree g r) : (inNode w r (fmtChildren r) n).Pairwise Distinct := by
  by_cases hk : r.kind ∈ liveKinds
  · have hcase : (r.kind = K.QueryUnit ∨ r.kind = K.UpdateUnit) ∨ r.kind ∈ [K.ExpressionList, K.ObjectList, K.ObjectListPath] ∨ r.kind = K.ANON ∨
        r.kind = K.DELETE ∨ r.kind = K.a ∨ ∃ m, secondWord r.kind = some m := by
      have key : ∀ k ∈ liveKinds, (k = K.QueryUnit ∨ k = K.UpdateUnit) ∨ k ∈ [K.ExpressionList, K.ObjectList, K.ObjectListPath] ∨ k = K.ANON ∨
        k = K.DELETE ∨ k = K.a ∨ (secondWord k).isSome = true := by decide
      rcases key _ hk with h | h | h | h | h | h
      · exact .inl h
      · exact .inr (.inl h)
      · exact .inr (.inr (.inl h))
      · exact .inr (.inr (.inr (.inl h)))
      · exact .inr (.inr (.inr (.inr (.inl h))))
      · exact .inr (.inr (.inr (.inr (.inr (Option.isSome_iff_exists.1 h)))))
    rcases hcase with h | h | h | h | h | ⟨m, h⟩
    · rw [in_unit h]
      rcases unitEdits_cases r (fmtChildren r) with ⟨first, last, h1, h2, hu⟩ | ⟨h1, hu⟩
      · rw [hu, List.pairwise_cons]
        refine ⟨?_, List.pairwise_singleton _ _⟩
        intro b hb
        rw [List.mem_singleton] at hb
        subst hb
        intro _ _
        have := child_pos W.parsed hr (fmt_mem (List.mem_of_getLast? h2))
        show 0 ≠ last.stop
        omega
      · rw [hu]; exact List.pairwise_singleton _ _
    · rw [in_comma h]
      refine List.Pairwise.filterMap _ ?_ (children_asc W hr)
      intro a b hab x hx y hy
      split at hx
      · cases hx
        split at hy
        · cases hy
          intro _ _
          show a.start ≠ b.start
          omega
        · cases hy
      · cases hx
    · rw [in_anon h]; exact List.pairwise_singleton _ _
    · rw [in_delete h]
      unfold deleteEdits
      split
      · exact List.pairwise_singleton _ _
      · split
        · exact List.pairwise_singleton _ _
        · exact .nil
    · rw [in_a h]; exact List.pairwise_singleton _ _
    · obtain ⟨f, s, hin⟩ := in_two (w := w) (r := r) (cs := fmtChildren r) (n := n) h
      have hmem : r.kind ∈ tokenArms := by
        rcases secondWord_cases h with ⟨h, _⟩ | ⟨h, _⟩ | ⟨h, _⟩ <;> rw [h] <;> decide
      have hb := two_blen W hr (is_token W.parsed hr hmem (by decide +kernel)) h
      rw [hin]
      unfold twoWords
      refine List.pairwise_cons.2 ⟨?_, ?_⟩
      · intro b hb'
        split at hb'
        · simp only [List.mem_cons, List.not_mem_nil, or_false] at hb'
          rcases hb' with rfl | rfl
          · intro _ _; simp only; omega
          · intro _ _; simp only; omega
        · cases hb'
      · split
        · refine List.pairwise_cons.2 ⟨?_, List.pairwise_singleton _ _⟩
          intro b hb'
          rw [List.mem_singleton] at hb'
          subst hb'
          intro _ _
          simp only; omega
        · exact .nil
  · refine pairwise_ins ?_
    intro e he
    rcases in_live e he with h | h
    · exact h
    · exact absurd h hk

omit W in
theorem sep_start {r a b : Red} {n : Nat} {e : SEdit} (h : sepEdit w r n a b = some e) : e.start = a.stop ∧ e.stop = b.start := by
  unfold sepEdit at h
  split at h <;> cases h <;> exact ⟨rfl, rfl⟩

theorem sep_distinct {r : Red} {n : Nat} (hr : InTree g r) :
    (((fmtChildren r).zip ((fmtChildren r).drop 1)).filterMap (fun p => sepEdit w r n p.1 p.2)).Pairwise Distinct := by
  have h1 := (children_asc W hr).sublist (zip_fst_sublist (fmtChildren r) ((fmtChildren r).drop 1))
  rw [List.pairwise_map] at h1
  refine List.Pairwise.filterMap _ ?_ h1
  intro p q hpq x hx y hy _ _
  rw [(sep_start hx).1, (sep_start hy).1]
  omega

omit W in
theorem keyword_kind {r : Red} {e : SEdit} (h : e ∈ keywordEdits w r) : r.kind ∈ keywords := by
  unfold keywordEdits at h
  split at h
  · next hk => rw [hk]; decide
  · split at h
    · next hk => exact hk.1
    · cases h

omit W in
theorem keyword_one (r : Red) : (keywordEdits w r).Pairwise Distinct := by
  unfold keywordEdits
  split
  · exact List.pairwise_singleton _ _
  · split
    · exact List.pairwise_singleton _ _
    · exact .nil

/-- The anchor of an edit of an element. -/
theorem elem_anchor {r : Red} {e : SEdit} (hr : InTree g r) (he : e ∈ elemEdits w r) (hl : e.start < e.stop) : ∃ M, Anchor g r e M := by
  obtain ⟨i, j, -, h⟩ := made_fits W.parsed (elem_made W hr e he)
  exact ⟨_, h hl⟩

theorem edge_ins {r : Red} {n : Nat} {e : SEdit} (h : e ∈ (preNode w r n).toList ∨ e ∈ (postNode w r n).toList) : e.start = e.stop := by
  unfold preNode postNode at h
  rw [Option.mem_toList, Option.mem_toList, Option.map_eq_some_iff, Option.map_eq_some_iff] at h
  rcases h with ⟨t, -, rfl⟩ | ⟨t, -, rfl⟩ <;> rfl

theorem elem_distinct {r : Red} (hr : InTree g r) : (elemEdits w r).Pairwise Distinct := by
  have P := W.parsed
  have hkw : keywords.all (fun k => lexRules.any (fun x => x.kind == k)) = true := by decide +kernel
  have hnoSep : r.isNode = false → ((fmtChildren r).zip ((fmtChildren r).drop 1)).filterMap (fun p => sepEdit w r (levelOf r) p.1 p.2) = [] := by
    intro hn
    unfold fmtChildren
    rw [token_children hn]
    rfl
  unfold elemEdits nodeAug
  rw [List.pairwise_append]
  refine ⟨?_, sep_distinct W hr, ?_⟩
  · rw [List.pairwise_append]
    refine ⟨?_, keyword_one r, ?_⟩
    · rw [List.pairwise_append]
      refine ⟨?_, pairwise_ins (fun e he => edge_ins W (.inr he)), ?_⟩
      · rw [List.pairwise_append]
        refine ⟨in_distinct W hr, pairwise_ins (fun e he => edge_ins W (.inl he)), ?_⟩
        intro a _ b hb _ hlt
        have := edge_ins W (.inl hb)
        omega
      · intro a _ b hb _ hlt
        have := edge_ins W (.inr hb)
        omega
    · intro a ha b hb hla hlb
      have hk := keyword_kind hb
      simp only [List.mem_append] at ha
      rcases ha with (ha | ha) | ha
      · rcases in_live a ha with h | h
        · omega
        · have key : ∀ k ∈ keywords, k ∉ liveKinds := by decide +kernel
          exact absurd h (key _ hk)
      · have := edge_ins W (.inl ha); omega
      · have := edge_ins W (.inr ha); omega
  · intro a ha b hb hla hlb
    simp only [List.mem_append] at ha
    rcases ha with ((ha | ha) | ha) | ha
    · rcases in_live a ha with h | h
      · omega
      · -- only lists with commas have separators
        obtain ⟨⟨x, y⟩, hp, hsep⟩ := List.mem_filterMap.1 hb
        have key : ∀ k ∈ liveKinds, separator k = .unknown ∨ k ∈ tokenArms ∨ k ∈ [K.ExpressionList, K.ObjectList, K.ObjectListPath] := by decide
        rcases key _ h with h | h | h
        · unfold sepEdit at hsep
          rw [h] at hsep
          cases hsep
        · rw [hnoSep (is_token P hr h (by decide +kernel))] at hb
          cases hb
        · have hE : r.kind ≠ K.Error := by
            have : ∀ k ∈ [K.ExpressionList, K.ObjectList, K.ObjectListPath], k ≠ K.Error := by decide
            exact this _ h
          rw [in_comma h] at ha
          obtain ⟨c, hc, hca⟩ := List.mem_filterMap.1 ha
          split at hca
          · next hkc =>
            cases hca
            obtain ⟨X, T, Y, hg⟩ := pair_gap W hE hp
            have hs := sep_start hsep
            have h1 : x.stop = _ := (gap_places hg).1 X x rfl
            intro heq
            have heq : c.start = b.start := heq
            have hci : InTree g c := .child hr (fmt_mem hc)
            have hcn : c.isNode = false := is_token P hci (ks := [K.Comma]) (by rw [hkc]; simp) (by decide +kernel)
            have hT : ∃ t T', T = t :: T' := by
              cases hT : T with
              | nil =>
                have h2 : y.start = _ := (gap_places hg).2 y Y rfl
                rw [hT] at h2
                have : blen (flat (lv [])) = 0 := rfl
                simp only at hs
                omega
              | cons t T' => exact ⟨t, T', rfl⟩
            obtain ⟨t, T', rfl⟩ := hT
            have htm : t ∈ r.childrenT := by rw [hg.split]; simp
            have hti : InTree g t := .child hr htm
            have htr : triviaKind t.kind = true := hg.trivia t List.mem_cons_self
            have hts : t.start = r.start + blen (flat (lv (X ++ [x]))) := (child_places hg.split).2 t _ rfl
            have hcp := child_pos P hr (fmt_mem hc)
            have htp := child_pos P hr htm
            simp only at hs
            have : c = t := token_unique (p := c.start) hci hti hcn (trivia_token P hti htr) (Nat.le_refl _) hcp (by omega) (by omega)
            rw [← this, hkc] at htr
            exact absurd htr (by decide)
          · cases hca
    · have := edge_ins W (.inl ha); omega
    · have := edge_ins W (.inr ha); omega
    · rw [hnoSep (is_token P hr (keyword_kind ha) hkw)] at hb
      cases hb

/-- Edits of all elements. -/
theorem all_distinct : ((walked g).flatMap (elemEdits w)).Pairwise Distinct := by
  rw [List.pairwise_flatMap]
  refine ⟨fun r hr => elem_distinct W (mem_walked.1 hr), ?_⟩
  refine List.Pairwise.imp_of_mem ?_ (walked_nodup W.parsed)
  intro r r' hr hr' hne a ha b hb hla hlb heq
  obtain ⟨M, h1⟩ := elem_anchor W (mem_walked.1 hr) ha hla
  obtain ⟨M', h2⟩ := elem_anchor W (mem_walked.1 hr') hb hlb
  exact hne (owner_unique W.parsed h1 h2 heq)

end
end Verif.Format
