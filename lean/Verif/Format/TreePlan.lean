import Verif.Format.Distinct
import Verif.Format.Build
/-!
# The edits and comment markers of a document form a plan
-/
namespace Verif.Format
open Verif Verif.Grammar Verif.Lexer Verif.Features Verif.Props

/-- A comment stands where the formatter replaces the white space: between two parts of an element for which it knows a
separator, or at the very beginning or end of the document. -/
def ManagedAt (r c : Red) : Prop :=
  separator r.kind ≠ .unknown ∨ ((r.kind = K.QueryUnit ∨ r.kind = K.UpdateUnit) ∧
    ((∀ x ∈ elder c, triviaKind x.kind = true) ∨ (∀ x ∈ younger c, triviaKind x.kind = true)))

/-- All comments stand at such places. -/
def Managed (g : Green) : Prop :=
  ∀ r c, InTree g r → c ∈ r.childrenT → c.kind = K.Comment → ManagedAt r c

/-! ## Lists -/

theorem flatMap_one {α β : Type} {f : α → List β} {x : α} : ∀ {l : List α}, l.Nodup → x ∈ l → (∀ y ∈ l, y ≠ x → f y = []) →
    l.flatMap f = f x := by
  intro l
  induction l with
  | nil => intro _ h; cases h
  | cons y l ih =>
    intro hn hx hf
    rw [List.flatMap_cons]
    have hn' := List.nodup_cons.1 hn
    by_cases hy : y = x
    · subst hy
      have : l.flatMap f = [] := by
        rw [List.flatMap_eq_nil_iff]
        intro z hz
        exact hf z (List.mem_cons_of_mem _ hz) (by rintro rfl; exact hn'.1 hz)
      rw [this, List.append_nil]
    · have hx' : x ∈ l := by
        rcases List.mem_cons.1 hx with h | h
        · exact absurd h.symm hy
        · exact h
      rw [hf y List.mem_cons_self hy, List.nil_append]
      exact ih hn'.2 hx' (fun z hz => hf z (List.mem_cons_of_mem _ hz))

theorem filter_flatMap' {α β : Type} (p : β → Bool) (f : α → List β) (l : List α) :
    (l.flatMap f).filter p = l.flatMap (fun x => (f x).filter p) := by
  induction l with
  | nil => rfl
  | cons x l ih => rw [List.flatMap_cons, List.flatMap_cons, List.filter_append, ih]

/-- The comments of the markers at a position. -/
def markedAt (f : Red → Option SComment) (p : Nat) (l : List Red) : Pieces :=
  (((l.filter (fun c => c.kind == K.Comment)).filterMap f).filter (fun c => decide (c.pos = p))).map (fun c => (K.Comment, c.text))

theorem markedAt_append (f : Red → Option SComment) (p : Nat) (a b : List Red) :
    markedAt f p (a ++ b) = markedAt f p a ++ markedAt f p b := by
  unfold markedAt
  rw [List.filter_append, List.filterMap_append, List.filter_append, List.map_append]

theorem markedAt_all {f : Red → Option SComment} {p : Nat} : ∀ {l : List Red},
    (∀ c ∈ l, c.kind = K.Comment → ∃ m, f c = some m ∧ m.pos = p ∧ m.text = c.text) → markedAt f p l = comsOf (l.map Red.kt) := by
  intro l
  induction l with
  | nil => intro _; rfl
  | cons c l ih =>
    intro h
    have h2 := ih (fun x hx => h x (List.mem_cons_of_mem _ hx))
    have e : c :: l = [c] ++ l := rfl
    have e2 : comsOf ((c :: l).map Red.kt) = comsOf [c.kt] ++ comsOf (l.map Red.kt) := by
      rw [e, List.map_append]; unfold comsOf; rw [List.filter_append]; rfl
    rw [e2, e, markedAt_append, h2]
    congr 1
    by_cases hc : c.kind = K.Comment
    · obtain ⟨m, h3, h4, h5⟩ := h c List.mem_cons_self hc
      unfold markedAt comsOf
      rw [List.filter_cons_of_pos (by simpa using hc), List.filter_nil, List.filterMap_cons_some h3, List.filterMap_nil,
        List.filter_cons_of_pos (by simpa using h4), List.filter_nil, List.filter_cons_of_pos (by simpa [Red.kt] using hc), List.filter_nil]
      simp [Red.kt, hc, h5]
    · unfold markedAt comsOf
      rw [List.filter_cons_of_neg (by simpa using hc), List.filter_cons_of_neg (by simpa [Red.kt] using hc)]
      rfl

theorem markedAt_none {f : Red → Option SComment} {p : Nat} {l : List Red}
    (h : ∀ c ∈ l, c.kind = K.Comment → ∀ m, f c = some m → m.pos ≠ p) : markedAt f p l = [] := by
  unfold markedAt
  rw [List.map_eq_nil_iff, List.filter_eq_nil_iff]
  intro m hm
  obtain ⟨c, hc, hcm⟩ := List.mem_filterMap.1 hm
  obtain ⟨h1, h2⟩ := List.mem_filter.1 hc
  have := h c h1 (by simpa using h2) m hcm
  simpa using this

section
variable {σ : Bool} {w : Walker} {text : Text} {g : Green} (W : Walks σ w text g)
include W

/-! ## The positions of the markers -/

theorem gap_head {r c : Red} {X T Y : List Red} (hr : InTree g r) (hg : Gap g r X T Y) (hc : c ∈ T) :
    ∃ t ∈ T, t ∈ r.childrenT ∧ t.isNode = false ∧ t.start = r.start + blen (flat (lv X)) ∧ triviaKind t.kind = true := by
  cases hT : T with
  | nil => rw [hT] at hc; cases hc
  | cons t T' =>
    have htmem : t ∈ r.childrenT := by rw [hg.split, hT]; simp
    have httr : triviaKind t.kind = true := hg.trivia t (by rw [hT]; simp)
    exact ⟨t, List.mem_cons_self, htmem, trivia_token W.parsed (.child hr htmem) httr,
      (child_places hg.split).2 t (T' ++ Y) (by rw [hT]; rfl), httr⟩

theorem marker_pos {r c : Red} {X T Y : List Red} {l : Nat} (hr : InTree g r) (hg : Gap g r X T Y) (hc : c ∈ T) :
    ∃ m, commentMarker w l c = some m ∧ m.pos = r.start + blen (flat (lv X)) ∧ m.text = c.text := by
  obtain ⟨T1, T2, hT⟩ := List.append_of_mem hc
  have hsp : r.childrenT = (X ++ T1) ++ c :: (T2 ++ Y) := by rw [hg.split, hT]; simp
  have hel := (elder_eq hsp).1
  have hcm : c ∈ r.childrenT := by rw [hsp]; simp
  have hat : attachOf c = some (match X.reverse.find? (fun x => !triviaKind x.kind) with | some x => x | none => r) := by
    unfold attachOf
    rw [hel, find_trivia W.parsed X T1 (fun t ht => hg.trivia t (by rw [hT]; simp [ht])), child_parent hcm]
    cases X.reverse.find? (fun x => !triviaKind x.kind) <;> rfl
  unfold commentMarker
  rw [hat]
  refine ⟨_, rfl, ?_, rfl⟩
  dsimp only
  rcases hg.left with ⟨h1, h2⟩ | ⟨X', a, h1, h2⟩
  · rw [h1]
    show (if r.kind = K.QueryUnit ∨ r.kind = K.UpdateUnit then 0 else r.stop) = _
    have : r.kind = K.QueryUnit ∨ r.kind = K.UpdateUnit := by rw [h2]; exact W.parsed.root
    rw [if_pos this, h2]
    rfl
  · have hf : X.reverse.find? (fun x => !triviaKind x.kind) = some a := by
      rw [h1, List.reverse_append]
      show ([a] ++ X'.reverse).find? _ = _
      rw [List.singleton_append, List.find?_cons_of_pos (by rw [h2]; rfl)]
    rw [hf]
    show (if a.kind = K.QueryUnit ∨ a.kind = K.UpdateUnit then 0 else a.stop) = _
    have ham : a ∈ r.childrenT := by rw [hg.split, h1]; simp
    have hnot : ¬ (a.kind = K.QueryUnit ∨ a.kind = K.UpdateUnit) := fun h => child_ne_root ham (unit_root W (.child hr ham) h)
    rw [if_neg hnot]
    exact (child_places hg.split).1 X' a h1

/-- Every marker stands for a comment in a gap. -/
theorem marker_gap {r : Red} {m : SComment} (hr : InTree g r) (hm : m ∈ elemComments w r) :
    r.kind ≠ K.Error ∧ ∃ c X T Y, c ∈ r.childrenT ∧ c.kind = K.Comment ∧ Gap g r X T Y ∧ c ∈ T ∧ m.pos = r.start + blen (flat (lv X)) := by
  unfold elemComments at hm
  split at hm
  · cases hm
  · next hE =>
    obtain ⟨c, hc, hcm⟩ := List.mem_filterMap.1 hm
    obtain ⟨h1, h2⟩ := List.mem_filter.1 hc
    have h2 : c.kind = K.Comment := by simpa using h2
    obtain ⟨X, T, Y, hg, hT⟩ := gap_of W.parsed hr h1 (by rw [h2]; decide)
    obtain ⟨m', h3, h4, -⟩ := marker_pos W (l := levelOf r + incIndent r) hr hg hT
    rw [hcm] at h3
    cases h3
    exact ⟨hE, c, X, T, Y, h1, h2, hg, hT, h4⟩

theorem marker_token {r : Red} {m : SComment} (hr : InTree g r) (hm : m ∈ elemComments w r) :
    ∃ t ∈ r.childrenT, InTree g t ∧ t.isNode = false ∧ triviaKind t.kind = true ∧ t.start ≤ m.pos ∧ m.pos < t.stop := by
  obtain ⟨-, c, X, T, Y, -, -, hg, hT, hp⟩ := marker_gap W hr hm
  obtain ⟨t, -, h1, h2, h3, h4⟩ := gap_head W hr hg hT
  have ht : InTree g t := .child hr h1
  exact ⟨t, h1, ht, h2, h4, by omega, by rw [hp, ← h3]; exact token_pos W.parsed ht h2⟩

/-- The comments of one element. -/
theorem elem_coms {r : Red} {X T Y : List Red} (hr : InTree g r) (hE : r.kind ≠ K.Error) (hg : Gap g r X T Y) :
    ((elemComments w r).filter (fun c => decide (c.pos = r.start + blen (flat (lv X))))).map (fun c => (K.Comment, c.text)) =
      comsOf (T.map Red.kt) := by
  have P := W.parsed
  unfold elemComments
  rw [if_neg hE]
  show markedAt (commentMarker w (levelOf r + incIndent r)) (r.start + blen (flat (lv X))) r.childrenT = _
  have hother : ∀ c ∈ r.childrenT, c.kind = K.Comment → c ∉ T → ∀ m, commentMarker w (levelOf r + incIndent r) c = some m →
      m.pos ≠ r.start + blen (flat (lv X)) := by
    intro c hc hk hT m hm hp
    obtain ⟨X', T', Y', hg', hT'⟩ := gap_of P hr hc (by rw [hk]; decide)
    obtain ⟨m', h3, h4, -⟩ := marker_pos W (l := levelOf r + incIndent r) hr hg' hT'
    rw [hm] at h3
    cases h3
    have := (gap_unique P hr hg' hg (by omega)).2.1
    exact hT (this ▸ hT')
  have hpw : r.childrenT.Pairwise (fun a b => a.stop ≤ b.start) := childrenT_pairwise r
  rw [hg.split] at hpw
  have hne : ∀ c ∈ r.childrenT, c.start < c.stop := fun c hc => child_pos P hr hc
  have hsp := hg.split
  have hnX : ∀ c ∈ X, c ∉ T := by
    intro c hc hT
    have := (List.pairwise_append.1 hpw).2.2 c hc c (List.mem_append_left _ hT)
    have := hne c (by rw [hsp]; exact List.mem_append_left _ hc)
    omega
  have hnY : ∀ c ∈ Y, c ∉ T := by
    intro c hc hT
    have := (List.pairwise_append.1 (List.pairwise_append.1 hpw).2.1).2.2 c hT c hc
    have := hne c (by rw [hsp]; exact List.mem_append_right _ (List.mem_append_right _ hc))
    omega
  rw [hsp, markedAt_append, markedAt_append,
    markedAt_none (l := X) (fun c hc hk => hother c (by rw [hsp]; exact List.mem_append_left _ hc) hk (hnX c hc)),
    markedAt_none (l := Y) (fun c hc hk => hother c (by rw [hsp]; exact List.mem_append_right _ (List.mem_append_right _ hc)) hk (hnY c hc)),
    List.nil_append, List.append_nil]
  refine markedAt_all ?_
  intro c hc _
  exact marker_pos W hr hg hc

/-! ## Comments at edits -/

theorem anchor_coms {r : Red} {e : SEdit} {M : Pieces} (hr : InTree g r) (hE : r.kind ≠ K.Error) (h : Anchor g r e M) :
    (((walked g).flatMap (elemComments w)).filter (fun c => decide (c.pos = e.start))).map (fun c => (K.Comment, c.text)) = comsOf M := by
  have P := W.parsed
  obtain ⟨t, h1, h2, h3, h4, h5⟩ := h
  have hsame : ∀ r', InTree g r' → ∀ m ∈ elemComments w r', m.pos = e.start → t ∈ r'.childrenT ∧ triviaKind t.kind = true := by
    intro r' hr' m hm hp
    obtain ⟨t', k1, k2, k3, k4, k5, k6⟩ := marker_token W hr' hm
    have : t' = t := token_unique k2 h1 k3 h2 k5 k6 (by omega) (by omega)
    rw [this] at k1 k4
    exact ⟨k1, k4⟩
  rw [filter_flatMap']
  have hnone : triviaKind t.kind = false → comsOf M = [] →
      ((walked g).flatMap (fun r' => (elemComments w r').filter (fun c => decide (c.pos = e.start)))).map (fun c => (K.Comment, c.text)) = comsOf M := by
    intro h6 h7
    rw [h7, List.map_eq_nil_iff, List.flatMap_eq_nil_iff]
    intro r' hr'
    rw [List.filter_eq_nil_iff]
    intro m hm hp
    have := (hsame r' (mem_walked.1 hr') m hm (by simpa using hp)).2
    rw [h6] at this
    cases this
  rcases h5 with ⟨-, h6, -, h7⟩ | ⟨-, h6, h7⟩ | ⟨h6, h7, X, T, Y, hg, h8, -, h9⟩
  · exact hnone h6 h7
  · exact hnone (by rw [h6]; decide) h7
  · rw [flatMap_one (x := r) (walked_nodup P) (mem_walked.2 hr), h8, h9]
    · exact elem_coms W hr hE hg
    · intro r' hr' hne
      rw [List.filter_eq_nil_iff]
      intro m hm hp
      exact hne (same_parent (hsame r' (mem_walked.1 hr') m hm (by simpa using hp)).1 h6)

/-! ## An edit for every comment -/

omit W in
theorem pair_mem_filter {α : Type} {q : α → Bool} {X T Y : List α} {a b : α} (ha : q a = true) (hb : q b = true)
    (hT : ∀ t ∈ T, q t = false) :
    (a, b) ∈ ((X ++ [a] ++ (T ++ b :: Y)).filter q).zip (((X ++ [a] ++ (T ++ b :: Y)).filter q).drop 1) := by
  have hTn : T.filter q = [] := List.filter_eq_nil_iff.2 (by simpa using hT)
  have e : (X ++ [a] ++ (T ++ b :: Y)).filter q = X.filter q ++ a :: b :: Y.filter q := by
    rw [List.filter_append, List.filter_append, List.filter_append, List.filter_cons_of_pos ha, List.filter_cons_of_pos hb,
      List.filter_nil, hTn]
    simp
  rw [e]
  generalize X.filter q = Z
  generalize Y.filter q = V
  induction Z with
  | nil => simp
  | cons z Z ih =>
    cases Z with
    | nil => simp
    | cons z' Z => 
      have : (z :: z' :: Z ++ a :: b :: V).zip ((z :: z' :: Z ++ a :: b :: V).drop 1) =
        (z, z') :: (z' :: Z ++ a :: b :: V).zip ((z' :: Z ++ a :: b :: V).drop 1) := rfl
      rw [this]
      exact List.mem_cons_of_mem _ ih

theorem sep_exists {r a b : Red} {X T Y : List Red} (hE : r.kind ≠ K.Error) (hg : Gap g r (X ++ [a]) T (b :: Y))
    (ha : triviaKind a.kind = false) (hb : triviaKind b.kind = false) (hs : separator r.kind ≠ .unknown) :
    ∃ e ∈ elemEdits w r, e.start = a.stop ∧ e.stop = b.start := by
  have hp : (a, b) ∈ (fmtChildren r).zip ((fmtChildren r).drop 1) := by
    rw [fmt_eq W hE, hg.split]
    exact pair_mem_filter (by rw [ha]; rfl) (by rw [hb]; rfl) (fun t ht => by rw [hg.trivia t ht]; rfl)
  have : ∃ e, sepEdit w r (levelOf r) a b = some e ∧ e.start = a.stop ∧ e.stop = b.start := by
    unfold sepEdit
    cases hsep : separator r.kind with
    | lineBreak => exact ⟨_, rfl, rfl, rfl⟩
    | space => exact ⟨_, rfl, rfl, rfl⟩
    | empty => exact ⟨_, rfl, rfl, rfl⟩
    | unknown => exact absurd hsep hs
  obtain ⟨e, h1, h2, h3⟩ := this
  exact ⟨e, List.mem_append_right _ (List.mem_filterMap.2 ⟨(a, b), hp, h1⟩), h2, h3⟩

omit W in
theorem unit_mem {r : Red} (hk : r.kind = K.QueryUnit ∨ r.kind = K.UpdateUnit) {e : SEdit} (he : e ∈ unitEdits r (fmtChildren r)) :
    e ∈ elemEdits w r := by
  unfold elemEdits nodeAug
  rw [in_unit hk]
  simp [he]

theorem gap_edit {r c : Red} {X T Y : List Red} (hr : InTree g r) (hg : Gap g r X T Y) (hc : c ∈ T) (hE : r.kind ≠ K.Error)
    (hm : ManagedAt r c) : ∃ e ∈ elemEdits w r, e.start = r.start + blen (flat (lv X)) ∧
      e.stop = r.start + blen (flat (lv X)) + blen (flat (lv T)) := by
  have hpl := gap_places hg
  obtain ⟨T1, T2, hT⟩ := List.append_of_mem hc
  have hsp : r.childrenT = (X ++ T1) ++ c :: (T2 ++ Y) := by rw [hg.split, hT]; simp
  have hel := elder_eq hsp
  have hu : separator K.QueryUnit = .unknown ∧ separator K.UpdateUnit = .unknown := by decide +kernel
  have hpw : r.childrenT.Pairwise (fun a b => a.stop ≤ b.start) := childrenT_pairwise r
  rcases hm with hs | ⟨hk, hm⟩
  · have hnr : r ≠ Red.root g := by
      intro h
      have hk : r.kind = K.QueryUnit ∨ r.kind = K.UpdateUnit := by rw [h]; exact W.parsed.root
      rcases hk with hk | hk
      · rw [hk] at hs; exact hs hu.1
      · rw [hk] at hs; exact hs hu.2
    rcases hg.left with ⟨-, h⟩ | ⟨X', a, hX, ha⟩
    · exact absurd h hnr
    rcases hg.right with ⟨-, h⟩ | ⟨b, Y', hY, hb⟩
    · exact absurd h hnr
    have hg' := hg
    rw [hX, hY] at hg'
    obtain ⟨e, he, h1, h2⟩ := sep_exists W hE hg' ha hb hs
    exact ⟨e, he, by rw [h1]; exact hpl.1 X' a hX, by rw [h2]; exact hpl.2 b Y' hY⟩
  · have hroot := unit_root W hr hk
    have hs0 : r.start = 0 := by rw [hroot]; rfl
    have hn : r.isNode = true := by rw [hroot]; exact root_isNode W.parsed
    have hend := row_end W hn
    have hfmt : fmtChildren r = X.filter (fun c => !triviaKind c.kind) ++ Y.filter (fun c => !triviaKind c.kind) := by
      have hTn : T.filter (fun c => !triviaKind c.kind) = [] :=
        List.filter_eq_nil_iff.2 (fun t ht => by rw [hg.trivia t ht]; simp)
      rw [fmt_eq W hE, hg.split, List.filter_append, List.filter_append, hTn]
      rfl
    rw [hel.1, hel.2] at hm
    have hXY : X = [] ∨ Y = [] := by
      rcases hm with h | h
      · rcases hg.left with ⟨h1, -⟩ | ⟨X', a, h1, h2⟩
        · exact .inl h1
        · have := h a (by rw [h1]; simp)
          rw [h2] at this; cases this
      · rcases hg.right with ⟨h1, -⟩ | ⟨b, Y', h1, h2⟩
        · exact .inr h1
        · have := h b (by rw [h1]; simp)
          rw [h2] at this; cases this
    rcases unitEdits_cases r (fmtChildren r) with ⟨first, last, h1, h2, h3⟩ | ⟨h1, h3⟩
    · by_cases hX : X = []
      · subst hX
        refine ⟨⟨0, first.start, []⟩, unit_mem hk (by rw [h3]; simp), by rw [hs0]; rfl, ?_⟩
        rw [hfmt] at h1
        rcases hg.right with ⟨h4, -⟩ | ⟨b, Y', h4, h5⟩
        · rw [h4] at h1; cases h1
        · have hb : b = first := by
            rw [h4, List.filter_nil, List.nil_append, List.filter_cons_of_pos (by rw [h5]; rfl)] at h1
            exact Option.some.inj h1
          rw [← hb]
          exact hpl.2 b Y' h4
      · have hY : Y = [] := by
          rcases hXY with h | h
          · exact absurd h hX
          · exact h
        subst hY
        refine ⟨⟨last.stop, r.stop, []⟩, unit_mem hk (by rw [h3]; simp), ?_, ?_⟩
        · rcases hg.left with ⟨h4, -⟩ | ⟨X', a, h4, h5⟩
          · exact absurd h4 hX
          · have ha : a = last := by
              rw [hfmt, h4, List.filter_nil, List.append_nil, List.filter_append, List.filter_cons_of_pos (by rw [h5]; rfl),
                List.filter_nil, List.getLast?_append_of_ne_nil _ (by simp)] at h2
              exact Option.some.inj h2
            rw [← ha]
            exact hpl.1 X' a h4
        · show r.stop = _
          rw [hend, hg.split, List.append_nil, lv_append, flat_app, blen_append, Nat.add_assoc]
    · refine ⟨⟨0, r.stop, []⟩, unit_mem hk (by rw [h3]; simp), ?_⟩
      rw [hfmt] at h1
      have hX : X = [] := by
        rcases hg.left with ⟨h4, -⟩ | ⟨X', a, h4, h5⟩
        · exact h4
        · have := (List.append_eq_nil_iff.1 h1).1
          rw [h4, List.filter_append, List.filter_cons_of_pos (by rw [h5]; rfl)] at this
          simp at this
      have hY : Y = [] := by
        rcases hg.right with ⟨h4, -⟩ | ⟨b, Y', h4, h5⟩
        · exact h4
        · have := (List.append_eq_nil_iff.1 h1).2
          rw [h4, List.filter_cons_of_pos (by rw [h5]; rfl)] at this
          simp at this
      subst hX
      subst hY
      constructor
      · rw [hs0]; rfl
      · show r.stop = _
        rw [hend, hg.split, List.append_nil, List.nil_append]
        simp [lv, flat, blen]

/-! ## Pieces and tokens -/

omit W in
theorem piece_split : ∀ {l : List (Kind × Text)} {k : Nat} {x : Kind × Text}, (PL σ l)[k]? = some x →
    ∃ A p B u v, l = A ++ p :: B ∧ pieces σ p = u ++ x :: v ∧ (PL σ l).take k = PL σ A ++ u ∧ (PL σ l).take (k + 1) = PL σ A ++ u ++ [x] := by
  intro l
  induction l with
  | nil => intro k x h; simp [PL] at h
  | cons p l ih =>
    intro k x h
    have e : PL σ (p :: l) = pieces σ p ++ PL σ l := rfl
    rw [e] at h
    by_cases hk : k < (pieces σ p).length
    · rw [List.getElem?_append_left hk] at h
      have hx : pieces σ p = (pieces σ p).take k ++ x :: (pieces σ p).drop (k + 1) := by
        conv => lhs; rw [← List.take_append_drop k (pieces σ p)]
        congr 1
        rw [List.drop_eq_getElem_cons hk]
        rw [List.getElem?_eq_getElem hk] at h
        rw [Option.some.inj h]
      refine ⟨[], p, l, _, _, rfl, hx, ?_, ?_⟩
      · rw [e, List.take_append_of_le_length (by omega)]; rfl
      · rw [e, List.take_append_of_le_length (by omega), List.take_succ, h]; rfl
    · rw [List.getElem?_append_right (by omega)] at h
      obtain ⟨A, q, B, u, v, h1, h2, h3, h4⟩ := ih h
      refine ⟨p :: A, q, B, u, v, by rw [h1]; rfl, h2, ?_, ?_⟩
      · rw [e, List.take_append, List.take_of_length_le (by omega), h3]
        show _ = (pieces σ p ++ PL σ A) ++ u
        rw [List.append_assoc]
      · have h5 : k + 1 - (pieces σ p).length = k - (pieces σ p).length + 1 := by omega
        rw [e, List.take_append, List.take_of_length_le (by omega), h5, h4]
        show _ = (pieces σ p ++ PL σ A) ++ u ++ [x]
        simp only [List.append_assoc]

theorem piece_token {k : Nat} {x : Kind × Text} (h : (PL σ g.leaves)[k]? = some x) :
    ∃ t u v, InTree g t ∧ t.isNode = false ∧ pieces σ t.kt = u ++ x :: v ∧ off (PL σ g.leaves) k = t.start + blen (flat u) ∧
      off (PL σ g.leaves) (k + 1) = t.start + blen (flat u) + blen x.2 := by
  obtain ⟨A, p, B, u, v, h1, h2, h3, h4⟩ := piece_split h
  obtain ⟨r1, r2⟩ := tokens_row (Red.root g)
  have r1 : (Red.root g).tokens.map Red.kt = g.leaves := r1
  have r2 : Row 0 (Red.root g).tokens := r2
  rw [h1] at r1
  obtain ⟨L, R, hLR, hL, hR⟩ := List.map_eq_append_iff.1 r1
  obtain ⟨t, R', hR', ht, -⟩ := List.map_eq_cons_iff.1 hR
  have hmem : t ∈ (Red.root g).tokens := by rw [hLR, hR']; simp
  have hst : t.start = blen (flat A) := by
    rw [hLR] at r2
    have := row_split r2
    rw [hR', hL] at this
    have := this.1
    omega
  have hgA : Good A := by
    have := good_of W.parsed
    rw [h1] at this
    exact this.left
  obtain ⟨m1, m2⟩ := List.mem_filter.1 hmem
  refine ⟨t, u, v, mem_descendantsT_root.1 m1, by simpa using m2, by rw [ht]; exact h2, ?_, ?_⟩
  · unfold off
    rw [h3, flat_app, blen_append, flat_PL hgA, hst]
  · unfold off
    rw [h4, flat_app, flat_app, blen_append, blen_append, flat_PL hgA, hst]
    simp [flat]

theorem two_edit {t : Red} {n : Nat} (_hr : InTree g t) (h : secondWord t.kind = some n) :
    ⟨t.start + 6, t.stop - n, [' ']⟩ ∈ elemEdits w t := by
  unfold elemEdits nodeAug
  obtain ⟨f, s, hin⟩ := in_two (w := w) (r := t) (cs := fmtChildren t) (n := levelOf t) h
  rw [hin]
  simp [twoWords]

theorem tree_covered (hM : Managed g) : ∀ k x, (PL σ g.leaves)[k]? = some x → Keepable x ∨
    ∃ e ∈ (walked g).flatMap (elemEdits w), e.start ≤ off (PL σ g.leaves) k ∧ off (PL σ g.leaves) (k + 1) ≤ e.stop := by
  intro k x hx
  have P := W.parsed
  obtain ⟨t, u, v, ht, hn, hp, h1, h2⟩ := piece_token W hx
  have hrule : t.kt.1 ≠ K.Error → HasRule t.kt := fun h => token_rule P ht hn h
  have hne : t.kt.2 ≠ [] := P.leaf_nonempty _ (Parsed.token_leaf ht hn)
  have hF := pieces_facts (σ := σ) hrule hne
  by_cases hC : x.1 = K.Comment
  · obtain ⟨hp1, hxt⟩ := hF.comment x (by rw [hp]; simp) hC
    have hu : u = [] := by
      rw [hp] at hp1
      have := congrArg List.length hp1
      simp at this
      exact List.eq_nil_of_length_eq_zero (by omega)
    have hk : t.kind = K.Comment := by rw [hxt] at hC; exact hC
    cases ht with
    | root => rw [root_isNode P] at hn; cases hn
    | @child r c hr hc =>
      have hm := hM r t hr hc hk
      have hE : r.kind ≠ K.Error := by
        intro hE
        rcases hm with h | ⟨h | h, -⟩
        · rw [hE] at h; exact h (by decide +kernel)
        · rw [hE] at h; exact absurd h (by decide)
        · rw [hE] at h; exact absurd h (by decide)
      obtain ⟨X, T, Y, hg, hT⟩ := gap_of P hr hc (by rw [hk]; decide)
      obtain ⟨e, he, e1, e2⟩ := gap_edit W hr hg hT hE hm
      have ho := gap_order hg
      refine .inr ⟨e, List.mem_flatMap.2 ⟨r, mem_walked.2 hr, he⟩, ?_, ?_⟩
      · rw [h1, hu, e1]
        have := ho.2.1 t hT
        have e0 : blen (flat ([] : Pieces)) = 0 := rfl
        omega
      · rw [h2, hu, e2, hxt]
        have := ho.2.2 t hT
        have e3 : t.stop = t.start + blen t.kt.2 := rfl
        have e0 : blen (flat ([] : Pieces)) = 0 := rfl
        omega
  · by_cases hW : x.1 = K.WHITESPACE
    · cases hs : secondWord t.kind with
      | none =>
        left
        refine ⟨hC, fun _ => ?_⟩
        by_cases hsg' : σ = true ∧ t.kt.1 ∈ signed
        · obtain ⟨hσ, hsg⟩ := hsg'
          have hk : ∀ k ∈ signed, k ≠ K.Error ∧ k ≠ K.WHITESPACE := by decide
          obtain ⟨c, d, cs, -, -, h5⟩ := pieces_signed (hrule (hk _ hsg).1) hsg
          have : x ∈ pieces σ t.kt := by rw [hp]; simp
          rw [hσ, h5] at this
          have : x.1 = t.kt.1 := by simp at this; rcases this with h | h <;> rw [h]
          exact absurd (this.symm.trans hW) (hk _ hsg).2
        · have h5 : pieces σ t.kt = [t.kt] := by unfold pieces; rw [show secondWord t.kt.1 = none from hs]; exact if_neg hsg'
          have : x ∈ pieces σ t.kt := by rw [hp]; simp
          rw [h5] at this
          have hxt : x = t.kt := by simpa using this
          rw [hxt] at hW ⊢
          exact white_text (hrule (by rw [hW]; decide)) hW
      | some n =>
        right
        have hE : t.kt.1 ≠ K.Error := by
          intro hE
          have : secondWord K.Error = none := by decide
          rw [show t.kind = K.Error from hE, this] at hs
          cases hs
        obtain ⟨a, b, ha, hb, hw⟩ := second_text (hrule hE) hs
        obtain ⟨a', m, b', e5, -, -, -, -, -, hpp, la, lb⟩ := pieces_two (k := t.kind) hs ha hb hw
        have hpp : pieces σ t.kt = [(t.kind, a'), (K.WHITESPACE, m), (t.kind, b')] := hpp
        rw [hp] at hpp
        have hnW : t.kind ≠ K.WHITESPACE := by
          intro h
          have : secondWord K.WHITESPACE = none := by decide
          rw [h, this] at hs
          cases hs
        refine ⟨_, List.mem_flatMap.2 ⟨t, mem_walked.2 ht, two_edit W ht hs⟩, ?_, ?_⟩
        all_goals
          have hstop : t.stop = t.start + blen t.kt.2 := rfl
          have e5 : t.kt.2 = a' ++ (m ++ b') := e5
          rw [e5, blen_append, blen_append] at hstop
        all_goals
          rcases u with _ | ⟨u1, _ | ⟨u2, _ | ⟨u3, u4⟩⟩⟩
        all_goals simp at hpp
        all_goals first
          | (exact absurd (by rw [hpp.1] at hW; exact hW) hnW)
          | (exact absurd (by rw [hpp.2.2.1] at hW; exact hW) hnW)
          | skip
        · rw [h1, hpp.1]; simp [flat]; omega
        · rw [h2, hpp.1, hpp.2.1]; simp [flat]; omega
    · exact .inl ⟨hC, fun h => absurd h hW⟩

end

theorem tree_plan {σ : Bool} {w : Walker} {text : Text} {g : Green} (W : Walks σ w text g) (hM : Managed g) :
    Plan (PL σ g.leaves) ((walked g).flatMap (elemEdits w)) ((walked g).flatMap (elemComments w)) where
  nonempty := PL_nonempty (good_of W.parsed)
  hash := by
    intro x hx hk
    have hm := PL_comment (good_of W.parsed) x hx hk
    exact comment_text (W.parsed.lexed x hm (by rw [hk]; decide)) hk
  fits := by
    intro e he
    obtain ⟨r, hr, he⟩ := List.mem_flatMap.1 he
    obtain ⟨i, j, h, -⟩ := made_fits W.parsed (elem_made W (mem_walked.1 hr) e he)
    exact ⟨i, j, h⟩
  distinct := all_distinct W
  coms := by
    intro e he i j hij hf
    obtain ⟨r, hr, he⟩ := List.mem_flatMap.1 he
    have hr := mem_walked.1 hr
    obtain ⟨i', j', h1, h2⟩ := made_fits W.parsed (elem_made W hr e he)
    have hn := PL_nonempty (σ := σ) (good_of W.parsed)
    obtain ⟨rfl, rfl⟩ := hf.indices hn (Nat.le_trans h1.le h1.hj) h1.hj h1.start h1.stop
    have hlt : e.start < e.stop := by rw [hf.start, hf.stop]; exact off_lt hn hij hf.hj
    have hE : r.kind ≠ K.Error := by
      intro hE
      rw [error_edits W hE] at he
      cases he
    exact anchor_coms W hr hE (h2 hlt)
  has := by
    intro m hm
    obtain ⟨r, hr, hm⟩ := List.mem_flatMap.1 hm
    have hr' := mem_walked.1 hr
    obtain ⟨hE, c, X, T, Y, hc, hk, hg, hT, hp⟩ := marker_gap W hr' hm
    obtain ⟨e, he, h1, h2⟩ := gap_edit W hr' hg hT hE (hM r c hr' hc hk)
    refine ⟨e, List.mem_flatMap.2 ⟨r, hr, he⟩, ?_, by rw [h1, hp]⟩
    have ho := gap_order hg
    have := ho.2.1 c hT
    have := ho.2.2 c hT
    have := child_pos W.parsed hr' hc
    omega
  covered := tree_covered W hM

/-! ## Empty lines -/

/-- Replacing the white space in front of the texts of a plan. -/
theorem Plan.relax {P E C} {E' : List SEdit} (h : Plan P E C) (D : List (SEdit × SEdit)) (h1 : (D.map Prod.fst).Perm E) (h2 : D.map Prod.snd = E')
    (h3 : ∀ d ∈ D, d.2.start = d.1.start ∧ d.2.stop = d.1.stop ∧ (d.2.text = d.1.text ∨ d.2.text = '\n' :: d.1.text)) : Plan P E' C := by
  have hmem : ∀ e ∈ E', ∃ d ∈ D, d.2 = e ∧ d.1 ∈ E := by
    intro e he
    rw [← h2] at he
    obtain ⟨d, hd, rfl⟩ := List.mem_map.1 he
    exact ⟨d, hd, rfl, h1.mem_iff.1 (List.mem_map_of_mem hd)⟩
  have hmem' : ∀ e ∈ E, ∃ e' ∈ E', e'.start = e.start ∧ e'.stop = e.stop := by
    intro e he
    obtain ⟨d, hd, rfl⟩ := List.mem_map.1 (h1.mem_iff.2 he)
    exact ⟨d.2, by rw [← h2]; exact List.mem_map_of_mem hd, (h3 d hd).1, (h3 d hd).2.1⟩
  refine ⟨h.nonempty, h.hash, ?_, ?_, ?_, ?_, ?_⟩
  · intro e he
    obtain ⟨d, hd, rfl, hE⟩ := hmem e he
    obtain ⟨i, j, f⟩ := h.fits _ hE
    obtain ⟨k1, k2, k3⟩ := h3 d hd
    refine ⟨i, j, f.le, f.hj, by rw [k1]; exact f.start, by rw [k2]; exact f.stop, ?_, f.shape⟩
    rcases k3 with k3 | k3
    · rw [k3]; exact f.laid
    · rw [k3]
      exact f.laid.prepend (w := ['\n']) (spaces_nl spaces_nil)
  · have hd : D.Pairwise (fun a b => a.1.start < a.1.stop → b.1.start < b.1.stop → a.1.start ≠ b.1.start) := by
      rw [← List.pairwise_map (f := Prod.fst) (R := fun a b : SEdit => a.start < a.stop → b.start < b.stop → a.start ≠ b.start)]
      exact (List.Perm.pairwise_iff (fun {a b} h x y => (h y x).symm) h1).2 h.distinct
    rw [← h2, List.pairwise_map]
    refine hd.imp_of_mem ?_
    intro a b ha hb hab
    rw [(h3 a ha).1, (h3 a ha).2.1, (h3 b hb).1, (h3 b hb).2.1]
    exact hab
  · intro e he i j hij hf
    obtain ⟨d, hd, rfl, hE⟩ := hmem e he
    obtain ⟨k1, k2, k3⟩ := h3 d hd
    obtain ⟨i', j', f⟩ := h.fits _ hE
    obtain ⟨rfl, rfl⟩ := hf.indices h.nonempty (Nat.le_trans f.le f.hj) f.hj (by rw [k1]; exact f.start) (by rw [k2]; exact f.stop)
    rw [k1]
    exact h.coms _ hE _ _ hij f
  · intro c hc
    obtain ⟨e, he, k1, k2⟩ := h.has c hc
    obtain ⟨e', he', k3, k4⟩ := hmem' e he
    exact ⟨e', he', by omega, by omega⟩
  · intro k x hx
    rcases h.covered k x hx with h4 | ⟨e, he, k1, k2⟩
    · exact .inl h4
    · obtain ⟨e', he', k3, k4⟩ := hmem' e he
      exact .inr ⟨e', he', by omega, by omega⟩

theorem markLoop_pairs : ∀ (L : List SEdit) (ms : List Nat), ∃ D : List (SEdit × SEdit), D.map Prod.fst = L ∧ D.map Prod.snd = markLoop L ms ∧
    ∀ d ∈ D, d.2.start = d.1.start ∧ d.2.stop = d.1.stop ∧ (d.2.text = d.1.text ∨ d.2.text = '\n' :: d.1.text) := by
  intro L
  induction L with
  | nil => intro ms; exact ⟨[], rfl, by cases ms <;> rfl, by simp⟩
  | cons e L ih =>
    intro ms
    cases ms with
    | nil =>
      refine ⟨(e :: L).map (fun x => (x, x)), by simp [Function.comp_def], by rw [markLoop]; simp [Function.comp_def], ?_⟩
      intro d hd
      obtain ⟨x, -, rfl⟩ := List.mem_map.1 hd
      exact ⟨rfl, rfl, .inl rfl⟩
    | cons m ms =>
      rw [markLoop]
      by_cases hm : m ≤ e.start
      · rw [if_pos hm]
        obtain ⟨D, h1, h2, h3⟩ := ih ms
        refine ⟨(e, if hasBreak e L then { e with text := '\n' :: e.text } else e) :: D, by simp [h1], by simp [h2], ?_⟩
        intro d hd
        rcases List.mem_cons.1 hd with rfl | hd
        · dsimp only
          split
          · exact ⟨rfl, rfl, .inr rfl⟩
          · exact ⟨rfl, rfl, .inl rfl⟩
        · exact h3 d hd
      · rw [if_neg hm]
        obtain ⟨D, h1, h2, h3⟩ := ih (m :: ms)
        refine ⟨(e, e) :: D, by simp [h1], by simp [h2], ?_⟩
        intro d hd
        rcases List.mem_cons.1 hd with rfl | hd
        · exact ⟨rfl, rfl, .inl rfl⟩
        · exact h3 d hd

theorem collected_plan {σ : Bool} {w : Walker} {text : Text} {g : Green} (W : Walks σ w text g) (hM : Managed g) :
    Plan (PL σ g.leaves) (collected w) ((walked g).flatMap (elemComments w)) ∧ collected w ≠ [] := by
  have h := tree_plan W hM
  have hne : (walked g).flatMap (elemEdits w) ≠ [] := by
    intro h0
    have h1 := List.flatMap_eq_nil_iff.1 h0 (Red.root g) (mem_walked.2 .root)
    have : ∃ e, e ∈ elemEdits w (Red.root g) := by
      rcases unitEdits_cases (Red.root g) (fmtChildren (Red.root g)) with ⟨a, b, -, -, h3⟩ | ⟨-, h3⟩
      · exact ⟨_, unit_mem (r := Red.root g) W.parsed.root (by rw [h3]; exact List.mem_cons_self)⟩
      · exact ⟨_, unit_mem (r := Red.root g) W.parsed.root (by rw [h3]; exact List.mem_cons_self)⟩
    obtain ⟨e, he⟩ := this
    rw [h1] at he
    cases he
  unfold collected
  rw [W.tree]
  dsimp only
  split
  · obtain ⟨D, h1, h2, h3⟩ := markLoop_pairs (((walked g).flatMap (elemEdits w)).insertionSort byStart)
      (((walked g).flatMap (elemEmptyLines w)).insertionSort (· ≤ ·))
    have hp : (D.map Prod.fst).Perm ((walked g).flatMap (elemEdits w)) := by rw [h1]; exact List.perm_insertionSort _ _
    refine ⟨h.relax D hp h2 h3, ?_⟩
    intro h0
    unfold mergeEmptyLines at h0
    rw [h0, List.map_eq_nil_iff] at h2
    rw [h2] at hp
    exact hne (List.nil_perm.1 hp)
  · exact ⟨h, hne⟩

end Verif.Format
