import Verif.Format.Transform
/-!
# Plans

Byte edits and comment markers that fit to the pieces of a document. The second half of the formatter turns every plan into
edits that produce a layout of the tokens of the document.
-/
namespace Verif.Format
open Verif Verif.Grammar Verif.Lexer Verif.Features

abbrev Pieces := List (Kind × Text)

/-- Whether the piece with an index is trivia. -/
def tr (P : Pieces) (k : Nat) : Bool :=
  match P[k]? with
  | some x => triviaKind x.1
  | none => false

/-- The offset of the piece with an index. -/
def off (P : Pieces) (i : Nat) : Nat := blen (flat (P.take i))

/-- The significant pieces. -/
def firmOf (M : Pieces) : Pieces := M.filter (fun p => !triviaKind p.1)
/-- The comments. -/
def comsOf (M : Pieces) : Pieces := M.filter (fun p => p.1 == K.Comment)

/-- The pieces with the indices `i`, ..., `j - 1`. -/
def slice (P : Pieces) (i j : Nat) : Pieces := (P.take j).drop i

/-- The places of edits: between two pieces, but not inside of a run of trivia; a significant piece; a run of trivia. -/
def Shape (P : Pieces) (i j : Nat) : Prop :=
  (i = j ∧ ¬ (0 < i ∧ tr P (i - 1) = true ∧ tr P i = true)) ∨ (j = i + 1 ∧ tr P i = false) ∨
  (i < j ∧ (∀ k, i ≤ k → k < j → tr P k = true) ∧ (i = 0 ∨ tr P (i - 1) = false) ∧ tr P j = false)

/-- An edit fits to the pieces `i`, ..., `j - 1`. -/
structure Fits (P : Pieces) (e : SEdit) (i j : Nat) : Prop where
  le : i ≤ j
  hj : j ≤ P.length
  start : e.start = off P i
  stop : e.stop = off P j
  laid : Laid Firm (firmOf (slice P i j)) e.text
  shape : Shape P i j

/-- A piece that may stay as it is. -/
def Keepable (x : Kind × Text) : Prop := x.1 ≠ K.Comment ∧ (x.1 = K.WHITESPACE → Spaces x.2)

/-- Edits and comment markers for a list of pieces. -/
structure Plan (P : Pieces) (E : List SEdit) (C : List SComment) : Prop where
  nonempty : ∀ x ∈ P, x.2 ≠ []
  hash : ∀ x ∈ P, x.1 = K.Comment → ∃ t, x.2 = '#' :: t
  fits : ∀ e ∈ E, ∃ i j, Fits P e i j
  distinct : E.Pairwise (fun a b => a.start < a.stop → b.start < b.stop → a.start ≠ b.start)
  coms : ∀ e ∈ E, ∀ i j, i < j → Fits P e i j →
    (C.filter (fun c => decide (c.pos = e.start))).map (fun c => (K.Comment, c.text)) = comsOf (slice P i j)
  has : ∀ c ∈ C, ∃ e ∈ E, e.start < e.stop ∧ e.start = c.pos
  covered : ∀ k x, P[k]? = some x → Keepable x ∨ ∃ e ∈ E, e.start ≤ off P k ∧ off P (k + 1) ≤ e.stop

/-! ## Offsets -/

theorem flat_app (a b : Pieces) : flat (a ++ b) = flat a ++ flat b := by simp [flat]

theorem take_slice (P : Pieces) {i j : Nat} (h : i ≤ j) : P.take j = P.take i ++ slice P i j := by
  unfold slice
  have := (List.take_append_drop i (P.take j)).symm
  rwa [List.take_take, Nat.min_eq_left h] at this

theorem drop_slice (P : Pieces) {i j : Nat} (h : i ≤ j) : P.drop i = slice P i j ++ P.drop j := by
  unfold slice
  have h1 : P = P.take j ++ P.drop j := (List.take_append_drop j P).symm
  by_cases hj : j ≤ P.length
  · have h2 : i ≤ (P.take j).length := by rw [List.length_take]; omega
    conv => lhs; rw [h1]
    rw [List.drop_append_of_le_length h2]
  · rw [List.take_of_length_le (by omega), List.drop_eq_nil_of_le (by omega : P.length ≤ j), List.append_nil]

theorem off_add (P : Pieces) {i j : Nat} (h : i ≤ j) : off P j = off P i + blen (flat (slice P i j)) := by
  unfold off
  rw [take_slice P h, flat_app, blen_append]

theorem off_mono (P : Pieces) {i j : Nat} (h : i ≤ j) : off P i ≤ off P j := by
  rw [off_add P h]; omega

theorem off_lt {P : Pieces} (hn : ∀ x ∈ P, x.2 ≠ []) {i j : Nat} (h : i < j) (hj : j ≤ P.length) : off P i < off P j := by
  rw [off_add P (Nat.le_of_lt h)]
  have hi : i < P.length := by omega
  have : P[i] ∈ slice P i j := by
    unfold slice
    rw [List.mem_iff_getElem]
    refine ⟨0, by rw [List.length_drop, List.length_take]; omega, by simp⟩
  have h2 : flat (slice P i j) ≠ [] := by
    intro h3
    have h4 : P[i].2 ∈ (slice P i j).map (·.2) := List.mem_map_of_mem this
    exact hn _ (List.getElem_mem hi) (List.flatten_eq_nil_iff.1 h3 _ h4)
  have := blen_pos h2
  omega

theorem off_le_iff {P : Pieces} (hn : ∀ x ∈ P, x.2 ≠ []) {i j : Nat} (hi : i ≤ P.length) (_hj : j ≤ P.length) :
    off P i ≤ off P j ↔ i ≤ j := by
  constructor
  · intro h
    by_cases hij : i ≤ j
    · exact hij
    · have := off_lt hn (show j < i by omega) hi
      omega
  · exact off_mono P

theorem posAt_off (P : Pieces) (i : Nat) : posAt (flat P) (off P i) = posOf (flat (P.take i)) := by
  have : flat P = flat (P.take i) ++ flat (P.drop i) := by rw [← flat_app, List.take_append_drop]
  rw [this]
  exact posAt_append _ _

theorem boundary_off (P : Pieces) (i : Nat) : Boundary (flat P) (off P i) :=
  ⟨flat (P.take i), flat (P.drop i), by rw [← flat_app, List.take_append_drop], rfl⟩

theorem posAt_le {P : Pieces} {i j : Nat} (h : i ≤ j) : (posAt (flat P) (off P i)).le (posAt (flat P) (off P j)) = true := by
  rw [posAt_off, posAt_off, take_slice P h, flat_app]
  exact posOf_le _ _

theorem posAt_lt {P : Pieces} (hn : ∀ x ∈ P, x.2 ≠ []) {i j : Nat} (h : i < j) (hj : j ≤ P.length) :
    (posAt (flat P) (off P i)).Before (posAt (flat P) (off P j)) := by
  have h1 := off_lt hn h hj
  rw [posAt_off, posAt_off, take_slice P (Nat.le_of_lt h), flat_app]
  refine posOf_before _ _ ?_
  intro h2
  rw [off_add P (Nat.le_of_lt h), h2] at h1
  have : blen ([] : Text) = 0 := rfl
  omega

/-! ## No overlap -/

theorem shape_apart {P : Pieces} {i j i' j' : Nat} (h : Shape P i j) (h' : Shape P i' j') (hd : i < j → i' < j' → i ≠ i') :
    j ≤ i' ∨ j' ≤ i := by
  rcases h with ⟨rfl, h2⟩ | ⟨rfl, h2⟩ | ⟨h1, h2, h3, h4⟩ <;> rcases h' with ⟨rfl, k2⟩ | ⟨rfl, k2⟩ | ⟨k1, k2, k3, k4⟩
  · omega
  · omega
  · by_cases hin : i' < i ∧ i < j'
    · exact absurd ⟨by omega, k2 (i - 1) (by omega) (by omega), k2 i (by omega) (by omega)⟩ h2
    · omega
  · omega
  · have := hd (by omega) (by omega); omega
  · by_cases hin : i' ≤ i ∧ i < j'
    · rw [k2 i hin.1 hin.2] at h2; cases h2
    · omega
  · by_cases hin : i < i' ∧ i' < j
    · exact absurd ⟨by omega, h2 (i' - 1) (by omega) (by omega), h2 i' (by omega) (by omega)⟩ k2
    · omega
  · by_cases hin : i ≤ i' ∧ i' < j
    · rw [h2 i' hin.1 hin.2] at k2; cases k2
    · omega
  · have hne := hd h1 k1
    by_cases hlt : i < i'
    · by_cases hin : i' < j
      · rcases k3 with k3 | k3
        · omega
        · rw [h2 (i' - 1) (by omega) (by omega)] at k3; cases k3
      · omega
    · by_cases hin : i < j'
      · rcases h3 with h3 | h3
        · omega
        · rw [k2 (i - 1) (by omega) (by omega)] at h3; cases h3
      · omega

theorem Plan.apart {P E C} (h : Plan P E C) : E.Pairwise (fun a b => a.stop ≤ b.start ∨ b.stop ≤ a.start) := by
  refine h.distinct.imp_of_mem ?_
  intro a b ha hb hd
  obtain ⟨i, j, f1⟩ := h.fits a ha
  obtain ⟨i', j', f2⟩ := h.fits b hb
  rw [f1.start, f1.stop, f2.start, f2.stop] at hd
  rw [f1.start, f1.stop, f2.start, f2.stop]
  have := shape_apart f1.shape f2.shape (fun h1 h2 heq => hd (off_lt h.nonempty h1 f1.hj) (off_lt h.nonempty h2 f2.hj) (by rw [heq]))
  rcases this with h3 | h3
  · exact .inl (off_mono P h3)
  · exact .inr (off_mono P h3)

/-! ## Building a script -/

theorem script_keep {P : Pieces} (hn : ∀ x ∈ P, x.2 ≠ []) {F C l} {i : Nat} (hi : i ≤ P.length) : ∀ d n, n + d = i →
    (∀ k x, n ≤ k → k < i → P[k]? = some x → Keepable x) →
    Script (flat (P.take i)) (P.drop i) F C l → Script (flat (P.take n)) (P.drop n) F C (slice P n i ++ l) := by
  intro d
  induction d with
  | zero =>
    intro n hd _ h
    have : n = i := by omega
    subst this
    have : slice P n n = [] := by unfold slice; simp
    rw [this]
    exact h
  | succ d ih =>
    intro n hd hk h
    have hlt : n < P.length := by omega
    have h1 := ih (n + 1) (by omega) (fun k x h1 h2 => hk k x (by omega) h2) h
    have h2 : P.drop n = P[n] :: P.drop (n + 1) := List.drop_eq_getElem_cons hlt
    have h3 : slice P n i = P[n] :: slice P (n + 1) i := by
      unfold slice
      rw [List.drop_eq_getElem_cons (by rw [List.length_take]; omega)]
      simp
    have h4 : flat (P.take (n + 1)) = flat (P.take n) ++ P[n].2 := by
      rw [List.take_succ_eq_append_getElem hlt, flat_app]
      simp [flat]
    rw [h4] at h1
    have hx := hk n P[n] (Nat.le_refl n) (by omega) (List.getElem?_eq_getElem hlt)
    rw [h2, h3]
    exact Script.keep (hn _ (List.getElem_mem hlt)) hx.1 hx.2 h1

theorem firm_ne {M : Pieces} : ∀ p ∈ firmOf M, p.1 ≠ K.WHITESPACE := by
  intro p hp h
  have := (List.mem_filter.1 hp).2
  rw [h] at this
  exact absurd this (by decide)

theorem script_edit {P : Pieces} {e : SEdit} {i j : Nat} (hf : Fits P e i j) (hne : (e.toPos (flat P)).isEmpty = false)
    {F : List TextEdit} {cs C : List CMarker} {l : Pieces}
    (hcs : ∀ c ∈ cs, c.pos = posAt (flat P) (off P i) ∧ ∃ t, c.text = '#' :: t)
    (hC : ∀ c ∈ C, (posAt (flat P) (off P i)).Before c.pos ∧ (posAt (flat P) (off P j)).le c.pos = true)
    (h : Script (flat (P.take j)) (P.drop j) F C l) :
    Script (flat (P.take i)) (P.drop i) (e.toPos (flat P) :: F) (cs ++ C)
      (cs.flatMap comItems ++ ((lead e.text ++ firmOf (slice P i j)) ++ l)) := by
  rw [drop_slice P hf.le]
  have h1 : flat (P.take j) = flat (P.take i) ++ flat (slice P i j) := by rw [take_slice P hf.le, flat_app]
  refine Script.edit ?_ hne (lay_lead hf.laid firm_ne) ?_ ?_ (by rw [← h1]; exact h)
  · unfold SEdit.toPos
    rw [hf.start, hf.stop, posAt_off, posAt_off, h1]
  · intro c hc
    have := hcs c hc
    rw [posAt_off] at this
    exact this
  · intro c hc
    have := hC c hc
    unfold goesBefore SEdit.toPos
    dsimp only
    rw [hf.start, hf.stop, Bool.and_eq_true, lt_iff]
    exact this

/-- Insertions at one place. -/
theorem script_insert {P : Pieces} {i : Nat} {F C l} (I : List SEdit) (hI : ∀ e ∈ I, Fits P e i i ∧ (e.toPos (flat P)).isEmpty = false)
    (hC : ∀ c ∈ C, (posAt (flat P) (off P i)).Before c.pos) (h : Script (flat (P.take i)) (P.drop i) F C l) :
    Script (flat (P.take i)) (P.drop i) (I.map (SEdit.toPos (flat P)) ++ F) C (I.flatMap (fun e => lead e.text) ++ l) := by
  induction I with
  | nil => exact h
  | cons e I ih =>
    have he := hI e List.mem_cons_self
    have := script_edit he.1 he.2 (cs := []) (C := C) (by simp) (fun c hc => ⟨hC c hc, le_of_lt (hC c hc)⟩)
      (ih (fun x hx => hI x (List.mem_cons_of_mem _ hx)))
    have h2 : slice P i i = [] := by unfold slice; simp
    rw [h2] at this
    have h3 : firmOf ([] : Pieces) = [] := rfl
    rw [h3, List.append_nil] at this
    rw [List.flatMap_cons, List.append_assoc]
    exact this

/-! ## Marks -/

/-- There is a mark in the list behind these tokens. -/
def Marked (l u : Pieces) : Prop := ∃ l1 m l2, l = l1 ++ m :: l2 ∧ m.1 = K.WHITESPACE ∧ solid l1 = u

theorem Marked.after {l u : Pieces} (a : Pieces) (h : Marked l u) : Marked (a ++ l) (solid a ++ u) := by
  obtain ⟨l1, m, l2, h1, h2, h3⟩ := h
  exact ⟨a ++ l1, m, l2, by rw [h1, List.append_assoc], h2, by rw [solid_append, h3]⟩

theorem lead_eq {t : Text} (h : lead t ≠ []) : lead t = [gapMark] := by
  cases t with
  | nil => exact absurd rfl h
  | cons c t =>
    by_cases hc : wsClass.has c = true
    · show (if wsClass.has c = true then [gapMark] else []) = _
      rw [if_pos hc]
    · have : lead (c :: t) = [] := by
        show (if wsClass.has c = true then [gapMark] else []) = _
        rw [if_neg hc]
      exact absurd this h

theorem solid_lead (t : Text) : solid (lead t) = [] := by
  by_cases h : lead t = []
  · rw [h]; rfl
  · rw [lead_eq h]; rfl

theorem solid_leads (I : List SEdit) : solid (I.flatMap (fun e => lead e.text)) = [] := by
  induction I with
  | nil => rfl
  | cons e I ih => rw [List.flatMap_cons, solid_append, solid_lead, ih]; rfl

theorem solid_comItems (cs : List CMarker) : solid (cs.flatMap comItems) = cs.map (fun c => (K.Comment, c.text)) := by
  induction cs with
  | nil => rfl
  | cons c cs ih =>
    rw [List.flatMap_cons, solid_append, ih]
    unfold comItems
    split <;> rfl

/-- The markers at one position and behind it. -/
theorem filter_split {p b b' : Nat} (L : List SComment) (hs : L.Pairwise (fun x y => x.pos ≤ y.pos)) (hb : b ≤ p) (hp : p < b')
    (h : ∀ c ∈ L, b ≤ c.pos → c.pos = p ∨ b' ≤ c.pos) :
    L.filter (fun c => decide (b ≤ c.pos)) = L.filter (fun c => decide (c.pos = p)) ++ L.filter (fun c => decide (b' ≤ c.pos)) := by
  induction L with
  | nil => rfl
  | cons c L ih =>
    have hs' := List.pairwise_cons.1 hs
    have ihL := ih hs'.2 (fun x hx => h x (List.mem_cons_of_mem _ hx))
    by_cases h1 : b ≤ c.pos
    · rcases h c List.mem_cons_self h1 with h2 | h2
      · rw [List.filter_cons_of_pos (by simpa using h1), List.filter_cons_of_pos (by simpa using h2),
          List.filter_cons_of_neg (by simp; omega), ihL]
        rfl
      · have h3 : (c :: L).filter (fun c => decide (c.pos = p)) = [] := by
          rw [List.filter_eq_nil_iff]
          intro x hx
          have : c.pos ≤ x.pos := by
            rcases List.mem_cons.1 hx with rfl | hx
            · exact Nat.le_refl _
            · exact hs'.1 x hx
          simp; omega
        rw [h3, List.nil_append]
        refine List.filter_congr ?_
        intro x hx
        have : c.pos ≤ x.pos := by
          rcases List.mem_cons.1 hx with rfl | hx
          · exact Nat.le_refl _
          · exact hs'.1 x hx
        rw [decide_eq_true (show b ≤ x.pos by omega), decide_eq_true (show b' ≤ x.pos by omega)]
    · rw [List.filter_cons_of_neg (by simpa using h1), List.filter_cons_of_neg (by simp; omega),
        List.filter_cons_of_neg (by simp; omega), ihL]

theorem solid_firmOf (M : Pieces) : solid (firmOf M) = firmOf M := by
  unfold solid
  rw [List.filter_eq_self]
  intro p hp
  simpa using firm_ne p hp

theorem solid_run {M : Pieces} (h : ∀ x ∈ M, triviaKind x.1 = true) : solid M = comsOf M ∧ firmOf M = [] := by
  constructor
  · unfold solid comsOf
    refine List.filter_congr ?_
    intro x hx
    have := h x hx
    unfold triviaKind at this
    cases h1 : x.1 == K.WHITESPACE
    · rw [h1, Bool.false_or] at this
      rw [this]; simp [bne, h1]
    · have h2 : x.1 = K.WHITESPACE := by simpa using h1
      rw [h2]; decide
  · unfold firmOf
    rw [List.filter_eq_nil_iff]
    intro x hx
    rw [h x hx]; simp

theorem solid_firm {M : Pieces} (h : comsOf M = []) : solid M = firmOf M := by
  unfold solid firmOf
  refine List.filter_congr ?_
  intro x hx
  unfold comsOf at h
  have := List.filter_eq_nil_iff.1 h x hx
  unfold triviaKind
  simp only [Bool.not_eq_true] at this
  rw [this, Bool.or_false]; rfl

theorem mem_slice {P : Pieces} {i j : Nat} {x : Kind × Text} (h : x ∈ slice P i j) : ∃ k, i ≤ k ∧ k < j ∧ P[k]? = some x := by
  unfold slice at h
  obtain ⟨k, hk, rfl⟩ := List.mem_iff_getElem.1 h
  rw [List.length_drop, List.length_take] at hk
  refine ⟨i + k, by omega, by omega, ?_⟩
  rw [List.getElem_drop, List.getElem_take, List.getElem?_eq_getElem]

/-- The tokens of the pieces of an edit: its comments, then the tokens it lays out. -/
theorem solid_fits {P : Pieces} {i j : Nat} (h : Shape P i j) : solid (slice P i j) = comsOf (slice P i j) ++ firmOf (slice P i j) := by
  rcases h with ⟨rfl, _⟩ | ⟨rfl, h2⟩ | ⟨_, h2, _⟩
  · have : slice P i i = [] := by unfold slice; simp
    rw [this]; rfl
  · have : comsOf (slice P i (i + 1)) = [] := by
      unfold comsOf
      rw [List.filter_eq_nil_iff]
      intro x hx hc
      obtain ⟨k, h3, h4, h5⟩ := mem_slice hx
      have : k = i := by omega
      subst this
      unfold tr at h2
      rw [h5] at h2
      dsimp only at h2
      unfold triviaKind at h2
      rw [hc, Bool.or_true] at h2
      cases h2
    rw [this, solid_firm this]; rfl
  · have h3 : ∀ x ∈ slice P i j, triviaKind x.1 = true := by
      intro x hx
      obtain ⟨k, h3, h4, h5⟩ := mem_slice hx
      have := h2 k h3 h4
      unfold tr at this
      rw [h5] at this
      exact this
    have := solid_run h3
    rw [this.1, this.2, List.append_nil]

end Verif.Format
