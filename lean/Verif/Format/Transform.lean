import Verif.Format.Script
import Verif.Features.Spans
/-!
# `transform_edits` and `transform_comments`

Both walk through the text once; for edits without overlap, at character boundaries, they replace byte offsets by positions.
-/
namespace Verif.Format
open Verif Verif.Grammar Verif.Lexer Verif.Features

/-- The position of a byte offset. -/
def posAt (text : Text) (o : Nat) : Position :=
  match splitAtByte text o with
  | some (a, _) => posOf a
  | none => ⟨0, 0⟩

theorem posAt_append (a b : Text) : posAt (a ++ b) (blen a) = posOf a := by
  unfold posAt
  rw [splitAtByte_append]

/-- A character boundary of the text. -/
def Boundary (text : Text) (o : Nat) : Prop := ∃ a b, text = a ++ b ∧ o = blen a

/-- The edit with positions. -/
def SEdit.toPos (text : Text) (e : SEdit) : TextEdit := ⟨⟨posAt text e.start, posAt text e.stop⟩, e.text⟩

/-- The marker with a position. -/
def SComment.toPos (text : Text) (c : SComment) : CMarker := ⟨c.text, posAt text c.pos, c.level, c.trailing, c.emptyLine⟩

/-- No boundary lies inside a character. -/
theorem boundary_step {pre : Text} {c : Char} {cs : Text} {o : Nat} (h : Boundary (pre ++ c :: cs) o) (hlt : o < blen pre + u8 c) :
    o ≤ blen pre := by
  obtain ⟨a, b, h1, rfl⟩ := h
  by_cases hle : blen a ≤ blen pre
  · exact hle
  · exfalso
    rcases prefix_cases h1 with ⟨m, rfl, h2⟩ | ⟨m, hm, rfl, h2⟩
    · cases m with
      | nil => simp at hle
      | cons x m =>
        rw [List.cons_append, List.cons.injEq] at h2
        rw [← h2.1] at hlt
        have : blen (pre ++ c :: m) = blen pre + (u8 c + blen m) := by rw [blen_append]; rfl
        omega
    · rw [blen_append] at hle; omega

theorem drainEdits_cons (b : Nat) (p m : Position) (e : SEdit) (es : List SEdit) :
    drainEdits b p m (e :: es) =
      if e.stop = b then
        (⟨⟨if e.start = b then p else m, p⟩, e.text⟩ :: (drainEdits b p (if e.start = b then p else m) es).1,
          (drainEdits b p (if e.start = b then p else m) es).2.1, (drainEdits b p (if e.start = b then p else m) es).2.2)
      else ([], if e.start = b then p else m, e :: es) := by
  rfl

/-- The edits that end at a position. -/
theorem drainEdits_ok {text pre rest : Text} (ht : text = pre ++ rest) (L : List SEdit) : ∀ m : Position,
    (∀ e ∈ L, Boundary text e.start ∧ e.start ≤ e.stop ∧ blen pre ≤ e.stop) → L.Pairwise (fun a b => a.stop ≤ b.start) →
    (∀ e, L.head? = some e → e.start < blen pre → m = posAt text e.start) →
    ∃ D R m', L = D ++ R ∧ drainEdits (blen pre) (posOf pre) m L = (D.map (SEdit.toPos text), m', R) ∧
      (∀ e ∈ R, blen pre < e.stop) ∧ (∀ e, R.head? = some e → e.start ≤ blen pre → m' = posAt text e.start) := by
  have hp : posAt text (blen pre) = posOf pre := by rw [ht, posAt_append]
  induction L with
  | nil => intro m _ _ _; exact ⟨[], [], m, rfl, rfl, by simp, by simp⟩
  | cons e L ih =>
    intro m h1 h2 h3
    have he := h1 e List.mem_cons_self
    have h2' := List.pairwise_cons.1 h2
    have hm : e.start ≤ blen pre → (if e.start = blen pre then posOf pre else m) = posAt text e.start := by
      intro hle
      by_cases hs : e.start = blen pre
      · rw [if_pos hs, hs, hp]
      · rw [if_neg hs]
        exact h3 e rfl (by omega)
    by_cases hb : e.stop = blen pre
    · obtain ⟨D, R, m', k1, k2, k3, k4⟩ := ih (if e.start = blen pre then posOf pre else m)
        (fun x hx => h1 x (List.mem_cons_of_mem _ hx)) h2'.2 (by
          intro x hx hlt
          have := h2'.1 x (List.mem_of_mem_head? hx)
          omega)
      refine ⟨e :: D, R, m', by rw [k1]; rfl, ?_, k3, k4⟩
      rw [drainEdits_cons, if_pos hb, k2]
      have : SEdit.toPos text e = ⟨⟨if e.start = blen pre then posOf pre else m, posOf pre⟩, e.text⟩ := by
        unfold SEdit.toPos
        rw [hb, hp, ← hm (by omega)]
      rw [List.map_cons, this]
    · refine ⟨[], e :: L, _, rfl, by rw [drainEdits_cons, if_neg hb]; rfl, ?_, ?_⟩
      · intro x hx
        rcases List.mem_cons.1 hx with rfl | hx
        · omega
        · have h5 := h2'.1 x hx
          have h6 := h1 x (List.mem_cons_of_mem _ hx)
          omega
      · intro x hx hle
        simp only [List.head?_cons, Option.some.injEq] at hx
        subst hx
        exact hm hle

theorem walkEdits_eq (cs : List Char) (b : Nat) (p m : Position) (es : List SEdit) :
    walkEdits cs b p m es =
    match drainEdits b p m es with
    | (o, _, []) => some o
    | (o, m', e :: es') =>
      match cs with
      | [] => none
      | c :: cs' => (walkEdits cs' (b + u8 c) (p.step c) m' (e :: es')).map (o ++ ·) := by
  rw [walkEdits]
  rcases drainEdits b p m es with ⟨o, m', _ | ⟨e, es'⟩⟩ <;> cases cs <;> rfl

/-- The walk translates all edits. -/
theorem walkEdits_ok {text : Text} (rest : Text) : ∀ (pre : Text) (m : Position) (L : List SEdit), text = pre ++ rest →
    (∀ e ∈ L, Boundary text e.start ∧ Boundary text e.stop ∧ e.start ≤ e.stop ∧ blen pre ≤ e.stop) →
    L.Pairwise (fun a b => a.stop ≤ b.start) →
    (∀ e, L.head? = some e → e.start < blen pre → m = posAt text e.start) →
    walkEdits rest (blen pre) (posOf pre) m L = some (L.map (SEdit.toPos text)) := by
  induction rest with
  | nil =>
    intro pre m L ht h1 h2 h3
    obtain ⟨D, R, m', k1, k2, k3, k4⟩ := drainEdits_ok ht L m (fun e he => ⟨(h1 e he).1, (h1 e he).2.2⟩) h2 h3
    have hR : R = [] := by
      cases R with
      | nil => rfl
      | cons e R =>
        exfalso
        have h5 := k3 e List.mem_cons_self
        obtain ⟨a, b, h6, h7⟩ := (h1 e (by rw [k1]; simp)).2.1
        rw [List.append_nil] at ht
        have : blen text = blen a + blen b := by rw [h6, blen_append]
        rw [ht] at this
        omega
    subst hR
    rw [walkEdits_eq, k2, k1]
    simp
  | cons c rest ih =>
    intro pre m L ht h1 h2 h3
    obtain ⟨D, R, m', k1, k2, k3, k4⟩ := drainEdits_ok ht L m (fun e he => ⟨(h1 e he).1, (h1 e he).2.2⟩) h2 h3
    rw [walkEdits_eq, k2]
    cases R with
    | nil => rw [k1]; simp
    | cons e R =>
      dsimp only
      have hb : blen (pre ++ [c]) = blen pre + u8 c := by rw [blen_append]; rfl
      have := ih (pre ++ [c]) m' (e :: R) (by rw [ht]; simp) (fun x hx => by
          have h5 := h1 x (by rw [k1]; exact List.mem_append_right _ hx)
          refine ⟨h5.1, h5.2.1, h5.2.2.1, ?_⟩
          rw [hb]
          have h6 := k3 x hx
          by_cases h7 : blen pre + u8 c ≤ x.stop
          · exact h7
          · have h8 := h5.2.1
            rw [ht] at h8
            have := boundary_step h8 (by omega)
            omega)
        (by rw [k1] at h2; exact (List.pairwise_append.1 h2).2.1)
        (by
          intro x hx hlt
          rw [hb] at hlt
          have h5 := h1 x (by rw [k1]; exact List.mem_append_right _ (List.mem_of_mem_head? hx))
          have h8 := h5.1
          rw [ht] at h8
          exact k4 x hx (boundary_step h8 hlt))
      rw [hb, posOf_snoc] at this
      rw [this, k1]
      simp

/-! ## Comments -/

theorem drainComments_cons (b : Nat) (p : Position) (c : SComment) (cs : List SComment) :
    drainComments b p (c :: cs) =
      if c.pos = b then
        (⟨c.text, p, c.level, c.trailing, c.emptyLine⟩ :: (drainComments b p cs).1, (drainComments b p cs).2)
      else ([], c :: cs) := rfl

theorem walkComments_eq (cs : List Char) (b : Nat) (p : Position) (ms : List SComment) :
    walkComments cs b p ms =
    match drainComments b p ms with
    | (o, []) => some o
    | (o, m :: ms') =>
      match cs with
      | [] => none
      | c :: cs' => (walkComments cs' (b + u8 c) (p.step c) (m :: ms')).map (o ++ ·) := by
  rw [walkComments]
  rcases drainComments b p ms with ⟨o, _ | ⟨e, es'⟩⟩ <;> cases cs <;> rfl

theorem drainComments_ok {text pre rest : Text} (ht : text = pre ++ rest) (L : List SComment)
    (h1 : ∀ c ∈ L, blen pre ≤ c.pos) (h2 : L.Pairwise (fun a b => a.pos ≤ b.pos)) :
    ∃ D R, L = D ++ R ∧ drainComments (blen pre) (posOf pre) L = (D.map (SComment.toPos text), R) ∧ (∀ c ∈ R, blen pre < c.pos) := by
  have hp : posAt text (blen pre) = posOf pre := by rw [ht, posAt_append]
  induction L with
  | nil => exact ⟨[], [], rfl, rfl, by simp⟩
  | cons c L ih =>
    have h2' := List.pairwise_cons.1 h2
    by_cases hb : c.pos = blen pre
    · obtain ⟨D, R, k1, k2, k3⟩ := ih (fun x hx => h1 x (List.mem_cons_of_mem _ hx)) h2'.2
      refine ⟨c :: D, R, by rw [k1]; rfl, ?_, k3⟩
      rw [drainComments_cons, if_pos hb, k2, List.map_cons]
      have : SComment.toPos text c = ⟨c.text, posOf pre, c.level, c.trailing, c.emptyLine⟩ := by
        unfold SComment.toPos
        rw [hb, hp]
      rw [this]
    · refine ⟨[], c :: L, rfl, by rw [drainComments_cons, if_neg hb]; rfl, ?_⟩
      have h3 := h1 c List.mem_cons_self
      intro x hx
      rcases List.mem_cons.1 hx with rfl | hx
      · omega
      · have := h2'.1 x hx
        omega

theorem walkComments_ok {text : Text} (rest : Text) : ∀ (pre : Text) (L : List SComment), text = pre ++ rest →
    (∀ c ∈ L, Boundary text c.pos ∧ blen pre ≤ c.pos) → L.Pairwise (fun a b => a.pos ≤ b.pos) →
    walkComments rest (blen pre) (posOf pre) L = some (L.map (SComment.toPos text)) := by
  induction rest with
  | nil =>
    intro pre L ht h1 h2
    obtain ⟨D, R, k1, k2, k3⟩ := drainComments_ok ht L (fun e he => (h1 e he).2) h2
    have hR : R = [] := by
      cases R with
      | nil => rfl
      | cons e R =>
        exfalso
        have h5 := k3 e List.mem_cons_self
        obtain ⟨a, b, h6, h7⟩ := (h1 e (by rw [k1]; simp)).1
        rw [List.append_nil] at ht
        have : blen text = blen a + blen b := by rw [h6, blen_append]
        rw [ht] at this
        omega
    subst hR
    rw [walkComments_eq, k2, k1]
    simp
  | cons c rest ih =>
    intro pre L ht h1 h2
    obtain ⟨D, R, k1, k2, k3⟩ := drainComments_ok ht L (fun e he => (h1 e he).2) h2
    rw [walkComments_eq, k2]
    cases R with
    | nil => rw [k1]; simp
    | cons e R =>
      dsimp only
      have hb : blen (pre ++ [c]) = blen pre + u8 c := by rw [blen_append]; rfl
      have := ih (pre ++ [c]) (e :: R) (by rw [ht]; simp) (fun x hx => by
          have h5 := h1 x (by rw [k1]; exact List.mem_append_right _ hx)
          refine ⟨h5.1, ?_⟩
          rw [hb]
          have h6 := k3 x hx
          by_cases h7 : blen pre + u8 c ≤ x.pos
          · exact h7
          · have h8 := h5.1
            rw [ht] at h8
            have := boundary_step h8 (by omega)
            omega)
        (by rw [k1] at h2; exact (List.pairwise_append.1 h2).2.1)
      rw [hb, posOf_snoc] at this
      rw [this, k1]
      simp

/-- `transform_comments` translates the offsets. -/
theorem transformComments_ok {text : Text} (C : List SComment) (h : ∀ c ∈ C, Boundary text c.pos) :
    transformComments C text = some ((sortComments C).map (SComment.toPos text)) := by
  unfold transformComments
  by_cases hC : C = []
  · subst hC; rfl
  · rw [if_neg hC]
    refine walkComments_ok text [] (sortComments C) rfl ?_ ?_
    · intro c hc
      exact ⟨h c ((List.perm_insertionSort _ C).mem_iff.1 hc), Nat.zero_le _⟩
    · have : Std.Total (fun a b : SComment => a.pos ≤ b.pos) := ⟨fun a b => Nat.le_total _ _⟩
      have : IsTrans SComment (fun a b : SComment => a.pos ≤ b.pos) := ⟨fun a b c => Nat.le_trans⟩
      exact List.pairwise_insertionSort _ C

/-- `transform_edits` translates the offsets. -/
theorem transformEdits_ok {text : Text} (E : List SEdit) (hne : E ≠ [])
    (h : ∀ e ∈ E, Boundary text e.start ∧ Boundary text e.stop ∧ e.start ≤ e.stop)
    (hd : E.Pairwise (fun a b => a.stop ≤ b.start ∨ b.stop ≤ a.start)) :
    ∃ L : List SEdit, L.Perm E ∧ transformEdits E text = some (L.map (SEdit.toPos text)) := by
  have hperm : ((E.insertionSort byStopDesc).reverse).Perm E := (List.reverse_perm _).trans (List.perm_insertionSort _ E)
  refine ⟨(E.insertionSort byStopDesc).reverse, hperm, ?_⟩
  unfold transformEdits
  rw [if_neg hne]
  refine walkEdits_ok text [] ⟨0, 0⟩ _ rfl ?_ ?_ ?_
  · intro e he
    have := h e (hperm.mem_iff.1 he)
    exact ⟨this.1, this.2.1, this.2.2, Nat.zero_le _⟩
  · have : Std.Total byStopDesc := ⟨fun a b => by unfold byStopDesc; omega⟩
    have : IsTrans SEdit byStopDesc := ⟨fun a b c => by unfold byStopDesc; omega⟩
    have hs : (E.insertionSort byStopDesc).Pairwise byStopDesc := List.pairwise_insertionSort _ E
    have hd' : (E.insertionSort byStopDesc).Pairwise (fun a b => a.stop ≤ b.start ∨ b.stop ≤ a.start) :=
      (List.Perm.pairwise_iff (fun {a b} h => Or.symm h) (List.perm_insertionSort _ E)).2 hd
    rw [List.pairwise_reverse]
    refine (hs.and hd').imp_of_mem ?_
    intro a b ha hb hab
    have h1 := h a ((List.perm_insertionSort _ E).mem_iff.1 ha)
    have h2 := h b ((List.perm_insertionSort _ E).mem_iff.1 hb)
    have h3 := hab.1
    have h4 := hab.2
    unfold byStopDesc at h3
    omega
  · intro e _ hlt
    exact absurd hlt (Nat.not_lt_zero _)

end Verif.Format
