import Verif.ApplyEdits
import Verif.EditSpec
import Verif.TextLemmas
namespace Verif

theorem splitAtByte_append (a b : Text) : splitAtByte (a ++ b) (blen a) = some (a, b) := by
  induction a with
  | nil => cases b <;> simp [splitAtByte]
  | cons c cs ih =>
    have hpos := u8_pos c
    obtain ⟨n, hn⟩ : ∃ n, blen (c :: cs) = n + 1 := ⟨blen (c :: cs) - 1, by simp; omega⟩
    rw [List.cons_append, hn, splitAtByte]
    simp only [blen_cons] at hn
    rw [if_pos (by omega), show n + 1 - u8 c = blen cs by omega, ih]

theorem replaceRange_append (a b c new : Text) :
    replaceRange (a ++ b ++ c) (blen a) (blen (a ++ b)) new = some (a ++ new ++ c) := by
  unfold replaceRange
  rw [if_neg (by simp), List.append_assoc, splitAtByte_append]
  simp only [blen_append, Nat.add_sub_cancel_left]
  rw [splitAtByte_append]

/-- Stack of UTF-16 line lengths before the boundary after `pre`, last line first. -/
def breaksOf (pre : Text) : List Nat := (lineBreaks pre [] 0).1

theorem lineBreaks_snoc (t : Text) (c : Char) (b : List Nat) (n : Nat) :
    lineBreaks (t ++ [c]) b n =
      if c = '\n' then ((lineBreaks t b n).2 :: (lineBreaks t b n).1, 0)
      else ((lineBreaks t b n).1, (lineBreaks t b n).2 + u16 c) := by
  induction t generalizing b n with
  | nil => simp [lineBreaks]
  | cons d ds ih =>
    simp only [List.cons_append, lineBreaks]
    split <;> rw [ih]

theorem lineBreaks_spec (t : Text) :
    (lineBreaks t [] 0).2 = len16 (lastLine t) ∧ (lineBreaks t [] 0).1.length = lineNo t := by
  induction t using List.reverseRecOn with
  | nil => simp [lineBreaks, lastLine, lineNo]
  | append_singleton t c ih =>
    rw [lineBreaks_snoc, lastLine_snoc]
    by_cases h : c = '\n'
    · simp [h, ih.2, lineNo]
    · simp [h, ih.1, ih.2, lineNo]

theorem breaksOf_snoc_nl (t : Text) : breaksOf (t ++ ['\n']) = len16 (lastLine t) :: breaksOf t := by
  unfold breaksOf; rw [lineBreaks_snoc]; simp [(lineBreaks_spec t).1]

theorem breaksOf_snoc_ne (t : Text) (c : Char) (h : c ≠ '\n') : breaksOf (t ++ [c]) = breaksOf t := by
  unfold breaksOf; rw [lineBreaks_snoc]; simp [h]

/-- The loop at the boundary after `pre`. -/
def L (pre : Text) (text : Text) (endOff : Nat) (edits : List TextEdit) : Option Text :=
  applyLoop pre.reverse (breaksOf pre) (posOf pre) (blen pre) text endOff edits

theorem L_nil (pre text endOff) : L pre text endOff [] = some text := by
  unfold L; cases h : pre.reverse <;> unfold applyLoop <;> simp [applyAt]

theorem L_due (pre text endOff e es) (hs : e.range.start = posOf pre) :
    L pre text endOff (e :: es) =
      match replaceRange text (blen pre) (if e.range.stop = posOf pre then blen pre else endOff) e.newText with
      | none => none
      | some text' => L pre text' (if e.range.stop = posOf pre then blen pre else endOff) es := by
  have hle : e.range.start.le (posOf pre) = true := by rw [le_iff]; exact Or.inr hs
  have hA : applyAt (posOf pre) (blen pre) (e :: es) text endOff =
      match replaceRange text (blen pre) (if e.range.stop = posOf pre then blen pre else endOff) e.newText with
      | none => none
      | some text' => applyAt (posOf pre) (blen pre) es text'
          (if e.range.stop = posOf pre then blen pre else endOff) := by
    rw [applyAt, if_neg (by rw [hle]; simp)]
    simp only [hs, if_true]
    rfl
  unfold L
  cases hr : pre.reverse with
  | nil =>
    unfold applyLoop
    rw [hA]
    cases replaceRange text (blen pre) (if e.range.stop = posOf pre then blen pre else endOff) e.newText <;> rfl
  | cons c cs =>
    unfold applyLoop
    rw [hA]
    cases replaceRange text (blen pre) (if e.range.stop = posOf pre then blen pre else endOff) e.newText <;> rfl

theorem L_step (pre c text endOff e es) (hs : e.range.start.Before (posOf (pre ++ [c]))) :
    L (pre ++ [c]) text endOff (e :: es) =
      L pre text (if e.range.stop = posOf (pre ++ [c]) then blen (pre ++ [c]) else endOff) (e :: es) := by
  have h1 : e.range.start.le (posOf (pre ++ [c])) = true := by rw [le_iff]; exact Or.inl hs
  have h2 : e.range.start ≠ posOf (pre ++ [c]) := by
    intro h; rw [h] at hs; exact Before.irrefl _ hs
  have hA : applyAt (posOf (pre ++ [c])) (blen (pre ++ [c])) (e :: es) text endOff =
      some (text, if e.range.stop = posOf (pre ++ [c]) then blen (pre ++ [c]) else endOff, e :: es) := by
    rw [applyAt]; simp only [h1, Bool.true_eq_false, if_false, h2]
  have hb : blen (pre ++ [c]) - u8 c = blen pre := by simp
  conv => lhs; unfold L
  rw [List.reverse_append, List.reverse_singleton, List.singleton_append]
  unfold applyLoop
  rw [hA]
  simp only
  by_cases hc : c = '\n'
  · subst hc
    rw [if_pos rfl, breaksOf_snoc_nl]
    simp only
    rw [hb]
    have : (⟨(posOf (pre ++ ['\n'])).line - 1, len16 (lastLine pre)⟩ : Position) = posOf pre := by
      rw [posOf_snoc]; simp [Position.step, posOf]
    rw [this]; rfl
  · rw [if_neg hc, breaksOf_snoc_ne _ _ hc, hb]
    have : (⟨(posOf (pre ++ [c])).line, (posOf (pre ++ [c])).character - u16 c⟩ : Position) = posOf pre := by
      rw [posOf_snoc]; simp [Position.step, posOf, hc]
    rw [this]; rfl

/-- Phase 2: between end and start of the edit. -/
theorem L_inside (P d new : Text) (text : Text) (es) (hi : Nat) (stop : Position)
    (hstop : ∀ x y, d = x ++ y → stop = posOf (P ++ x) → hi = blen (P ++ x)) :
    L (P ++ d) text hi (⟨⟨posOf P, stop⟩, new⟩ :: es) =
      L P text hi (⟨⟨posOf P, stop⟩, new⟩ :: es) := by
  induction d using List.reverseRecOn with
  | nil => simp
  | append_singleton d c ih =>
    rw [← List.append_assoc, L_step]
    · have : (if stop = posOf (P ++ d ++ [c]) then blen (P ++ d ++ [c]) else hi) = hi := by
        split
        · next h => exact (hstop (d ++ [c]) [] (by simp) (by simpa using h)).symm ▸ (by simp)
        · rfl
      rw [this]
      exact ih (fun x y hxy h => hstop x (y ++ [c]) (by simp [hxy]) h)
    · have := posOf_before P (d ++ [c]) (by simp)
      simpa using this

/-- Phase 1: behind the end of the edit. -/
theorem L_behind (P old keep new : Text) (text : Text) (es) (endOff : Nat) (h : old ≠ [] ∨ keep ≠ []) :
    L (P ++ old ++ keep) text endOff (⟨⟨posOf P, posOf (P ++ old)⟩, new⟩ :: es) =
      L P text (blen (P ++ old)) (⟨⟨posOf P, posOf (P ++ old)⟩, new⟩ :: es) ∨ old = [] := by
  induction keep using List.reverseRecOn generalizing endOff with
  | nil =>
    by_cases ho : old = []
    · exact Or.inr ho
    · left
      obtain ⟨o', c, hoc⟩ : ∃ o' c, old = o' ++ [c] := by
        rcases List.eq_nil_or_concat old with h | ⟨o', c, h⟩
        · exact absurd h ho
        · exact ⟨o', c, by rw [h, List.concat_eq_append]⟩
      rw [List.append_nil, hoc, ← List.append_assoc, L_step]
      · rw [if_pos rfl]
        apply L_inside P o' new
        intro x y hxy hx
        have := posOf_inj (a := P ++ o' ++ [c]) (b := []) (c := P ++ x) (d := y ++ [c])
          (by simp [hxy]) hx
        rw [this]
      · have := posOf_before P (o' ++ [c]) (by simp)
        simpa using this
  | append_singleton k c ih =>
    by_cases ho : old = []
    · exact Or.inr ho
    · rw [← List.append_assoc, L_step]
      · exact ih _ (Or.inl ho)
      · have := posOf_before P (old ++ k ++ [c]) (by simp)
        simpa using this

theorem L_behind_insert (P keep new : Text) (text : Text) (es) (endOff : Nat) :
    ∃ endOff', L (P ++ keep) text endOff (⟨⟨posOf P, posOf P⟩, new⟩ :: es) =
      L P text endOff' (⟨⟨posOf P, posOf P⟩, new⟩ :: es) := by
  induction keep using List.reverseRecOn generalizing endOff with
  | nil => exact ⟨endOff, by simp⟩
  | append_singleton k c ih =>
    rw [← List.append_assoc, L_step]
    · exact ih _
    · have := posOf_before P (k ++ [c]) (by simp)
      simpa using this

/-- One edit is applied on the way back. -/
theorem L_edit (P old keep new Q : Text) (es) (endOff : Nat) :
    ∃ endOff', L (P ++ old ++ keep) (P ++ old ++ keep ++ Q) endOff
        (⟨⟨posOf P, posOf (P ++ old)⟩, new⟩ :: es) = L P (P ++ new ++ keep ++ Q) endOff' es := by
  by_cases ho : old = []
  · subst ho
    simp only [List.append_nil]
    obtain ⟨e', he⟩ := L_behind_insert P keep new (P ++ keep ++ Q) es endOff
    rw [he, L_due _ _ _ _ _ rfl]
    simp only [if_true]
    have := replaceRange_append P [] (keep ++ Q) new
    simp only [List.append_nil, ← List.append_assoc] at this
    rw [this]
    exact ⟨_, rfl⟩
  · rcases L_behind P old keep new (P ++ old ++ keep ++ Q) es endOff (Or.inl ho) with h | h
    · rw [h, L_due _ _ _ _ _ rfl]
      have hne : posOf (P ++ old) ≠ posOf P := by
        intro hh
        have := posOf_before P old ho
        rw [hh] at this; exact Before.irrefl _ this
      simp only [hne, if_false]
      have := replaceRange_append P old (keep ++ Q) new
      simp only [← List.append_assoc] at this
      rw [this]
      exact ⟨_, rfl⟩
    · exact absurd h ho

theorem origOf_append (a b : List Seg) : origOf (a ++ b) = origOf a ++ origOf b := by
  induction a with
  | nil => rfl
  | cons s ss ih => simp [origOf, ih]

theorem resultOf_append (a b : List Seg) : resultOf (a ++ b) = resultOf a ++ resultOf b := by
  induction a with
  | nil => rfl
  | cons s ss ih => simp [resultOf, ih]

theorem editsOf_append (pre : Text) (a b : List Seg) :
    editsOf pre (a ++ b) = editsOf pre a ++ editsOf (pre ++ origOf a) b := by
  induction a generalizing pre with
  | nil => simp [editsOf, origOf]
  | cons s ss ih => simp [editsOf, origOf, ih]

theorem L_segs (segs : List Seg) (last Q : Text) (endOff : Nat) :
    L (origOf segs ++ last) (origOf segs ++ last ++ Q) endOff ((editsOf [] segs).reverse) =
      some (resultOf segs ++ last ++ Q) := by
  induction segs using List.reverseRecOn generalizing last Q endOff with
  | nil => simp [origOf, resultOf, editsOf, L_nil]
  | append_singleton ss s ih =>
    rw [editsOf_append, origOf_append, resultOf_append]
    simp only [editsOf, origOf, resultOf, List.reverse_append, List.reverse_singleton,
      List.singleton_append, List.nil_append, List.append_nil]
    obtain ⟨e', he⟩ := L_edit (origOf ss ++ s.keep) s.old last s.new Q (editsOf [] ss).reverse endOff
    have hassoc : origOf ss ++ (s.keep ++ s.old) ++ last = origOf ss ++ s.keep ++ s.old ++ last := by simp
    rw [hassoc, he]
    have := ih s.keep (s.new ++ last ++ Q) e'
    simp only [← List.append_assoc] at this ⊢
    rw [this]

/-! ### sorting -/

theorem editOrder_iff (a b : TextEdit) : editOrder a b ↔
    b.range.start.Before a.range.start ∨
      (b.range.start = a.range.start ∧ (b.range.stop.Before a.range.stop ∨ b.range.stop = a.range.stop)) := by
  unfold editOrder; rw [lt_iff, le_iff]

instance : IsTrans TextEdit editOrder := ⟨fun a b c h k => by
  rw [editOrder_iff] at *
  rcases h with h | ⟨h1, h2⟩ <;> rcases k with k | ⟨k1, k2⟩
  · exact Or.inl (Before.trans k h)
  · exact Or.inl (k1 ▸ h)
  · exact Or.inl (h1 ▸ k)
  · refine Or.inr ⟨k1.trans h1, ?_⟩
    rcases h2 with h2 | h2 <;> rcases k2 with k2 | k2
    · exact Or.inl (Before.trans k2 h2)
    · exact Or.inl (k2 ▸ h2)
    · exact Or.inl (h2 ▸ k2)
    · exact Or.inr (k2.trans h2)⟩

instance : Std.Total editOrder := ⟨fun a b => by
  rw [editOrder_iff, editOrder_iff]
  rcases Before.total a.range.start b.range.start with h | h | h
  · exact Or.inr (Or.inl h)
  · rcases Before.total a.range.stop b.range.stop with k | k | k
    · exact Or.inr (Or.inr ⟨h, Or.inl k⟩)
    · exact Or.inr (Or.inr ⟨h, Or.inr k⟩)
    · exact Or.inl (Or.inr ⟨h.symm, Or.inl k⟩)
  · exact Or.inl (Or.inl h)⟩

theorem editOrder_antisymm_range {a b : TextEdit} (h : editOrder a b) (k : editOrder b a) : a.range = b.range := by
  rw [editOrder_iff] at h k
  have hs : a.range.start = b.range.start := by
    rcases h with h | h
    · rcases k with k | k
      · exact absurd k (Before.asymm h)
      · exact k.1
    · exact h.1.symm
  have hst : a.range.stop = b.range.stop := by
    rcases h with h | ⟨-, h | h⟩
    · rw [hs] at h; exact absurd h (Before.irrefl _)
    · rcases k with k | ⟨-, k | k⟩
      · rw [hs] at k; exact absurd k (Before.irrefl _)
      · exact absurd k (Before.asymm h)
      · exact k
    · exact h.symm
  rcases ha : a.range with ⟨s, t⟩
  rcases hb : b.range with ⟨s', t'⟩
  rw [ha, hb] at hs hst
  simp only at hs hst
  rw [hs, hst]

theorem sortEdits_perm (l : List TextEdit) : (sortEdits l).Perm l := List.perm_insertionSort _ _

theorem sortEdits_sorted (l : List TextEdit) : (sortEdits l).Pairwise editOrder :=
  List.pairwise_insertionSort _ _

/-- A sorted permutation with distinct ranges is unique. -/
theorem sorted_unique {l₁ l₂ : List TextEdit} (hp : l₁.Perm l₂) (h₁ : l₁.Pairwise editOrder)
    (h₂ : l₂.Pairwise editOrder) (hd : l₁.Pairwise (fun a b => a.range ≠ b.range)) : l₁ = l₂ := by
  apply List.Perm.eq_of_pairwise _ h₁ h₂ hp
  intro a b ha hb hab hba
  have hr := editOrder_antisymm_range hab hba
  by_contra hne
  have hb' : b ∈ l₁ := hp.mem_iff.mpr hb
  have key : ∀ (l : List TextEdit), l.Pairwise (fun a b => a.range ≠ b.range) →
      ∀ x ∈ l, ∀ y ∈ l, x.range = y.range → x = y := by
    intro l hl
    induction hl with
    | nil => simp
    | cons h1 _ ih =>
      intro x hx y hy hxy
      simp only [List.mem_cons] at hx hy
      rcases hx with rfl | hx <;> rcases hy with rfl | hy
      · rfl
      · exact absurd hxy (h1 y hy)
      · exact absurd hxy.symm (h1 x hx)
      · exact ih x hx y hy hxy
  exact hne (key l₁ hd a ha b hb' hr)

theorem editsOf_start (pre : Text) (segs : List Seg) (e : TextEdit) (he : e ∈ editsOf pre segs) :
    (∃ x, e.range.start = posOf (pre ++ x)) ∧ (∃ x y, e.range.start = posOf (pre ++ x) ∧
      e.range.stop = posOf (pre ++ x ++ y)) := by
  induction segs generalizing pre with
  | nil => simp [editsOf] at he
  | cons s ss ih =>
    simp only [editsOf, List.mem_cons] at he
    rcases he with rfl | he
    · exact ⟨⟨s.keep, rfl⟩, s.keep, s.old, rfl, rfl⟩
    · obtain ⟨-, x, y, h1, h2⟩ := ih _ he
      exact ⟨⟨s.keep ++ s.old ++ x, by rw [h1]; simp⟩, s.keep ++ s.old ++ x, y, by rw [h1]; simp,
        by rw [h2]; simp⟩

theorem posOf_le (a x : Text) : (posOf a).Before (posOf (a ++ x)) ∨ posOf a = posOf (a ++ x) := by
  by_cases hx : x = []
  · right; simp [hx]
  · exact Or.inl (posOf_before a x hx)

theorem editsOf_sorted (pre : Text) (segs : List Seg) : (editsOf pre segs).reverse.Pairwise editOrder := by
  rw [List.pairwise_reverse]
  induction segs generalizing pre with
  | nil => simp [editsOf]
  | cons s ss ih =>
    simp only [editsOf, List.pairwise_cons]
    refine ⟨?_, ih _⟩
    intro e he
    obtain ⟨-, x, y, h1, h2⟩ := editsOf_start _ _ _ he
    rw [editOrder_iff]
    simp only [h1, h2]
    have hle : (posOf (pre ++ s.keep)).Before (posOf (pre ++ s.keep ++ s.old ++ x)) ∨
        posOf (pre ++ s.keep) = posOf (pre ++ s.keep ++ s.old ++ x) := by
      have := posOf_le (pre ++ s.keep) (s.old ++ x)
      simpa using this
    rcases hle with h | h
    · exact Or.inl h
    · refine Or.inr ⟨h, ?_⟩
      have := posOf_le (pre ++ s.keep ++ s.old) (x ++ y)
      simpa using this

theorem applyTextEdits_segs (segs : List Seg) (last : Text) (edits : List TextEdit)
    (hp : edits.Perm (editsOf [] segs)) (hd : edits.Pairwise (fun a b => a.range ≠ b.range)) :
    applyTextEdits (origOf segs ++ last) edits = some (ensureNL (resultOf segs ++ last)) := by
  have hs : sortEdits edits = (editsOf [] segs).reverse := by
    refine sorted_unique (((sortEdits_perm _).trans hp).trans (List.reverse_perm _).symm)
      (sortEdits_sorted _) (editsOf_sorted _ _) ?_
    exact (sortEdits_perm edits).symm.pairwise hd (fun h => Ne.symm h)
  generalize ht : origOf segs ++ last = t
  have hL := L_segs segs last [] (blen t)
  simp only [List.append_nil, ht] at hL
  unfold applyTextEdits
  obtain ⟨h1, h2⟩ := lineBreaks_spec t
  have hcur : (if t.getLast? = some '\n' then (⟨(lineBreaks t [] 0).1.length, 0⟩ : Position)
      else ⟨(lineBreaks t [] 0).1.length, (lineBreaks t [] 0).2⟩) = posOf t := by
    rw [h1, h2]
    split
    · next hl =>
      obtain ⟨q, rfl⟩ : ∃ q, t = q ++ ['\n'] := by
        rcases List.eq_nil_or_concat t with rfl | ⟨q, c, rfl⟩
        · simp at hl
        · rw [List.concat_eq_append] at hl ⊢
          simp at hl; exact ⟨q, by rw [hl]⟩
      simp [posOf, lastLine_snoc]
    · rfl
  simp only
  rw [hcur, hs]
  unfold L breaksOf at hL
  rw [hL]

/-! ### from valid non-overlapping edits to segments -/

theorem start_le_stop {t : Text} {r : Range} (h : ValidIn t r) : r.start.Before r.stop ∨ r.start = r.stop := by
  obtain ⟨a, b, c, -, h1, h2⟩ := h
  rw [h1, h2]; exact posOf_le a b

/-- Build segments from edits in document order. -/
theorem segs_of_ordered (t A B : Text) (ht : t = A ++ B) (edits : List TextEdit)
    (hv : ∀ e ∈ edits, ValidIn t e.range)
    (hA : ∀ e ∈ edits, ¬ e.range.start.Before (posOf A))
    (hord : edits.Pairwise (fun a b => ¬ b.range.start.Before a.range.stop)) :
    ∃ segs last, B = origOf segs ++ last ∧ edits = editsOf A segs := by
  induction edits generalizing A B with
  | nil => exact ⟨[], B, rfl, rfl⟩
  | cons e es ih =>
    obtain ⟨a, b, c, h0, h1, h2⟩ := hv e (by simp)
    have hAe := hA e (by simp)
    rw [h1] at hAe
    rw [List.append_assoc] at h0
    obtain ⟨k, hk, hB⟩ : ∃ k, a = A ++ k ∧ B = k ++ (b ++ c) := by
      rcases prefix_cases (ht.symm.trans h0) with ⟨m, hm, hm'⟩ | ⟨m, hne, hm, -⟩
      · exact ⟨m, hm, hm'⟩
      · exact absurd (hm ▸ posOf_before a m hne) hAe
    rw [List.pairwise_cons] at hord
    obtain ⟨segs, last, hs1, hs2⟩ := ih (a ++ b) c (by rw [h0]; simp) (fun x hx => hv x (by simp [hx]))
      (fun x hx => by rw [← h2]; exact hord.1 x hx) hord.2
    refine ⟨⟨k, b, e.newText⟩ :: segs, last, by rw [hB, hs1]; simp [origOf], ?_⟩
    simp only [editsOf]
    rw [← hk, hs2, ← h1, ← h2]

/-- Ascending document order. -/
theorem exists_segs (t : Text) (edits : List TextEdit) (hv : ∀ e ∈ edits, ValidIn t e.range)
    (hno : edits.Pairwise (fun a b => a.overlaps b = false ∧ a.range ≠ b.range)) :
    ∃ segs last, t = origOf segs ++ last ∧ edits.Perm (editsOf [] segs) := by
  have hperm : (sortEdits edits).reverse.Perm edits := (List.reverse_perm _).trans (sortEdits_perm _)
  have hno' : (sortEdits edits).reverse.Pairwise (fun a b => a.overlaps b = false ∧ a.range ≠ b.range) := by
    refine hperm.symm.pairwise hno ?_
    intro a b h
    refine ⟨?_, h.2.symm⟩
    have : b.overlaps a = a.overlaps b := by
      unfold TextEdit.overlaps Range.overlaps; exact Bool.and_comm _ _
    rw [this]; exact h.1
  have hsort : (sortEdits edits).reverse.Pairwise (fun a b => editOrder b a) := by
    rw [List.pairwise_reverse]; exact sortEdits_sorted _
  have hv' : ∀ e ∈ (sortEdits edits).reverse, ValidIn t e.range := fun e he => hv e (hperm.mem_iff.mp he)
  obtain ⟨segs, last, h1, h2⟩ := segs_of_ordered t [] t (by simp) (sortEdits edits).reverse hv'
    (fun e _ => by unfold Position.Before; simp)
    (by
      have hall := (hno'.and hsort)
      refine List.Pairwise.imp_of_mem ?_ hall
      rintro a b ha hb ⟨⟨h1, h2⟩, h3⟩ hlt
      rw [editOrder_iff] at h3
      have va := start_le_stop (hv' a ha)
      have vb := start_le_stop (hv' b hb)
      have hn : ¬ a.range.start.Before b.range.stop := by
        intro hab
        have : a.overlaps b = true := by
          simp only [TextEdit.overlaps, Range.overlaps, Bool.and_eq_true, lt_iff]
          exact ⟨hab, hlt⟩
        rw [this] at h1; simp at h1
      rcases ha' : a.range with ⟨⟨a1, a2⟩, ⟨a3, a4⟩⟩
      rcases hb' : b.range with ⟨⟨b1, b2⟩, ⟨b3, b4⟩⟩
      simp only [ha', hb', Position.Before, Position.mk.injEq] at *
      omega)
  exact ⟨segs, last, h1, by rw [← h2]; exact hperm.symm⟩

end Verif
