import Verif.Features.Jump
import Verif.ApplyEditsLemmas
import Verif.Props.Text
import Verif.Props.Edits
import Verif.Props.Folding
import Verif.Features.Demo
import Mathlib.Data.List.TakeWhile
/-!
# The jump request (C29, C30)

Specification: the decomposition of a document into kept and replaced pieces (EditSpec.lean) says where an offset of the
old document is in the new one. `relevantPositions` are the places to jump to.
-/
namespace Verif.Props
open Verif Verif.Grammar Verif.Lexer Verif.Features

/-! ## C30 -/

/-- Byte ranges and lengths of the edits of a decomposition. -/
def segBytes : Nat → List Seg → List ((Nat × Nat) × Nat)
  | _, [] => []
  | o, s :: ss =>
    ((o + blen s.keep, o + blen s.keep + blen s.old), blen s.new) :: segBytes (o + blen s.keep + blen s.old) ss

theorem toU32_of {x : Int} {n : Nat} (h : x = n) (hn : n < 4294967296) : toU32 x = n := by
  unfold toU32; omega

theorem mapLoop_done (off : Nat) (s1 s2 : List Seg) (o : Nat) (d : Int) (h : o + blen (origOf s1) ≤ off) :
    mapLoop off (segBytes o (s1 ++ s2)) d =
      mapLoop off (segBytes (o + blen (origOf s1)) s2) (d + blen (resultOf s1) - blen (origOf s1)) := by
  induction s1 generalizing o d with
  | nil => simp [origOf, resultOf]
  | cons s s1 ih =>
    simp only [origOf, resultOf, blen_append] at h ⊢
    simp only [List.cons_append, segBytes, mapLoop]
    rw [if_pos (by omega), ih _ _ (by omega)]
    congr 1
    · congr 1; omega
    · push_cast; omega

/-- What the places say about one edit. -/
theorem edit_bytes {text a b c : Text} (h : text = a ++ b ++ c) (hcr : '\r' ∉ text) :
    (⟨posOf a, posOf (a ++ b)⟩ : Range).toByteIndexRange text = some (blen a, blen a + blen b) := by
  have h1 : byteIndex (posOf a) text = some (blen a) := by
    have := c01_boundary_roundtrip a (b ++ c) (by
      intro hm
      obtain ⟨q, e, -⟩ := split_lastLine a
      apply hcr; rw [h, e]; simp [hm])
    rw [h, List.append_assoc]; exact this
  have h2 : byteIndex (posOf (a ++ b)) text = some (blen a + blen b) := by
    have := c01_boundary_roundtrip (a ++ b) c (by
      intro hm
      obtain ⟨q, e, -⟩ := split_lastLine (a ++ b)
      apply hcr; rw [h, e]; simp [hm])
    rw [h, this, blen_append]
  unfold Range.toByteIndexRange
  rw [h1, h2]

/-- Byte range and length of an edit. -/
def conv (text : Text) (e : TextEdit) : (Nat × Nat) × Nat :=
  ((e.range.toByteIndexRange text).getD (0, 0), blen e.newText)

theorem editsOf_conv (segs : List Seg) (pre last text : Text) (h : text = pre ++ origOf segs ++ last) (hcr : '\r' ∉ text) :
    (editsOf pre segs).map (conv text) = segBytes (blen pre) segs ∧
    ∀ e ∈ editsOf pre segs, ∃ a b c, text = a ++ b ++ c ∧ e.range.start = posOf a ∧
      e.range.toByteIndexRange text = some (blen a, blen a + blen b) := by
  induction segs generalizing pre with
  | nil => simp [editsOf, segBytes]
  | cons s ss ih =>
    simp only [origOf] at h
    obtain ⟨h1, h2⟩ := ih (pre ++ s.keep ++ s.old) (by rw [h]; simp)
    have h3 := edit_bytes (text := text) (a := pre ++ s.keep) (b := s.old) (c := origOf ss ++ last)
      (by rw [h]; simp) hcr
    constructor
    · simp only [editsOf, List.map_cons, segBytes]
      rw [h1]
      simp only [conv, h3, Option.getD_some, blen_append]
    · intro e he
      simp only [editsOf, List.mem_cons] at he
      rcases he with rfl | he
      · exact ⟨pre ++ s.keep, s.old, origOf ss ++ last, by rw [h]; simp, rfl, h3⟩
      · exact h2 e he

theorem byteEdits_map (text : Text) (edits : List TextEdit)
    (h : ∀ e ∈ edits, ∃ a b, e.range.toByteIndexRange text = some (a, b) ∧ a ≤ b) :
    byteEdits text edits = some (edits.map (conv text)) := by
  induction edits with
  | nil => rfl
  | cons e es ih =>
    obtain ⟨a, b, h1, h2⟩ := h e (by simp)
    rw [byteEdits, ih (fun x hx => h x (by simp [hx]))]
    simp only [h1]
    rw [if_neg (by omega)]
    simp [conv, h1]

theorem segBytes_ge (segs : List Seg) (o : Nat) : ∀ x ∈ segBytes o segs, o ≤ x.1.1 := by
  induction segs generalizing o with
  | nil => simp [segBytes]
  | cons s ss ih =>
    intro x hx
    simp only [segBytes, List.mem_cons] at hx
    rcases hx with rfl | hx
    · simp
    · have := ih _ x hx; omega

theorem segBytes_sorted (segs : List Seg) (o : Nat) : (segBytes o segs).Pairwise (fun a b => a.1.1 ≤ b.1.1) := by
  induction segs generalizing o with
  | nil => exact .nil
  | cons s ss ih =>
    refine .cons ?_ (ih _)
    intro x hx
    have := segBytes_ge ss _ x hx
    simp only; omega

/-- Distinct starting points of the edits of a decomposition. -/
theorem mapOffset_eq (segs : List Seg) (last text : Text) (edits : List TextEdit) (off : Nat)
    (ht : text = origOf segs ++ last) (hcr : '\r' ∉ text) (hp : edits.Perm (editsOf [] segs))
    (hd : edits.Pairwise (fun a b => a.range.start ≠ b.range.start)) :
    mapOffset off edits text = some (mapLoop off (segBytes 0 segs) 0) := by
  obtain ⟨h1, h2⟩ := editsOf_conv segs [] last text (by simpa using ht) hcr
  unfold mapOffset
  rw [byteEdits_map text edits (fun e he => by
    obtain ⟨a, b, c, -, -, h⟩ := h2 e (hp.mem_iff.1 he)
    exact ⟨_, _, h, by omega⟩)]
  simp only [Option.map_some, Option.some.injEq]
  congr 1
  have h1' : (editsOf [] segs).map (conv text) = segBytes 0 segs := h1
  rw [← h1']
  refine List.Perm.eq_of_pairwise (le := fun a b => a.1.1 ≤ b.1.1) ?_ (List.pairwise_insertionSort _ _)
    (by rw [h1']; exact segBytes_sorted _ _) ((List.perm_insertionSort _ _).trans (hp.map _))
  intro x y hx hy hxy hyx
  have hx' := (List.perm_insertionSort _ _).mem_iff.1 hx
  obtain ⟨e, he, rfl⟩ := List.mem_map.1 hx'
  obtain ⟨f, hf, rfl⟩ := List.mem_map.1 hy
  have hf' := hp.mem_iff.2 hf
  have heq : (conv text e).1.1 = (conv text f).1.1 := Nat.le_antisymm hxy hyx
  have hst : e.range.start = f.range.start := by
    obtain ⟨a, b, c, k1, k2, k3⟩ := h2 e (hp.mem_iff.1 he)
    obtain ⟨a', b', c', l1, l2, l3⟩ := h2 f hf
    simp only [conv, k3, l3, Option.getD_some] at heq
    have := (prefix_eq_of_blen (a := a) (b := b ++ c) (c := a') (d := b' ++ c') (by
      rw [← List.append_assoc, ← List.append_assoc, ← k1, ← l1]) heq).1
    rw [k2, l2, this]
  have key : ∀ (l : List TextEdit), l.Pairwise (fun a b => a.range.start ≠ b.range.start) →
      ∀ x ∈ l, ∀ y ∈ l, x.range.start = y.range.start → x = y := by
    intro l hl
    induction hl with
    | nil => simp
    | cons h1 _ ih =>
      intro x hx y hy hxy
      simp only [List.mem_cons] at hx hy
      rcases hx with rfl | hx <;> rcases hy with rfl | hy
      · rfl
      · exact absurd hxy (h1 y hy)
      · exact absurd hxy.symm (h1 x hx)
      · exact ih x hx y hy hxy
  rw [key edits hd e he f hf' hst]

/-- The text right of the edits before the cursor that is kept: a piece of the text kept in front of the next edit, which
is a real replacement if the whole of it is in front of the cursor. -/
def KeptUpTo (s2 : List Seg) (last k : Text) : Prop :=
  match s2 with
  | [] => k <+: last
  | s :: _ => k <+: s.keep ∧ (s.old = [] → k ≠ s.keep)

/-- **C30.** A cursor in (or at the ends of) text that formatting keeps stays at the same place of that text: it moves from
behind `origOf s1 ++ k` to behind `resultOf s1 ++ k`. The edits may come in any order. -/
theorem c30_kept (s1 s2 : List Seg) (last k text : Text) (edits : List TextEdit)
    (ht : text = origOf (s1 ++ s2) ++ last) (hk : KeptUpTo s2 last k) (hcr : '\r' ∉ text)
    (hp : edits.Perm (editsOf [] (s1 ++ s2))) (hd : edits.Pairwise (fun a b => a.range.start ≠ b.range.start))
    (hlen : blen (resultOf s1 ++ k) < 4294967296) :
    mapOffset (blen (origOf s1 ++ k)) edits text = some (blen (resultOf s1 ++ k)) := by
  rw [mapOffset_eq _ last text edits _ ht hcr hp hd, mapLoop_done _ _ _ _ _ (by simp)]
  congr 1
  have hfin : ∀ d : Int, d = 0 + (blen (resultOf s1) : Int) - blen (origOf s1) →
      toU32 ((blen (origOf s1 ++ k) : Nat) + d) = blen (resultOf s1 ++ k) := by
    intro d hd
    refine toU32_of ?_ hlen
    rw [hd]; simp only [blen_append]; push_cast; omega
  cases s2 with
  | nil => simp only [segBytes, mapLoop]; exact hfin _ rfl
  | cons s s2 =>
    obtain ⟨⟨r, hr⟩, hne⟩ := hk
    simp only [segBytes, mapLoop]
    have hl : blen s.keep = blen k + blen r := by rw [← hr, blen_append]
    have hpos : 0 < blen r + blen s.old := by
      by_cases ho : s.old = []
      · have : r ≠ [] := by rintro rfl; exact hne ho (by simpa using hr)
        have := blen_pos this; omega
      · have := blen_pos ho; omega
    rw [if_neg (by simp only [blen_append]; omega), if_neg (by simp only [blen_append]; omega)]
    exact hfin _ rfl

/-- **C30.** A cursor strictly inside a piece of text that formatting replaces moves to the end of the replacement. -/
theorem c30_replaced (s1 s2 : List Seg) (keep o1 o2 new last text : Text) (edits : List TextEdit)
    (ht : text = origOf (s1 ++ ⟨keep, o1 ++ o2, new⟩ :: s2) ++ last) (ho1 : o1 ≠ []) (ho2 : o2 ≠ []) (hcr : '\r' ∉ text)
    (hp : edits.Perm (editsOf [] (s1 ++ ⟨keep, o1 ++ o2, new⟩ :: s2)))
    (hd : edits.Pairwise (fun a b => a.range.start ≠ b.range.start))
    (hlen : blen (resultOf s1 ++ keep ++ new) < 4294967296) :
    mapOffset (blen (origOf s1 ++ keep ++ o1)) edits text = some (blen (resultOf s1 ++ keep ++ new)) := by
  rw [mapOffset_eq _ last text edits _ ht hcr hp hd, mapLoop_done _ _ _ _ _ (by simp only [blen_append]; omega)]
  congr 1
  have h1 := blen_pos ho1
  have h2 := blen_pos ho2
  simp only [segBytes, mapLoop, blen_append]
  rw [if_neg (by omega), if_pos (by omega)]
  simp only [blen_append] at hlen
  refine toU32_of ?_ hlen
  push_cast; omega

/-- Every place of a document is in kept or in replaced text. -/
theorem place_cases (segs : List Seg) (last a b : Text) (h : origOf segs ++ last = a ++ b) :
    (∃ s1 s2 k, segs = s1 ++ s2 ∧ a = origOf s1 ++ k ∧ KeptUpTo s2 last k) ∨
    (∃ s1 s2 keep o1 o2 new, segs = s1 ++ ⟨keep, o1 ++ o2, new⟩ :: s2 ∧ o1 ≠ [] ∧ o2 ≠ [] ∧
      a = origOf s1 ++ keep ++ o1) := by
  induction segs generalizing a b with
  | nil => exact Or.inl ⟨[], [], a, rfl, by simp [origOf], ⟨b, by simpa [origOf] using h.symm⟩⟩
  | cons s ss ih =>
    -- skip the first piece
    have next : ∀ m b', a = s.keep ++ s.old ++ m → origOf ss ++ last = m ++ b' →
        (∃ s1 s2 k, s :: ss = s1 ++ s2 ∧ a = origOf s1 ++ k ∧ KeptUpTo s2 last k) ∨
        (∃ s1 s2 keep o1 o2 new, s :: ss = s1 ++ ⟨keep, o1 ++ o2, new⟩ :: s2 ∧ o1 ≠ [] ∧ o2 ≠ [] ∧
          a = origOf s1 ++ keep ++ o1) := by
      intro m b' ha hm
      rcases ih m b' hm with ⟨s1, s2, k, e1, e2, e3⟩ | ⟨s1, s2, keep, o1, o2, new, e1, e2, e3, e4⟩
      · exact Or.inl ⟨s :: s1, s2, k, by rw [e1]; rfl, by rw [ha, e2]; simp [origOf], e3⟩
      · exact Or.inr ⟨s :: s1, s2, keep, o1, o2, new, by rw [e1]; rfl, e2, e3, by rw [ha, e4]; simp [origOf]⟩
    have here : a = s.keep → (∃ s1 s2 k, s :: ss = s1 ++ s2 ∧ a = origOf s1 ++ k ∧ KeptUpTo s2 last k) ∨
        (∃ s1 s2 keep o1 o2 new, s :: ss = s1 ++ ⟨keep, o1 ++ o2, new⟩ :: s2 ∧ o1 ≠ [] ∧ o2 ≠ [] ∧
          a = origOf s1 ++ keep ++ o1) := by
      intro ha
      by_cases ho : s.old = []
      · exact next [] (origOf ss ++ last) (by rw [ha, ho]; simp) rfl
      · exact Or.inl ⟨[], s :: ss, s.keep, rfl, by simpa [origOf] using ha, ⟨[], by simp⟩, fun h => absurd h ho⟩
    simp only [origOf, List.append_assoc] at h
    rcases List.append_eq_append_iff.1 h with ⟨m, h1, h2⟩ | ⟨m, h1, h2⟩
    · rcases List.append_eq_append_iff.1 h2 with ⟨m', h3, h4⟩ | ⟨m', h3, h4⟩
      · exact next m' b (by rw [h1, h3]; simp) h4
      · by_cases hm' : m' = []
        · subst hm'
          exact next [] b (by rw [h1, h3]; simp) (by rw [h4]; simp)
        · by_cases hm : m = []
          · subst hm; exact here (by simpa using h1)
          · obtain ⟨keep, old, new⟩ := s
            simp only at h1 h3
            subst h3
            exact Or.inr ⟨[], ss, keep, m, m', new, rfl, hm, hm', by simpa [origOf] using h1⟩
    · by_cases hm : m = []
      · subst hm; exact here (by simpa using h1.symm)
      · refine Or.inl ⟨[], s :: ss, a, rfl, by simp [origOf], ⟨m, h1.symm⟩, fun _ e => hm ?_⟩
        rw [e] at h1
        simpa using h1

theorem resultOf_append (s1 s2 : List Seg) : resultOf (s1 ++ s2) = resultOf s1 ++ resultOf s2 := by
  induction s1 with
  | nil => simp [resultOf]
  | cons s s1 ih => simp [resultOf, ih]

/-- **C30.** Every cursor position is of one of these two kinds, so the mapped offset is always a character boundary of the
formatted document. -/
theorem c30_boundary (segs : List Seg) (last a b text : Text) (edits : List TextEdit)
    (ht : text = origOf segs ++ last) (hab : text = a ++ b) (hcr : '\r' ∉ text) (hp : edits.Perm (editsOf [] segs))
    (hd : edits.Pairwise (fun a b => a.range.start ≠ b.range.start))
    (hlen : blen (resultOf segs ++ last) < 4294967296) :
    ∃ a' b', resultOf segs ++ last = a' ++ b' ∧ mapOffset (blen a) edits text = some (blen a') := by
  rcases place_cases segs last a b (by rw [← ht, hab]) with ⟨s1, s2, k, rfl, rfl, hk⟩ |
    ⟨s1, s2, keep, o1, o2, new, rfl, h1, h2, rfl⟩
  · obtain ⟨r, hr⟩ : ∃ r, resultOf s2 ++ last = k ++ r := by
      cases s2 with
      | nil => obtain ⟨r, hr⟩ := hk; exact ⟨r, by rw [← hr]; simp [resultOf]⟩
      | cons s s2 => obtain ⟨⟨r, hr⟩, -⟩ := hk; exact ⟨r ++ s.new ++ resultOf s2 ++ last, by simp [resultOf, ← hr]⟩
    have e : resultOf (s1 ++ s2) ++ last = (resultOf s1 ++ k) ++ r := by rw [resultOf_append, List.append_assoc, hr]; simp
    refine ⟨resultOf s1 ++ k, r, e, c30_kept s1 s2 last k text edits ht hk hcr hp hd ?_⟩
    rw [e, blen_append] at hlen; omega
  · have e : resultOf (s1 ++ ⟨keep, o1 ++ o2, new⟩ :: s2) ++ last =
        (resultOf s1 ++ keep ++ new) ++ (resultOf s2 ++ last) := by rw [resultOf_append]; simp [resultOf]
    refine ⟨resultOf s1 ++ keep ++ new, resultOf s2 ++ last, e,
      c30_replaced s1 s2 keep o1 o2 new last text edits ht h1 h2 hcr hp hd ?_⟩
    rw [e, blen_append] at hlen; omega

/-- With an insertion and a replacement at the same place the outcome depends on the order of the edits: the assumption on
the starts cannot be dropped. -/
theorem c30_same_start_depends_on_order :
    mapOffset 1 [⟨⟨⟨0, 1⟩, ⟨0, 1⟩⟩, ['x']⟩, ⟨⟨⟨0, 1⟩, ⟨0, 2⟩⟩, ['y']⟩] ['a', 'b'] = some 2 ∧
    mapOffset 1 [⟨⟨⟨0, 1⟩, ⟨0, 2⟩⟩, ['y']⟩, ⟨⟨⟨0, 1⟩, ⟨0, 1⟩⟩, ['x']⟩] ['a', 'b'] = some 1 := by
  decide

/-- Concrete case: `a  b` with the two blanks replaced by one; the cursor behind `b`. -/
example : mapOffset (blen ['a', ' ', ' ', 'b']) [⟨⟨⟨0, 1⟩, ⟨0, 3⟩⟩, [' ']⟩] ['a', ' ', ' ', 'b', 'c'] =
    some (blen ['a', ' ', 'b']) :=
  c30_kept [⟨['a'], [' ', ' '], [' ']⟩] [] ['b', 'c'] ['b'] _ _ rfl ⟨['c'], rfl⟩ (by decide) (.refl _)
    (List.pairwise_singleton _ _) (by decide)

/-! ## C29 -/

theorem find?_sorted_least {l : List Place} (hs : l.Pairwise (fun a b => a.1 ≤ b.1)) {p : Place → Bool} {t : Place}
    (h : l.find? p = some t) : t ∈ l ∧ p t = true ∧ ∀ q ∈ l, p q = true → t.1 ≤ q.1 := by
  induction l with
  | nil => cases h
  | cons x l ih =>
    rcases List.pairwise_cons.1 hs with ⟨h1, h2⟩
    rw [List.find?_cons] at h
    split at h
    · rename_i hx
      cases h
      refine ⟨by simp, hx, ?_⟩
      intro q hq _
      rcases List.mem_cons.1 hq with rfl | hq
      · exact Nat.le_refl _
      · exact h1 q hq
    · rename_i hx
      obtain ⟨i1, i2, i3⟩ := ih h2 h
      refine ⟨by simp [i1], i2, ?_⟩
      intro q hq hpq
      rcases List.mem_cons.1 hq with rfl | hq
      · rw [hx] at hpq; cases hpq
      · exact i3 q hq hpq

theorem find?_sorted_greatest {l : List Place} (hs : l.Pairwise (fun a b => b.1 ≤ a.1)) {p : Place → Bool} {t : Place}
    (h : l.find? p = some t) : t ∈ l ∧ p t = true ∧ ∀ q ∈ l, p q = true → q.1 ≤ t.1 := by
  induction l with
  | nil => cases h
  | cons x l ih =>
    rcases List.pairwise_cons.1 hs with ⟨h1, h2⟩
    rw [List.find?_cons] at h
    split at h
    · rename_i hx
      cases h
      refine ⟨by simp, hx, ?_⟩
      intro q hq _
      rcases List.mem_cons.1 hq with rfl | hq
      · exact Nat.le_refl _
      · exact h1 q hq
    · rename_i hx
      obtain ⟨i1, i2, i3⟩ := ih h2 h
      refine ⟨by simp [i1], i2, ?_⟩
      intro q hq hpq
      rcases List.mem_cons.1 hq with rfl | hq
      · rw [hx] at hpq; cases hpq
      · exact i3 q hq hpq

theorem relevant_sorted (g : Green) (prev : Bool) : (relevantPositions g prev).Pairwise (fun a b => a.1 ≤ b.1) := by
  unfold relevantPositions
  split
  · exact List.pairwise_insertionSort _ _
  · exact .nil

/-- The places to jump to, as a set: at the end of the select clause (going back: at the start of the where clause) of the
main query, in front of the last element of each group graph pattern, and behind the last token that is not white
space. -/
def IsPlace (g : Green) (prev : Bool) (offset : Nat) : Prop :=
  g.kind = K.QueryUnit ∧
  ((∃ q ∈ (Red.root g).children.head?, ∃ sq, q.childOf [K.SelectQuery, K.SubSelect] = some sq ∧
      if prev then ∃ w, sq.childOf [K.WhereClause] = some w ∧ offset = w.start
      else ∃ c, sq.childOf [K.SelectClause] = some c ∧ offset = c.stop) ∨
    (∃ n, InTree g n ∧ n.isNode = true ∧ n.kind = K.GroupGraphPattern ∧
      ∃ t, n.childrenT.getLast? = some t ∧ offset = t.start) ∨
    (∃ l t w, (Red.root g).tokens = l ++ t :: w ∧ (∀ x ∈ w, x.kind = K.WHITESPACE) ∧ t.kind ≠ K.WHITESPACE ∧
      offset = t.stop))

theorem mem_relevant {g : Green} {prev : Bool} {o : Nat} : (∃ p ∈ relevantPositions g prev, p.1 = o) ↔ IsPlace g prev o := by
  unfold relevantPositions IsPlace
  split
  · rename_i hk
    simp only [hk, true_and, List.mem_insertionSort, List.mem_append]
    constructor
    · rintro ⟨p, (hp | hp) | hp, rfl⟩
      · left
        unfold selectPlace selectQuery at hp
        cases hq : (Red.root g).firstChild with
        | none => rw [hq] at hp; cases hp
        | some q =>
          rw [hq] at hp
          dsimp only at hp
          refine ⟨q, hq, ?_⟩
          cases hsq : q.childOf [K.SelectQuery, K.SubSelect] with
          | none => rw [hsq] at hp; cases hp
          | some sq =>
            rw [hsq] at hp
            dsimp only at hp
            refine ⟨sq, rfl, ?_⟩
            split
            · rename_i h; rw [if_pos h] at hp
              split at hp
              · cases hp
              · rename_i w hw; rw [List.mem_singleton] at hp; subst hp; exact ⟨w, hw, rfl⟩
            · rename_i h; rw [if_neg h] at hp
              split at hp
              · cases hp
              · rename_i w hw; rw [List.mem_singleton] at hp; subst hp; exact ⟨w, hw, rfl⟩
      · right; left
        unfold groupPlaces at hp
        obtain ⟨n, hn, hp⟩ := List.mem_filterMap.1 hp
        simp only [Red.descendants, List.mem_filter, mem_descendantsT_root, beq_iff_eq] at hn
        split at hp
        · cases hp
        · rename_i t ht
          cases hp
          exact ⟨n, hn.1.1, hn.1.2, hn.2, t, ht, rfl⟩
      · right; right
        unfold endPlace at hp
        split at hp
        · cases hp
        · rename_i t ht
          rw [List.mem_singleton] at hp; subst hp
          have hrev := List.takeWhile_append_dropWhile (p := fun t : Red => t.kind == K.WHITESPACE)
            (l := (Red.root g).tokens.reverse)
          obtain ⟨r, hr⟩ : ∃ r, (Red.root g).tokens.reverse.dropWhile (fun t => t.kind == K.WHITESPACE) = t :: r := by
            cases hd : (Red.root g).tokens.reverse.dropWhile (fun t => t.kind == K.WHITESPACE) with
            | nil => rw [hd] at ht; cases ht
            | cons x r => rw [hd] at ht; cases ht; exact ⟨r, rfl⟩
          rw [hr] at hrev
          have hrev' := congrArg List.reverse hrev
          simp only [List.reverse_append, List.reverse_reverse, List.reverse_cons, List.append_assoc] at hrev'
          refine ⟨r.reverse, t, _, hrev'.symm, ?_, ?_, rfl⟩
          · intro x hx
            have hx' : x ∈ ((Red.root g).tokens.reverse.takeWhile (fun t => t.kind == K.WHITESPACE)).reverse := hx
            rw [List.mem_reverse] at hx'
            simpa using List.mem_takeWhile_imp hx'
          · have := List.head?_dropWhile_not (fun t : Red => t.kind == K.WHITESPACE) (Red.root g).tokens.reverse
            rw [ht] at this
            simpa using this
    · rintro (⟨q, hq, sq, hsq, h⟩ | ⟨n, h1, h2, h3, t, ht, rfl⟩ | ⟨l, t, w, h1, h2, h3, rfl⟩)
      · have hq' : (Red.root g).firstChild = some q := hq
        cases prev with
        | true =>
          rw [if_pos rfl] at h
          obtain ⟨w, hw, rfl⟩ := h
          exact ⟨(w.start, [], [' ']), Or.inl (Or.inl (by simp [selectPlace, selectQuery, hq', hsq, hw])), rfl⟩
        | false =>
          rw [if_neg (by decide)] at h
          obtain ⟨w, hw, rfl⟩ := h
          exact ⟨(w.stop, [' '], []), Or.inl (Or.inl (by simp [selectPlace, selectQuery, hq', hsq, hw])), rfl⟩
      · refine ⟨(t.start, if n.firstChild.isSome then [' ', ' '] else ['\n', ' ', ' '], ['\n']),
          Or.inl (Or.inr (List.mem_filterMap.2 ⟨n, ?_, ?_⟩)), ?_⟩
        · simp only [Red.descendants, List.mem_filter, mem_descendantsT_root, beq_iff_eq]
          exact ⟨⟨h1, h2⟩, h3⟩
        · have : n.lastChildT = some t := ht
          rw [this]
        · rfl
      · refine ⟨(t.stop, ['\n'], []), Or.inr ?_, rfl⟩
        unfold endPlace
        rw [h1, List.reverse_append, List.reverse_cons, List.append_assoc]
        rw [List.dropWhile_append_of_pos (by intro x hx; simpa using h2 x (List.mem_reverse.1 hx))]
        simp [h3]
  · rename_i hk
    simp [hk]

/-- **C29.** Going forward the target is the first place behind the cursor; if there is none, the first place. Going back
it is the last place in front of the cursor; if there is none, the last place. There is no target only if there is no
place at all. -/
theorem c29_target (g : Green) (cursor : Nat) (prev : Bool) :
    match jumpTarget (relevantPositions g prev) cursor prev with
    | none => ∀ o, ¬ IsPlace g prev o
    | some (t, _, _) => IsPlace g prev t ∧
        if prev then
          (t < cursor ∧ ∀ o, IsPlace g prev o → o < cursor → o ≤ t) ∨
            ((∀ o, IsPlace g prev o → cursor ≤ o) ∧ ∀ o, IsPlace g prev o → o ≤ t)
        else
          (cursor < t ∧ ∀ o, IsPlace g prev o → cursor < o → t ≤ o) ∨
            ((∀ o, IsPlace g prev o → o ≤ cursor) ∧ ∀ o, IsPlace g prev o → t ≤ o) := by
  have hs := relevant_sorted g prev
  have hm := fun o => mem_relevant (g := g) (prev := prev) (o := o)
  generalize relevantPositions g prev = l at hs hm
  cases prev with
  | false =>
    unfold jumpTarget
    rw [if_neg (by decide)]
    cases hf : l.find? (fun p => decide (p.1 > cursor)) with
    | some t =>
      obtain ⟨h1, h2, h3⟩ := find?_sorted_least hs hf
      obtain ⟨t, b, a⟩ := t
      simp only [Option.some_or]
      refine ⟨(hm t).1 ⟨_, h1, rfl⟩, ?_⟩
      rw [if_neg (by decide)]
      left
      refine ⟨by simpa using h2, ?_⟩
      intro o ho hlt
      obtain ⟨p, hp, rfl⟩ := (hm o).2 ho
      exact h3 p hp (by simpa using hlt)
    | none =>
      have hall : ∀ o, IsPlace g false o → o ≤ cursor := by
        intro o ho
        obtain ⟨p, hp, rfl⟩ := (hm o).2 ho
        have := List.find?_eq_none.1 hf p hp
        simpa using this
      cases l with
      | nil =>
        simp only [List.head?_nil, Option.or_none]
        intro o ho
        obtain ⟨p, hp, -⟩ := (hm o).2 ho
        cases hp
      | cons x l =>
        obtain ⟨t, b, a⟩ := x
        simp only [List.head?_cons, Option.none_or]
        refine ⟨(hm t).1 ⟨(t, b, a), by simp, rfl⟩, ?_⟩
        rw [if_neg (by decide)]
        right
        refine ⟨hall, ?_⟩
        intro o ho
        obtain ⟨p, hp, rfl⟩ := (hm o).2 ho
        rcases List.mem_cons.1 hp with rfl | hp
        · exact Nat.le_refl _
        · exact (List.pairwise_cons.1 hs).1 p hp
  | true =>
    unfold jumpTarget
    rw [if_pos rfl]
    have hs' : l.reverse.Pairwise (fun a b => b.1 ≤ a.1) := List.pairwise_reverse.2 hs
    cases hf : l.reverse.find? (fun p => decide (p.1 < cursor)) with
    | some t =>
      obtain ⟨h1, h2, h3⟩ := find?_sorted_greatest hs' hf
      obtain ⟨t, b, a⟩ := t
      simp only [Option.some_or]
      refine ⟨(hm t).1 ⟨_, by simpa using h1, rfl⟩, ?_⟩
      rw [if_pos trivial]
      left
      refine ⟨by simpa using h2, ?_⟩
      intro o ho hlt
      obtain ⟨p, hp, rfl⟩ := (hm o).2 ho
      exact h3 p (by simpa using hp) (by simpa using hlt)
    | none =>
      have hall : ∀ o, IsPlace g true o → cursor ≤ o := by
        intro o ho
        obtain ⟨p, hp, rfl⟩ := (hm o).2 ho
        have := List.find?_eq_none.1 hf p (by simpa using hp)
        simpa using this
      rcases List.eq_nil_or_concat l with rfl | ⟨l', x, rfl⟩
      · simp only [List.getLast?_nil, Option.or_none]
        intro o ho
        obtain ⟨p, hp, -⟩ := (hm o).2 ho
        cases hp
      · obtain ⟨t, b, a⟩ := x
        simp only [List.concat_eq_append, List.getLast?_append, List.getLast?_singleton, Option.some_or, Option.none_or]
        rw [List.concat_eq_append] at hm hs
        refine ⟨(hm t).1 ⟨(t, b, a), by simp, rfl⟩, ?_⟩
        rw [if_pos trivial]
        right
        refine ⟨hall, ?_⟩
        intro o ho
        obtain ⟨p, hp, rfl⟩ := (hm o).2 ho
        rcases List.mem_append.1 hp with hp | hp
        · exact (List.pairwise_append.1 hs).2.2 p hp (t, b, a) (by simp)
        · rw [List.mem_singleton] at hp; subst hp; exact Nat.le_refl _

/-- Every place is a place between two characters of the text, and only blanks are inserted there. -/
theorem relevant_at {text g} (P : Parsed text g) {prev : Bool} {p : Place} (hp : p ∈ relevantPositions g prev) :
    (∃ a b, text = a ++ b ∧ p.1 = blen a) ∧ ∀ c ∈ p.2.1 ++ p.2.2, c = ' ' ∨ c = '\n' := by
  have hstart : ∀ r, InTree g r → ∃ a b, text = a ++ b ∧ r.start = blen a := by
    intro r hr
    obtain ⟨a, b, h1, h2⟩ := P.at_ hr
    exact ⟨a, r.text ++ b, by rw [h1, List.append_assoc], h2⟩
  have hstop : ∀ r, InTree g r → ∃ a b, text = a ++ b ∧ r.stop = blen a := by
    intro r hr
    obtain ⟨a, b, h1, h2⟩ := P.at_ hr
    exact ⟨a ++ r.text, b, h1, by rw [blen_append, ← h2]; rfl⟩
  have hchild : ∀ {r c : Red}, InTree g r → c ∈ r.children → InTree g c := by
    intro r c hr hc
    exact .child hr (List.mem_filter.1 hc).1
  constructor
  · obtain ⟨-, ⟨q, hq, sq, hsq, h⟩ | ⟨n, h1, h2, h3, t, ht, he⟩ | ⟨l, t, w, h1, h2, h3, he⟩⟩ := mem_relevant.1 ⟨p, hp, rfl⟩
    · have iq : InTree g q := hchild .root (List.mem_of_head? hq)
      have isq : InTree g sq := hchild iq (List.mem_of_find?_eq_some hsq)
      split at h
      · obtain ⟨w, hw, he⟩ := h
        rw [he]; exact hstart w (hchild isq (List.mem_of_find?_eq_some hw))
      · obtain ⟨w, hw, he⟩ := h
        rw [he]; exact hstop w (hchild isq (List.mem_of_find?_eq_some hw))
    · rw [he]; exact hstart t (.child h1 (List.mem_of_getLast? ht))
    · rw [he]
      have : t ∈ (Red.root g).tokens := by rw [h1]; simp
      exact hstop t (mem_descendantsT_root.1 (List.mem_filter.1 this).1)
  · unfold relevantPositions at hp
    split at hp
    · simp only [List.mem_insertionSort, List.mem_append] at hp
      rcases hp with (hp | hp) | hp
      · unfold selectPlace at hp
        repeat' split at hp
        all_goals simp at hp
        all_goals (subst hp; simp)
      · unfold groupPlaces at hp
        obtain ⟨n, hn, hp⟩ := List.mem_filterMap.1 hp
        split at hp
        · cases hp
        · cases hp
          dsimp only
          split <;> simp
      · unfold endPlace at hp
        split at hp <;> simp at hp
        subst hp; simp
    · cases hp

/-- **C29.** What a jump does to the formatted document: it inserts blanks at the target (never between the two parts of a
character, never anything else) and puts the cursor between the two inserted strings. Without a target the document stays
and there is no position. It never panics. -/
theorem c29_inserts (errLen : Text → Nat) (formatted : Text) (g errs)
    (hp : parseSource errLen formatted = some (g, errs)) (cursor : Nat) (prev : Bool) :
    (jumpFormatted formatted g cursor prev = some (formatted, none) ∧ ∀ o, ¬ IsPlace g prev o) ∨
    ∃ a b before after, formatted = a ++ b ∧
      jumpTarget (relevantPositions g prev) cursor prev = some (blen a, before, after) ∧
      (∀ c ∈ before ++ after, c = ' ' ∨ c = '\n') ∧
      jumpFormatted formatted g cursor prev = some (a ++ before ++ after ++ b, some (posOf (a ++ before))) := by
  have P := parsed_of hp
  have ht := c29_target g cursor prev
  unfold jumpFormatted
  cases hj : jumpTarget (relevantPositions g prev) cursor prev with
  | none => rw [hj] at ht; exact Or.inl ⟨rfl, ht⟩
  | some t =>
    right
    have hm : t ∈ relevantPositions g prev := by
      unfold jumpTarget at hj
      split at hj <;> rcases Option.or_eq_some_iff.1 hj with h | ⟨-, h⟩
      · simpa using List.mem_of_find?_eq_some h
      · exact List.mem_of_getLast? h
      · exact List.mem_of_find?_eq_some h
      · exact List.mem_of_head? h
    obtain ⟨⟨a, b, h1, h2⟩, h3⟩ := relevant_at P hm
    obtain ⟨o, before, after⟩ := t
    dsimp only at h2 h3 ⊢
    subst h2
    refine ⟨a, b, before, after, h1, rfl, h3, ?_⟩
    unfold insertStr
    rw [h1, splitAtByte_append]
    dsimp only
    have := fromByteIndex_of_prefix (a ++ before) (after ++ b)
    rw [blen_append] at this
    simp only [List.append_assoc] at this ⊢
    rw [this]

/-- **C29.** A query with a token that is not white space has a place to jump to, so the answer has a position. -/
theorem c29_somewhere (g : Green) (prev : Bool) (hk : g.kind = K.QueryUnit)
    (ht : ∃ t ∈ (Red.root g).tokens, t.kind ≠ K.WHITESPACE) : ∃ o, IsPlace g prev o := by
  obtain ⟨t, ht, hne⟩ := ht
  have hd : (Red.root g).tokens.reverse.dropWhile (fun t => t.kind == K.WHITESPACE) ≠ [] := by
    intro h
    have := List.dropWhile_eq_nil_iff.1 h t (by simpa using ht)
    simp at this; exact hne this
  obtain ⟨x, r, hx⟩ := List.exists_cons_of_ne_nil hd
  refine ⟨x.stop, mem_relevant.1 ⟨(x.stop, ['\n'], []), ?_, rfl⟩⟩
  unfold relevantPositions
  rw [if_pos hk, List.mem_insertionSort]
  simp [endPlace, hx]

/-- **C29.** Updates have no place to jump to: the document is only formatted. -/
theorem c29_updates (g : Green) (prev : Bool) (hk : g.kind = K.UpdateUnit) (formatted : Text) (cursor : Nat) :
    jumpFormatted formatted g cursor prev = some (formatted, none) := by
  have : relevantPositions g prev = [] := by
    unfold relevantPositions
    rw [if_neg (by rw [hk]; decide)]
  unfold jumpFormatted jumpTarget
  rw [this]; cases prev <;> rfl

/-- **C29, C30.** The whole request: for pairwise disjoint edits from the formatter the reply is the formatted text with
blanks inserted at the place chosen from the moved cursor. -/
theorem c29_request (errLen : Text → Nat) (segs : List Seg) (last a b text : Text) (edits : List TextEdit)
    (ht : text = origOf segs ++ last) (hab : text = a ++ b) (hcr : '\r' ∉ text) (hp : edits.Perm (editsOf [] segs))
    (hd : edits.Pairwise (fun a b => a.range.start ≠ b.range.start))
    (hlen : blen (resultOf segs ++ last) < 4294967296) (prev : Bool)
    (g errs) (hg : parseSource errLen (ensureNL (resultOf segs ++ last)) = some (g, errs)) :
    ∃ a' b' r, resultOf segs ++ last = a' ++ b' ∧ mapOffset (blen a) edits text = some (blen a') ∧
      jump (parseSource errLen) text (posOf a) edits prev = .ok r ∧
      jumpFormatted (ensureNL (resultOf segs ++ last)) g (blen a') prev = some r := by
  obtain ⟨a', b', h1, h2⟩ := c30_boundary segs last a b text edits ht hab hcr hp hd hlen
  have h3 : byteIndex (posOf a) text = some (blen a) := by
    rw [hab]
    exact c01_boundary_roundtrip a b (by
      intro hm
      obtain ⟨q, e, -⟩ := split_lastLine a
      apply hcr; rw [hab, e]; simp [hm])
  have h4 : applyTextEdits text edits = some (ensureNL (resultOf segs ++ last)) := by
    rw [ht]
    exact c05_segments segs last edits hp (hd.imp (fun h e => h (by rw [e])))
  obtain ⟨r, hr⟩ : ∃ r, jumpFormatted (ensureNL (resultOf segs ++ last)) g (blen a') prev = some r := by
    rcases c29_inserts errLen _ g errs hg (blen a') prev with ⟨h, -⟩ | ⟨_, _, _, _, -, -, -, h⟩ <;> exact ⟨_, h⟩
  refine ⟨a', b', r, h1, h2, ?_, hr⟩
  unfold jump
  rw [h3]; dsimp only
  rw [h2]; dsimp only
  rw [h4]; dsimp only
  rw [hg]; dsimp only
  rw [hr]

/-- Concrete case: in the document of the folding example, from the start forward and back. -/
example : jumpFormatted foldText foldTree 0 false ≠ some (foldText, none) ∧
    jumpFormatted foldText foldTree 0 true ≠ some (foldText, none) ∧
    jumpTarget (relevantPositions foldTree false) 0 false ≠ jumpTarget (relevantPositions foldTree true) 0 true := by
  decide +kernel

end Verif.Props
