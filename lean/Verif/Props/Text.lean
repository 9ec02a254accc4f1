import Verif.TextLemmas
/-!
# Properties C01-C04, C08: positions, byte offsets and ranges
-/
namespace Verif.Props
open Verif

/-! ## C03: exactly the character boundaries have a position, and which one -/

/-- C03. A byte offset converts to a position iff it is the byte length of a prefix of whole
characters; the position then counts the line feeds of that prefix and the UTF-16 length of its
last line. -/
theorem c03_from_byte_index_iff (o : Nat) (t : Text) (p : Position) :
    fromByteIndex o t = some p ↔
      ∃ pre post, t = pre ++ post ∧ blen pre = o ∧
        p.line = pre.count '\n' ∧
        p.character = len16 ((pre.reverse.takeWhile (fun c => c != '\n')).reverse) := by
  constructor
  · intro h
    obtain ⟨pre, post, h1, h2, h3⟩ := prefix_of_fromByteIndex h
    exact ⟨pre, post, h1, h2, by rw [h3]; rfl, by rw [h3]; rfl⟩
  · rintro ⟨pre, post, rfl, rfl, h1, h2⟩
    rw [fromByteIndex_of_prefix]
    rcases p with ⟨l, c⟩
    simp only at h1 h2
    subst h1 h2; rfl

/-- C03, rejection: an offset inside a character or beyond the text is refused. -/
theorem c03_reject (o : Nat) (t : Text) (h : ∀ pre post, t = pre ++ post → blen pre ≠ o) :
    fromByteIndex o t = none := by
  cases hc : fromByteIndex o t with
  | none => rfl
  | some p =>
    obtain ⟨pre, post, h1, h2, -⟩ := prefix_of_fromByteIndex hc
    exact absurd h2 (h pre post h1)

-- "é\n😀x": offset 3 is the boundary after the line feed, 7 the one after the emoji, 5 is inside it.
example : fromByteIndex 7 ['é', '\n', '😀', 'x'] = some ⟨1, 2⟩ := by decide
example : fromByteIndex 5 ['é', '\n', '😀', 'x'] = none := by decide
example : fromByteIndex 9 ['é', '\n', '😀', 'x'] = none := by decide

/-! ## C01: offset → position → offset -/

/-- C01 for boundaries whose line prefix contains no carriage return (so in particular for
every boundary of a Windows-line-ending document that is not between CR and LF). -/
theorem c01_boundary_roundtrip (pre post : Text) (h : '\r' ∉ lastLine pre) :
    byteIndex (posOf pre) (pre ++ post) = some (blen pre) := by
  unfold byteIndex
  split
  · next hc =>
    obtain ⟨-, -, h3⟩ := hc
    simp at h3; simp [h3.1]
  · obtain ⟨p, h1, h2, h3⟩ := split_lastLine pre
    have hline : (posOf pre).line = p.count '\n' := by
      show lineNo pre = _
      rw [h1]; exact lineNo_eq p _ h3
    have ht : pre ++ post = p ++ (lastLine pre ++ post) := by
      rw [← List.append_assoc, ← h1]
    have hs := skipLines_fwd (p.count '\n') p (lastLine pre ++ post) 0 0 h2 (by simp)
    rw [hline, ht, hs]
    simp only
    show skipCols (len16 (lastLine pre)) _ _ _ = _
    rw [skipCols_fwd _ (lastLine pre) post 0 (0 + blen p) h3 h (by simp)
      (fun q' r hq hr => by
        have := congrArg len16 hq
        have hpos : 0 < len16 r := by
          cases r with
          | nil => exact absurd rfl hr
          | cons x xs => have := u16_pos x; simp; omega
        simp at this; omega)]
    congr 1
    have := congrArg blen h1
    simp at this; omega

/-- C01. Offset → position → offset is the identity, for every text without carriage returns. -/
theorem c01_offset_position_offset (t : Text) (o : Nat) (p : Position) (hcr : '\r' ∉ t)
    (h : fromByteIndex o t = some p) : byteIndex p t = some o := by
  obtain ⟨pre, post, rfl, rfl, rfl⟩ := prefix_of_fromByteIndex h
  apply c01_boundary_roundtrip
  intro hm
  obtain ⟨q, h1, -⟩ := split_lastLine pre
  apply hcr
  rw [h1]; simp [hm]

/-- C01 for Windows line endings: if every CR is followed by LF, the round trip holds for every
offset that does not sit between the CR and the LF. -/
theorem c01_crlf (pre post : Text) (hcr : NoLoneCR (pre ++ post)) (hb : ∀ q, pre ≠ q ++ ['\r']) :
    ∃ p, fromByteIndex (blen pre) (pre ++ post) = some p ∧ byteIndex p (pre ++ post) = some (blen pre) := by
  refine ⟨_, fromByteIndex_of_prefix pre post, c01_boundary_roundtrip pre post ?_⟩
  intro hm
  obtain ⟨a, b, hab⟩ := List.append_of_mem hm
  obtain ⟨p, h1, h2, h3⟩ := split_lastLine pre
  have hlast := hcr (p ++ a) (b ++ post) (by
    have : pre = p ++ (a ++ '\r' :: b) := by rw [← hab]; exact h1
    rw [this]; simp)
  obtain ⟨b', hb'⟩ := hlast
  cases b with
  | nil => exact hb (p ++ a) (by rw [h1, hab]; simp)
  | cons x xs =>
    simp at hb'
    apply h3; rw [hab, hb'.1]; simp

/-- C01 fails with a lone carriage return: the character after it is swallowed on the way back.
For "\réb" the boundary after `é` (byte 3) comes back as byte 2, inside `é`. -/
theorem c01_lone_cr_counterexample :
    ∃ (t : Text) (o : Nat) (p : Position), fromByteIndex o t = some p ∧
      byteIndex p t = some 2 ∧ o = 3 ∧ fromByteIndex 2 t = none :=
  ⟨['\r', 'é', 'b'], 3, ⟨0, 2⟩, by decide, by decide, rfl, by decide⟩

/-- C01 fails between CR and LF: the position given for that offset is rejected on the way back. -/
theorem c01_inside_crlf_counterexample :
    ∃ (t : Text) (o : Nat) (p : Position), NoLoneCR t ∧ fromByteIndex o t = some p ∧ byteIndex p t = none := by
  refine ⟨['a', '\r', '\n', 'b'], 2, ⟨0, 2⟩, ?_, by decide, by decide⟩
  intro a b h
  match a, h with
  | [], h => simp at h
  | [x], h => simp at h; exact ⟨['b'], h.2.symm⟩
  | [x, y], h => simp at h
  | [x, y, z], h => simp at h
  | x :: y :: z :: w :: r, h => simp at h

example : byteIndex ⟨1, 2⟩ ['é', '\n', '😀', 'x'] = some 7 := by decide
example : byteIndex ⟨1, 1⟩ ['a', '\r', '\n', 'b'] = some 4 := by decide

/-! ## C02: position → offset -/

/-- C02. In a text without lone carriage returns a position `(l, c)` is accepted with byte offset `o`
iff `o` is the first boundary on line `l` whose UTF-16 column is at least `c` (where the boundary
between CR and LF does not count as being on the line). -/
theorem c02_byte_index_iff (t : Text) (p : Position) (o : Nat) (hcr : NoLoneCR t) :
    byteIndex p t = some o ↔
      ∃ pre post, t = pre ++ post ∧ blen pre = o ∧ lineNo pre = p.line ∧ '\r' ∉ lastLine pre ∧
        p.character ≤ len16 (lastLine pre) ∧
        (∀ q r, lastLine pre = q ++ r → r ≠ [] → len16 q < p.character) := by
  constructor
  · intro h
    unfold byteIndex at h
    split at h
    · next hc =>
      simp at h
      exact ⟨[], t, rfl, by simp [h], by simp [lineNo, hc.1], by simp [lastLine], by simp [hc.2.1],
        by simp [lastLine]⟩
    · split at h
      · simp at h
      · next rest b hs =>
        obtain ⟨p1, h1, h2, h3, h4⟩ := skipLines_bwd _ _ _ _ _ _ (by omega) hs
        obtain ⟨q, post, k1, k2, k3, k4, k5, k6⟩ := skipCols_bwd _ _ _ _ _
          (fun a b hab => hcr (p1 ++ a) b (by rw [h1, hab]; simp)) h
        have hll : lastLine (p1 ++ q) = q := lastLine_append h2 k2
        refine ⟨p1 ++ q, post, by rw [h1, k1]; simp, by simp; omega,
          by rw [lineNo_eq _ _ k2]; omega, by rw [hll]; exact k3, by rw [hll]; simpa using k5, ?_⟩
        intro a b hab hb
        rw [hll] at hab
        simpa using k6 a b hab hb
  · rintro ⟨pre, post, rfl, rfl, h1, h2, h3, h4⟩
    unfold byteIndex
    split
    · next hc =>
      obtain ⟨-, -, hc⟩ := hc
      simp at hc; simp [hc.1]
    · obtain ⟨q, k1, k2, k3⟩ := split_lastLine pre
      have hline : p.line = q.count '\n' := by
        rw [← h1, k1]; exact lineNo_eq q _ k3
      have ht : pre ++ post = q ++ (lastLine pre ++ post) := by
        rw [← List.append_assoc, ← k1]
      rw [hline, ht, skipLines_fwd (q.count '\n') q (lastLine pre ++ post) 0 0 k2 (by simp)]
      simp only
      rw [skipCols_fwd _ (lastLine pre) post 0 (0 + blen q) k3 h2 (by simpa using h3)
        (by simpa using h4)]
      congr 1
      have := congrArg blen k1
      simp at this; omega

/-- C02, consequence: an accepted position is a character boundary on exactly the named line, and it
converts back to itself unless it pointed into the middle of a surrogate pair, in which case it was
rounded up by one code unit. -/
theorem c02_position_offset_position (t : Text) (p : Position) (o : Nat) (hcr : NoLoneCR t)
    (h : byteIndex p t = some o) :
    ∃ p', fromByteIndex o t = some p' ∧ p'.line = p.line ∧
      (p'.character = p.character ∨ p'.character = p.character + 1) := by
  obtain ⟨pre, post, rfl, rfl, h1, -, h3, h4⟩ := (c02_byte_index_iff t p o hcr).mp h
  refine ⟨posOf pre, fromByteIndex_of_prefix pre post, h1, ?_⟩
  show len16 (lastLine pre) = _ ∨ len16 (lastLine pre) = _
  rcases List.eq_nil_or_concat (lastLine pre) with hl | ⟨q, c, hl⟩
  · rw [hl] at h3 ⊢; simp at h3 ⊢; omega
  · rw [List.concat_eq_append] at hl
    have := h4 q [c] hl (by simp)
    have h16 := u16_le c
    rw [hl] at h3 ⊢
    simp at h3 ⊢; omega

/-- C02, exactness inside the basic multilingual plane: if every character of the text takes one UTF-16
code unit, position → offset → position is the identity. -/
theorem c02_exact_bmp (t : Text) (p : Position) (o : Nat) (hcr : NoLoneCR t)
    (hb : ∀ c ∈ t, c.toNat < 0x10000) (h : byteIndex p t = some o) : fromByteIndex o t = some p := by
  obtain ⟨pre, post, rfl, rfl, h1, -, h3, h4⟩ := (c02_byte_index_iff t p o hcr).mp h
  rw [fromByteIndex_of_prefix pre post]
  rcases p with ⟨l, k⟩
  simp only [posOf, Option.some.injEq, Position.mk.injEq]
  refine ⟨h1, ?_⟩
  simp only at h3 h4
  rcases List.eq_nil_or_concat (lastLine pre) with hl | ⟨q, c, hl⟩
  · rw [hl] at h3 ⊢; simp at h3 ⊢; omega
  · rw [List.concat_eq_append] at hl
    have := h4 q [c] hl (by simp)
    have hc : u16 c = 1 := by
      unfold u16
      rw [if_pos]
      apply hb
      obtain ⟨p1, k1, -⟩ := split_lastLine pre
      rw [k1, hl]; simp
    rw [hl] at h3 ⊢
    simp [hc] at h3 ⊢; omega

/-- C02, rejection: a position beyond the last line, or beyond the end of its line, is refused. -/
theorem c02_reject_line (t : Text) (p : Position) (hcr : NoLoneCR t) (h : t.count '\n' < p.line) :
    byteIndex p t = none := by
  cases hb : byteIndex p t with
  | none => rfl
  | some o =>
    obtain ⟨pre, post, rfl, -, h1, -⟩ := (c02_byte_index_iff t p o hcr).mp hb
    rw [List.count_append] at h
    unfold lineNo at h1; omega

theorem c02_reject_column (pre line post : Text) (p : Position) (hcr : NoLoneCR (pre ++ line ++ post))
    (hpre : EndsNL pre) (hl : lineNo pre = p.line)
    (hpost : post = [] ∨ ∃ r, post = '\n' :: r) (h : len16 line < p.character) :
    byteIndex p (pre ++ line ++ post) = none := by
  cases hb : byteIndex p (pre ++ line ++ post) with
  | none => rfl
  | some o =>
    exfalso
    obtain ⟨pre', post', ht, -, h1, -, h3, h4⟩ := (c02_byte_index_iff _ p o hcr).mp hb
    obtain ⟨q, k1, k2, k3⟩ := split_lastLine pre'
    have hlq : lineNo q = p.line := by
      rw [← h1]
      conv => rhs; rw [k1]
      rw [lineNo_eq _ _ k3]; rfl
    -- `q` and `pre` both end lines and contain equally many line feeds: they are equal
    have hq : q = pre := by
      have ht' : pre ++ (line ++ post) = q ++ (lastLine pre' ++ post') := by
        rw [← List.append_assoc, ht]
        conv => lhs; rw [k1]
        simp
      have aux : ∀ {a b c d : Text}, a ++ b = c ++ d → EndsNL a → EndsNL c → lineNo a = lineNo c → a = c := by
        intro a b c d h ha hc hl
        apply posOf_inj h
        unfold posOf
        have e1 : lastLine a = [] := by simpa using lastLine_append ha (q := []) (by simp)
        have e2 : lastLine c = [] := by simpa using lastLine_append hc (q := []) (by simp)
        rw [e1, e2, hl]
      exact (aux ht' hpre k2 (by rw [hlq, hl])).symm
    subst hq
    rw [k1] at ht
    simp only [List.append_assoc, List.append_cancel_left_eq] at ht
    have hle : len16 (lastLine pre') ≤ len16 line := by
      rcases prefix_cases ht with ⟨m, hm, hp⟩ | ⟨m, -, hm, -⟩
      · rcases hpost with rfl | ⟨r, rfl⟩
        · simp at hp; rw [hm, hp.1]; simp
        · cases m with
          | nil => rw [hm]; simp
          | cons x xs => simp at hp; exfalso; apply k3; rw [hm, ← hp.1]; simp
      · rw [hm]; simp
    omega

example : byteIndex ⟨0, 1⟩ ['😀', 'x'] = some 4 := by decide  -- inside the surrogate pair: rounded up
example : byteIndex ⟨0, 4⟩ ['😀', 'x', '\n'] = none := by decide
example : byteIndex ⟨2, 0⟩ ['a', '\n', 'b'] = none := by decide

/-! ## C04: order -/

/-- C04. Offset order and position order agree, strictly, for any two convertible offsets. -/
theorem c04_order (t : Text) (o₁ o₂ : Nat) (p₁ p₂ : Position)
    (h₁ : fromByteIndex o₁ t = some p₁) (h₂ : fromByteIndex o₂ t = some p₂) :
    (p₁.lt p₂ = true ↔ o₁ < o₂) ∧ (p₁ = p₂ ↔ o₁ = o₂) ∧ (p₁.le p₂ = true ↔ o₁ ≤ o₂) := by
  obtain ⟨a, b, rfl, rfl, rfl⟩ := prefix_of_fromByteIndex h₁
  obtain ⟨c, d, h, rfl, rfl⟩ := prefix_of_fromByteIndex h₂
  have e1 : (posOf a).lt (posOf c) = true ↔ blen a < blen c := by
    rw [lt_iff, posOf_before_iff h]
  have e2 : posOf a = posOf c ↔ blen a = blen c := by
    constructor
    · intro hp; rw [posOf_inj h hp]
    · intro hl; rw [(prefix_eq_of_blen h hl).1]
  refine ⟨e1, e2, ?_⟩
  rw [le_iff, ← lt_iff, e1, e2]; omega

/-- C04 for ranges: a byte range `a ≤ b` whose ends are boundaries becomes an LSP range with
`start ≤ end`, empty iff the byte range is. -/
theorem c04_range (t : Text) (a b : Nat) (r : Range) (hab : a ≤ b)
    (h : Range.fromByteOffsetRange a b t = some r) :
    r.start.le r.stop = true ∧ (r.isEmpty = true ↔ a = b) := by
  unfold Range.fromByteOffsetRange at h
  split at h
  · simp at h
  · next s hs =>
    split at h
    · simp at h
    · next e he =>
      simp at h; subst h
      obtain ⟨-, h2, h3⟩ := c04_order t a b s e hs he
      exact ⟨h3.mpr hab, by simp [Range.isEmpty, h2]⟩

/-- C04 for pairs of ranges: LSP ranges overlap exactly when the byte ranges do. -/
theorem c04_overlap (t : Text) (a b c d : Nat) (r s : Range)
    (hr : Range.fromByteOffsetRange a b t = some r) (hs : Range.fromByteOffsetRange c d t = some s) :
    r.overlaps s = true ↔ a < d ∧ c < b := by
  unfold Range.fromByteOffsetRange at hr hs
  split at hr; · simp at hr
  next pa ha =>
  split at hr; · simp at hr
  next pb hb =>
  split at hs; · simp at hs
  next pc hc =>
  split at hs; · simp at hs
  next pd hd =>
  simp at hr hs; subst hr hs
  simp only [Range.overlaps, Bool.and_eq_true]
  rw [(c04_order t a d pa pd ha hd).1, (c04_order t c b pc pb hc hb).1]

example : Range.fromByteOffsetRange 3 7 ['é', '\n', '😀', 'x'] = some ⟨⟨1, 0⟩, ⟨1, 2⟩⟩ := by decide

/-! ## C08: overlap -/

/-- C08. Overlap is symmetric. -/
theorem c08_symm (a b : Range) : a.overlaps b = b.overlaps a := by
  unfold Range.overlaps; exact Bool.and_comm _ _

/-- C08. Two non-empty ranges overlap iff some position lies in both (start inclusive, end exclusive). -/
theorem c08_common_position (a b : Range) (ha : a.start.Before a.stop) (hb : b.start.Before b.stop) :
    a.overlaps b = true ↔
      ∃ p : Position, ¬ p.Before a.start ∧ p.Before a.stop ∧ ¬ p.Before b.start ∧ p.Before b.stop := by
  simp only [Range.overlaps, Bool.and_eq_true, lt_iff]
  constructor
  · rintro ⟨h1, h2⟩
    by_cases hc : a.start.Before b.start
    · exact ⟨b.start, Before.asymm hc, h2, Before.irrefl _, hb⟩
    · exact ⟨a.start, Before.irrefl _, ha, hc, h1⟩
  · rintro ⟨p, h1, h2, h3, h4⟩
    unfold Position.Before at *
    omega

/-- C08. An insertion point overlaps a range iff it is strictly inside it; insertions never overlap
each other, and ranges that only touch do not overlap. -/
theorem c08_insertion (p : Position) (b : Range) :
    (Range.mk p p).overlaps b = true ↔ b.start.Before p ∧ p.Before b.stop := by
  simp only [Range.overlaps, Bool.and_eq_true, lt_iff]; exact And.comm

theorem c08_insertions_never (p q : Position) : (Range.mk p p).overlaps (Range.mk q q) = false := by
  cases h : (Range.mk p p).overlaps (Range.mk q q) with
  | false => rfl
  | true =>
    rw [c08_insertion] at h
    exact absurd h.2 (Before.asymm h.1)

theorem c08_touching (a b c : Position) : (Range.mk a b).overlaps (Range.mk b c) = false := by
  cases h : (Range.mk a b).overlaps (Range.mk b c) with
  | false => rfl
  | true =>
    simp only [Range.overlaps, Bool.and_eq_true, lt_iff] at h
    exact absurd h.2 (Before.irrefl _)

example : (Range.mk ⟨0, 1⟩ ⟨2, 0⟩).overlaps (Range.mk ⟨1, 9⟩ ⟨3, 0⟩) = true := by decide

end Verif.Props
