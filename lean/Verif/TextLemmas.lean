import Verif.TextSpec
import Mathlib.Data.List.Induction
import Mathlib.Tactic.Common
namespace Verif

theorem u8_pos (c : Char) : 0 < u8 c := Char.utf8Size_pos c

theorem u16_pos (c : Char) : 0 < u16 c := by unfold u16; split <;> omega

theorem u16_le (c : Char) : u16 c ≤ 2 := by unfold u16; split <;> omega

theorem u8_nl : u8 '\n' = 1 := by decide
theorem u8_cr : u8 '\r' = 1 := by decide

@[simp] theorem blen_nil : blen [] = 0 := rfl
@[simp] theorem blen_cons (c cs) : blen (c :: cs) = u8 c + blen cs := rfl
@[simp] theorem blen_append (a b : Text) : blen (a ++ b) = blen a + blen b := by
  induction a with
  | nil => simp
  | cons c cs ih => simp [ih]; omega
@[simp] theorem len16_nil : len16 [] = 0 := rfl
@[simp] theorem len16_cons (c cs) : len16 (c :: cs) = u16 c + len16 cs := rfl
@[simp] theorem len16_append (a b : Text) : len16 (a ++ b) = len16 a + len16 b := by
  induction a with
  | nil => simp
  | cons c cs ih => simp [ih]; omega

theorem blen_pos {t : Text} (h : t ≠ []) : 0 < blen t := by
  cases t with
  | nil => exact absurd rfl h
  | cons c cs => have := u8_pos c; simp; omega

/-- Two prefixes of one text with equal byte length are equal. -/
theorem prefix_eq_of_blen {a b c d : Text} (h : a ++ b = c ++ d) (hl : blen a = blen c) : a = c ∧ b = d := by
  induction a generalizing c with
  | nil =>
    cases c with
    | nil => exact ⟨rfl, by simpa using h⟩
    | cons x xs => have := u8_pos x; simp at hl; omega
  | cons x xs ih =>
    cases c with
    | nil => have := u8_pos x; simp at hl; omega
    | cons y ys =>
      simp at h hl
      obtain ⟨rfl, h⟩ := h
      have := ih h (by omega)
      exact ⟨by rw [this.1], this.2⟩

/-- Comparable prefixes. -/
theorem prefix_cases {a b c d : Text} (h : a ++ b = c ++ d) :
    (∃ m, c = a ++ m ∧ b = m ++ d) ∨ (∃ m, m ≠ [] ∧ a = c ++ m ∧ d = m ++ b) := by
  rcases List.append_eq_append_iff.mp h with ⟨m, h1, h2⟩ | ⟨m, h1, h2⟩
  · exact Or.inl ⟨m, h1, h2⟩
  · cases m with
    | nil => exact Or.inl ⟨[], by simp_all, by simp_all⟩
    | cons x xs => exact Or.inr ⟨x :: xs, by simp, h1, h2⟩

@[simp] theorem posOf_nil : posOf [] = ⟨0, 0⟩ := rfl

theorem lastLine_snoc (pre : Text) (c : Char) :
    lastLine (pre ++ [c]) = if c = '\n' then [] else lastLine pre ++ [c] := by
  unfold lastLine
  rw [List.reverse_append]
  simp only [List.reverse_cons, List.reverse_nil, List.nil_append, List.singleton_append,
    List.takeWhile_cons]
  by_cases h : c = '\n' <;> simp [h]

theorem posOf_snoc (pre : Text) (c : Char) : posOf (pre ++ [c]) = (posOf pre).step c := by
  unfold posOf Position.step lineNo
  rw [lastLine_snoc]
  by_cases h : c = '\n'
  · simp [h]
  · simp [h]

theorem posOf_append (pre s : Text) : posOf (pre ++ s) = s.foldl Position.step (posOf pre) := by
  induction s generalizing pre with
  | nil => simp
  | cons c cs ih =>
    have : pre ++ c :: cs = (pre ++ [c]) ++ cs := by simp
    rw [this, ih, posOf_snoc]; rfl

theorem lt_iff (a b : Position) : a.lt b = true ↔ a.Before b := by
  unfold Position.lt Position.Before
  split <;> simp <;> omega

theorem le_iff (a b : Position) : a.le b = true ↔ a.Before b ∨ a = b := by
  unfold Position.le Position.Before
  rcases a with ⟨al, ac⟩; rcases b with ⟨bl, bc⟩
  simp only [Position.mk.injEq]
  split <;> simp <;> omega

theorem Before.trans {a b c : Position} (h : a.Before b) (k : b.Before c) : a.Before c := by
  unfold Position.Before at *; omega

theorem Before.irrefl (a : Position) : ¬ a.Before a := by unfold Position.Before; omega

theorem Before.asymm {a b : Position} (h : a.Before b) : ¬ b.Before a := by
  unfold Position.Before at *; omega

theorem Before.total (a b : Position) : a.Before b ∨ a = b ∨ b.Before a := by
  unfold Position.Before
  rcases a with ⟨al, ac⟩; rcases b with ⟨bl, bc⟩
  simp only [Position.mk.injEq]; omega

theorem step_before (p : Position) (c : Char) : p.Before (p.step c) := by
  unfold Position.Before Position.step
  have := u16_pos c
  split <;> simp
  omega

theorem foldl_step_before (s : Text) (h : s ≠ []) (p : Position) : p.Before (s.foldl Position.step p) := by
  induction s generalizing p with
  | nil => exact absurd rfl h
  | cons c cs ih =>
    simp only [List.foldl_cons]
    cases cs with
    | nil => exact step_before p c
    | cons d ds => exact Before.trans (step_before p c) (ih (by simp) _)

theorem posOf_before (pre s : Text) (h : s ≠ []) : (posOf pre).Before (posOf (pre ++ s)) := by
  rw [posOf_append]; exact foldl_step_before s h _

/-- Positions determine prefixes of one text. -/
theorem posOf_inj {a b c d : Text} (h : a ++ b = c ++ d) (hp : posOf a = posOf c) : a = c := by
  rcases prefix_cases h with ⟨m, rfl, -⟩ | ⟨m, hm, rfl, -⟩
  · cases m with
    | nil => simp
    | cons x xs => exact absurd (hp ▸ posOf_before a (x :: xs) (by simp)) (Before.irrefl _)
  · exact absurd (hp ▸ posOf_before c m hm) (Before.irrefl _)

/-- Position order is prefix order. -/
theorem posOf_before_iff {a b c d : Text} (h : a ++ b = c ++ d) :
    (posOf a).Before (posOf c) ↔ blen a < blen c := by
  rcases prefix_cases h with ⟨m, rfl, -⟩ | ⟨m, hm, rfl, -⟩
  · by_cases hm : m = []
    · subst hm; simp [Before.irrefl]
    · have := blen_pos hm
      simp only [posOf_before a m hm, true_iff, blen_append]; omega
  · have := blen_pos hm
    have := Before.asymm (posOf_before c m hm)
    simp only [this, false_iff, blen_append]; omega

/-! ### from_byte_index -/

theorem fromByteIndexLoop_spec (offset : Nat) (cs pre : Text) :
    ∃ q post, cs = q ++ post ∧
      fromByteIndexLoop offset cs (blen pre) (posOf pre) = (blen (pre ++ q), posOf (pre ++ q)) ∧
      (post = [] ∨ offset ≤ blen (pre ++ q)) ∧
      (∀ q' r, q = q' ++ r → r ≠ [] → blen (pre ++ q') < offset) := by
  induction cs generalizing pre with
  | nil => exact ⟨[], [], rfl, by simp [fromByteIndexLoop], Or.inl rfl, by simp⟩
  | cons c cs ih =>
    unfold fromByteIndexLoop
    by_cases h : blen pre < offset
    · obtain ⟨q, post, h1, h2, h3, h4⟩ := ih (pre ++ [c])
      refine ⟨c :: q, post, by simp [h1], ?_, ?_, ?_⟩
      · rw [if_pos h, ← posOf_snoc]
        have : blen pre + u8 c = blen (pre ++ [c]) := by simp
        rw [this, h2]; simp
      · simpa using h3
      · intro q' r hq hr
        cases q' with
        | nil => simpa using h
        | cons x xs =>
          simp at hq
          have := h4 xs r hq.2 hr
          rw [hq.1] at this; simpa using this
    · refine ⟨[], c :: cs, rfl, by simp [h], Or.inr (by simp; omega), ?_⟩
      intro q' r hq hr; simp at hq; exact absurd hq.2 hr

theorem fromByteIndex_of_prefix (pre post : Text) :
    fromByteIndex (blen pre) (pre ++ post) = some (posOf pre) := by
  obtain ⟨q, r, h1, h2, h3, h4⟩ := fromByteIndexLoop_spec (blen pre) (pre ++ post) []
  simp only [List.nil_append, blen_nil, posOf_nil] at h2 h3 h4
  have key : q = pre := by
    rcases prefix_cases h1 with ⟨m, rfl, hr⟩ | ⟨m, hm, hp, hr⟩
    · cases m with
      | nil => simp
      | cons x xs =>
        exfalso
        have := h4 pre (x :: xs) rfl (by simp); omega
    · exfalso
      rcases h3 with h3 | h3
      · subst h3; simp at hr; exact hm hr.1
      · rw [hp] at h3; have := blen_pos hm; simp at h3; omega
  unfold fromByteIndex
  simp only
  rw [h2, key]; simp

theorem prefix_of_fromByteIndex {o : Nat} {t : Text} {p : Position}
    (h : fromByteIndex o t = some p) :
    ∃ pre post, t = pre ++ post ∧ blen pre = o ∧ p = posOf pre := by
  obtain ⟨q, r, h1, h2, h3, h4⟩ := fromByteIndexLoop_spec o t []
  simp only [List.nil_append, blen_nil, posOf_nil] at h2
  unfold fromByteIndex at h
  simp only at h
  rw [h2] at h
  simp only at h
  split at h
  · exact ⟨q, r, h1, by assumption, by simpa using h.symm⟩
  · simp at h

/-! ### byte_index -/

/-- Lines skipped before the target line: empty or ending in a line feed. -/
def EndsNL (p : Text) : Prop := p = [] ∨ ∃ q, p = q ++ ['\n']

theorem EndsNL.tail {c : Char} {p : Text} (h : EndsNL (c :: p)) (hp : p ≠ []) : EndsNL p := by
  rcases h with h | ⟨q, h⟩
  · simp at h
  · cases q with
    | nil => simp at h; exact absurd h.2 hp
    | cons x xs => simp at h; exact Or.inr ⟨xs, h.2⟩

theorem EndsNL.cons {c : Char} {p : Text} (h : EndsNL p) (hp : p ≠ []) : EndsNL (c :: p) := by
  rcases h with h | ⟨q, h⟩
  · exact absurd h hp
  · exact Or.inr ⟨c :: q, by simp [h]⟩

theorem skipLines_fwd (line : Nat) (p rest : Text) (li b : Nat) (hE : EndsNL p)
    (hc : li + p.count '\n' = line) :
    skipLines line (p ++ rest) li b = some (rest, b + blen p) := by
  induction hn : p.length using Nat.strongRecOn generalizing p li b with
  | _ n ih =>
    cases p with
    | nil =>
      simp only [List.count_nil, Nat.add_zero] at hc
      simp only [List.nil_append, blen_nil, Nat.add_zero]
      cases rest with
      | nil => simp [skipLines, hc]
      | cons c cs => unfold skipLines; simp [hc]
    | cons c cs =>
      have hlt : li < line := by
        have : 0 < (c :: cs).count '\n' := by
          rw [List.count_pos_iff]
          rcases hE with h | ⟨q, h⟩
          · simp at h
          · rw [h]; simp
        omega
      simp only [List.cons_append]
      unfold skipLines
      simp only [hlt, if_true]
      by_cases hnl : c = '\n'
      · subst hnl
        simp only [if_true]
        have hE' : EndsNL cs := by
          by_cases hcs : cs = []
          · exact Or.inl hcs
          · exact hE.tail hcs
        rw [ih cs.length (by simp at hn; omega) cs (li + 1) (b + 1) hE'
          (by simp at hc; omega) rfl]
        simp [u8_nl]; omega
      · simp only [hnl, if_false]
        have hcs : cs ≠ [] := by
          rintro rfl
          rcases hE with h | ⟨q, h⟩
          · simp at h
          · cases q <;> simp_all
        cases cs with
        | nil => exact absurd rfl hcs
        | cons d ds =>
          simp only [List.cons_append]
          by_cases hcr : c = '\r' ∧ d = '\n'
          · obtain ⟨rfl, rfl⟩ := hcr
            simp only [and_self, if_true]
            have hE' : EndsNL ds := by
              by_cases hds : ds = []
              · exact Or.inl hds
              · exact (hE.tail hcs).tail hds
            rw [ih ds.length (by simp at hn; omega) ds (li + 1) (b + 2) hE'
              (by rw [List.count_cons_of_ne (by decide)] at hc; simp at hc; omega) rfl]
            simp [u8_nl, u8_cr]; omega
          · simp only [hcr, if_false]
            have := ih (d :: ds).length (by simp at hn ⊢; omega) (d :: ds) li (b + u8 c)
              (hE.tail hcs) (by rw [List.count_cons_of_ne (by simpa using hnl)] at hc; exact hc) rfl
            simp only [List.cons_append] at this
            rw [this]; simp; omega

theorem skipLines_bwd (line : Nat) (t rest : Text) (li b b' : Nat) (hle : li ≤ line)
    (h : skipLines line t li b = some (rest, b')) :
    ∃ p, t = p ++ rest ∧ EndsNL p ∧ li + p.count '\n' = line ∧ b' = b + blen p := by
  induction hn : t.length using Nat.strongRecOn generalizing t li b with
  | _ n ih =>
    cases t with
    | nil =>
      unfold skipLines at h
      split at h
      · simp at h
      · simp at h; exact ⟨[], by simp [h.1], Or.inl rfl, by simp; omega, by simp [h.2]⟩
    | cons c cs =>
      unfold skipLines at h
      split at h
      case isFalse =>
        simp at h; exact ⟨[], by simp [h.1], Or.inl rfl, by simp; omega, by simp [h.2]⟩
      case isTrue hlt =>
        split at h
        case isTrue hnl =>
          subst hnl
          obtain ⟨p, h1, h2, h3, h4⟩ := ih cs.length (by simp at hn; omega) cs (li + 1) (b + 1)
            (by omega) h rfl
          refine ⟨'\n' :: p, by simp [h1], ?_, by simp; omega, by simp [u8_nl]; omega⟩
          by_cases hp : p = []
          · subst hp; exact Or.inr ⟨[], rfl⟩
          · exact h2.cons hp
        case isFalse hnl =>
          cases cs with
          | nil =>
            simp only at h
            unfold skipLines at h
            simp [hlt] at h
          | cons d ds =>
            simp only at h
            split at h
            case isTrue hcr =>
              obtain ⟨rfl, rfl⟩ := hcr
              obtain ⟨p, h1, h2, h3, h4⟩ := ih ds.length (by simp at hn; omega) ds (li + 1) (b + 2)
                (by omega) h rfl
              refine ⟨'\r' :: '\n' :: p, by simp [h1], ?_,
                by rw [List.count_cons_of_ne (by decide)]; simp; omega,
                by simp [u8_nl, u8_cr]; omega⟩
              by_cases hp : p = []
              · subst hp; exact Or.inr ⟨['\r'], rfl⟩
              · exact (h2.cons hp).cons (by simp)
            case isFalse hcr =>
              obtain ⟨p, h1, h2, h3, h4⟩ := ih (d :: ds).length (by simp at hn ⊢; omega) (d :: ds) li
                (b + u8 c) hle h rfl
              have hp : p ≠ [] := by
                rintro rfl; simp at h3; omega
              exact ⟨c :: p, by rw [List.cons_append, ← h1], h2.cons hp,
                by rw [List.count_cons_of_ne (by simpa using hnl)]; exact h3, by simp; omega⟩

theorem skipCols_fwd (k : Nat) (q post : Text) (i b : Nat) (hn : '\n' ∉ q) (hr : '\r' ∉ q)
    (hk : k ≤ i + len16 q) (hmin : ∀ q' r, q = q' ++ r → r ≠ [] → i + len16 q' < k) :
    skipCols k (q ++ post) i b = some (b + blen q) := by
  induction q generalizing i b with
  | nil =>
    simp only [len16_nil, Nat.add_zero] at hk
    simp only [List.nil_append, blen_nil, Nat.add_zero]
    have : ¬ i < k := by omega
    cases post with
    | nil => simp [skipCols, this]
    | cons c cs => unfold skipCols; simp [this]
  | cons c cs ih =>
    have hlt : i < k := by simpa using hmin [] (c :: cs) rfl (by simp)
    have ih' := ih (i + u16 c) (b + u8 c) (by simp_all) (by simp_all) (by simp at hk; omega)
      (fun q' r h hr => by
        have := hmin (c :: q') r (by simp [h]) hr
        simp at this; omega)
    simp only [List.cons_append]
    unfold skipCols
    have hcn : c ≠ '\n' := by rintro rfl; simp at hn
    have hcr : c ≠ '\r' := by rintro rfl; simp at hr
    simp only [hlt, if_true, hcn, if_false]
    cases hcp : cs ++ post with
    | nil =>
      rw [hcp] at ih'
      simp only
      rw [ih']; simp; omega
    | cons d ds =>
      rw [hcp] at ih'
      simp only [hcr, if_false]
      rw [ih']; simp; omega

theorem skipCols_bwd (k : Nat) (s : Text) (i b o : Nat) (hcr : NoLoneCR s)
    (h : skipCols k s i b = some o) :
    ∃ q post, s = q ++ post ∧ '\n' ∉ q ∧ '\r' ∉ q ∧ o = b + blen q ∧ k ≤ i + len16 q ∧
      (∀ q' r, q = q' ++ r → r ≠ [] → i + len16 q' < k) := by
  induction s generalizing i b with
  | nil =>
    unfold skipCols at h
    split at h
    · simp at h
    · simp at h
      exact ⟨[], [], rfl, by simp, by simp, by simp [h], by simp; omega, by simp⟩
  | cons c cs ih =>
    unfold skipCols at h
    split at h
    case isFalse hge =>
      simp at h
      exact ⟨[], c :: cs, rfl, by simp, by simp, by simp [h], by simp; omega, by simp⟩
    case isTrue hlt =>
      split at h
      case isTrue => simp at h
      case isFalse hcn =>
        have fin : skipCols k cs (i + u16 c) (b + u8 c) = some o → c ≠ '\r' →
            ∃ q post, c :: cs = q ++ post ∧ '\n' ∉ q ∧ '\r' ∉ q ∧ o = b + blen q ∧
              k ≤ i + len16 q ∧ (∀ q' r, q = q' ++ r → r ≠ [] → i + len16 q' < k) := by
          intro h hcr'
          obtain ⟨q, post, h1, h2, h3, h4, h5, h6⟩ := ih (i + u16 c) (b + u8 c)
            (fun x y hxy => hcr (c :: x) y (by simp [hxy])) h
          refine ⟨c :: q, post, by simp [h1], ?_, ?_, by simp; omega, by simp; omega, ?_⟩
          · simp [h2, Ne.symm hcn]
          · simp [h3, Ne.symm hcr']
          · intro q' r hq hr
            cases q' with
            | nil => simpa using hlt
            | cons x xs =>
              simp at hq
              have := h6 xs r hq.2 hr
              simp [← hq.1]; omega
        cases cs with
        | nil =>
          simp only at h
          refine fin h ?_
          rintro rfl
          obtain ⟨b', hb⟩ := hcr [] [] rfl
          simp at hb
        | cons d ds =>
          simp only at h
          split at h
          case isTrue hc =>
            subst hc
            obtain ⟨b', hb⟩ := hcr [] (d :: ds) rfl
            simp at hb
            simp [hb.1] at h
          case isFalse hc => exact fin h hc

theorem count_append_nl_free {p q : Text} (h : '\n' ∉ q) : (p ++ q).count '\n' = p.count '\n' := by
  rw [List.count_append, List.count_eq_zero.mpr h]; rfl

theorem lastLine_append {p q : Text} (hp : EndsNL p) (h : '\n' ∉ q) : lastLine (p ++ q) = q := by
  induction q using List.reverseRecOn with
  | nil =>
    rcases hp with rfl | ⟨r, rfl⟩
    · rfl
    · simp [lastLine_snoc]
  | append_singleton q c ih =>
    simp at h
    rw [← List.append_assoc, lastLine_snoc, if_neg (Ne.symm h.2), ih h.1]

/-- Every prefix splits into whole lines and its last line. -/
theorem split_lastLine (pre : Text) : ∃ p, pre = p ++ lastLine pre ∧ EndsNL p ∧ '\n' ∉ lastLine pre := by
  induction pre using List.reverseRecOn with
  | nil => exact ⟨[], rfl, Or.inl rfl, by simp [lastLine]⟩
  | append_singleton q c ih =>
    obtain ⟨p, h1, h2, h3⟩ := ih
    rw [lastLine_snoc]
    by_cases hc : c = '\n'
    · subst hc; exact ⟨q ++ ['\n'], by simp, Or.inr ⟨q, rfl⟩, by simp⟩
    · refine ⟨p, by rw [if_neg hc, ← List.append_assoc, ← h1], h2, ?_⟩
      simp [hc, h3, Ne.symm hc]

theorem lineNo_eq (p q : Text) (hq : '\n' ∉ q) : lineNo (p ++ q) = p.count '\n' :=
  count_append_nl_free hq

end Verif
