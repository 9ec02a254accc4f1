import Verif.Format.Spec
import Verif.Format.Pipeline
import Verif.Props.Edits
/-!
# Layouts: composition, and the insertion of a comment
-/
namespace Verif.Format
open Verif Verif.Grammar Verif.Lexer Verif.Features

theorem spaces_nil : Spaces [] := by intro c hc; cases hc
theorem spaces_append {a b : Text} (ha : Spaces a) (hb : Spaces b) : Spaces (a ++ b) := by
  intro c hc
  rcases List.mem_append.1 hc with h | h
  · exact ha c h
  · exact hb c h
theorem spaces_cons {c : Char} {b : Text} (hc : wsClass.has c = true) (hb : Spaces b) : Spaces (c :: b) := by
  intro x hx
  rcases List.mem_cons.1 hx with rfl | h
  · exact hc
  · exact hb x h
theorem spaces_left {a b : Text} (h : Spaces (a ++ b)) : Spaces a := fun c hc => h c (List.mem_append_left _ hc)
theorem spaces_right {a b : Text} (h : Spaces (a ++ b)) : Spaces b := fun c hc => h c (List.mem_append_right _ hc)
theorem spaces_nl {b : Text} (hb : Spaces b) : Spaces ('\n' :: b) := spaces_cons (by decide) hb
theorem spaces_sp {b : Text} (hb : Spaces b) : Spaces (' ' :: b) := spaces_cons (by decide) hb
theorem spaces_replicate (n : Nat) : Spaces (List.replicate n ' ') := by
  intro c hc
  rw [List.eq_of_mem_replicate hc]
  decide
theorem spaces_repeat {t : Text} (ht : Spaces t) (n : Nat) : Spaces (repeatText t n) := by
  intro c hc
  unfold repeatText at hc
  obtain ⟨l, hl, hc⟩ := List.mem_flatten.1 hc
  rw [List.eq_of_mem_replicate hl] at hc
  exact ht c hc

/-- ASCII white space is white space. -/
theorem ws_isSpace {c : Char} (h : wsClass.has c = true) : isSpace c = true := by
  unfold isSpace
  simp only [wsClass, Lexer.space, Class.has, List.any_cons, List.any_nil, Bool.or_false, Bool.or_eq_true, Bool.and_eq_true,
    Nat.ble_eq] at h ⊢
  omega

theorem ws_u8 {c : Char} (h : wsClass.has c = true) : u8 c = 1 := by
  have h2 : c.toNat < 128 := by
    simp only [wsClass, Class.has, List.any_cons, List.any_nil, Bool.or_false, Bool.or_eq_true, Bool.and_eq_true,
      Nat.ble_eq] at h
    omega
  unfold u8
  have h3 : c.val.toNat = c.toNat := rfl
  have : c.val ≤ 0x7f := by
    rw [UInt32.le_iff_toNat_le, h3]
    have : (0x7f : UInt32).toNat = 127 := rfl
    omega
  unfold Char.utf8Size
  exact if_pos this

theorem blen_spaces {s : Text} (h : Spaces s) : blen s = s.length := by
  induction s with
  | nil => rfl
  | cons c s ih =>
    have hc := ws_u8 (h c List.mem_cons_self)
    have := ih (fun x hx => h x (List.mem_cons_of_mem _ hx))
    have h2 : blen (c :: s) = u8 c + blen s := rfl
    rw [h2, hc, this, List.length_cons, Nat.add_comm]

namespace Laid
variable {R S : Kind × Text → Text → Prop} {l m : List (Kind × Text)} {a b w : Text}

theorem mono (h : Laid R l a) (hRS : ∀ p t, R p t → S p t) : Laid S l a := by
  induction h with
  | done hw => exact .done hw
  | token hw hk ht _ ih => exact .token hw hk (hRS _ _ ht) ih
  | comment hw _ ih => exact .comment hw ih

theorem prepend (hw : Spaces w) (h : Laid R l a) : Laid R l (w ++ a) := by
  cases h with
  | done h => exact .done (spaces_append hw h)
  | @token w' p t l r h hk ht h' =>
    have : w ++ (w' ++ (t ++ r)) = (w ++ w') ++ (t ++ r) := by simp
    rw [this]; exact .token (spaces_append hw h) hk ht h'
  | @comment w' t l r h h' =>
    have : w ++ (w' ++ ('#' :: t ++ '\n' :: r)) = (w ++ w') ++ ('#' :: t ++ '\n' :: r) := by simp
    rw [this]; exact .comment (spaces_append hw h) h'

theorem append (h : Laid R l a) (h2 : Laid R m b) : Laid R (l ++ m) (a ++ b) := by
  generalize hx : a = x at h
  induction h generalizing a with
  | done hw => exact h2.prepend hw
  | @token w p t l r hw hk ht h' ih =>
    have : w ++ (t ++ r) ++ b = w ++ (t ++ (r ++ b)) := by simp
    rw [this, List.cons_append]
    exact .token hw hk ht (ih rfl)
  | @comment w t l r hw h' ih =>
    have : w ++ ('#' :: t ++ '\n' :: r) ++ b = w ++ ('#' :: t ++ '\n' :: (r ++ b)) := by simp
    rw [this, List.cons_append]
    exact .comment hw (ih rfl)

theorem single {p : Kind × Text} {t : Text} (hk : p.1 ≠ K.Comment) (ht : R p t) : Laid R [p] t := by
  have := Laid.token (R := R) spaces_nil hk ht (.done spaces_nil)
  simpa using this

end Laid

/-- A way to write a token that does not begin with white space. -/
def Firm (p : Kind × Text) (t : Text) : Prop := Restyled p t ∧ ∃ c cs, t = c :: cs ∧ isSpace c = false

theorem firstMark_some {t : Text} {n i : Nat} {c : Char} (h : firstMark t n = some (i, c)) :
    ∃ w v, t = w ++ c :: v ∧ i = n + w.length ∧ (∀ d ∈ w, isSpace d = true) ∧ (isSpace c = false ∨ c = '\n') := by
  induction t generalizing n with
  | nil => simp [firstMark] at h
  | cons d t ih =>
    unfold firstMark at h
    by_cases hd : (!isSpace d || d == '\n') = true
    · rw [if_pos hd] at h
      injection h with h
      injection h with h1 h2
      subst h1; subst h2
      refine ⟨[], t, rfl, by simp, by simp, ?_⟩
      simpa using hd
    · rw [if_neg hd] at h
      obtain ⟨w, v, h1, h2, h3, h4⟩ := ih h
      have hd' : isSpace d = true := by
        cases hs : isSpace d
        · simp [hs] at hd
        · rfl
      refine ⟨d :: w, v, by rw [h1]; rfl, by rw [h2, List.length_cons]; omega, ?_, h4⟩
      intro x hx
      rcases List.mem_cons.1 hx with rfl | hx
      · exact hd'
      · exact h3 x hx

theorem firstMark_none {t : Text} {n : Nat} (h : firstMark t n = none) : ∀ d ∈ t, isSpace d = true := by
  induction t generalizing n with
  | nil => intro d hd; cases hd
  | cons d t ih =>
    unfold firstMark at h
    by_cases hd : (!isSpace d || d == '\n') = true
    · rw [if_pos hd] at h; cases h
    · rw [if_neg hd] at h
      have hd' : isSpace d = true := by
        cases hs : isSpace d
        · simp [hs] at hd
        · rfl
      intro x hx
      rcases List.mem_cons.1 hx with rfl | hx
      · exact hd'
      · exact ih h x hx

/-! ## Layouts with marks

The proof keeps track of places where there certainly is white space: an element of kind `WHITESPACE` in the list is a mark for such
a place. -/

/-- A mark. -/
def gapMark : Kind × Text := (K.WHITESPACE, [])

/-- The text is a layout of the list; `b`: a white space character precedes it. -/
inductive Lay (R : Kind × Text → Text → Prop) : Bool → List (Kind × Text) → Text → Prop
  | done {b} : Lay R b [] []
  | sp {b c l r} (hc : wsClass.has c = true) (h : Lay R true l r) : Lay R b l (c :: r)
  | mark {m l r} (hm : m.1 = K.WHITESPACE) (h : Lay R true l r) : Lay R true (m :: l) r
  | token {b p t l r} (hk : p.1 ≠ K.Comment) (hw : p.1 ≠ K.WHITESPACE) (ht : R p t) (h : Lay R false l r) : Lay R b (p :: l) (t ++ r)
  | comment {b t l r} (h : Lay R false l ('\n' :: r)) : Lay R b ((K.Comment, '#' :: t) :: l) ('#' :: t ++ '\n' :: r)

namespace Lay
variable {R S : Kind × Text → Text → Prop} {l m : List (Kind × Text)} {a r w : Text} {b : Bool}

theorem mono (h : Lay R b l a) (hRS : ∀ p t, R p t → S p t) : Lay S b l a := by
  induction h with
  | done => exact .done
  | sp hc _ ih => exact .sp hc ih
  | mark hm _ ih => exact .mark hm ih
  | token hk hw ht _ ih => exact .token hk hw (hRS _ _ ht) ih
  | comment _ ih => exact .comment ih

theorem up (h : Lay R b l a) : Lay R true l a := by
  cases h with
  | done => exact .done
  | sp hc h => exact .sp hc h
  | mark hm h => exact .mark hm h
  | token hk hw ht h => exact .token hk hw ht h
  | comment h => exact .comment h

theorem of_false (h : Lay R false l a) : Lay R b l a := by
  cases b
  · exact h
  · exact h.up

theorem pad (hw : Spaces w) (hne : w ≠ []) (h : Lay R true l a) : Lay R b l (w ++ a) := by
  induction w generalizing b with
  | nil => exact absurd rfl hne
  | cons c w ih =>
    have hc := hw c List.mem_cons_self
    refine .sp hc ?_
    by_cases hn : w = []
    · subst hn; exact h
    · exact ih (fun x hx => hw x (List.mem_cons_of_mem _ hx)) hn

theorem prepend (hw : Spaces w) (h : Lay R b l a) : Lay R b l (w ++ a) := by
  by_cases hn : w = []
  · subst hn; exact h
  · exact h.up.pad hw hn

theorem append (h : Lay R b l a) (h2 : Lay R false m r) : Lay R b (l ++ m) (a ++ r) := by
  induction h with
  | done => exact h2.of_false
  | sp hc _ ih => exact .sp hc ih
  | mark hm _ ih => exact .mark hm ih
  | @token b p t l x hk hw ht _ ih => rw [List.append_assoc]; exact .token hk hw ht ih
  | @comment b t l x _ ih =>
    have : '#' :: t ++ '\n' :: x ++ r = '#' :: t ++ '\n' :: (x ++ r) := by simp
    rw [this]
    exact .comment ih

theorem of_laid (h : Laid R l a) (hs : ∀ p ∈ l, p.1 ≠ K.WHITESPACE) : Lay R false l a := by
  induction h with
  | @done w hw => have := Lay.prepend (R := R) hw (b := false) .done; rwa [List.append_nil] at this
  | token hw hk ht _ ih =>
    exact Lay.prepend hw (.token hk (hs _ List.mem_cons_self) ht (ih (fun p hp => hs p (List.mem_cons_of_mem _ hp))))
  | comment hw _ ih =>
    exact Lay.prepend hw (.comment (ih (fun p hp => hs p (List.mem_cons_of_mem _ hp))))

/-- Without the marks. -/
theorem laid (h : Lay R b l a) : Laid R (l.filter (fun p => p.1 != K.WHITESPACE)) a := by
  induction h with
  | done => exact .done spaces_nil
  | @sp b c l r hc _ ih => exact ih.prepend (w := [c]) (spaces_cons hc spaces_nil)
  | mark hm _ ih => rw [List.filter_cons_of_neg (by simp [hm])]; exact ih
  | token hk hw ht _ ih =>
    rw [List.filter_cons_of_pos (by simp [hw])]
    exact .token spaces_nil hk ht ih
  | comment _ ih =>
    rw [List.filter_cons_of_pos (by show (K.Comment != K.WHITESPACE) = true; decide)]
    exact .comment spaces_nil ih

end Lay

/-- White space in front of a layout may be dropped. -/
theorem lay_drop {b : Bool} {l : List (Kind × Text)} {w x : Text} (h : Lay Firm b l (w ++ x)) (hw : ∀ d ∈ w, isSpace d = true) :
    Spaces w ∧ Lay Firm true l x := by
  generalize hy : w ++ x = y at h
  induction h generalizing w with
  | done =>
    obtain ⟨rfl, rfl⟩ := List.append_eq_nil_iff.1 hy
    exact ⟨spaces_nil, .done⟩
  | @sp b c l r hc h ih =>
    cases w with
    | nil => rw [List.nil_append] at hy; subst hy; exact ⟨spaces_nil, .sp hc h⟩
    | cons d w =>
      rw [List.cons_append, List.cons.injEq] at hy
      obtain ⟨h1, h2⟩ := ih (fun y hy => hw y (List.mem_cons_of_mem _ hy)) hy.2
      exact ⟨spaces_cons (hy.1 ▸ hc) h1, h2⟩
  | mark hm _ ih =>
    obtain ⟨h1, h2⟩ := ih hw hy
    exact ⟨h1, .mark hm h2⟩
  | @token b p t l r hk hws ht h _ =>
    obtain ⟨hr, c, cs, rfl, hc⟩ := ht
    cases w with
    | nil => rw [List.nil_append] at hy; subst hy; exact ⟨spaces_nil, .token hk hws ⟨hr, c, cs, rfl, hc⟩ h⟩
    | cons d w =>
      rw [List.cons_append, List.cons_append, List.cons.injEq] at hy
      have := hw d List.mem_cons_self
      rw [hy.1, hc] at this; cases this
  | @comment b t l r h _ =>
    cases w with
    | nil => rw [List.nil_append] at hy; subst hy; exact ⟨spaces_nil, .comment h⟩
    | cons d w =>
      rw [List.cons_append, List.cons_append, List.cons.injEq] at hy
      have := hw d List.mem_cons_self
      rw [hy.1] at this; exact absurd this (by decide)

/-- A layout that starts with white space. -/
theorem lay_delay {b b' : Bool} {l : List (Kind × Text)} {c : Char} {x : Text} (h : Lay Firm b l (c :: x)) (hc : wsClass.has c = true) :
    Lay Firm b' l (c :: x) :=
  .sp hc (lay_drop (w := [c]) h (fun d hd => by rw [List.mem_singleton.1 hd]; exact ws_isSpace hc)).2

/-- The mark in front of a text that starts with white space. -/
def lead : Text → List (Kind × Text)
  | [] => []
  | c :: _ => if wsClass.has c then [gapMark] else []

theorem lay_lead {l : List (Kind × Text)} {t : Text} (h : Laid Firm l t) (hs : ∀ p ∈ l, p.1 ≠ K.WHITESPACE) : Lay Firm false (lead t ++ l) t := by
  have h1 := Lay.of_laid h hs
  cases t with
  | nil => exact h1
  | cons c t =>
    show Lay Firm false ((if wsClass.has c = true then [gapMark] else []) ++ l) (c :: t)
    split
    · rename_i hc
      have := (lay_drop (w := [c]) h1 (fun d hd => by rw [List.mem_singleton.1 hd]; exact ws_isSpace hc)).2
      exact .sp hc (.mark rfl this)
    · exact h1

/-- What stands for a comment: its text, and a mark in front unless it comes first in the document. -/
def comItems (c : CMarker) : List (Kind × Text) :=
  (if c.pos.line = 0 ∧ c.pos.character = 0 then [] else [gapMark]) ++ [(K.Comment, c.text)]

theorem lay_shown {b : Bool} {indent : Text} (hi : Spaces indent) (c : CMarker) {l : List (Kind × Text)} {r : Text}
    (ht : ∃ t, c.text = '#' :: t) (h : Lay Firm false l ('\n' :: r)) : Lay Firm b (comItems c ++ l) (c.shown indent ++ '\n' :: r) := by
  obtain ⟨t, ht⟩ := ht
  have h1 : ∀ b, Lay Firm b ((K.Comment, c.text) :: l) (c.text ++ '\n' :: r) := by
    intro b; rw [ht]; exact .comment h
  unfold comItems CMarker.shown
  split
  · exact h1 b
  · rw [List.append_assoc, List.append_assoc]
    have h2 : Lay Firm true ([gapMark] ++ ([(K.Comment, c.text)] ++ l)) (c.text ++ '\n' :: r) := .mark rfl (h1 true)
    split
    · exact h2.pad (spaces_sp spaces_nil) (by simp)
    · exact h2.pad (spaces_nl (spaces_repeat hi _)) (by simp)

/-- The insertion of a comment in front of an edit: its text becomes a layout with the comment in front. -/
theorem withComment_lay (text indent : Text) (c : CMarker) (next : TextEdit) {l : List (Kind × Text)} (hi : Spaces indent)
    (hc : ∃ t', c.text = '#' :: t') (h : Lay Firm false l next.newText) :
    ∃ new, withComment text indent c next = some new ∧ Lay Firm false (comItems c ++ l) new := by
  unfold withComment
  cases hm : firstMark next.newText 0 with
  | none =>
    dsimp only
    refine ⟨_, rfl, ?_⟩
    have h0 := (lay_drop (x := []) (by simpa using h) (firstMark_none hm)).2
    have hd : ∀ n, Lay Firm false l ('\n' :: repeatText indent n) := by
      intro n
      have := h0.pad (b := false) (w := '\n' :: repeatText indent n) (spaces_nl (spaces_repeat hi n)) (by simp)
      rwa [List.append_nil] at this
    rw [List.append_assoc]
    refine (lay_shown hi c hc (hd _)).prepend ?_
    split
    · exact spaces_nl spaces_nil
    · exact spaces_nil
  | some p =>
    obtain ⟨i, ch⟩ := p
    dsimp only
    obtain ⟨w, v, h1, h2, h3, h4⟩ := firstMark_some hm
    rw [Nat.zero_add] at h2
    obtain ⟨hsw, hx⟩ := lay_drop (by rw [← h1]; exact h) h3
    have hb : i = blen w := by rw [blen_spaces hsw, h2]
    by_cases hn : ch = '\n'
    · subst hn
      rw [if_pos rfl]
      by_cases he : c.emptyLine = true ∧ ['\n', '\n'] <+: next.newText
      · rw [if_pos he]
        have hw0 : w = [] ∧ ∃ v', v = '\n' :: v' := by
          obtain ⟨y, hy⟩ := he.2
          cases w with
          | nil =>
            rw [h1, List.nil_append] at hy
            injection hy with _ hy
            exact ⟨rfl, y, hy.symm⟩
          | cons d w =>
            exfalso
            rw [h1] at hy
            injection hy with hd _
            have := hm
            rw [h1, ← hd] at this
            simp only [firstMark, List.cons_append, beq_self_eq_true, Bool.or_true, if_true, Option.some.injEq, Prod.mk.injEq] at this
            have h5 := this.1
            rw [h2, List.length_cons] at h5
            omega
        obtain ⟨rfl, v', rfl⟩ := hw0
        have hs1 : splitAtByte next.newText (i + 1) = some (['\n'], '\n' :: v') := by
          have : i + 1 = blen ['\n'] := by rw [h2]; decide
          rw [this, h1]
          exact splitAtByte_append ['\n'] ('\n' :: v')
        rw [hs1]
        refine ⟨_, rfl, ?_⟩
        dsimp only
        have h6 : Lay Firm true l ('\n' :: v') := (lay_drop (w := ['\n']) (x := '\n' :: v') hx (by
          intro d hd
          rw [List.mem_singleton.1 hd]
          decide)).2
        exact .sp (by decide) (lay_shown hi c hc (lay_delay h6 (by decide)))
      · rw [if_neg he]
        have hs1 : splitAtByte next.newText i = some (w, '\n' :: v) := by rw [hb, h1]; exact splitAtByte_append w _
        rw [hs1]
        refine ⟨_, rfl, ?_⟩
        dsimp only
        exact lay_shown hi c hc (lay_delay hx (by decide))
    · rw [if_neg hn]
      have hs1 : splitAtByte next.newText i = some (w, ch :: v) := by rw [hb, h1]; exact splitAtByte_append w _
      rw [hs1]
      refine ⟨_, rfl, ?_⟩
      dsimp only
      have h6 : Lay Firm false l ('\n' :: (repeatText indent c.level ++ ch :: v)) :=
        hx.pad (w := '\n' :: repeatText indent c.level) (spaces_nl (spaces_repeat hi _)) (by simp)
      have := lay_shown (b := false) hi c hc h6
      simpa using this

end Verif.Format
