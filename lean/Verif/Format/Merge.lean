import Verif.Format.Laid
/-!
# `consolidate_edits` and `merge_comments`

A script is a way to read a list of edits and comment markers, in document order, as an account of what happens to the
pieces of a document. What the formatter makes of the edits and markers of a script is a list of edits that turns the
document into a layout of its tokens.
-/
namespace Verif.Format
open Verif Verif.Grammar Verif.Lexer Verif.Features

theorem le_of_eq {a b : Position} (h : a = b) : a.le b = true := (le_iff a b).2 (.inr h)
theorem le_of_lt {a b : Position} (h : a.Before b) : a.le b = true := (le_iff a b).2 (.inl h)
theorem le_trans {a b c : Position} (h : a.le b = true) (k : b.le c = true) : a.le c = true := by
  rcases (le_iff a b).1 h with h | rfl
  · rcases (le_iff b c).1 k with k | rfl
    · exact le_of_lt (Before.trans h k)
    · exact le_of_lt h
  · exact k
theorem lt_of_le_of_lt {a b c : Position} (h : a.le b = true) (k : b.Before c) : a.Before c := by
  rcases (le_iff a b).1 h with h | rfl
  · exact Before.trans h k
  · exact k
theorem not_le_of_lt {a b : Position} (h : a.Before b) : b.le a = false := by
  cases hb : b.le a with
  | false => rfl
  | true =>
    rcases (le_iff b a).1 hb with hb | rfl
    · exact absurd hb (Before.asymm h)
    · exact absurd h (Before.irrefl _)
theorem not_lt_of_le {a b : Position} (h : a.le b = true) : b.lt a = false := by
  cases hb : b.lt a with
  | false => rfl
  | true =>
    have := not_le_of_lt ((lt_iff b a).1 hb)
    rw [h] at this; cases this
theorem posOf_le (a b : Text) : (posOf a).le (posOf (a ++ b)) = true := by
  by_cases h : b = []
  · subst h; simp [le_of_eq]
  · exact le_of_lt (posOf_before a b h)

/-! ## `fuse`, `insertComments` -/

theorem fuse_cons (e : TextEdit) (es : List TextEdit) : fuse (e :: es) =
    some ⟨⟨e.range.start, ((e :: es).getLast (by simp)).range.stop⟩, ((e :: es).map (·.newText)).flatten⟩ := rfl

theorem fuse_prepend {e : TextEdit} {es : List TextEdit} {f : TextEdit} (h : fuse es = some f) :
    fuse (e :: es) = some ⟨⟨e.range.start, f.range.stop⟩, e.newText ++ f.newText⟩ := by
  cases es with
  | nil => cases h
  | cons x es =>
    rw [fuse_cons] at h
    injection h with h
    subst h
    rw [fuse_cons]
    simp [List.getLast_cons]

theorem insertComments_step (text indent : Text) (start : Position) (c : CMarker) (cs : List CMarker) (chain : List TextEdit) :
    insertComments text indent start (c :: cs) chain =
      if start.le c.pos then
        match fuse (splitAt chain c.pos).2 with
        | none => none
        | some next =>
          match withComment text indent c next with
          | none => none
          | some new => insertComments text indent start cs ((splitAt chain c.pos).1 ++ [⟨next.range, new⟩])
      else some (chain, c :: cs) := rfl

theorem mergeLoop_step (text indent : Text) (chain : List TextEdit) (chains : List (List TextEdit)) (cs : List CMarker) :
    mergeLoop text indent (chain :: chains) cs =
      match fuse chain with
      | none => none
      | some f =>
        match insertComments text indent f.range.start cs chain with
        | none => none
        | some (chain', cs') =>
          match fuse chain' with
          | none => none
          | some e =>
            match mergeLoop text indent chains cs' with
            | none => none
            | some (es, rest) => some (e :: es, rest) := rfl

theorem insertComments_append {text indent : Text} {start : Position} {A B : List CMarker} {ch ch' : List TextEdit}
    (h : insertComments text indent start A ch = some (ch', [])) :
    insertComments text indent start (A ++ B) ch = insertComments text indent start B ch' := by
  induction A generalizing ch with
  | nil =>
    simp only [insertComments, Option.some.injEq, Prod.mk.injEq, and_true] at h
    subst h; rfl
  | cons c A ih =>
    rw [List.cons_append]
    rw [insertComments_step] at h ⊢
    split at h
    · rename_i hs
      rw [if_pos hs]
      split at h
      · cases h
      · rename_i next hn
        split at h
        · cases h
        · rename_i new hw
          exact ih h
    · simp at h

theorem insertComments_rest {text indent : Text} {start : Position} {A B : List CMarker} {ch ch' : List TextEdit}
    (h : insertComments text indent start A ch = some (ch', [])) (hB : ∀ b ∈ B, b.pos.Before start) :
    insertComments text indent start (A ++ B) ch = some (ch', B) := by
  rw [insertComments_append h]
  cases B with
  | nil => rfl
  | cons b B =>
    have := not_le_of_lt (hB b List.mem_cons_self)
    unfold insertComments
    rw [if_neg (by rw [this]; simp)]

theorem splitAt_cons_pos {e : TextEdit} {X : List TextEdit} {p : Position} (h : goesBefore p e = true) :
    splitAt (e :: X) p = (e :: (splitAt X p).1, (splitAt X p).2) := by
  simp [splitAt, h]

/-- An edit in front of all comments stays as it is. -/
theorem insertComments_cons {text indent : Text} {start : Position} {e : TextEdit} {cs : List CMarker} {X X' : List TextEdit}
    (hc : ∀ c ∈ cs, goesBefore c.pos e = true)
    (h : insertComments text indent start cs X = some (X', [])) :
    insertComments text indent start cs (e :: X) = some (e :: X', []) := by
  induction cs generalizing X with
  | nil =>
    simp only [insertComments, Option.some.injEq, Prod.mk.injEq, and_true] at h
    subst h; rfl
  | cons c cs ih =>
    rw [insertComments_step] at h ⊢
    split at h
    · rename_i hs
      rw [if_pos hs, splitAt_cons_pos (hc c List.mem_cons_self)]
      dsimp only
      split at h
      · cases h
      · rename_i next hn
        split at h
        · cases h
        · rename_i new hw
          rw [List.cons_append]
          exact ih (fun x hx => hc x (List.mem_cons_of_mem _ hx)) h
    · simp at h

/-- The edits of a chain with the tokens they lay out, the comments to insert, and the tokens of the result. -/
inductive Woven : List (TextEdit × List (Kind × Text)) → List CMarker → List (Kind × Text) → Prop
  | nil : Woven [] [] []
  | seg {e ts S cs l} (ht : Lay Firm false ts e.newText) (hc : ∀ c ∈ cs, goesBefore c.pos e = true) (h : Woven S cs l) :
      Woven ((e, ts) :: S) cs (ts ++ l)
  | com {e ts S c cs l} (hp : c.pos = e.range.start) (ht : ∃ t, c.text = '#' :: t) (h : Woven ((e, ts) :: S) cs l) :
      Woven ((e, ts) :: S) (c :: cs) (comItems c ++ l)

theorem Woven.coms {e ts S cs C l} (hp : ∀ c ∈ cs, c.pos = e.range.start ∧ ∃ t, c.text = '#' :: t)
    (h : Woven ((e, ts) :: S) C l) :
    Woven ((e, ts) :: S) (cs ++ C) (cs.flatMap comItems ++ l) := by
  induction cs with
  | nil => exact h
  | cons c cs ih =>
    have hc := hp c List.mem_cons_self
    rw [List.flatMap_cons, List.append_assoc]
    exact .com hc.1 hc.2 (ih (fun x hx => hp x (List.mem_cons_of_mem _ hx)))

/-- The result of inserting comments into a chain. -/
structure Inserted (text indent : Text) (start : Position) (S : List (TextEdit × List (Kind × Text))) (cs : List CMarker)
    (l : List (Kind × Text)) (a b : Position) (ch : List TextEdit) (new : Text) : Prop where
  run : insertComments text indent start cs.reverse (S.map (·.1)) = some (ch, [])
  fused : fuse ch = some ⟨⟨a, b⟩, new⟩
  laid : Lay Firm false l new
  late : ∀ x ∈ ch, a.le x.range.start = true

theorem woven_insert {text indent : Text} (hi : Spaces indent) {start : Position} {S cs l} (hw : Woven S cs l) :
    (∀ x ∈ S, start.le x.1.range.start = true) → S.Pairwise (fun x y => x.1.range.start.le y.1.range.start = true) →
    (S = [] ∧ cs = [] ∧ l = []) ∨
    ∃ f ch new, fuse (S.map (·.1)) = some f ∧ Inserted text indent start S cs l f.range.start f.range.stop ch new := by
  induction hw with
  | nil => intro _ _; exact .inl ⟨rfl, rfl, rfl⟩
  | @seg e ts S cs l ht hc hw ih =>
    intro hs hp
    right
    have hp' := List.pairwise_cons.1 hp
    rcases ih (fun x hx => hs x (List.mem_cons_of_mem _ hx)) hp'.2 with ⟨rfl, rfl, rfl⟩ | ⟨f, ch, new, h1, h2⟩
    · exact ⟨e, [e], e.newText, by simp [fuse], rfl, by simp [fuse], by simpa using ht,
        fun x hx => by rw [List.mem_singleton.1 hx]; exact le_of_eq rfl⟩
    · refine ⟨_, e :: ch, e.newText ++ new, fuse_prepend h1, ?_, fuse_prepend h2.fused, ht.append h2.laid, ?_⟩
      · exact insertComments_cons (fun c hx => hc c (List.mem_reverse.1 hx)) h2.run
      · intro x hx
        dsimp only
        rcases List.mem_cons.1 hx with rfl | hx
        · exact le_of_eq rfl
        · cases S with
          | nil => cases h1
          | cons y S =>
            rw [List.map_cons, fuse_cons] at h1
            injection h1 with h1
            have h4 := h2.late x hx
            rw [← h1] at h4
            exact le_trans (hp'.1 y List.mem_cons_self) h4
  | @com e ts S c cs l hpos ht hw ih =>
    intro hs hp
    right
    rcases ih hs hp with ⟨h, _⟩ | ⟨f, ch, new, h1, h2⟩
    · cases h
    · have hf : f.range.start = e.range.start := by
        rw [List.map_cons, fuse_cons] at h1
        injection h1 with h1
        rw [← h1]
      have hsplit : splitAt ch c.pos = ([], ch) := by
        have : ∀ x ∈ ch, goesBefore c.pos x = false := by
          intro x hx
          unfold goesBefore
          rw [not_lt_of_le (by rw [hpos, ← hf]; exact h2.late x hx)]
          rfl
        unfold splitAt
        rw [List.filter_eq_nil_iff.2 (fun x hx => by rw [this x hx]; simp),
          List.filter_eq_self.2 (fun x hx => by rw [this x hx]; simp)]
      obtain ⟨new', hn, hl⟩ := withComment_lay text indent c ⟨⟨f.range.start, f.range.stop⟩, new⟩ hi ht h2.laid
      refine ⟨f, [⟨⟨f.range.start, f.range.stop⟩, new'⟩], new', h1, ?_, by simp [fuse], hl, ?_⟩
      · rw [List.reverse_cons, insertComments_append h2.run]
        unfold insertComments
        rw [if_pos (by rw [hpos]; exact hs _ List.mem_cons_self), hsplit]
        simp only [h2.fused, hn, List.nil_append]
        rfl
      · intro x hx
        rw [List.mem_singleton.1 hx]
        exact le_of_eq rfl

/-! ## `mergeLoop` -/

theorem mergeLoop_append {text indent : Text} {X Y : List (List TextEdit)} {cs cs' : List CMarker} {out : List TextEdit}
    (h : mergeLoop text indent X cs = some (out, cs')) :
    mergeLoop text indent (X ++ Y) cs = (mergeLoop text indent Y cs').map (fun r => (out ++ r.1, r.2)) := by
  induction X generalizing cs out with
  | nil =>
    simp only [mergeLoop, Option.some.injEq, Prod.mk.injEq] at h
    obtain ⟨rfl, rfl⟩ := h
    rw [List.nil_append]
    cases mergeLoop text indent Y cs <;> simp
  | cons ch X ih =>
    rw [List.cons_append]
    rw [mergeLoop_step] at h ⊢
    split at h
    · cases h
    · rename_i f hf
      split at h
      · cases h
      · rename_i chain' cs1 hins
        split at h
        · cases h
        · rename_i e he
          split at h
          · cases h
          · rename_i es rest hm
            injection h with h
            injection h with h3 h4
            subst h3; subst h4
            simp only [hf, hins, he, ih hm]
            cases mergeLoop text indent Y rest <;> simp

theorem mergeLoop_rest {text indent : Text} {X : List (List TextEdit)} {A B : List CMarker} {out : List TextEdit}
    (h : mergeLoop text indent X A = some (out, []))
    (hB : ∀ ch ∈ X, ∀ f, fuse ch = some f → ∀ b ∈ B, b.pos.Before f.range.start) :
    mergeLoop text indent X (A ++ B) = some (out, B) := by
  induction X generalizing A out with
  | nil =>
    simp only [mergeLoop, Option.some.injEq, Prod.mk.injEq] at h
    obtain ⟨rfl, rfl⟩ := h
    rfl
  | cons ch X ih =>
    rw [mergeLoop_step] at h ⊢
    split at h
    · cases h
    · rename_i f hf
      split at h
      · cases h
      · rename_i chain' cs1 hins
        split at h
        · cases h
        · rename_i e he
          split at h
          · cases h
          · rename_i es rest hm
            injection h with h
            injection h with h3 h4
            subst h3; subst h4
            have key : insertComments text indent f.range.start (A ++ B) ch = some (chain', cs1 ++ B) := by
              have hb := hB ch List.mem_cons_self f hf
              clear hB ih hm he
              clear hf
              induction A generalizing ch with
              | nil =>
                simp only [insertComments, Option.some.injEq, Prod.mk.injEq] at hins
                obtain ⟨rfl, rfl⟩ := hins
                exact insertComments_rest (A := []) rfl hb
              | cons a A ih =>
                rw [List.cons_append]
                rw [insertComments_step] at hins ⊢
                split at hins
                · rename_i hs
                  rw [if_pos hs]
                  split at hins
                  · cases hins
                  · rename_i next hn
                    split at hins
                    · cases hins
                    · rename_i new hw
                      exact ih _ hins
                · rename_i hs
                  rw [if_neg hs]
                  injection hins with hins
                  injection hins with h5 h6
                  rw [h5, ← h6]; rfl
            simp only [hf, key, he]
            rw [ih hm (fun c hc => hB c (List.mem_cons_of_mem _ hc))]

end Verif.Format
