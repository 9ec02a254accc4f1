import Verif.Features.SearchTerm
import Verif.Features.DemoActions
import Mathlib.Data.List.TakeWhile
import Verif.Features.SemanticTokens
import Verif.Format.Relex
import Verif.Props.OnType
/-!
# The search term of a completion and the range it replaces (C66)

`text` is the part of the document in front of the cursor and `g` its tree.

Specification: `Usable`, `Considered`, `IsAnchor`, `White`.
-/
namespace Verif.Props
open Verif Verif.Grammar Verif.Lexer Verif.Features

/-! ## Specification -/

/-- A token the search can hold on to: no white space and no part of a syntax error. -/
def Usable (t : Red) : Prop := t.kind ≠ K.WHITESPACE ∧ ∀ p, t.parent = some p → p.kind ≠ K.Error

/-- Kinds of tokens that are complete once they are there. -/
def Complete (k : Kind) : Prop :=
  k = K.Error ∨ k = K.WHITESPACE ∨ k = K.Dot ∨ k = K.Semicolon ∨ k = K.RBrack ∨ k = K.RCurly ∨ k = K.RParen ∨ k = K.Slash ∨
  k = K.Zirkumflex ∨ k = K.ANON ∨ k = K.LParen ∨ k = K.LBrack

/-- The tokens considered: all of them, but for a last one that may still be typed on. -/
def Considered (L M : List Red) : Prop :=
  (L = [] ∧ M = []) ∨ ∃ x t, L = x ++ [t] ∧ ((Complete t.kind ∧ M = L) ∨ (¬Complete t.kind ∧ M = x))

/-- The last usable token; without one the first token, unless it is trivia or a lexical error. -/
def IsAnchor (M : List Red) (a : Red) : Prop :=
  (∃ x y, M = x ++ a :: y ∧ Usable a ∧ ∀ t ∈ y, ¬Usable t) ∨
  ((∀ t ∈ M, ¬Usable t) ∧ M.head? = some a ∧ triviaKind a.kind = false ∧ a.kind ≠ K.Error)

/-- The white space characters of Unicode. -/
def White (c : Char) : Prop :=
  (9 ≤ c.toNat ∧ c.toNat ≤ 13) ∨ c.toNat = 32 ∨ c.toNat = 0x85 ∨ c.toNat = 0xA0 ∨ c.toNat = 0x1680 ∨
  (0x2000 ≤ c.toNat ∧ c.toNat ≤ 0x200A) ∨ c.toNat = 0x2028 ∨ c.toNat = 0x2029 ∨ c.toNat = 0x202F ∨ c.toNat = 0x205F ∨ c.toNat = 0x3000

/-! ## The anchor -/

theorem isWhite_iff (c : Char) : isWhite c = true ↔ White c := by
  unfold isWhite Class.has Lexer.space White
  simp only [List.any_cons, List.any_nil, Bool.or_false, Bool.or_eq_true, Bool.and_eq_true, Nat.ble_eq]
  omega

theorem usable_iff (t : Red) : (t.kind == K.WHITESPACE || inError t) = false ↔ Usable t := by
  unfold inError Usable
  rw [Bool.or_eq_false_iff]
  cases hp : t.parent with
  | none => simp
  | some p => simp

theorem complete_iff (k : Kind) : k ∈ keptKinds ↔ Complete k := by
  simp only [keptKinds, Complete, List.mem_cons, List.not_mem_nil, or_false]

/-- The loop from the last token of `M` backwards. -/
theorem anchorLoop_iff (M : List Red) (a : Red) : anchorLoop M.reverse = some a ↔ IsAnchor M a := by
  induction M using List.reverseRecOn with
  | nil =>
    simp only [List.reverse_nil, anchorLoop, IsAnchor]
    constructor
    · intro h; cases h
    · rintro (⟨x, y, h, -⟩ | ⟨-, h, -⟩)
      · simp at h
      · cases h
  | append_singleton M t ih =>
    rw [List.reverse_append, List.reverse_singleton, List.singleton_append]
    by_cases hu : Usable t
    · have hl : anchorLoop (t :: M.reverse) = some t := by
        unfold anchorLoop
        rw [if_neg (by rw [(usable_iff t).2 hu]; simp)]
      rw [hl]
      constructor
      · rintro ⟨⟩
        exact Or.inl ⟨M, [], rfl, hu, by simp⟩
      · rintro (⟨x, y, h, h1, h2⟩ | ⟨h, -⟩)
        · rcases List.eq_nil_or_concat y with rfl | ⟨y', z, rfl⟩
          · have := List.append_inj_right' h rfl
            injection this with e _
            rw [e]
          · have h' : M ++ [t] = (x ++ a :: y') ++ [z] := by rw [h]; simp
            have := List.append_inj_right' h' rfl
            injection this with e _
            exact absurd (e ▸ hu) (h2 z (by simp))
        · exact absurd hu (h t (by simp))
    · have hc : (t.kind == K.WHITESPACE || inError t) = true := by
        cases h : (t.kind == K.WHITESPACE || inError t) with
        | true => rfl
        | false => exact absurd ((usable_iff t).1 h) hu
      have hA : M ≠ [] → (IsAnchor (M ++ [t]) a ↔ IsAnchor M a) := by
        intro hM
        constructor
        · rintro (⟨x, y, h, h1, h2⟩ | ⟨h, h1, h2, h3⟩)
          · rcases List.eq_nil_or_concat y with rfl | ⟨y', z, rfl⟩
            · have := List.append_inj_right' h rfl
              injection this with e _
              exact absurd (e ▸ h1) hu
            · have h' : M ++ [t] = (x ++ a :: y') ++ [z] := by rw [h]; simp
              exact Or.inl ⟨x, y', List.append_inj_left' h' rfl, h1, fun u hu => h2 u (by simp [hu])⟩
          · refine Or.inr ⟨fun u hu => h u (by simp [hu]), ?_, h2, h3⟩
            cases M with
            | nil => exact absurd rfl hM
            | cons m M => simpa using h1
        · rintro (⟨x, y, h, h1, h2⟩ | ⟨h, h1, h2, h3⟩)
          · refine Or.inl ⟨x, y ++ [t], by rw [h]; simp, h1, fun u hu' => ?_⟩
            rcases List.mem_append.1 hu' with h | h
            · exact h2 u h
            · rw [List.mem_singleton.1 h]; exact hu
          · refine Or.inr ⟨fun u hu' => ?_, ?_, h2, h3⟩
            · rcases List.mem_append.1 hu' with h' | h'
              · exact h u h'
              · rw [List.mem_singleton.1 h']; exact hu
            · cases M with
              | nil => cases h1
              | cons m M => simpa using h1
      cases hr : M.reverse with
      | nil =>
        have hM : M = [] := by simpa using hr
        subst hM
        have hl : anchorLoop [t] = if !triviaKind t.kind && t.kind != K.Error then some t else none := by
          unfold anchorLoop
          rw [if_pos hc]
        rw [hl]
        constructor
        · intro h
          split at h
          · next hk =>
            injection h with h
            subst h
            simp only [Bool.and_eq_true, Bool.not_eq_true', bne_iff_ne] at hk
            exact Or.inr ⟨by simpa using hu, rfl, hk.1, hk.2⟩
          · cases h
        · rintro (⟨x, y, h, h1, -⟩ | ⟨-, h, h2, h3⟩)
          · cases x with
            | nil =>
              injection h with e _
              exact absurd (e ▸ h1) hu
            | cons x xs =>
              injection h with _ h
              simp at h
          · injection h with h
            subst h
            rw [if_pos (by simp [h2, h3])]
      | cons r rs =>
        have hM : M ≠ [] := by intro h; rw [h] at hr; cases hr
        have hl : anchorLoop (t :: r :: rs) = anchorLoop (r :: rs) := by
          conv => lhs; unfold anchorLoop
          rw [if_pos hc]
        rw [hl, ← hr, ih, hA hM]

/-- Behind a text that is not empty the trigger is the last token, and everything in front of it is looked at. -/
theorem anchor_tokens {g : Green} {off : Nat} (hs : (Red.root g).stop = off) (h0 : off ≠ 0) {x : List Red} {t : Red}
    (hT : (Red.root g).tokens = x ++ [t]) : anchorOf g off = anchorFrom (t :: x.reverse) := by
  unfold anchorOf triggerToken
  rw [if_neg h0, if_pos (by omega), hT]
  simp only [List.getLast?_append, List.getLast?_singleton, Option.some_or]
  congr 1
  unfold backFrom
  rw [hT]
  have hr := (tokens_row (Red.root g)).2
  rw [hT] at hr
  have hle : ∀ u ∈ x ++ [t], u.start ≤ t.start := by
    have key : ∀ (l : List Red) (o : Nat), Row o (l ++ [t]) → o ≤ t.start ∧ ∀ u ∈ l, u.start ≤ t.start := by
      intro l
      induction l with
      | nil => rintro o ⟨h, -⟩; exact ⟨by omega, by simp⟩
      | cons u l ih =>
        rintro o ⟨h, h'⟩
        obtain ⟨h1, h2⟩ := ih _ h'
        have : u.stop = u.start + blen u.text := rfl
        refine ⟨by omega, fun v hv => ?_⟩
        rcases List.mem_cons.1 hv with rfl | hv
        · omega
        · exact h2 v hv
    intro u hu
    rcases List.mem_append.1 hu with h | h
    · exact (key x _ hr).2 u h
    · rw [List.mem_singleton.1 h]
  rw [List.takeWhile_eq_self_iff.2 (fun u hu => by simpa using hle u hu)]
  simp only [List.reverse_append, List.reverse_cons, List.reverse_nil, List.nil_append, List.singleton_append]

/-- C66. Where the term starts: behind the last token that is neither white space nor part of a syntax error, leaving out a last
token that may still be typed on. -/
theorem c66_anchor {errLen : Text → Nat} {text : Text} {g errs} (hp : parseSource errLen text = some (g, errs)) (a : Red) :
    anchorOf g (blen text) = some a ↔ ∃ M, Considered (Red.root g).tokens M ∧ IsAnchor M a := by
  have P := parsed_of hp
  have hs : (Red.root g).stop = blen text := by
    show 0 + blen g.text = _
    rw [P.text_eq]; omega
  have hflat : flat ((Red.root g).tokens.map Red.kt) = text := by
    rw [(tokens_row (Red.root g)).1]
    exact P.text_eq
  rcases List.eq_nil_or_concat (Red.root g).tokens with hT | ⟨x, t, hT⟩
  · rw [hT] at hflat
    have ht : text = [] := by rw [← hflat]; rfl
    have : anchorOf g (blen text) = none := by rw [ht]; rfl
    rw [this, hT]
    constructor
    · intro h; cases h
    · rintro ⟨M, (⟨-, rfl⟩ | ⟨x, t, h, -⟩), h2⟩
      · rcases h2 with ⟨x, y, h, -⟩ | ⟨-, h, -⟩
        · simp at h
        · cases h
      · simp at h
  · rw [List.concat_eq_append] at hT
    have h0 : blen text ≠ 0 := by
      intro h
      have hnil : text = [] := by
        cases text with
        | nil => rfl
        | cons c cs => have := u8_pos c; simp only [blen] at h; omega
      have : t.text ≠ [] := P.leaf_nonempty (t.kind, t.text) (by
        rw [← show (Red.root g).tokens.map Red.kt = g.leaves from (tokens_row (Red.root g)).1, hT]
        simp [Red.kt])
      rw [hT, hnil] at hflat
      simp [flat, Red.kt] at hflat
      exact this hflat.2
    rw [anchor_tokens hs h0 hT, hT]
    have hcons : ∀ M, Considered (x ++ [t]) M ↔ (Complete t.kind ∧ M = x ++ [t]) ∨ (¬Complete t.kind ∧ M = x) := by
      intro M
      unfold Considered
      constructor
      · rintro (⟨h, -⟩ | ⟨x', t', h, h'⟩)
        · simp at h
        · have e1 := List.append_inj_right' h rfl
          have e2 := List.append_inj_left' h rfl
          injection e1 with e1 _
          subst e1 e2
          exact h'
      · intro h
        exact Or.inr ⟨x, t, rfl, h⟩
    simp only [anchorFrom]
    by_cases hc : Complete t.kind
    · rw [if_pos ((complete_iff _).2 hc)]
      rw [← show (x ++ [t]).reverse = t :: x.reverse by simp, anchorLoop_iff]
      constructor
      · intro h; exact ⟨_, (hcons _).2 (Or.inl ⟨hc, rfl⟩), h⟩
      · rintro ⟨M, h1, h2⟩
        rcases (hcons M).1 h1 with ⟨-, rfl⟩ | ⟨h, -⟩
        · exact h2
        · exact absurd hc h
    · rw [if_neg (fun h => hc ((complete_iff _).1 h)), anchorLoop_iff]
      constructor
      · intro h; exact ⟨_, (hcons _).2 (Or.inr ⟨hc, rfl⟩), h⟩
      · rintro ⟨M, h1, h2⟩
        rcases (hcons M).1 h1 with ⟨h, -⟩ | ⟨-, rfl⟩
        · exact absurd h hc
        · exact h2

/-! ## The term -/

theorem dropBytes_split (x y : Text) : dropBytes (blen x) (x ++ y) = some y := by
  induction x with
  | nil => cases y <;> simp [dropBytes, blen]
  | cons c cs ih =>
    have hu := u8_pos c
    simp only [blen, List.cons_append]
    obtain ⟨n, hn⟩ : ∃ n, u8 c + blen cs = n + 1 := ⟨u8 c + blen cs - 1, by omega⟩
    rw [hn]
    unfold dropBytes
    rw [if_pos (by omega), show n + 1 - u8 c = blen cs by omega]
    exact ih

theorem anchor_token {errLen : Text → Nat} {text : Text} {g errs} (hp : parseSource errLen text = some (g, errs)) {a : Red}
    (ha : anchorOf g (blen text) = some a) : a ∈ (Red.root g).tokens := by
  obtain ⟨M, hM, hA⟩ := (c66_anchor hp a).1 ha
  have hsub : ∀ t ∈ M, t ∈ (Red.root g).tokens := by
    rcases hM with ⟨-, rfl⟩ | ⟨x, t, h, h'⟩
    · simp
    · rcases h' with ⟨-, rfl⟩ | ⟨-, rfl⟩
      · simp
      · intro u hu; rw [h]; simp [hu]
  apply hsub
  rcases hA with ⟨x, y, h, -⟩ | ⟨-, h, -⟩
  · rw [h]; simp
  · exact List.mem_of_mem_head? h

/-- The front of the text the anchor ends, and what is left. -/
def Rest (text : Text) (anchor : Option Red) (front rest : Text) : Prop :=
  text = front ++ rest ∧ ∀ a, anchor = some a → ∃ x, front = x ++ a.text ∧ blen x = a.start

/-- C66. The search term never panics: it is what is left behind the anchor (or the whole text, without one) from the first character
on that is no white space; there is none if nothing but white space is left. -/
theorem c66_term {errLen : Text → Nat} {text : Text} {g errs} (hp : parseSource errLen text = some (g, errs)) :
    ∃ front rest, Rest text (anchorOf g (blen text)) front rest ∧ (anchorOf g (blen text) = none → front = []) ∧
      ((searchTerm g (anchorOf g (blen text)) (blen text) = some none ∧ ∀ c ∈ rest, White c) ∨
       ∃ w c s, rest = w ++ c :: s ∧ (∀ c ∈ w, White c) ∧ ¬White c ∧
         searchTerm g (anchorOf g (blen text)) (blen text) = some (some (c :: s))) := by
  have P := parsed_of hp
  have hlast : ∀ rest : Text, (∀ front, text = front ++ rest → termStart (anchorOf g (blen text)) (blen text) = blen front →
      (searchTerm g (anchorOf g (blen text)) (blen text) = some none ∧ ∀ c ∈ rest, White c) ∨
       ∃ w c s, rest = w ++ c :: s ∧ (∀ c ∈ w, White c) ∧ ¬White c ∧
         searchTerm g (anchorOf g (blen text)) (blen text) = some (some (c :: s))) := by
    intro rest front ht hs
    unfold searchTerm
    rw [hs, P.text_eq]
    have hd : dropBytes (blen front) text = some rest := by rw [ht]; exact dropBytes_split _ _
    rw [hd]
    have hw : rest = rest.takeWhile isWhite ++ rest.dropWhile isWhite := List.takeWhile_append_dropWhile.symm
    simp only
    cases hr : rest.dropWhile isWhite with
    | nil =>
      left
      refine ⟨by simp, fun c hc => ?_⟩
      exact (isWhite_iff c).1 (List.dropWhile_eq_nil_iff.1 hr c hc)
    | cons c s =>
      right
      have hc : isWhite c = false := by
        have := List.head_dropWhile_not isWhite (l := rest) (by rw [hr]; simp)
        simp only [hr, List.head_cons] at this
        exact this
      refine ⟨rest.takeWhile isWhite, c, s, by rw [← hr]; exact hw, fun d hd => ?_, fun h => ?_, ?_⟩
      · exact (isWhite_iff d).1 (List.mem_takeWhile_imp hd)
      · rw [(isWhite_iff c).2 h] at hc; cases hc
      · simp [hc]
  cases ha : anchorOf g (blen text) with
  | none =>
    rw [ha] at hlast
    refine ⟨[], text, ⟨rfl, fun a h => by cases h⟩, fun _ => rfl, hlast text [] rfl rfl⟩
  | some a =>
    have hin := anchor_token hp ha
    have hT : InTree g a := inTree_of_mem_descendantsT _ .root _ (List.mem_filter.1 hin).1
    obtain ⟨x, rest, h1, h2⟩ := P.at_ hT
    rw [ha] at hlast
    have hstop : a.stop = blen (x ++ a.text) := by
      rw [blen_append, ← h2]; rfl
    refine ⟨x ++ a.text, rest, ⟨h1, fun b hb => ?_⟩, fun h => (by cases h), hlast rest (x ++ a.text) h1 ?_⟩
    · cases hb; exact ⟨x, rfl, h2.symm⟩
    · unfold termStart
      simp only
      rw [if_neg (by have := P.stop_le hT; omega), hstop]

/-! ## The range -/

theorem lastLine_suffix (t : Text) (h : '\n' ∈ t) : ∃ a, t = a ++ '\n' :: lastLine t := by
  have : rfindNl t ≠ none := fun hn => rfindNl_none.1 hn h
  obtain ⟨o, ho⟩ := Option.ne_none_iff_exists'.1 this
  obtain ⟨a, h1, -, -⟩ := rfindNl_some ho
  exact ⟨a, by rw [List.append_cons]; simpa using h1⟩

/-- C66. The range of a term that stands right in front of the cursor is exactly where it stands — unless the term goes over a line
break: then the computation of the column underflows. -/
theorem c66_range (front term : Text) :
    ('\n' ∉ term → termRange (posOf (front ++ term)) (some term) = some ⟨posOf front, posOf (front ++ term)⟩) ∧
    ('\n' ∈ term → termRange (posOf (front ++ term)) (some term) = none) ∧
    termRange (posOf front) none = some ⟨posOf front, posOf front⟩ := by
  refine ⟨fun h => ?_, fun h => ?_, ?_⟩
  · unfold termRange
    rw [Features.posOf_nl_free _ _ h]
    simp
  · unfold termRange
    rw [Features.posOf_nl _ _ h]
    obtain ⟨a, ha⟩ := lastLine_suffix term h
    have : len16 term = len16 a + (1 + len16 (lastLine term)) := by
      conv => lhs; rw [ha]
      rw [len16_append]
      rfl
    simp only
    rw [if_neg (by omega)]
  · simp [termRange]

/-- C66. Accepting a completion: in a document whose part in front of the cursor is `text`, the replaced range is there unless the term
goes over a line break, and putting `new` in its place leaves everything else as it is. -/
theorem c66_accept {errLen : Text → Nat} {text : Text} {g errs} (hp : parseSource errLen text = some (g, errs)) (post new : Text) :
    ∃ front term, text = front ++ term ∧
      (searchTerm g (anchorOf g (blen text)) (blen text) = some none ∧ term = [] ∨
       searchTerm g (anchorOf g (blen text)) (blen text) = some (some term) ∧ term ≠ []) ∧
      ('\n' ∉ term → ∃ range, termRange (posOf text) (if term = [] then none else some term) = some range ∧
        applyTextEdits (text ++ post) [⟨range, new⟩] = some (ensureNL (front ++ (new ++ post)))) ∧
      ('\n' ∈ term → termRange (posOf text) (if term = [] then none else some term) = none) := by
  obtain ⟨front, rest, ⟨h1, -⟩, -, h | ⟨w, c, s, h2, h3, h4, h5⟩⟩ := c66_term hp
  · refine ⟨text, [], by simp, Or.inl ⟨h.1, rfl⟩, fun _ => ⟨_, by rw [if_pos rfl]; exact (c66_range text []).2.2, ?_⟩, by simp⟩
    have := @apply_one text [] post new
    simpa using this
  · have ht : text = (front ++ w) ++ (c :: s) := by rw [h1, h2]; simp
    refine ⟨front ++ w, c :: s, ht, Or.inr ⟨h5, by simp⟩, fun hn => ⟨⟨posOf (front ++ w), posOf (front ++ w ++ (c :: s))⟩, ?_, ?_⟩, fun hn => ?_⟩
    · rw [if_neg (by simp), ht]; exact (c66_range (front ++ w) (c :: s)).1 hn
    · have := @apply_one (front ++ w) (c :: s) post new
      rw [ht]
      rw [List.append_assoc]
      exact this
    · rw [if_neg (by simp), ht]; exact (c66_range (front ++ w) (c :: s)).2.1 hn

/-- C66. For a select binding behind `(` the parenthesis is replaced as well: the range starts in front of it. In every other case
it is left alone. -/
theorem c66_paren {errLen : Text → Nat} {text : Text} {g errs} (hp : parseSource errLen text = some (g, errs)) (post : Text)
    (binding : Bool) (range : Range) :
    (∀ a, anchorOf g (blen text) = some a → a.kind = K.LParen → binding = true →
      ∃ front rest, text = front ++ '(' :: rest ∧ blen front = a.start ∧
        selectRange (text ++ post) binding (anchorOf g (blen text)) range = ⟨posOf front, range.stop⟩) ∧
    ((∀ a, anchorOf g (blen text) = some a → ¬(a.kind = K.LParen ∧ binding = true)) →
      selectRange (text ++ post) binding (anchorOf g (blen text)) range = range) := by
  constructor
  · intro a ha hk hb
    have P := parsed_of hp
    have hin := anchor_token hp ha
    have hT : InTree g a := inTree_of_mem_descendantsT _ .root _ (List.mem_filter.1 hin).1
    obtain ⟨x, rest, h1, h2⟩ := P.at_ hT
    have htext : a.text = ['('] := by
      have hl := Parsed.token_leaf hT (by simpa using (List.mem_filter.1 hin).2)
      obtain ⟨r, hr, h3, h4⟩ := P.lexed _ hl (by rw [show (a.kind, a.text).1 = a.kind from rfl, hk]; decide)
      have hall : lexRules.all (fun r => !(r.kind == K.LParen) || (match r.re with | .cls cl => cl == [(0x28, 0x28)] | _ => false)) = true := by
        decide +kernel
      have := List.all_eq_true.1 hall r hr
      rw [show r.kind = K.LParen from h3.trans hk] at this
      simp only [beq_self_eq_true, Bool.not_true, Bool.false_or] at this
      cases hre : r.re with
      | cls cl =>
        rw [hre] at this h4
        simp only [beq_iff_eq] at this
        subst this
        have h4 : Matches (.cls [(0x28, 0x28)]) a.text := h4
        generalize a.text = w at h4
        cases h4 with
        | @cls _ c hc =>
          simp only [Class.has, List.any_cons, List.any_nil, Bool.or_false, Bool.and_eq_true, Nat.ble_eq] at hc
          have : c = '(' := Char.toNat_inj.1 (show c.toNat = 40 by omega)
          show [c] = ['(']
          rw [this]
      | _ => rw [hre] at this; cases this
    refine ⟨x, rest, by rw [h1, htext]; simp, h2.symm, ?_⟩
    unfold selectRange
    rw [ha]
    simp only
    rw [if_pos (by rw [hb, hk]; rfl), h2, h1, List.append_assoc, List.append_assoc, fromByteIndex_of_prefix]
  · intro h
    unfold selectRange
    cases ha : anchorOf g (blen text) with
    | none => rfl
    | some a =>
      simp only
      rw [if_neg]
      intro hc
      rw [Bool.and_eq_true, beq_iff_eq] at hc
      exact h a ha ⟨hc.2, hc.1⟩

/-! ## The word at the cursor -/

/-- Two readings of a text as white space and the rest. -/
theorem white_split {w w' : Text} {c c' : Char} {s s' : Text} (hw : ∀ d ∈ w, White d) (hw' : ∀ d ∈ w', White d) (hc : ¬White c)
    (hc' : ¬White c') (h : w ++ c :: s = w' ++ c' :: s') : c :: s = c' :: s' := by
  induction w generalizing w' with
  | nil =>
    cases w' with
    | nil => exact h
    | cons d w' => injection h with h _; exact absurd (h ▸ hw' d (by simp)) hc
  | cons d w ih =>
    cases w' with
    | nil => injection h with h _; exact absurd (h ▸ hw d (by simp)) hc'
    | cons d' w' =>
      injection h with _ h
      exact ih (fun x hx => hw x (by simp [hx])) (fun x hx => hw' x (by simp [hx])) h

theorem ws_white {text : Text} {g : Green} (P : Parsed text g) {t : Red} (hT : InTree g t) (hn : t.isNode = false) (hk : t.kind = K.WHITESPACE) :
    ∀ c ∈ t.text, White c := by
  obtain ⟨r, hr, h3, h4⟩ := P.lexed _ (Parsed.token_leaf hT hn) (by rw [show (t.kind, t.text).1 = t.kind from rfl, hk]; decide)
  have hall : lexRules.all (fun r => !(r.kind == K.WHITESPACE) || Format.within Lexer.space r.re) = true := by decide +kernel
  have := List.all_eq_true.1 hall r hr
  rw [show r.kind = K.WHITESPACE from h3.trans hk] at this
  simp only [beq_self_eq_true, Bool.not_true, Bool.false_or] at this
  intro c hc
  exact (isWhite_iff c).1 (Format.within_has h4 this c hc)

/-- C66. If behind a usable token only white space, tokens that are part of syntax errors and possibly one last word follow, the term is
the text of the errors and the word, no more and no less. -/
theorem c66_word {errLen : Text → Nat} {text : Text} {g errs} (hp : parseSource errLen text = some (g, errs))
    {x ws es : List Red} {u l : Red} (hT : (Red.root g).tokens = x ++ u :: (ws ++ (es ++ [l]))) (hu : Usable u)
    (hws : ∀ t ∈ ws, t.kind = K.WHITESPACE) (hes : ∀ t ∈ es, ¬Usable t) (hl : ¬Complete l.kind ∨ ¬Usable l)
    {c : Char} {s : Text} (hc : flat ((es ++ [l]).map Red.kt) = c :: s) (hcw : ¬White c) :
    anchorOf g (blen text) = some u ∧ searchTerm g (anchorOf g (blen text)) (blen text) = some (some (c :: s)) := by
  have P := parsed_of hp
  have hwu : ∀ t ∈ ws, ¬Usable t := fun t ht h => h.1 (hws t ht)
  have hanchor : anchorOf g (blen text) = some u := by
    rw [c66_anchor hp]
    by_cases hlc : Complete l.kind
    · refine ⟨_, Or.inr ⟨x ++ u :: (ws ++ es), l, by rw [hT]; simp, Or.inl ⟨hlc, rfl⟩⟩, Or.inl ⟨x, ws ++ (es ++ [l]), hT, hu, ?_⟩⟩
      intro t ht
      simp only [List.mem_append, List.mem_singleton] at ht
      rcases ht with h | h | rfl
      · exact hwu t h
      · exact hes t h
      · exact hl.resolve_left (fun h => h hlc)
    · refine ⟨_, Or.inr ⟨x ++ u :: (ws ++ es), l, by rw [hT]; simp, Or.inr ⟨hlc, rfl⟩⟩, Or.inl ⟨x, ws ++ es, rfl, hu, ?_⟩⟩
      intro t ht
      rcases List.mem_append.1 ht with h | h
      · exact hwu t h
      · exact hes t h
  refine ⟨hanchor, ?_⟩
  have htext : text = flat (x.map Red.kt) ++ u.text ++ (flat (ws.map Red.kt) ++ (c :: s)) := by
    have h := (tokens_row (Red.root g)).1
    have : flat ((Red.root g).tokens.map Red.kt) = text := by rw [h]; exact P.text_eq
    rw [← hc, ← this, hT]
    simp [flat, Red.kt]
  have hin : ∀ t ∈ (Red.root g).tokens, InTree g t ∧ t.isNode = false := fun t ht =>
    ⟨inTree_of_mem_descendantsT _ .root _ (List.mem_filter.1 ht).1, by simpa using (List.mem_filter.1 ht).2⟩
  have hwhite : ∀ d ∈ flat (ws.map Red.kt), White d := by
    intro d hd
    unfold flat at hd
    rw [List.map_map, List.mem_flatten] at hd
    obtain ⟨y, hy, hd⟩ := hd
    obtain ⟨t, ht, rfl⟩ := List.mem_map.1 hy
    obtain ⟨h1, h2⟩ := hin t (by rw [hT]; simp [ht])
    exact ws_white P h1 h2 (hws t ht) d hd
  have hstart : u.start = blen (flat (x.map Red.kt)) := by
    have hr := (tokens_row (Red.root g)).2
    rw [hT] at hr
    have := (row_split hr).1
    rw [this]
    show 0 + _ = _
    omega
  obtain ⟨front, rest, ⟨h1, h2⟩, -, h | ⟨w, c', s', h3, h4, h5, h6⟩⟩ := c66_term hp
  all_goals
    obtain ⟨y, hy, hb⟩ := h2 u hanchor
    have hrest : rest = flat (ws.map Red.kt) ++ (c :: s) := by
      have e : (y ++ u.text) ++ rest = (flat (x.map Red.kt) ++ u.text) ++ (flat (ws.map Red.kt) ++ (c :: s)) := by
        rw [← hy, ← h1]; exact htext
      obtain ⟨-, h⟩ := prefix_eq_of_blen e (by rw [blen_append, blen_append, hb, hstart])
      exact h
  · exact absurd (h.2 c (by rw [hrest]; simp)) hcw
  · rw [h6]
    rw [hrest] at h3
    rw [white_split hwhite h4 hcw h5 h3]

/-! ## A concrete case -/

/-- C66. In `SELECT * {?s foa` the term is `foa`, behind `?s`; in `SELECT (S` it is `S`, and the range of a select binding starts at the
parenthesis; in `SELECT * WHERE {} foo⏎bar` the term goes over the line break and the range underflows. -/
theorem c66_cases :
    ((parseSource (fun _ => 1) termText).map Prod.fst = some termTree ∧ searchTerm termTree (anchorOf termTree 16) 16 = some (some ['f', 'o', 'a']) ∧
      termRange (posOf termText) (some ['f', 'o', 'a']) = some ⟨⟨0, 13⟩, ⟨0, 16⟩⟩) ∧
    ((parseSource (fun _ => 1) parenText).map Prod.fst = some parenTree ∧ searchTerm parenTree (anchorOf parenTree 9) 9 = some (some ['S']) ∧
      selectRange parenText true (anchorOf parenTree 9) ⟨⟨0, 8⟩, ⟨0, 9⟩⟩ = ⟨⟨0, 7⟩, ⟨0, 9⟩⟩) ∧
    ((parseSource (fun _ => 1) termNlText).map Prod.fst = some termNlTree ∧
      searchTerm termNlTree (anchorOf termNlTree 25) 25 = some (some ['f', 'o', 'o', '\n', 'b', 'a', 'r']) ∧
      termRange (posOf termNlText) (some ['f', 'o', 'o', '\n', 'b', 'a', 'r']) = none) :=
  ⟨⟨by rw [termTree_parse]; rfl, by decide +kernel, by decide +kernel⟩, ⟨by rw [parenTree_parse]; rfl, by decide +kernel, by decide +kernel⟩,
    ⟨by rw [termNlTree_parse]; rfl, by decide +kernel, by decide +kernel⟩⟩

end Verif.Props
