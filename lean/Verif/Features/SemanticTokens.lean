import Verif.TextLemmas
import Verif.Features.SemTokTable
/-!
# Semantic tokens

Models `src/server/message_handler/semantic_tokens/mod.rs`. The walk over `first_token` / `next_token` is the walk over the
leaves of the tree. The casts to `u32` are not modelled (documents of 4 GiB and more); the unsigned subtractions of the
delta encoding are checked (`none` is an overflow).
-/
namespace Verif.Features
open Verif Verif.Grammar

/-- `InternalSemanticToken` (semantic_tokens/mod.rs L314-323) without the (always empty) modifiers. -/
structure SemTok where
  line : Nat
  start : Nat
  length : Nat
  type : Nat
deriving DecidableEq, Repr

/-- `str::rfind('\n')`: byte offset of the last line feed. -/
def rfindNl : Text → Option Nat
  | [] => none
  | c :: cs =>
    match rfindNl cs with
    | some o => some (u8 c + o)
    | none => if c = '\n' then some 0 else none

/-- End position of a token (semantic_tokens/mod.rs L71-80): only white space is searched for line breaks; columns are
counted in bytes. -/
def tokenEnd (k : Kind) (t : Text) (line char : Nat) : Nat × Nat :=
  if k = K.WHITESPACE then
    match rfindNl t with
    | some offset => (line + t.count '\n', blen t - offset - 1)
    | none => (line, char + blen t)
  else (line, char + blen t)

/-- `range.is_none_or(|range| token_range.overlaps(range))` (semantic_tokens/mod.rs L82-84). -/
def inRange (range : Option Range) (tokenRange : Range) : Bool :=
  match range with
  | none => true
  | some r => tokenRange.overlaps r

/-- The token pushed for one leaf, if any (semantic_tokens/mod.rs L82-273). -/
def tokenHere (range : Option Range) (k : Kind) (t : Text) (line char : Nat) (e : Nat × Nat) : List SemTok :=
  if inRange range ⟨⟨line, char⟩, ⟨e.1, e.2⟩⟩ then
    match tokenType k with
    | some ty => [⟨line, char, blen t, ty⟩]
    | none => []
  else []

/-- `collect_semantic_tokens` (semantic_tokens/mod.rs L61-279). -/
def collect (range : Option Range) : List (Kind × Text) → Nat → Nat → List SemTok
  | [], _, _ => []
  | (k, t) :: rest, line, char =>
    tokenHere range k t line char (tokenEnd k t line char) ++
      collect range rest (tokenEnd k t line char).1 (tokenEnd k t line char).2

/-- `encode_semantic_tokens` (semantic_tokens/mod.rs L281-312). -/
def encode : List SemTok → Nat → Nat → Option (List Nat)
  | [], _, _ => some []
  | t :: ts, prevLine, prevChar =>
    if t.line < prevLine then none
    else
      let lineDelta := t.line - prevLine
      if lineDelta > 0 then
        (encode ts t.line t.start).map ([lineDelta, t.start, t.length, t.type, 0] ++ ·)
      else if t.start < prevChar then none
      else (encode ts t.line t.start).map ([lineDelta, t.start - prevChar, t.length, t.type, 0] ++ ·)

/-! ## Specification -/

/-- How an LSP client decodes the integers (specification of `textDocument/semanticTokens`): per token the line relative to
the previous token, the start relative to the previous token if on the same line, length, type, modifiers. -/
def decode : List Nat → Nat → Nat → Option (List SemTok)
  | [], _, _ => some []
  | dl :: dc :: len :: ty :: _ :: rest, line, start =>
    let line' := line + dl
    let start' := if dl = 0 then start + dc else dc
    (decode rest line' start').map (⟨line', start', len, ty⟩ :: ·)
  | _, _, _ => none

/-- Document order. -/
def InOrder (a b : SemTok) : Prop := a.line < b.line ∨ (a.line = b.line ∧ a.start ≤ b.start)

/-- The tokens a client should highlight: every leaf of a highlighted kind, at the LSP position of its text. -/
def highlights (pre : Text) : List (Kind × Text) → List SemTok
  | [] => []
  | (k, t) :: rest =>
    (match tokenType k with
      | some ty => [⟨(posOf pre).line, (posOf pre).character, len16 t, ty⟩]
      | none => []) ++ highlights (pre ++ t) rest

/-- The same, only for leaves whose LSP range overlaps the requested range. -/
def highlightsIn (r : Range) (pre : Text) : List (Kind × Text) → List SemTok
  | [] => []
  | (k, t) :: rest =>
    (match tokenType k with
      | some ty => if Range.overlaps ⟨posOf pre, posOf (pre ++ t)⟩ r then
          [⟨(posOf pre).line, (posOf pre).character, len16 t, ty⟩] else []
      | none => []) ++ highlightsIn r (pre ++ t) rest

/-- All characters are ASCII. -/
def Ascii (t : Text) : Prop := ∀ c ∈ t, c.toNat < 128

/-- Line breaks occur in white space only. -/
def SingleLine (leaf : Kind × Text) : Prop := leaf.1 = K.WHITESPACE ∨ '\n' ∉ leaf.2

/-! ## Lemmas -/

theorem ascii_u8 {c : Char} (h : c.toNat < 128) : u8 c = 1 ∧ u16 c = 1 := by
  constructor
  · unfold u8 Char.utf8Size
    have : c.val ≤ 0x7f := by
      rw [UInt32.le_iff_toNat_le]
      have : c.val.toNat = c.toNat := rfl
      rw [this]; show c.toNat ≤ 127; omega
    simp [this]
  · unfold u16; rw [if_pos (by omega)]

theorem ascii_len {t : Text} (h : Ascii t) : blen t = len16 t := by
  induction t with
  | nil => rfl
  | cons c t ih =>
    have := ascii_u8 (h c (by simp))
    simp only [blen_cons, len16_cons, this]
    rw [ih (fun x hx => h x (by simp [hx]))]

theorem rfindNl_none {t : Text} : rfindNl t = none ↔ '\n' ∉ t := by
  induction t with
  | nil => simp [rfindNl]
  | cons c t ih =>
    unfold rfindNl
    cases h : rfindNl t with
    | some o =>
      have : ¬ '\n' ∉ t := fun hn => by rw [ih.2 hn] at h; cases h
      simp at this
      simp [this]
    | none =>
      have := ih.1 h
      by_cases hc : c = '\n'
      · simp [hc]
      · have : ¬ '\n' = c := fun e => hc e.symm
        simp [hc, this, ih.1 h]

theorem rfindNl_some {t : Text} {o : Nat} (h : rfindNl t = some o) :
    ∃ a, t = a ++ '\n' :: lastLine t ∧ blen a = o ∧ '\n' ∉ lastLine t := by
  induction t generalizing o with
  | nil => simp [rfindNl] at h
  | cons c t ih =>
    unfold rfindNl at h
    cases h' : rfindNl t with
    | some o' =>
      rw [h'] at h
      simp only [Option.some.injEq] at h
      obtain ⟨a, h1, h2, h3⟩ := ih h'
      have hl : lastLine (c :: t) = lastLine t := by
        have : c :: t = (c :: a ++ ['\n']) ++ lastLine t := by simp; exact h1
        rw [this]
        exact lastLine_append (Or.inr ⟨_, rfl⟩) h3
      exact ⟨c :: a, by rw [hl]; simp; exact h1, by simp [h2, h], by rw [hl]; exact h3⟩
    | none =>
      rw [h'] at h
      dsimp only at h
      split at h
      · rename_i hc
        cases h
        subst hc
        have hn := rfindNl_none.1 h'
        have hl : lastLine ('\n' :: t) = t := lastLine_append (p := ['\n']) (Or.inr ⟨[], rfl⟩) hn
        exact ⟨[], by simp [hl], rfl, by rw [hl]; exact hn⟩
      · cases h

/-- The end of a token in terms of its text. -/
theorem tokenEnd_eq (k : Kind) (t : Text) (line char : Nat) :
    tokenEnd k t line char =
      if k = K.WHITESPACE ∧ '\n' ∈ t then (line + t.count '\n', blen (lastLine t)) else (line, char + blen t) := by
  unfold tokenEnd
  by_cases hk : k = K.WHITESPACE
  · rw [if_pos hk]
    cases h : rfindNl t with
    | none =>
      have := rfindNl_none.1 h
      rw [if_neg (fun h => this h.2)]
    | some o =>
      have hin : '\n' ∈ t := by
        by_contra hn
        rw [rfindNl_none.2 hn] at h; cases h
      obtain ⟨a, h1, h2, _⟩ := rfindNl_some h
      rw [if_pos ⟨hk, hin⟩]
      have : blen t = blen a + (1 + blen (lastLine t)) := by
        conv => lhs; rw [h1]
        rw [blen_append, blen_cons, u8_nl]
      simp only [Prod.mk.injEq, true_and]
      omega
  · rw [if_neg hk, if_neg (fun h => hk h.1)]

theorem tokenEnd_mono (k : Kind) (t : Text) (line char : Nat) :
    line < (tokenEnd k t line char).1 ∨
      (line = (tokenEnd k t line char).1 ∧ char + blen t = (tokenEnd k t line char).2) := by
  rw [tokenEnd_eq]
  split
  · rename_i h
    left
    have := List.count_pos_iff.2 h.2
    show line < line + _
    omega
  · exact .inr ⟨rfl, rfl⟩

theorem tokenHere_mem {r : Option Range} {k : Kind} {s : Text} {line char : Nat} {e : Nat × Nat} {t : SemTok}
    (h : t ∈ tokenHere r k s line char e) : t.line = line ∧ t.start = char := by
  unfold tokenHere at h
  split at h
  · split at h
    · simp only [List.mem_singleton] at h
      subst h; exact ⟨rfl, rfl⟩
    · cases h
  · cases h

theorem tokenHere_pairwise (r : Option Range) (k : Kind) (s : Text) (line char : Nat) (e : Nat × Nat) :
    (tokenHere r k s line char e).Pairwise InOrder := by
  unfold tokenHere
  split
  · split
    · exact List.pairwise_singleton _ _
    · exact List.Pairwise.nil
  · exact List.Pairwise.nil

theorem collect_after (r : Option Range) (ls : List (Kind × Text)) (line char : Nat) :
    ∀ t ∈ collect r ls line char, line < t.line ∨ (line = t.line ∧ char ≤ t.start) := by
  induction ls generalizing line char with
  | nil => intro t ht; cases ht
  | cons a ls ih =>
    obtain ⟨k, s⟩ := a
    intro t ht
    unfold collect at ht
    simp only [List.mem_append] at ht
    rcases ht with ht | ht
    · have := tokenHere_mem ht
      exact .inr ⟨this.1.symm, by omega⟩
    · have := ih _ _ t ht
      have hm := tokenEnd_mono k s line char
      omega

theorem collect_pairwise (r : Option Range) (ls : List (Kind × Text)) (line char : Nat) :
    (collect r ls line char).Pairwise InOrder := by
  induction ls generalizing line char with
  | nil => exact List.Pairwise.nil
  | cons a ls ih =>
    obtain ⟨k, s⟩ := a
    unfold collect
    rw [List.pairwise_append]
    refine ⟨tokenHere_pairwise _ _ _ _ _ _, ih _ _, ?_⟩
    · intro x hx y hy
      have hx' := tokenHere_mem hx
      have := collect_after r ls _ _ y hy
      have hm := tokenEnd_mono k s line char
      unfold InOrder
      omega

theorem encode_decode (ts : List SemTok) (pl pc : Nat) (ho : ts.Pairwise InOrder)
    (hf : ∀ t ∈ ts, pl < t.line ∨ (pl = t.line ∧ pc ≤ t.start)) :
    ∃ e, encode ts pl pc = some e ∧ decode e pl pc = some ts := by
  induction ts generalizing pl pc with
  | nil => exact ⟨[], rfl, rfl⟩
  | cons t ts ih =>
    rw [List.pairwise_cons] at ho
    obtain ⟨e, h1, h2⟩ := ih t.line t.start ho.2 ho.1
    have ht := hf t (by simp)
    unfold encode
    rw [if_neg (by omega)]
    simp only
    split
    · rename_i hd
      refine ⟨_, by rw [h1]; rfl, ?_⟩
      show decode ((t.line - pl) :: t.start :: t.length :: t.type :: 0 :: e) pl pc = _
      unfold decode
      simp only
      rw [if_neg (by omega), show pl + (t.line - pl) = t.line by omega, h2]
      rfl
    · rw [if_neg (by omega)]
      refine ⟨_, by rw [h1]; rfl, ?_⟩
      show decode ((t.line - pl) :: (t.start - pc) :: t.length :: t.type :: 0 :: e) pl pc = _
      unfold decode
      simp only
      rw [if_pos (by omega), show pl + (t.line - pl) = t.line by omega, show pc + (t.start - pc) = t.start by omega, h2]
      rfl

theorem posOf_nl_free (pre t : Text) (h : '\n' ∉ t) :
    posOf (pre ++ t) = ⟨(posOf pre).line, (posOf pre).character + len16 t⟩ := by
  obtain ⟨p, h1, h2, h3⟩ := split_lastLine pre
  have hl : lastLine (pre ++ t) = lastLine pre ++ t := by
    have : pre ++ t = p ++ (lastLine pre ++ t) := by
      conv => lhs; rw [h1]
      simp
    rw [this]
    exact lastLine_append h2 (by simp [h3, h])
  unfold posOf lineNo
  rw [hl, len16_append, count_append_nl_free h]

theorem posOf_nl (pre t : Text) (h : '\n' ∈ t) :
    posOf (pre ++ t) = ⟨(posOf pre).line + t.count '\n', len16 (lastLine t)⟩ := by
  have : rfindNl t ≠ none := fun hn => rfindNl_none.1 hn h
  obtain ⟨o, ho⟩ := Option.ne_none_iff_exists'.1 this
  obtain ⟨a, h1, _, h3⟩ := rfindNl_some ho
  have hl : lastLine (pre ++ t) = lastLine t := by
    have : pre ++ t = (pre ++ a ++ ['\n']) ++ lastLine t := by
      conv => lhs; rw [h1]
      simp
    rw [this]
    exact lastLine_append (Or.inr ⟨_, rfl⟩) h3
  unfold posOf lineNo
  rw [hl, List.count_append]

theorem tokenEnd_posOf (pre : Text) (k : Kind) (t : Text) (ha : Ascii t) (hs : SingleLine (k, t)) :
    tokenEnd k t (posOf pre).line (posOf pre).character = ((posOf (pre ++ t)).line, (posOf (pre ++ t)).character) := by
  rw [tokenEnd_eq]
  by_cases h : '\n' ∈ t
  · have hk : k = K.WHITESPACE := by
      rcases hs with hs | hs
      · exact hs
      · exact absurd h hs
    rw [if_pos ⟨hk, h⟩, posOf_nl pre t h]
    have hal : Ascii (lastLine t) := by
      intro c hc
      apply ha
      unfold lastLine at hc
      rw [List.mem_reverse] at hc
      exact List.mem_reverse.1 (List.takeWhile_subset _ hc)
    rw [ascii_len hal]
  · rw [if_neg (fun hh => h hh.2), posOf_nl_free pre t h, ascii_len ha]

theorem collect_highlights (pre : Text) (ls : List (Kind × Text)) (ha : ∀ l ∈ ls, Ascii l.2)
    (hs : ∀ l ∈ ls, SingleLine l) :
    collect none ls (posOf pre).line (posOf pre).character = highlights pre ls := by
  induction ls generalizing pre with
  | nil => rfl
  | cons a ls ih =>
    obtain ⟨k, t⟩ := a
    have h1 := tokenEnd_posOf pre k t (ha (k, t) (by simp)) (hs (k, t) (by simp))
    unfold collect highlights
    simp only [h1]
    rw [ih (pre ++ t) (fun l hl => ha l (by simp [hl])) (fun l hl => hs l (by simp [hl])), tokenHere,
      ascii_len (ha (k, t) (by simp))]
    rfl

theorem collect_highlightsIn (r : Range) (pre : Text) (ls : List (Kind × Text)) (ha : ∀ l ∈ ls, Ascii l.2)
    (hs : ∀ l ∈ ls, SingleLine l) :
    collect (some r) ls (posOf pre).line (posOf pre).character = highlightsIn r pre ls := by
  induction ls generalizing pre with
  | nil => rfl
  | cons a ls ih =>
    obtain ⟨k, t⟩ := a
    have h1 := tokenEnd_posOf pre k t (ha (k, t) (by simp)) (hs (k, t) (by simp))
    unfold collect highlightsIn
    simp only [h1]
    rw [ih (pre ++ t) (fun l hl => ha l (by simp [hl])) (fun l hl => hs l (by simp [hl])), tokenHere,
      ascii_len (ha (k, t) (by simp))]
    congr 1
    cases tokenType k with
    | none => simp
    | some ty => rfl

end Verif.Features
