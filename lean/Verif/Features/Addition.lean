import Verif.Features.Surgery
import Verif.Lexer.Insert
import Verif.Format.Edge
import Verif.Props.Declare
/-!
# Inserting tokens into a valid document

Text made of tokens that can stand next to each other is read back as these tokens; if the document with the new tokens is a sentence of the
grammar, the new text is a valid document.
-/
namespace Verif.Props
open Verif Verif.Grammar Verif.Lexer Verif.Features Verif.Format

/-- No white space. -/
def inkClass : Class := [(0, 0x8), (0xB, 0xB), (0xE, 0x1F), (0x21, 0x10FFFF)]

/-- Tokens of the kind do not begin with white space. -/
def inkFirst (k : Kind) : Bool := lexRules.all (fun r => r.kind != k || subClass (firsts r.re) inkClass)

/-- A token of kind `k` ends in front of a token of kind `k'`. -/
def touch (k k' : Kind) : Bool := pairOk k k' || (k == K.WHITESPACE && inkFirst k')

/-- A token of kind `k` ends in front of the character. -/
def EndsBefore (k : Kind) (c : Char) : Prop := (safeOf k).has c = true ∨ (k = K.WHITESPACE ∧ wsClass.has c = false)

/-- Neighbours may touch. -/
def okChain : List Kind → Bool
  | [] => true
  | [_] => true
  | k :: k' :: l => touch k k' && okChain (k' :: l)

theorem ink_not {c : Char} (h : inkClass.has c = true) : wsClass.has c = false := by
  cases hw : wsClass.has c with
  | false => rfl
  | true =>
    exfalso
    rw [has_iff] at h hw
    obtain ⟨p, hp, h1, h2⟩ := h
    obtain ⟨q, hq, h3, h4⟩ := hw
    simp only [inkClass, wsClass, List.mem_cons, List.not_mem_nil, or_false] at hp hq
    rcases hp with rfl | rfl | rfl | rfl <;> rcases hq with rfl | rfl | rfl <;> dsimp only at h1 h2 h3 h4 <;> omega

theorem touch_cons {p : Kind × Text} (h : HasRule p) : ∃ c v, p.2 = c :: v ∧ ∀ k, touch k p.1 = true → EndsBefore k c := by
  obtain ⟨c, v, e, hk⟩ := has_rule_cons h
  refine ⟨c, v, e, fun k ht => ?_⟩
  simp only [touch, Bool.or_eq_true, Bool.and_eq_true, beq_iff_eq] at ht
  rcases ht with ht | ⟨ht, hi⟩
  · exact .inl (hk k ht)
  · refine .inr ⟨ht, ?_⟩
    obtain ⟨r, hr, h2, h3⟩ := h
    have := List.all_eq_true.1 hi r hr
    rw [h2] at this
    simp only [bne_self_eq_false, Bool.false_or] at this
    exact ink_not (sub_has this (firsts_has h3 c v e))

theorem longest_before {p : Kind × Text} (h : HasRule p) {rest : Text} (hc : ∀ c y, rest = c :: y → EndsBefore p.1 c) : Longest (p.2 ++ rest) p.1 p.2 := by
  obtain ⟨r, h1, h2, h3⟩ := h
  by_cases hs : ∀ c y, rest = c :: y → (safeOf p.1).has c = true
  · rw [← h2] at hs ⊢
    exact longest_at h1 h3 hs
  · have hw : p.1 = K.WHITESPACE ∧ NoSpace rest := by
      cases rest with
      | nil => exact absurd (fun c y e => by cases e) hs
      | cons c y =>
        rcases hc c y rfl with h | h
        · exact absurd (fun c' y' e => by injection e with e _; rw [← e]; exact h) hs
        · exact h
    rw [hw.1]
    have hm : Matches rule_WHITESPACE.re p.2 := lexed_rule ⟨r, h1, h2, h3⟩ hw.1 (by decide +kernel)
    obtain ⟨h4, h5⟩ := ws_matches.1 hm
    exact longest_ws h5 h4 hw.2

theorem lexes_chain {I : List (Kind × Text)} {C : Text} {L : List (Kind × Text)} (hr : ∀ p ∈ I, HasRule p) (hc : okChain (I.map (·.1)) = true)
    (hl : ∀ p I0, I = I0 ++ [p] → ∀ c y, C = c :: y → EndsBefore p.1 c) (h : Lexes C L) : Lexes (flat I ++ C) (I ++ L) := by
  induction I with
  | nil => exact h
  | cons p I ih =>
    have hrest : Lexes (flat I ++ C) (I ++ L) := by
      refine ih (fun q hq => hr q (List.mem_cons_of_mem _ hq)) ?_ (fun q I0 e => hl q (p :: I0) (by rw [e]; rfl))
      cases I with
      | nil => rfl
      | cons q I => simp only [List.map_cons, okChain, Bool.and_eq_true] at hc; simpa using hc.2
    have hlong : Longest (p.2 ++ (flat I ++ C)) p.1 p.2 := by
      refine longest_before (hr p List.mem_cons_self) ?_
      intro c y e
      cases I with
      | nil => exact hl p [] rfl c y e
      | cons q I =>
        simp only [List.map_cons, okChain, Bool.and_eq_true] at hc
        obtain ⟨c', v, e1, e2⟩ := touch_cons (hr q (by simp))
        have : flat (q :: I) ++ C = c' :: (v ++ (flat I ++ C)) := by rw [flat_cons, e1]; simp
        rw [this] at e
        injection e with e _
        rw [← e]; exact e2 _ hc.1
    have := Lexes.tok hlong hrest
    rw [flat_cons, List.append_assoc]
    exact this

/-- The tokens of a valid document. -/
theorem valid_noError {errLen : Text → Nat} {text : Text} {k : Kind} (hd : Derives sparqlRules (.node k) (kinds (lex errLen text))) :
    ∀ z ∈ tokenPairs errLen text, z.1 ≠ K.Error := by
  intro z hz hzE
  have hk : K.Error ∈ kinds (lex errLen text) := by
    rw [kinds_sigPairs]
    refine List.mem_map.2 ⟨z, List.mem_filter.2 ⟨hz, ?_⟩, hzE⟩
    rw [hzE]; decide
  exact derives_no_error hd (by simp [symbols]) hk

theorem tokens_pairs {errLen : Text → Nat} {text : Text} {g errs} (hp : parseSource errLen text = some (g, errs)) :
    (Red.root g).tokens.map Red.kt = tokenPairs errLen text := by
  rw [(tokens_row (Red.root g)).1]; exact source_leaves hp

theorem sigK_kinds (errLen : Text → Nat) (text : Text) : kinds (lex errLen text) = sigK (tokenPairs errLen text) := kinds_sigPairs errLen text

theorem sigK_append (a b : List (Kind × Text)) : sigK (a ++ b) = sigK a ++ sigK b := by simp [sigK, sigPairs]

/-- A document recognised as an update contains a keyword. -/
theorem update_keyword {errLen : Text → Nat} {text : Text} {g errs} (hp : parseSource errLen text = some (g, errs)) (hk : g.kind = K.UpdateUnit) :
    ∃ p ∈ tokenPairs errLen text, p.1 ∈ queryKeywords ++ updateKeywords := by
  have hp : parseDocument (lex errLen text) = some (g, errs) := hp
  unfold parseDocument at hp
  cases hg : guessOperationType (lex errLen text) with
  | none =>
    rw [hg] at hp
    obtain ⟨_, cs, _, _, rfl, _⟩ := parseText_some (c47_lossless errLen text) hp
    have hk : K.QueryUnit = K.UpdateUnit := hk
    exfalso; revert hk; decide
  | some e =>
    unfold guessOperationType at hg
    obtain ⟨t, h1, h2⟩ := List.exists_of_findSome?_eq_some hg
    refine ⟨_, List.mem_map.2 ⟨t, h1, rfl⟩, ?_⟩
    split at h2
    · rename_i h; exact List.mem_append_left _ h
    · split at h2
      · rename_i h; exact List.mem_append_right _ h
      · cases h2

/-- The document in which the tokens `D` are replaced by `I`, if it is read as that. -/
theorem put_lexed {errLen : Text → Nat} {text : Text} {g errs} (hp : parseSource errLen text = some (g, errs))
    (hd : Derives sparqlRules (.node g.kind) (kinds (lex errLen text))) {A D B : List Red} (e : (Red.root g).tokens = A ++ D ++ B)
    (hDk : ∀ t ∈ D, t.kind ∉ queryKeywords ++ updateKeywords) {I : List (Kind × Text)} (hIE : ∀ p ∈ I, p.1 ≠ K.Error)
    (hnew : Lexes (flat (A.map Red.kt) ++ flat I ++ flat (B.map Red.kt)) (A.map Red.kt ++ I ++ B.map Red.kt))
    (hw : Derives sparqlRules (.node g.kind) (sigKs A ++ sigK I ++ sigKs B)) :
    tokenPairs errLen (flat (A.map Red.kt) ++ flat I ++ flat (B.map Red.kt)) = A.map Red.kt ++ I ++ B.map Red.kt ∧
    Derives sparqlRules (.node g.kind) (kinds (lex errLen (flat (A.map Red.kt) ++ flat I ++ flat (B.map Red.kt)))) ∧
    ∃ g', parseSource errLen (flat (A.map Red.kt) ++ flat I ++ flat (B.map Red.kt)) = some (g', []) ∧ g'.kind = g.kind := by
  have P := parsed_of hp
  have hE := valid_noError hd
  have hpairs := tokens_pairs hp
  rw [e, List.map_append, List.map_append] at hpairs
  rw [← hpairs] at hE
  have hnewE : ∀ p ∈ A.map Red.kt ++ (I ++ B.map Red.kt), p.1 ≠ K.Error := by
    intro p hp'
    simp only [List.mem_append] at hp'
    rcases hp' with h | h | h
    · exact hE p (by simp only [List.mem_append]; exact .inl (.inl h))
    · exact hIE p h
    · exact hE p (by simp only [List.mem_append]; exact .inr h)
  have htp : tokenPairs errLen (flat (A.map Red.kt) ++ flat I ++ flat (B.map Red.kt)) = A.map Red.kt ++ I ++ B.map Red.kt :=
    tokenPairs_of hnew (by simpa using hnewE)
  have hval : Derives sparqlRules (.node g.kind) (kinds (lex errLen (flat (A.map Red.kt) ++ flat I ++ flat (B.map Red.kt)))) := by
    rw [sigK_kinds, htp, sigK_append, sigK_append, ← sigKs_kt, ← sigKs_kt]; exact hw
  refine ⟨htp, hval, ?_⟩
  rcases P.root with hk | hk
  · rw [hk] at hval ⊢
    exact (c44_query _ _ (c47_lossless errLen _) hval).2
  · have hkw := update_keyword hp hk
    rw [hk] at hval ⊢
    refine ((c44_update _ _ (c47_lossless errLen _) hval).1 ?_).2
    obtain ⟨p, h1, h2⟩ := hkw
    rw [← hpairs] at h1
    have : p ∈ tokenPairs errLen (flat (A.map Red.kt) ++ flat I ++ flat (B.map Red.kt)) := by
      rw [htp]
      simp only [List.mem_append] at h1 ⊢
      rcases h1 with (h1 | h1) | h1
      · exact .inl (.inl h1)
      · obtain ⟨t, h3, rfl⟩ := List.mem_map.1 h1
        exact absurd h2 (hDk t h3)
      · exact .inr h1
    obtain ⟨t, h3, h4⟩ := List.mem_map.1 this
    exact ⟨t, h3, by rw [← h4] at h2; exact h2⟩

/-- **Tokens in place of others.** `D` is replaced by `I`. -/
theorem put_tokens {errLen : Text → Nat} {text : Text} {g errs} (hp : parseSource errLen text = some (g, errs))
    (hd : Derives sparqlRules (.node g.kind) (kinds (lex errLen text))) {A D B : List Red} (e : (Red.root g).tokens = A ++ D ++ B)
    {A0 : List Red} {q : Red} (hA : A = A0 ++ [q]) (hq : triviaKind q.kind = false) (hqs : (safeOf q.kind).has ' ' = true)
    (hD : ∀ c ∈ flat (D.map Red.kt), plainClass.has c = true) (hDk : ∀ t ∈ D, t.kind ∉ queryKeywords ++ updateKeywords)
    {I : List (Kind × Text)} {i : Text} (hI : flat I = ' ' :: i) (hr : ∀ p ∈ I, HasRule p) (hIE : ∀ p ∈ I, p.1 ≠ K.Error)
    (hc : okChain (I.map (·.1)) = true) (hlast : ∀ p I0, I = I0 ++ [p] → ∀ y B', B = y :: B' → touch p.1 y.kind = true)
    (hcalm : Calm (' ' :: i)) (hw : Derives sparqlRules (.node g.kind) (sigKs A ++ sigK I ++ sigKs B)) :
    text = flat (A.map Red.kt) ++ flat (D.map Red.kt) ++ flat (B.map Red.kt) ∧
    tokenPairs errLen (flat (A.map Red.kt) ++ flat I ++ flat (B.map Red.kt)) = A.map Red.kt ++ I ++ B.map Red.kt ∧
    Derives sparqlRules (.node g.kind) (kinds (lex errLen (flat (A.map Red.kt) ++ flat I ++ flat (B.map Red.kt)))) ∧
    ∃ g', parseSource errLen (flat (A.map Red.kt) ++ flat I ++ flat (B.map Red.kt)) = some (g', []) ∧ g'.kind = g.kind := by
  have P := parsed_of hp
  have hE := valid_noError hd
  have hL : Lexes text (tokenPairs errLen text) := c47_longest_match errLen text
  have hpairs := tokens_pairs hp
  rw [e, List.map_append, List.map_append] at hpairs
  have htext : text = flat (A.map Red.kt) ++ flat (D.map Red.kt) ++ flat (B.map Red.kt) := by
    rw [← (lexes_flat hL).1, ← hpairs]; simp [flat]
  rw [← hpairs] at hE hL
  have hLB : Lexes (flat (B.map Red.kt)) (B.map Red.kt) := lexes_suffix hL
  have hne := (lexes_flat hL).2
  have hrules : ∀ t ∈ A ++ D ++ B, HasRule t.kt := by
    intro t ht
    have h1 : t.kt ∈ A.map Red.kt ++ D.map Red.kt ++ B.map Red.kt := by
      rw [← List.map_append, ← List.map_append]; exact List.mem_map.2 ⟨t, ht, rfl⟩
    refine P.lexed _ ?_ (hE _ h1)
    rw [show g.leaves = tokenPairs errLen text from source_leaves hp, ← hpairs]; exact h1
  have hLI : Lexes (' ' :: i ++ flat (B.map Red.kt)) (I ++ B.map Red.kt) := by
    rw [← hI]
    refine lexes_chain hr hc ?_ hLB
    intro p I0 eI c y ec
    cases B with
    | nil => cases ec
    | cons b B' =>
      obtain ⟨c', v, e1, e2⟩ := touch_cons (hrules b (by simp))
      have : flat ((b :: B').map Red.kt) = c' :: (v ++ flat (B'.map Red.kt)) := by rw [List.map_cons, flat_cons, e1]; rfl
      rw [this] at ec
      injection ec with ec _
      rw [← ec]
      exact e2 _ (hlast p I0 eI b B' rfl)
  have hnew : Lexes (flat (A.map Red.kt) ++ (' ' :: i ++ flat (B.map Red.kt))) (A.map Red.kt ++ (I ++ B.map Red.kt)) := by
    refine lexes_insert (B := D.map Red.kt ++ B.map Red.kt) (d := flat (D.map Red.kt)) (A0 := A0.map Red.kt) (q := q.kt) ?_ ?_ ?_ ?_ hq hqs hD hcalm hLI
    · rw [htext] at hL; simpa using hL
    · intro p hp'; exact hE p (by simp only [List.mem_append]; exact .inl (.inl hp'))
    · intro p hp'; exact hne p (by simp only [List.mem_append]; exact .inl (.inl hp'))
    · rw [hA]; simp
  rw [← hI, ← List.append_assoc, ← List.append_assoc] at hnew
  exact ⟨htext, put_lexed hp hd e hDk hIE hnew hw⟩

end Verif.Props
