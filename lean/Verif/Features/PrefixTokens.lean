import Verif.Features.SigTokens
import Verif.Props.OnType
/-!
# Prefixes and tokens

In a valid document the prefixes that are used and declared can be read from the significant tokens.
-/
namespace Verif.Features
open Verif Verif.Grammar Verif.Lexer Verif.Props

theorem split_nodup {α : Type} {s : α} : ∀ {A B L R : List α}, (A ++ s :: B).Nodup → A ++ s :: B = L ++ s :: R → A = L ∧ B = R := by
  intro A
  induction A with
  | nil =>
    intro B L R h e
    cases L with
    | nil => simp at e; exact ⟨rfl, e⟩
    | cons x L =>
      exfalso
      simp only [List.nil_append, List.cons_append, List.cons.injEq] at e h
      rw [List.nodup_cons] at h
      apply h.1; rw [e.2]; simp
  | cons a A ih =>
    intro B L R h e
    cases L with
    | nil =>
      exfalso
      simp only [List.nil_append, List.cons_append, List.cons.injEq] at e h
      rw [List.nodup_cons] at h
      apply h.1; rw [e.1]; simp
    | cons x L =>
      simp only [List.cons_append, List.cons.injEq] at e h
      rw [List.nodup_cons] at h
      obtain ⟨rfl, rfl⟩ := ih h.2 e.2
      exact ⟨by rw [e.1], rfl⟩

section
variable {text : Text} {g : Green} (P : Parsed text g) (hC : ∀ n ∈ g.nodes, Complete sparqlRules n)

theorem child_sigT {d s : Red} (hd : InTree g d) (hs : s ∈ d.childrenT) (hn : s.isNode = false) (ht : triviaKind s.kind = false) : s ∈ d.sigT := by
  unfold Red.sigT
  rw [List.mem_filter]
  refine ⟨?_, by simp [ht]⟩
  rw [tokens_eq, if_pos (child_isNode hs)]
  refine List.mem_flatMap.2 ⟨s, hs, ?_⟩
  rw [tokens_eq, hn, if_neg (by simp)]
  simp

include P hC

/-- A declaration and its tokens among the tokens of the document. -/
theorem decl_place {d : Red} (hd : IsDecl g d) : ∃ A s t i B, d.sigT = [s, t, i] ∧ (Red.root g).sigT = A ++ s :: t :: i :: B ∧
    s.kind = K.PREFIX ∧ t.kind = K.PNAME_NS ∧ i.kind = K.IRIREF ∧ s ∈ d.childrenT ∧ t ∈ d.childrenT ∧ i ∈ d.childrenT := by
  obtain ⟨s, t, i, e, h1, h2, h3, h4, h5, h6⟩ := decl_tokens hC hd
  obtain ⟨L, R, e2⟩ := inTree_sigT hd.1
  exact ⟨L, s, t, i, R, e, by rw [e2, e]; simp, h1, h2, h3, h4, h5, h6⟩

/-- A `PREFIX` token and its declaration. -/
theorem prefix_place {A B : List Red} {s : Red} (e : (Red.root g).sigT = A ++ s :: B) (hk : s.kind = K.PREFIX) :
    ∃ d t i B', IsDecl g d ∧ d.sigT = [s, t, i] ∧ B = t :: i :: B' ∧ t.kind = K.PNAME_NS ∧ i.kind = K.IRIREF ∧ s ∈ d.childrenT ∧ t ∈ d.childrenT := by
  have hs : s ∈ (Red.root g).sigT := by rw [e]; simp
  obtain ⟨a1, a2, a3⟩ := mem_sigT.1 hs
  obtain ⟨d, hd, hsd⟩ := (parent_of P hC hs).1 hk
  obtain ⟨L, s', t, i, R, h1, h2, h3, h4, h5, h6, h7, h8⟩ := decl_place P hC hd
  have := child_sigT hd.1 hsd a2 a3
  rw [h1] at this
  have : s = s' := by
    simp only [List.mem_cons, List.not_mem_nil, or_false] at this
    rcases this with h | h | h
    · exact h
    · rw [h, h4] at hk; exact absurd hk (by decide)
    · rw [h, h5] at hk; exact absurd hk (by decide)
  subst this
  have hnd := sigT_nodup P
  rw [e] at hnd h2
  obtain ⟨-, hB⟩ := split_nodup hnd h2
  exact ⟨d, t, i, R, hd, h1, hB, h4, h5, hsd, h7⟩

/-- The token of a declared label follows `PREFIX`. -/
theorem label_place {A B : List Red} {t : Red} (e : (Red.root g).sigT = A ++ t :: B) (hk : t.kind = K.PNAME_NS) {d : Red}
    (hd : IsDecl g d) (ht : t ∈ d.childrenT) : ∃ A' s, A = A' ++ [s] ∧ s.kind = K.PREFIX := by
  have hs : t ∈ (Red.root g).sigT := by rw [e]; simp
  obtain ⟨a1, a2, a3⟩ := mem_sigT.1 hs
  obtain ⟨L, s, t', i, R, h1, h2, h3, h4, h5, -⟩ := decl_place P hC hd
  have := child_sigT hd.1 ht a2 a3
  rw [h1] at this
  have : t = t' := by
    simp only [List.mem_cons, List.not_mem_nil, or_false] at this
    rcases this with h | h | h
    · rw [h, h3] at hk; exact absurd hk (by decide)
    · exact h
    · rw [h, h5] at hk; exact absurd hk (by decide)
  subst this
  have hnd := sigT_nodup P
  rw [e] at hnd h2
  have h2 : A ++ t :: B = (L ++ [s]) ++ t :: (i :: R) := by rw [h2]; simp
  obtain ⟨hA, -⟩ := split_nodup hnd h2
  exact ⟨L, s, hA, h3⟩

/-- The token of a prefixed name does not follow `PREFIX`. -/
theorem name_place {A B : List Red} {t : Red} (e : (Red.root g).sigT = A ++ t :: B) {n : Red} (hn : n.kind = K.PrefixedName)
    (ht : t ∈ n.childrenT) : ∀ A' s, A = A' ++ [s] → s.kind ≠ K.PREFIX := by
  rintro A' s rfl hs
  rw [List.append_assoc, List.singleton_append] at e
  obtain ⟨d, t', i, B', hd, -, hB, -, -, -, htd⟩ := prefix_place P hC e hs
  cases hB
  have h1 := child_parent htd
  have h2 := child_parent ht
  rw [h1] at h2
  cases h2
  rw [hd.2.2] at hn
  exact absurd hn (by decide)

/-- The declared prefixes. -/
theorem declares_place {d : Red} {p : Text} : Declares g d p ↔ ∃ A s t B, (Red.root g).sigT = A ++ s :: t :: B ∧ s.kind = K.PREFIX ∧
    s ∈ d.childrenT ∧ t.text = p ++ [':'] ∧ ':' ∉ p := by
  constructor
  · rintro ⟨hd, t, ht, htp, htk, htt, hp⟩
    obtain ⟨A, s, t', i, B, h1, h2, h3, h4, h5, h6, h7, h8⟩ := decl_place P hC hd
    have : t = t' := label_unique P hd ((ht.parent htp).2) htk h7 h4
    subst this
    exact ⟨A, s, t, i :: B, h2, h3, h6, htt, hp⟩
  · rintro ⟨A, s, t, B, e, hs, hsd, htt, hp⟩
    obtain ⟨d', t', i, B', hd, -, hB, hk, -, hsd', htd⟩ := prefix_place P hC e hs
    cases hB
    have h1 := child_parent hsd
    rw [child_parent hsd'] at h1
    cases h1
    exact ⟨hd, t, hd.1.child htd, child_parent htd, hk, htt, hp⟩

/-- The used prefixes. -/
theorem uses_place {p : Text} : (∃ n, Uses g n p) ↔ ∃ A t B, (Red.root g).sigT = A ++ t :: B ∧
    (t.kind = K.PNAME_LN ∨ t.kind = K.PNAME_NS ∧ ∀ A' s, A = A' ++ [s] → s.kind ≠ K.PREFIX) ∧
    ∃ rest, t.text = p ++ ':' :: rest ∧ ':' ∉ p := by
  constructor
  · rintro ⟨n, h1, h2, h3, rest, e, hp⟩
    obtain ⟨t, ht, hk, htc⟩ := name_token hC h1 h2 h3
    obtain ⟨L, R, e2⟩ := inTree_sigT h1
    rw [ht] at e2
    have e2 : (Red.root g).sigT = L ++ t :: R := by rw [e2]; simp
    refine ⟨L, t, R, e2, ?_, ?_⟩
    · rcases hk with hk | hk
      · exact Or.inl hk
      · exact Or.inr ⟨hk, name_place P hC e2 h3 htc⟩
    · -- the text of the name begins with that of the token
      have htm : t ∈ (Red.root g).sigT := by rw [e2]; simp
      obtain ⟨a1, a2, -⟩ := mem_sigT.1 htm
      have hup : n.up ≠ [] := by
        intro hu
        have := h1.root_of_up hu
        rw [this] at h3
        have h3 : g.kind = K.PrefixedName := h3
        rcases P.root with h | h <;> (rw [h] at h3; exact absurd h3 (by decide))
      obtain ⟨⟨k, w, l, hl, hkt⟩, -⟩ := P.tight _ (P.inner_of h1 h2 hup)
      have hs := sigT_kt n
      rw [ht, hl, List.filter_cons] at hs
      simp only [hkt, Bool.not_false, if_true, List.map_cons, List.map_nil, List.cons.injEq] at hs
      have hw : w = t.text := by rw [show w = (t.kt).2 by rw [hs.1]]; rfl
      have htx : n.text = t.text ++ flat l := by rw [← flat_leaves n, hl, ← hw]; rfl
      obtain ⟨p', rest', h4, h5, -⟩ := pname_text P (Parsed.token_leaf a1 a2) hk.symm
      have : p = p' := prefix_unique hp h5 (rest := rest) (rest' := rest' ++ flat l) (by rw [← e, htx, h4]; simp)
      subst this
      exact ⟨rest', h4, hp⟩
  · rintro ⟨A, t, B, e, hk, rest, ht, hp⟩
    have htm : t ∈ (Red.root g).sigT := by rw [e]; simp
    have hnode : ∃ n, InTree g n ∧ n.isNode = true ∧ n.kind = K.PrefixedName ∧ t ∈ n.childrenT := by
      rcases hk with hk | ⟨hk, hA⟩
      · exact (parent_of P hC htm).2.1 hk
      · rcases (parent_of P hC htm).2.2 hk with h | ⟨d, hd, htd⟩
        · exact h
        · exfalso
          obtain ⟨A', s, e', hs⟩ := label_place P hC e hk hd htd
          exact hA A' s e' hs
    obtain ⟨n, h1, h2, h3, h4⟩ := hnode
    obtain ⟨p', h5⟩ := uses_of P h1 h2 h3
    have ht' : n.sigT = [t] := by
      obtain ⟨t', ht', -, -⟩ := name_token hC h1 h2 h3
      obtain ⟨a1, a2, a3⟩ := mem_sigT.1 htm
      have := child_sigT h1 h4 a2 a3
      rw [ht'] at this
      rw [ht', List.mem_singleton.1 this]
    have hup : n.up ≠ [] := by
      intro hu
      have := h1.root_of_up hu
      rw [this] at h3
      have h3 : g.kind = K.PrefixedName := h3
      rcases P.root with h | h <;> (rw [h] at h3; exact absurd h3 (by decide))
    obtain ⟨⟨k, w, l, hl, hkt⟩, -⟩ := P.tight _ (P.inner_of h1 h2 hup)
    have hs := sigT_kt n
    rw [ht', hl, List.filter_cons] at hs
    simp only [hkt, Bool.not_false, if_true, List.map_cons, List.map_nil, List.cons.injEq] at hs
    have hw : w = t.text := by rw [show w = (t.kt).2 by rw [hs.1]]; rfl
    have htx : n.text = t.text ++ flat l := by rw [← flat_leaves n, hl, ← hw]; rfl
    exact ⟨n, h1, h2, h3, rest ++ flat l, by rw [htx, ht]; simp, hp⟩

end

/-! ### On pairs of kind and text -/

/-- A prefix is declared: a label behind `PREFIX`. -/
def DeclaresIn (l : List (Kind × Text)) (p : Text) : Prop :=
  ∃ A w t B, l = A ++ (K.PREFIX, w) :: t :: B ∧ t.2 = p ++ [':'] ∧ ':' ∉ p

/-- A prefix is used: in a name that is not behind `PREFIX`. -/
def UsesIn (l : List (Kind × Text)) (p : Text) : Prop :=
  ∃ A t B, l = A ++ t :: B ∧ (t.1 = K.PNAME_LN ∨ t.1 = K.PNAME_NS ∧ ∀ A' s, A = A' ++ [s] → s.1 ≠ K.PREFIX) ∧
    ∃ rest, t.2 = p ++ ':' :: rest ∧ ':' ∉ p

theorem map_split {α β : Type} {f : α → β} {l : List α} {A B : List β} {x : β} (h : l.map f = A ++ x :: B) :
    ∃ A' x' B', l = A' ++ x' :: B' ∧ A'.map f = A ∧ f x' = x ∧ B'.map f = B := by
  obtain ⟨A', r, rfl, h1, h2⟩ := List.map_eq_append_iff.1 h
  obtain ⟨x', B', rfl, h3, h4⟩ := List.map_eq_cons_iff.1 h2
  exact ⟨A', x', B', rfl, h1, h3, h4⟩

theorem sigPairs_leaves (l : List (Kind × Text)) : sigPairs l = l.filter (fun p => !triviaKind p.1) := rfl

theorem declares_pairs {text : Text} {g : Green} (P : Parsed text g) (hC : ∀ n ∈ g.nodes, Complete sparqlRules n) {p : Text} :
    (∃ d, Declares g d p) ↔ DeclaresIn (sigPairs g.leaves) p := by
  have e : sigPairs g.leaves = (Red.root g).sigT.map Red.kt := by rw [sigT_kt]; rfl
  rw [e]
  constructor
  · rintro ⟨d, h⟩
    obtain ⟨A, s, t, B, h1, h2, -, h3, h4⟩ := (declares_place P hC).1 h
    refine ⟨A.map Red.kt, s.text, t.kt, B.map Red.kt, ?_, h3, h4⟩
    rw [h1, ← h2]; simp [Red.kt]
  · rintro ⟨A, w, t, B, h1, h2, h3⟩
    obtain ⟨A', s, r, e1, h4, h5, h6⟩ := map_split h1
    obtain ⟨t', B', rfl, h7, h8⟩ := List.map_eq_cons_iff.1 h6
    have hk : s.kind = K.PREFIX := by rw [show s.kind = (s.kt).1 from rfl, h5]
    obtain ⟨d, t2, i, B2, hd, -, -, -, -, hsd, -⟩ := prefix_place P hC e1 hk
    exact ⟨d, (declares_place P hC).2 ⟨A', s, t', B', e1, hk, hsd, by rw [show t'.text = (t'.kt).2 from rfl, h7, h2], h3⟩⟩

theorem uses_pairs {text : Text} {g : Green} (P : Parsed text g) (hC : ∀ n ∈ g.nodes, Complete sparqlRules n) {p : Text} :
    (∃ n, Uses g n p) ↔ UsesIn (sigPairs g.leaves) p := by
  have e : sigPairs g.leaves = (Red.root g).sigT.map Red.kt := by rw [sigT_kt]; rfl
  rw [e, uses_place P hC]
  constructor
  · rintro ⟨A, t, B, h1, h2, h3⟩
    refine ⟨A.map Red.kt, t.kt, B.map Red.kt, by rw [h1]; simp, ?_, h3⟩
    rcases h2 with h | ⟨h, hA⟩
    · exact Or.inl h
    · refine Or.inr ⟨h, fun A' s e => ?_⟩
      obtain ⟨A2, r, rfl, -, h4⟩ := List.map_eq_append_iff.1 e
      obtain ⟨s', r', rfl, h5, h6⟩ := List.map_eq_cons_iff.1 h4
      cases r' with
      | nil => rw [← h5]; exact hA A2 s' rfl
      | cons x y => cases h6
  · rintro ⟨A, t, B, h1, h2, h3⟩
    obtain ⟨A', t', B', e1, h4, h5, h6⟩ := map_split h1
    subst h5
    refine ⟨A', t', B', e1, ?_, h3⟩
    rcases h2 with h | ⟨h, hA⟩
    · exact Or.inl h
    · refine Or.inr ⟨h, fun A2 s e => ?_⟩
      exact hA (A2.map Red.kt) s.kt (by rw [← h4, e]; simp)

end Verif.Features
