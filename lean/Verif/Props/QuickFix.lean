import Verif.Features.Cover
import Verif.Lexer.Prologue
import Verif.Grammar.PrologueWord
/-!
# C52, C53: quick fixes for prefixes

Specification: `Covers` (the range of an element), `IsDecl`, `Declares`, `Uses` (prefixes in a tree), `Derives` (valid
documents), `tokenPairs` (tokens of a text), `applyTextEdits` (C05).
-/
namespace Verif.Props
open Verif Verif.Grammar Verif.Lexer Verif.Features

theorem noCR_lastLine {pre post : Text} (h : NoLoneCR (pre ++ post)) (he : post.head? ≠ some '\n' ∨ ¬ ∃ q, pre = q ++ ['\r']) :
    '\r' ∉ lastLine pre := by
  intro hm
  obtain ⟨p, h1, -, h3⟩ := split_lastLine pre
  obtain ⟨a, b, e⟩ := List.append_of_mem hm
  obtain ⟨b', hb⟩ := h (p ++ a) (b ++ post) (by rw [h1, e]; simp)
  cases b with
  | nil =>
    rw [List.nil_append] at hb
    rcases he with he | he
    · rw [hb] at he; exact he rfl
    · exact he ⟨p ++ a, by rw [h1, e]; simp⟩
  | cons c b =>
    rw [List.cons_append] at hb
    injection hb with hc _
    apply h3; rw [e, hc]; simp

theorem iri_no_cr : noRuleOf (seqs [anyText, .cls [(0xD, 0xD)], anyText]) [K.IRIREF] = true := by decide +kernel

theorem proRun_append {s s' : Nat} {a b : List Kind} (h : proRun s a = some s') : proRun s (a ++ b) = proRun s' b := by
  induction a generalizing s with
  | nil => cases h; rfl
  | cons k a ih =>
    rw [proRun] at h
    rw [List.cons_append, proRun]
    cases hp : proStep s k with
    | none => rw [hp] at h; cases h
    | some x => rw [hp] at h; exact ih h

theorem proRun_decls : ∀ {ds : List (List Kind)}, (∀ d ∈ ds, d ∈ declWords) → proRun 0 ds.flatten = some 0 := by
  intro ds
  induction ds with
  | nil => intro _; rfl
  | cons d ds ih =>
    intro h
    have hd : proRun 0 d = some 0 := by
      have := h d (by simp)
      simp only [declWords, List.mem_cons, List.not_mem_nil, or_false] at this
      rcases this with rfl | rfl | rfl | rfl <;> decide
    rw [List.flatten_cons, proRun_append hd]
    exact ih (fun x hx => h x (by simp [hx]))

theorem sig_cons_split {l : List (Kind × Text)} {p : Kind × Text} {r : List (Kind × Text)} (h : sigPairs l = p :: r) :
    ∃ T B, l = T ++ p :: B ∧ (∀ t ∈ T, triviaKind t.1 = true) ∧ sigPairs B = r ∧ triviaKind p.1 = false := by
  induction l with
  | nil => cases h
  | cons x l ih =>
    rw [sigPairs_leaves, List.filter_cons] at h
    cases hx : triviaKind x.1 with
    | true =>
      rw [hx] at h
      obtain ⟨T, B, rfl, h1, h2, h3⟩ := ih h
      refine ⟨x :: T, B, rfl, ?_, h2, h3⟩
      intro t ht
      rcases List.mem_cons.1 ht with rfl | ht
      · exact hx
      · exact h1 t ht
    | false =>
      rw [hx] at h
      injection h with h1 h2
      subst h1
      exact ⟨[], l, rfl, by simp, h2, hx⟩

/-- What the declaration of a valid document is cut out of. -/
structure Cut (errLen : Text → Nat) (text : Text) (g : Green) (x : Red) (A T B : List (Kind × Text)) : Prop where
  tokens : tokenPairs errLen text = A ++ x.green.leaves ++ T ++ B
  start : x.start = blen (flat A)
  gap : ∀ t ∈ T, triviaKind t.1 = true
  lexes : Lexes (flat (A ++ B)) (A ++ B)
  valid : Derives sparqlRules (.node K.QueryUnit) (sigK (A ++ B))
  declared : ∃ w u v, sigPairs x.green.leaves = [(K.PREFIX, w), (K.PNAME_NS, u), (K.IRIREF, v)]
  next : ∃ p B', B = p :: B' ∧ p.1 ∈ [K.BASE, K.PREFIX, K.VERSION, K.SELECT, K.CONSTRUCT, K.DESCRIBE, K.ASK] ∧ triviaKind p.1 = false
  last : ∀ l q, sigPairs A = l ++ [q] → q.1 ≠ K.PREFIX
  place : ∃ L R, (Red.root g).tokens = L ++ x.tokens ++ R ∧ L.map Red.kt = A ∧ R.map Red.kt = T ++ B

theorem proRun_last {a : List Kind} {s : Nat} (h : proRun s (a ++ [K.PREFIX]) = some 0) : False := by
  cases h1 : proRun s a with
  | none =>
    have : ∀ (a : List Kind) (s : Nat) (b : List Kind), proRun s a = none → proRun s (a ++ b) = none := by
      intro a
      induction a with
      | nil => intro s b h; cases h
      | cons k a ih =>
        intro s b h
        rw [proRun] at h
        rw [List.cons_append, proRun]
        cases hp : proStep s k with
        | none => rfl
        | some x => rw [hp] at h; exact ih x b h
    rw [this a s _ h1] at h; cases h
  | some x =>
    rw [proRun_append h1, proRun] at h
    cases hp : proStep x K.PREFIX with
    | none => rw [hp] at h; cases h
    | some y =>
      rw [hp] at h
      rcases proStep_cases hp with h' | h' | h' | h' | h' | h'
      · exact absurd h'.2.1 (by decide)
      · rw [h'.2.2] at h; cases h
      · exact absurd h'.2.1 (by decide)
      · exact absurd h'.2.1 (by decide)
      · exact absurd h'.2.1 (by decide)
      · exact absurd h'.2.1 (by decide)

theorem cut_of {errLen : Text → Nat} {text : Text} {g errs} (hp : parseSource errLen text = some (g, errs))
    (hq : g.kind = K.QueryUnit) (hd : Derives sparqlRules (.node g.kind) (kinds (lex errLen text))) {x : Red} (hx : IsDecl g x) :
    ∃ A T B, Cut errLen text g x A T B := by
  have P := parsed_of hp
  have hC := complete_of hp hd
  rw [hq, kinds_sigPairs] at hd
  have hleaves : g.leaves = tokenPairs errLen text := source_leaves hp
  obtain ⟨L0, R0, e0⟩ := inTree_tokens hx.1
  obtain ⟨s, t, i, h1, h2, h3, h4, -⟩ := decl_tokens hC hx
  obtain ⟨A, hA0⟩ : ∃ A, L0.map Red.kt = A := ⟨_, rfl⟩
  obtain ⟨R, hR0⟩ : ∃ R, R0.map Red.kt = R := ⟨_, rfl⟩
  have e : g.leaves = A ++ x.green.leaves ++ R := by
    have := (tokens_row (Red.root g)).1
    rw [e0, List.map_append, List.map_append, (tokens_row x).1, hA0, hR0] at this
    exact this.symm
  have hst : x.start = blen (flat A) := by
    have hr := (tokens_row (Red.root g)).2
    rw [e0, List.append_assoc] at hr
    have hr := row_split hr
    cases hxt : x.tokens with
    | nil => rw [Red.sigT, hxt] at h1; cases h1
    | cons y l =>
      have hr' := (tokens_row x).2
      rw [hxt] at hr hr'
      have a1 : y.start = x.start := hr'.1
      have a2 : y.start = 0 + blen (flat (L0.map Red.kt)) := hr.1
      rw [hA0] at a2
      omega
  have hsig : sigPairs x.green.leaves = [(K.PREFIX, s.text), (K.PNAME_NS, t.text), (K.IRIREF, i.text)] := by
    rw [sigPairs_leaves, ← sigT_kt, h1]
    simp [Red.kt, h2, h3, h4]
  rw [hleaves] at e
  have hsplit : sigPairs (tokenPairs errLen text) = sigPairs A ++ sigPairs x.green.leaves ++ sigPairs R := by
    rw [e]; simp [sigPairs]
  have hd' := hd
  rw [hsplit, hsig] at hd'
  simp only [List.map_append, List.map_cons, List.map_nil, List.append_assoc, List.cons_append, List.nil_append] at hd'
  obtain ⟨c', hc', hval, ⟨k, r, hkr, hk⟩, ds, hds, hdw⟩ := query_cut hd'
  have hc' : (sigPairs R).map (·.1) = c' := by simpa using hc'
  rw [← hc'] at hkr hval
  obtain ⟨p, r', hp1, hp2, -⟩ := List.map_eq_cons_iff.1 hkr
  obtain ⟨T, B, hR, hT, hB, hptr⟩ := sig_cons_split hp1
  have hrun : proRun 0 (sigK A) = some 0 := by
    show proRun 0 ((sigPairs A).map (·.1)) = some 0
    rw [hds]; exact proRun_decls hdw
  have hsT : sigPairs T = [] := by
    rw [sigPairs_leaves, List.filter_eq_nil_iff]
    intro t ht; simp [hT t ht]
  have hpk : p.1 ∈ [K.BASE, K.PREFIX, K.VERSION, K.SELECT, K.CONSTRUCT, K.DESCRIBE, K.ASK] := by rw [hp2]; exact hk
  have hpE : p.1 ≠ K.Error := by
    intro h; rw [h] at hpk; exact absurd hpk (by decide)
  have hLex : Lexes text (A ++ x.green.leaves ++ T ++ p :: B) := by
    have := c47_longest_match errLen text
    rw [show (lex errLen text).map (fun t => (t.kind, t.text)) = tokenPairs errLen text from rfl, e, hR] at this
    simpa using this
  have hLB : Lexes (flat (p :: B)) (p :: B) := lexes_suffix hLex
  obtain ⟨cb, yb, e1, hcb⟩ := head_of hLB (p := p) (by simp) hpE first_letter letter_class hpk
  have hxl : ∃ l, x.green.leaves = (K.PREFIX, s.text) :: l := by
    obtain ⟨T', B', e2, hT', -, -⟩ := sig_cons_split hsig
    cases T' with
    | nil => exact ⟨B', e2⟩
    | cons y T' =>
      exfalso
      have hup : x.up ≠ [] := by
        intro hu
        have := hx.1.root_of_up hu
        have hk := hx.2.2
        rw [this] at hk
        have hk : g.kind = K.PrefixDecl := hk
        rw [hq] at hk; exact absurd hk (by decide)
      obtain ⟨⟨k, w, l, hl, hkt⟩, -⟩ := P.tight _ (P.inner_of hx.1 hx.2.1 hup)
      rw [e2, List.cons_append] at hl
      injection hl with hl _
      have := hT' y (by simp)
      rw [hl, hkt] at this; cases this
  obtain ⟨l, hl⟩ := hxl
  obtain ⟨cx, yx, e2, hcx⟩ := head_of hLex (p := (K.PREFIX, s.text)) (by rw [hl]; simp) (by show K.PREFIX ≠ K.Error; decide)
    first_letter letter_class (by show K.PREFIX ∈ _; decide)
  refine ⟨A, T, p :: B, by rw [e, hR]; simp, hst, hT, ?_, ?_, ⟨_, _, _, hsig⟩, ⟨p, B, rfl, hpk, hptr⟩, ?_,
    ⟨L0, R0, e0, hA0, by rw [hR0, hR]⟩⟩
  · refine lexes_cut hLB (flat_head e1) hcb A (x.green.leaves ++ T ++ p :: B) 0 text (by simpa using hLex) hrun ?_
    refine ⟨cx, yx ++ flat (l ++ (T ++ p :: B)), ?_, hcx⟩
    rw [hl, List.cons_append, List.cons_append, flat_head (p := (K.PREFIX, s.text)) e2]
    simp
  · have : sigK (A ++ p :: B) = (sigPairs A).map (·.1) ++ (sigPairs R).map (·.1) := by
      rw [sigK_append, hR]
      show _ = sigK A ++ sigK (T ++ p :: B)
      rw [sigK_append]
      show _ = _ ++ ((sigPairs T).map (·.1) ++ _)
      rw [hsT]; rfl
    rw [this]; exact hval
  · intro l' q hlq hqk
    have : sigK A = l'.map (·.1) ++ [K.PREFIX] := by
      show (sigPairs A).map (·.1) = _
      rw [hlq, ← hqk]; simp
    rw [this] at hrun
    exact proRun_last hrun

/-! ## Prefixes before and after -/

theorem sigPairs_append (a b : List (Kind × Text)) : sigPairs (a ++ b) = sigPairs a ++ sigPairs b := by simp [sigPairs]

/-- A declaration is cut out: the same prefixes are used. -/
theorem uses_cut {A B : List (Kind × Text)} {w u v : Text} (hA : ∀ l q, A = l ++ [q] → q.1 ≠ K.PREFIX)
    (hB : ∃ p B', B = p :: B' ∧ p.1 ∈ [K.BASE, K.PREFIX, K.VERSION, K.SELECT, K.CONSTRUCT, K.DESCRIBE, K.ASK]) {q : Text} :
    UsesIn (A ++ B) q ↔ UsesIn (A ++ (K.PREFIX, w) :: (K.PNAME_NS, u) :: (K.IRIREF, v) :: B) q := by
  obtain ⟨p, B', rfl, hp⟩ := hB
  have hpk : p.1 ≠ K.PNAME_LN ∧ p.1 ≠ K.PNAME_NS := by
    constructor <;> (intro h; rw [h] at hp; exact absurd hp (by decide))
  constructor
  · rintro ⟨X, t, Y, e, hk, ht⟩
    rcases List.append_eq_append_iff.1 e with ⟨m, e1, e2⟩ | ⟨m, e1, e2⟩
    · -- behind the cut
      cases m with
      | nil =>
        exfalso
        rw [List.nil_append] at e2
        cases e2
        rcases hk with h | h
        · exact hpk.1 h
        · exact hpk.2 h.1
      | cons y m =>
        rw [List.cons_append] at e2
        injection e2 with e2 e3
        subst e2
        refine ⟨A ++ (K.PREFIX, w) :: (K.PNAME_NS, u) :: (K.IRIREF, v) :: p :: m, t, Y, by rw [e3]; simp, ?_, ht⟩
        rcases hk with h | ⟨h, h'⟩
        · exact Or.inl h
        · refine Or.inr ⟨h, fun A' s e4 => h' (A ++ (p :: m).dropLast) s ?_⟩
          have hne : (p :: m) ≠ [] := by simp
          have : (p :: m).getLast hne = s := by
            have h5 := congrArg List.getLast? e4
            rw [List.getLast?_append] at h5
            simp only [List.getLast?_cons_cons] at h5
            rw [List.getLast?_eq_some_getLast hne] at h5
            simpa using h5
          rw [e1, List.append_assoc, ← this, List.dropLast_append_getLast hne]
    · cases m with
      | nil =>
        exfalso
        rw [List.nil_append] at e2
        cases e2
        rcases hk with h | h
        · exact hpk.1 h
        · exact hpk.2 h.1
      | cons y m =>
        rw [List.cons_append] at e2
        injection e2 with e2 e3
        subst e2
        exact ⟨X, t, m ++ (K.PREFIX, w) :: (K.PNAME_NS, u) :: (K.IRIREF, v) :: p :: B', by rw [e1]; simp, hk, ht⟩
  · rintro ⟨X, t, Y, e, hk, ht⟩
    rcases List.append_eq_append_iff.1 e with ⟨m, e1, e2⟩ | ⟨m, e1, e2⟩
    · match m, e1, e2 with
      | [], e1, e2 =>
        exfalso
        rw [List.nil_append] at e2
        cases e2
        rcases hk with h | h
        · exact absurd h (by show K.PREFIX ≠ K.PNAME_LN; decide)
        · exact absurd h.1 (by show K.PREFIX ≠ K.PNAME_NS; decide)
      | [y], e1, e2 =>
        exfalso
        simp only [List.cons_append, List.nil_append, List.cons.injEq] at e2
        rcases hk with h | h
        · rw [← e2.2.1] at h; exact absurd h (by show K.PNAME_NS ≠ K.PNAME_LN; decide)
        · exact h.2 A y e1 (by rw [← e2.1])
      | [y, z], e1, e2 =>
        exfalso
        simp only [List.cons_append, List.nil_append, List.cons.injEq] at e2
        rcases hk with h | h
        · rw [← e2.2.2.1] at h; exact absurd h (by show K.IRIREF ≠ K.PNAME_LN; decide)
        · have := h.1
          rw [← e2.2.2.1] at this; exact absurd this (by show K.IRIREF ≠ K.PNAME_NS; decide)
      | [y, z, i], e1, e2 =>
        exfalso
        simp only [List.cons_append, List.nil_append, List.cons.injEq] at e2
        rcases hk with h | h
        · rw [← e2.2.2.2.1] at h; exact hpk.1 h
        · have := h.1
          rw [← e2.2.2.2.1] at this; exact hpk.2 this
      | y :: z :: i :: c :: m, e1, e2 =>
        simp only [List.cons_append, List.cons.injEq] at e2
        obtain ⟨-, -, -, rfl, e3⟩ := e2
        refine ⟨A ++ p :: m, t, Y, by rw [e3]; simp, ?_, ht⟩
        rcases hk with h | ⟨h, h'⟩
        · exact Or.inl h
        · refine Or.inr ⟨h, fun A' s e4 => ?_⟩
          have hne : (p :: m) ≠ [] := by simp
          have : (p :: m).getLast hne = s := by
            have h5 := congrArg List.getLast? e4
            rw [List.getLast?_append] at h5
            rw [List.getLast?_eq_some_getLast hne] at h5
            simpa using h5
          refine h' (A ++ y :: z :: i :: (p :: m).dropLast) s ?_
          rw [e1, List.append_assoc, ← this]
          simp only [List.cons_append, List.dropLast_append_getLast hne]
    · cases m with
      | nil =>
        exfalso
        rw [List.nil_append] at e2
        cases e2
        rcases hk with h | h
        · exact absurd h (by show K.PREFIX ≠ K.PNAME_LN; decide)
        · exact absurd h.1 (by show K.PREFIX ≠ K.PNAME_NS; decide)
      | cons y m =>
        rw [List.cons_append] at e2
        injection e2 with e2 e3
        subst e2
        exact ⟨X, t, m ++ p :: B', by rw [e1]; simp, hk, ht⟩

/-- A declaration is cut out: the other declarations stay. -/
theorem declares_cut {A B : List (Kind × Text)} (hA : ∀ l q, A = l ++ [q] → q.1 ≠ K.PREFIX) {q : Text} :
    DeclaresIn (A ++ B) q ↔ DeclaresIn A q ∨ DeclaresIn B q := by
  constructor
  · rintro ⟨X, w, t, Y, e, ht⟩
    rcases List.append_eq_append_iff.1 e with ⟨m, e1, e2⟩ | ⟨m, e1, e2⟩
    · exact Or.inr ⟨m, w, t, Y, e2, ht⟩
    · match m, e1, e2 with
      | [], e1, e2 => exact Or.inr ⟨[], w, t, Y, e2.symm, ht⟩
      | [y], e1, e2 =>
        exfalso
        simp only [List.cons_append, List.nil_append, List.cons.injEq] at e2
        exact hA X y e1 (by rw [← e2.1])
      | y :: z :: m, e1, e2 =>
        simp only [List.cons_append, List.cons.injEq] at e2
        obtain ⟨rfl, rfl, e3⟩ := e2
        exact Or.inl ⟨X, w, t, m, e1, ht⟩
  · rintro (⟨X, w, t, Y, e, ht⟩ | ⟨X, w, t, Y, e, ht⟩)
    · exact ⟨X, w, t, Y ++ B, by rw [e]; simp, ht⟩
    · exact ⟨A ++ X, w, t, Y, by rw [e]; simp, ht⟩

/-- The declarations of a document other than `x`. -/
theorem declares_other {text : Text} {g : Green} (P : Parsed text g) (hC : ∀ n ∈ g.nodes, Complete sparqlRules n) {x : Red}
    (hx : IsDecl g x) {A B : List (Kind × Text)} {w u v : Text} (hst : sigPairs g.leaves = A ++ (K.PREFIX, w) :: (K.PNAME_NS, u) :: (K.IRIREF, v) :: B)
    (hpos : ∀ L s t i R, (Red.root g).sigT = L ++ s :: t :: i :: R → x.sigT = [s, t, i] → L.map Red.kt = A ∧ R.map Red.kt = B) {q : Text} :
    (∃ y, y ≠ x ∧ Declares g y q) ↔ DeclaresIn A q ∨ DeclaresIn B q := by
  obtain ⟨L, s, t, i, R, h1, h2, h3, h4, h5, h6, h7, h8⟩ := decl_place P hC hx
  obtain ⟨rfl, rfl⟩ := hpos L s t i R h2 h1
  have hnd := sigT_nodup P
  constructor
  · rintro ⟨y, hyx, hy⟩
    obtain ⟨X, s', t', Y, e, hs', hsy, ht', hq⟩ := (declares_place P hC).1 hy
    have hne : s' ≠ s := by
      intro h
      subst h
      have := child_parent hsy
      rw [child_parent h6] at this
      cases this
      exact hyx rfl
    rw [h2] at e
    rcases List.append_eq_append_iff.1 e with ⟨m, e1, e2⟩ | ⟨m, e1, e2⟩
    · match m, e1, e2 with
      | [], e1, e2 => simp at e2; exact absurd e2.1.symm hne
      | [a], e1, e2 =>
        exfalso
        simp only [List.cons_append, List.nil_append, List.cons.injEq] at e2
        rw [← e2.2.1, h4] at hs'; exact absurd hs' (by decide)
      | [a, b], e1, e2 =>
        exfalso
        simp only [List.cons_append, List.nil_append, List.cons.injEq] at e2
        rw [← e2.2.2.1, h5] at hs'; exact absurd hs' (by decide)
      | a :: b :: c :: m, e1, e2 =>
        simp only [List.cons_append, List.cons.injEq] at e2
        exact Or.inr ⟨m.map Red.kt, s'.text, t'.kt, Y.map Red.kt, by rw [e2.2.2.2, ← hs']; simp [Red.kt], ht', hq⟩
    · match m, e1, e2 with
      | [], e1, e2 => simp at e2; exact absurd e2.1 hne
      | [a], e1, e2 =>
        exfalso
        simp only [List.cons_append, List.nil_append, List.cons.injEq] at e2
        -- the label of `y` would be the `PREFIX` of `x`
        have he : (Red.root g).sigT = X ++ s' :: t' :: Y := by rw [h2, e]
        obtain ⟨d, t2, i2, B2, -, -, hB, hk2, -⟩ := prefix_place P hC he hs'
        cases hB
        rw [e2.2.1, h3] at hk2; exact absurd hk2 (by decide)
      | a :: b :: m, e1, e2 =>
        simp only [List.cons_append, List.cons.injEq] at e2
        obtain ⟨rfl, rfl, e3⟩ := e2
        exact Or.inl ⟨X.map Red.kt, s'.text, t'.kt, m.map Red.kt, by rw [e1, ← hs']; simp [Red.kt], ht', hq⟩
  · have key : ∀ X s' t' Y, (Red.root g).sigT = X ++ s' :: t' :: Y → s'.kind = K.PREFIX → s' ≠ s → t'.text = q ++ [':'] → ':' ∉ q →
        ∃ y, y ≠ x ∧ Declares g y q := by
      intro X s' t' Y e hs' hne ht' hq
      obtain ⟨d, t2, i2, B2, hd, hds, -, -, -, hsd, -⟩ := prefix_place P hC e hs'
      refine ⟨d, ?_, (declares_place P hC).2 ⟨X, s', t', Y, e, hs', hsd, ht', hq⟩⟩
      rintro rfl
      rw [h1] at hds
      injection hds with hds _
      exact hne hds.symm
    rintro (⟨X, w', t', Y, e, ht, hq⟩ | ⟨X, w', t', Y, e, ht, hq⟩)
    · obtain ⟨X', s', r, e1, -, e3, e4⟩ := map_split e
      obtain ⟨t2, Y', rfl, e5, -⟩ := List.map_eq_cons_iff.1 e4
      refine key X' s' t2 (Y' ++ s :: t :: i :: R) (by rw [h2, e1]; simp) (by rw [show s'.kind = (s'.kt).1 from rfl, e3]) ?_
        (by rw [show t2.text = (t2.kt).2 from rfl, e5, ht]) hq
      rintro rfl
      rw [h2] at hnd
      have := (List.nodup_append.1 hnd).2.2 s' (by rw [e1]; simp) s' (by simp)
      exact this rfl
    · obtain ⟨X', s', r, e1, -, e3, e4⟩ := map_split e
      obtain ⟨t2, Y', rfl, e5, -⟩ := List.map_eq_cons_iff.1 e4
      refine key (L ++ s :: t :: i :: X') s' t2 Y' (by rw [h2, e1]; simp) (by rw [show s'.kind = (s'.kt).1 from rfl, e3]) ?_
        (by rw [show t2.text = (t2.kt).2 from rfl, e5, ht]) hq
      rintro rfl
      rw [h2] at hnd
      have := (List.nodup_append.1 hnd).2.1
      rw [List.nodup_cons] at this
      apply this.1; rw [e1]; simp

/-! ## C52 -/

theorem error_table : sparqlRulesTree.toList.all (fun p => !(symbols p.2).contains (.tok K.Error)) = true := by decide +kernel

/-- A lexical error is nowhere allowed. -/
theorem derives_no_error {r : Rule} {w : List Kind} (h : Derives sparqlRules r w) (hr : Sym.tok K.Error ∉ symbols r) : K.Error ∉ w := by
  induction h with
  | tok k => rw [List.mem_singleton]; rintro rfl; exact hr (by simp [symbols])
  | node k r w h d ih =>
    refine ih ?_
    have := List.all_eq_true.1 error_table (k, r) (sparqlRulesTree.find_mem k r h)
    simpa using this
  | seq a b u v da db iha ihb =>
    simp only [symbols, List.mem_append, not_or] at hr ⊢
    exact ⟨iha hr.1, ihb hr.2⟩
  | altL a b w d ih => simp only [symbols, List.mem_append, not_or] at hr; exact ih hr.1
  | altR a b w d ih => simp only [symbols, List.mem_append, not_or] at hr; exact ih hr.2
  | optNone r => simp
  | optSome r w d ih => exact ih hr
  | repNil r => simp
  | repCons r u v d ds ih ihs =>
    simp only [List.mem_append, not_or]
    exact ⟨ih hr, ihs hr⟩

/-- **C52.** The quick fix for a declaration of a valid query removes the declaration and the white space and comments
behind it, nothing else: the other tokens stay what they are. The document is still a valid query, parsed without errors; the
same prefixes are used and exactly this declaration is gone. -/
theorem c52_removed (errLen : Text → Nat) (text : Text) (g errs) (hp : parseSource errLen text = some (g, errs))
    (hq : g.kind = K.QueryUnit) (hd : Derives sparqlRules (.node g.kind) (kinds (lex errLen text))) (hcr : NoLoneCR text)
    (x : Red) (hx : IsDecl g x) (range : Range) (hr : Covers text x range) :
    ∃ pre gap post, text = pre ++ x.text ++ gap ++ post ∧ blen pre = x.start ∧
      removePrefix text g range = some ⟨⟨posOf pre, posOf (pre ++ x.text ++ gap)⟩, []⟩ ∧
      applyTextEdits text [⟨⟨posOf pre, posOf (pre ++ x.text ++ gap)⟩, []⟩] = some (ensureNL (pre ++ post)) ∧
      (∃ A D T B, tokenPairs errLen text = A ++ D ++ T ++ B ∧ flat A = pre ∧ flat D = x.text ∧ flat T = gap ∧ flat B = post ∧
        (∀ t ∈ T, t.1 = K.WHITESPACE ∨ t.1 = K.Comment) ∧ (∀ t, B.head? = some t → t.1 ≠ K.WHITESPACE ∧ t.1 ≠ K.Comment) ∧
        tokenPairs errLen (pre ++ post) = A ++ B) ∧
      Derives sparqlRules (.node K.QueryUnit) (kinds (lex errLen (pre ++ post))) ∧
      ∃ g', parseSource errLen (pre ++ post) = some (g', []) ∧ g'.kind = K.QueryUnit ∧
        (∀ q, (∃ n, Uses g' n q) ↔ ∃ n, Uses g n q) ∧ (∀ q, (∃ y, Declares g' y q) ↔ ∃ y, y ≠ x ∧ Declares g y q) := by
  have P := parsed_of hp
  have hC := complete_of hp hd
  obtain ⟨A, T, B, cut⟩ := cut_of hp hq hd hx
  have hleaves : g.leaves = tokenPairs errLen text := source_leaves hp
  have htext : text = flat A ++ x.text ++ flat T ++ flat B := by
    have h1 : flat g.leaves = text := by rw [← P.text_eq]; rfl
    rw [← h1, hleaves, cut.tokens, flat_append, flat_append, flat_append, flat_leaves]
  obtain ⟨p, B', hBe, hpk, hpt⟩ := cut.next
  obtain ⟨w, u, v, hsig⟩ := cut.declared
  have hLex : Lexes text (A ++ x.green.leaves ++ T ++ B) := by
    have := c47_longest_match errLen text
    rw [show (lex errLen text).map (fun t => (t.kind, t.text)) = tokenPairs errLen text from rfl, cut.tokens] at this
    exact this
  -- the tokens at the ends of the declaration
  have hup : x.up ≠ [] := by
    intro hu
    have := hx.1.root_of_up hu
    have hk := hx.2.2
    rw [this] at hk
    have hk : g.kind = K.PrefixDecl := hk
    rw [hq] at hk; exact absurd hk (by decide)
  obtain ⟨⟨k1, w1, l1, hl1, hk1⟩, ⟨k2, w2, l2, hl2, hk2⟩⟩ := P.tight _ (P.inner_of hx.1 hx.2.1 hup)
  have hfirst : (k1, w1) = (K.PREFIX, w) := by
    rw [hl1, sigPairs_leaves, List.filter_cons] at hsig
    simp only [hk1, Bool.not_false, if_true, List.cons.injEq] at hsig
    exact hsig.1
  have hlast : (k2, w2) = (K.IRIREF, v) := by
    rw [hl2, sigPairs_leaves, List.filter_append, List.filter_cons] at hsig
    simp only [hk2, Bool.not_false, if_true, List.filter_nil] at hsig
    have h5 := congrArg List.getLast? hsig
    simpa using h5
  have hm1 : (K.PREFIX, w) ∈ A ++ x.green.leaves ++ T ++ B := by rw [hl1, hfirst]; simp
  have hm2 : (K.IRIREF, v) ∈ A ++ x.green.leaves ++ T ++ B := by rw [hl2, hlast]; simp
  obtain ⟨c1, y1, e1, hc1⟩ := head_of hLex hm1 (by show K.PREFIX ≠ K.Error; decide) first_letter letter_class (by show K.PREFIX ∈ _; decide)
  have e1 : w = c1 :: y1 := e1
  have hxh : x.text = c1 :: (y1 ++ flat l1) := by
    rw [← flat_leaves x, hl1, hfirst]
    show w ++ flat l1 = _
    rw [e1]; rfl
  have hcrv : '\r' ∉ v := by
    intro hm
    obtain ⟨r, hr1, hr2, hr3⟩ := lexes_rule hLex _ hm2 (by show K.IRIREF ≠ K.Error; decide)
    obtain ⟨a, b, hab⟩ := List.append_of_mem hm
    refine noRuleOf_sound iri_no_cr hr1 (by rw [hr2]; show K.IRIREF ∈ [K.IRIREF]; decide) (w := v) ?_ hr3
    rw [hab]
    exact matches_seq.2 ⟨a, _, rfl, anyText_matches a, matches_cons (by decide) (anyText_matches b)⟩
  have hxl : x.text = flat l2 ++ v := by
    rw [← flat_leaves x, hl2, hlast, flat_append]
    show flat l2 ++ (v ++ []) = _
    rw [List.append_nil]
  have hv : v ≠ [] := (lexes_flat hLex).2 _ hm2
  -- the range of the declaration in bytes
  have hrange : range = ⟨posOf (flat A), posOf (flat A ++ x.text)⟩ := by
    refine covers_unique hr ⟨flat A, flat T ++ flat B, by rw [htext]; simp, cut.start.symm, rfl⟩
  have hbytes : range.toByteIndexRange text = some (x.start, x.stop) := by
    have b1 : byteIndex (posOf (flat A)) text = some (blen (flat A)) := by
      have e : text = flat A ++ (x.text ++ flat T ++ flat B) := by rw [htext]; simp
      rw [e]
      refine c01_boundary_roundtrip _ _ (noCR_lastLine (e ▸ hcr) (Or.inl ?_))
      rw [hxh]
      intro h
      simp only [List.cons_append, List.head?_cons, Option.some.injEq] at h
      rw [h] at hc1; exact absurd hc1 (by decide)
    have b2 : byteIndex (posOf (flat A ++ x.text)) text = some (blen (flat A ++ x.text)) := by
      have e : text = (flat A ++ x.text) ++ (flat T ++ flat B) := by rw [htext]; simp
      rw [e]
      refine c01_boundary_roundtrip _ _ (noCR_lastLine (e ▸ hcr) (Or.inr ?_))
      rintro ⟨q, hq'⟩
      rw [hxl, ← List.append_assoc] at hq'
      rcases List.eq_nil_or_concat v with h | ⟨v', c, h⟩
      · exact hv h
      · rw [List.concat_eq_append] at h
        rw [h, ← List.append_assoc] at hq'
        have := (List.append_inj' hq' rfl).2
        simp only [List.cons.injEq, and_true] at this
        apply hcrv; rw [h, this]; simp
    unfold Range.toByteIndexRange
    rw [hrange]
    dsimp only
    rw [b1, b2, blen_append, ← cut.start]
    rfl
  -- the edit
  obtain ⟨L, R, ht1, ht2, ht3⟩ := cut.place
  obtain ⟨R1, R2, rfl, hR1, hR2⟩ := List.map_eq_append_iff.1 ht3
  rw [hBe] at hR2
  obtain ⟨n, R3, rfl, hn, -⟩ := List.map_eq_cons_iff.1 hR2
  obtain ⟨hnext, hns⟩ := nextSignificant_of P ht1 (by rw [ht2]; exact cut.start)
    (by
      intro t ht
      have : t.kt ∈ T := by rw [← hR1]; exact List.mem_map.2 ⟨t, ht, rfl⟩
      exact cut.gap _ this)
    (by have : n.kind = p.1 := by rw [← hn]; rfl
        rw [this]; exact hpt)
  rw [hR1] at hns
  obtain ⟨s, t, i, hdT, hk1', hk2', -, hs', ht', -⟩ := decl_tokens hC hx
  have hcov : covering g x.start x.stop = x := by
    refine cover_node hx.1 hs' ht' ?_ (elem_nonempty P hC hx.1 hs') (elem_nonempty P hC hx.1 ht')
    rintro rfl
    rw [hk1'] at hk2'; exact absurd hk2' (by decide)
  have hstop : x.stop = blen (flat A ++ x.text) := by rw [blen_append, ← cut.start]; rfl
  have hedit : removePrefix text g range = some ⟨⟨posOf (flat A), posOf (flat A ++ x.text ++ flat T)⟩, []⟩ := by
    unfold removePrefix
    rw [hbytes]
    dsimp only
    rw [if_neg (by rw [hstop, blen_append, ← cut.start]; omega)]
    unfold optimalRange
    dsimp only
    rw [hcov, if_pos hx.2.2, hnext]
    dsimp only
    unfold Range.fromByteOffsetRange
    have f1 : fromByteIndex x.start text = some (posOf (flat A)) := by
      rw [cut.start, htext, List.append_assoc, List.append_assoc]
      exact fromByteIndex_of_prefix _ _
    have f2 : fromByteIndex n.start text = some (posOf (flat A ++ x.text ++ flat T)) := by
      rw [hns, hstop, ← blen_append, htext]
      exact fromByteIndex_of_prefix _ _
    rw [f1, f2]
    rfl
  have happ : applyTextEdits text [⟨⟨posOf (flat A), posOf (flat A ++ x.text ++ flat T)⟩, []⟩] = some (ensureNL (flat A ++ flat B)) := by
    have := apply_one (pre := flat A) (old := x.text ++ flat T) (post := flat B) (new := [])
    rw [show flat A ++ (x.text ++ flat T ++ flat B) = text by rw [htext]; simp,
      show flat A ++ (x.text ++ flat T) = flat A ++ x.text ++ flat T by simp, List.nil_append] at this
    exact this
  -- the new document
  have hnoE : ∀ y ∈ A ++ B, y.1 ≠ K.Error := by
    intro y hy hE
    have hE' : ∀ z ∈ tokenPairs errLen text, z.1 ≠ K.Error := by
      intro z hz hzE
      have hk : K.Error ∈ kinds (lex errLen text) := by
        rw [kinds_sigPairs]
        refine List.mem_map.2 ⟨z, List.mem_filter.2 ⟨hz, ?_⟩, hzE⟩
        rw [hzE]; decide
      exact derives_no_error hd (by simp [symbols]) hk
    refine hE' y ?_ hE
    rw [cut.tokens]
    rcases List.mem_append.1 hy with h | h <;> simp [h]
  have hnew : tokenPairs errLen (flat A ++ flat B) = A ++ B := by
    have := cut.lexes
    rw [flat_append] at this
    exact tokenPairs_of this hnoE
  have hval : Derives sparqlRules (.node K.QueryUnit) (kinds (lex errLen (flat A ++ flat B))) := by
    rw [kinds_sigPairs, hnew]
    exact cut.valid
  obtain ⟨-, g', hp', hk'⟩ := c44_query _ _ (c47_lossless errLen (flat A ++ flat B)) hval
  have hp' : parseSource errLen (flat A ++ flat B) = some (g', []) := hp'
  have P' := parsed_of hp'
  have hC' := complete_of hp' (by rw [hk']; exact hval)
  have hl' : g'.leaves = A ++ B := (source_leaves hp').trans hnew
  have hsT : sigPairs T = [] := by
    rw [sigPairs_leaves, List.filter_eq_nil_iff]
    intro t ht; simp [cut.gap t ht]
  have hsigAll : sigPairs g.leaves = sigPairs A ++ (K.PREFIX, w) :: (K.PNAME_NS, u) :: (K.IRIREF, v) :: sigPairs B := by
    rw [hleaves, cut.tokens, sigPairs_append, sigPairs_append, sigPairs_append, hsT, hsig]; simp
  have hsB : ∃ p' B'', sigPairs B = p' :: B'' ∧ p'.1 ∈ [K.BASE, K.PREFIX, K.VERSION, K.SELECT, K.CONSTRUCT, K.DESCRIBE, K.ASK] := by
    refine ⟨p, sigPairs B', ?_, hpk⟩
    rw [hBe, sigPairs_leaves, List.filter_cons]
    simp [hpt, sigPairs_leaves]
  refine ⟨flat A, flat T, flat B, htext, cut.start.symm, hedit, happ,
    ⟨A, x.green.leaves, T, B, cut.tokens, rfl, flat_leaves x, rfl, rfl, ?_, ?_, hnew⟩, hval, g', hp', hk', ?_, ?_⟩
  · intro t ht
    have := cut.gap t ht
    simpa [triviaKind] using this
  · intro t ht
    rw [hBe] at ht
    cases ht
    simpa [triviaKind] using hpt
  · intro q
    rw [uses_pairs P' hC', uses_pairs P hC, hl', sigPairs_append, hsigAll]
    exact uses_cut cut.last hsB
  · intro q
    rw [declares_pairs P' hC', hl', sigPairs_append, declares_cut cut.last]
    refine (declares_other P hC hx hsigAll ?_).symm
    intro L' s' t' i' R' h5 h6
    have h7 : (Red.root g).sigT = L.filter (fun t => !triviaKind t.kind) ++ x.sigT ++ (R1 ++ n :: R3).filter (fun t => !triviaKind t.kind) := by
      unfold Red.sigT; rw [ht1]; simp
    rw [h6] at h7
    have hnd := sigT_nodup P
    rw [h5] at hnd h7
    rw [List.append_assoc, List.cons_append, List.cons_append, List.cons_append, List.nil_append] at h7
    obtain ⟨h8, h9⟩ := split_nodup hnd h7
    injection h9 with _ h9
    injection h9 with _ h9
    have hf : ∀ l : List Red, (l.filter (fun t => !triviaKind t.kind)).map Red.kt = sigPairs (l.map Red.kt) := by
      intro l
      rw [sigPairs_leaves, List.filter_map]; rfl
    rw [h8, h9, hf, hf, ht2, ht3, sigPairs_append, hsT]
    exact ⟨rfl, rfl⟩

theorem labelled {text g} (P : Parsed text g) (hC : ∀ n ∈ g.nodes, Complete sparqlRules n) {x : Red} (hx : IsDecl g x) : ∃ p, Declares g x p := by
  obtain ⟨A, s, t, i, B, h1, h2, h3, h4, h5, h6, h7, h8⟩ := decl_place P hC hx
  have ht : t ∈ (Red.root g).sigT := by rw [h2]; simp
  obtain ⟨a1, a2, -⟩ := mem_sigT.1 ht
  obtain ⟨p, rest, e1, e2, e3⟩ := pname_text P (Parsed.token_leaf a1 a2) (Or.inl h4)
  rw [e3 h4] at e1
  exact ⟨p, (declares_place P hC).2 ⟨A, s, t, i :: B, h2, h3, h6, e1, e2⟩⟩

/-- **C52.** Accepting the fix for a reported unused declaration changes neither which prefixes are used nor whether a used
prefix is declared: no name becomes undeclared. -/
theorem c52_unused (errLen : Text → Nat) (text : Text) (g errs) (hp : parseSource errLen text = some (g, errs))
    (hq : g.kind = K.QueryUnit) (hd : Derives sparqlRules (.node g.kind) (kinds (lex errLen text))) (hcr : NoLoneCR text)
    (ds : List Diag) (hds : added (unusedPrefix text g) = some ds) (d : Diag) (hmem : d ∈ ds) :
    ∃ edit newText g', removePrefix text g d.range = some edit ∧ applyTextEdits text [edit] = some (ensureNL newText) ∧
      parseSource errLen newText = some (g', []) ∧ (∀ q, (∃ n, Uses g' n q) ↔ ∃ n, Uses g n q) ∧
      ∀ q, (∃ n, Uses g n q) → ((∃ y, Declares g' y q) ↔ ∃ y, Declares g y q) := by
  have P := parsed_of hp
  have hC := complete_of hp hd
  obtain ⟨ds', h1, h2, -⟩ := c37_exact errLen text g errs hp hq
  rw [hds] at h1; cases h1
  obtain ⟨x, hcov, -, -, h3⟩ := (h2 d).1 hmem
  obtain ⟨p, hdecl, hun⟩ : ∃ p, Declares g x p ∧ ∀ n, ¬ Uses g n p := by
    rcases h3 with ⟨p, a, b, -⟩ | ⟨a, -⟩
    · exact ⟨p, a, b⟩
    · obtain ⟨p, hp'⟩ := labelled P hC a.1
      exact absurd hp' (a.2 p)
  obtain ⟨pre, gap, post, -, -, h4, h5, -, -, g', h6, -, h7, h8⟩ := c52_removed errLen text g errs hp hq hd hcr x hdecl.1 _ hcov
  refine ⟨_, pre ++ post, g', h4, h5, h6, h7, ?_⟩
  rintro q ⟨n, hn⟩
  rw [h8]
  constructor
  · rintro ⟨y, -, h⟩; exact ⟨y, h⟩
  · rintro ⟨y, h⟩
    refine ⟨y, ?_, h⟩
    rintro rfl
    have := declares_unique P h hdecl
    subst this
    exact hun n hn

/-- **C52.** Accepting the fix for a reported duplicate declaration changes neither which prefixes are used nor which are
declared. -/
theorem c52_duplicate (errLen : Text → Nat) (text : Text) (g errs) (hp : parseSource errLen text = some (g, errs))
    (hq : g.kind = K.QueryUnit) (hd : Derives sparqlRules (.node g.kind) (kinds (lex errLen text))) (hcr : NoLoneCR text)
    (ds : List Diag) (hds : added (duplicatePrefix text g) = some ds) (d : Diag) (hmem : d ∈ ds) :
    ∃ edit newText g', removePrefix text g d.range = some edit ∧ applyTextEdits text [edit] = some (ensureNL newText) ∧
      parseSource errLen newText = some (g', []) ∧ (∀ q, (∃ n, Uses g' n q) ↔ ∃ n, Uses g n q) ∧
      ∀ q, (∃ y, Declares g' y q) ↔ ∃ y, Declares g y q := by
  have P := parsed_of hp
  have hC := complete_of hp hd
  obtain ⟨ds', h1, h2, -⟩ := c38_exact errLen text g errs hp hq (fun x hx => by
    obtain ⟨p, hp'⟩ := labelled P hC hx.1
    exact hx.2 p hp')
  rw [hds] at h1; cases h1
  obtain ⟨x, y, p, hx, hy, hord, hcov, -⟩ := (h2 d).1 hmem
  obtain ⟨pre, gap, post, -, -, h4, h5, -, -, g', h6, -, h7, h8⟩ := c52_removed errLen text g errs hp hq hd hcr x hx.1 _ hcov
  refine ⟨_, pre ++ post, g', h4, h5, h6, h7, ?_⟩
  intro q
  rw [h8]
  constructor
  · rintro ⟨y, -, h⟩; exact ⟨y, h⟩
  · rintro ⟨z, h⟩
    by_cases hzx : z = x
    · subst hzx
      have := declares_unique P h hx
      subst this
      refine ⟨y, ?_, hy⟩
      rintro rfl
      have := decl_nonempty P hq hy.1
      omega
    · exact ⟨z, hzx, h⟩

end Verif.Props
