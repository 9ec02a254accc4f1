import Verif.Features.SelectHead
/-!
# Changing a select clause
-/
namespace Verif.Props
open Verif Verif.Grammar Verif.Lexer Verif.Features Verif.Format

/-! ## Text in front of a gap -/

/-- The kinds of tokens text is put behind. -/
def frontKinds : List Kind := [K.SELECT, K.DISTINCT, K.REDUCED, K.VAR1, K.VAR2, K.WHITESPACE]

theorem front_mid : lexRules.all (fun r => !frontKinds.contains r.kind || within midClass r.re) = true := by decide +kernel

theorem opener_ends : frontKinds.all (fun k => openers.all (fun c => (safeOf k).has c || (k == K.WHITESPACE && !wsClass.has c))) = true := by decide +kernel

theorem ends_opener {k : Kind} (hk : k ∈ frontKinds) {c : Char} (hc : c ∈ openers) : EndsBefore k c := by
  have := List.all_eq_true.1 (List.all_eq_true.1 opener_ends k hk) c hc
  simp only [Bool.or_eq_true, Bool.and_eq_true, beq_iff_eq, Bool.not_eq_true'] at this
  exact this

theorem brace_text {p : Kind × Text} (h : HasRule p) (hk : p.1 = K.LCurly) : '{' ∈ p.2 := by
  have hm : Matches rule_LCurly.re p.2 := lexed_rule h hk (by decide +kernel)
  obtain ⟨c, e, hc⟩ := matches_cls.1 hm
  have : 0x7B ≤ c.toNat ∧ c.toNat ≤ 0x7B := by simpa [Class.has] using hc
  have : c = '{' := Char.ext (UInt32.toNat_inj.1 (show c.toNat = 0x7B by omega))
  rw [e, this]; simp

theorem flat_snoc (A : List (Kind × Text)) (q : Kind × Text) : flat (A ++ [q]) = flat A ++ q.2 := by rw [flat_append]; simp [flat]

/-- Nothing reads across the end of the front, if nothing but strings, comments and IRIs reads across its last character. -/
theorem front_cross {A : List Red} (hf : Front A) (hr : ∀ t ∈ A, HasRule t.kt) {c0 : Char}
    (hmid : ∀ r ∈ lexRules, r.kind ∉ roughKinds → ∀ V U x z, flat (A.map Red.kt) = V ++ [x] → Matches r.re (U ++ x :: c0 :: z) →
      Matches r.re (U ++ [x]) ∧ r.boundary = false) :
    Barrier c0 (A.map Red.kt) := by
  intro A1 p A2 e hne X hp r hrr z hm
  have hrule : ∀ t ∈ A.map Red.kt, HasRule t := by
    intro t ht
    obtain ⟨x, hx, rfl⟩ := List.mem_map.1 ht
    exact hr x hx
  have hneT : ∀ t ∈ A.map Red.kt, t.2 ≠ [] := by
    intro t ht h0
    obtain ⟨c, v, e, -⟩ := touch_cons (hrule t ht)
    rw [e] at h0; cases h0
  have hneA2 : ∀ t ∈ A2, t.2 ≠ [] := fun t ht => hneT t (by rw [e]; simp [ht])
  obtain ⟨U, x, hU⟩ : ∃ U x, flat A2 = U ++ [x] := by
    rcases List.eq_nil_or_concat (flat A2) with h0 | ⟨U, x, h0⟩
    · exfalso
      cases A2 with
      | nil => exact hne rfl
      | cons t A2 => rw [flat_cons] at h0; exact hneA2 t (by simp) (List.append_eq_nil_iff.1 h0).1
    · exact ⟨U, x, by rw [h0, List.concat_eq_append]⟩
  have hrough : r.kind ∈ roughKinds := by
    apply Classical.byContradiction
    intro hb
    obtain ⟨hm1, hm2⟩ := hmid r hrr hb (flat A1 ++ p.2 ++ U) (p.2 ++ U) x z (by rw [e, flat_append, flat_cons, hU]; simp)
      (by rw [hU] at hm; simpa using hm)
    have := hp.longest r hrr (p.2 ++ U ++ [x]) ⟨X, by rw [hU]; simp, hm1, fun hb => by rw [hm2] at hb; cases hb⟩
    simp only [List.length_append, List.length_cons, List.length_nil] at this
    omega
  refine cross_rough hp hne hneA2 ?_ hrr hrough hm
  intro z'
  rw [List.append_assoc]
  refine iri_across (hrule p (by rw [e]; simp)) (by simp) ?_
  obtain ⟨L1, L2, eA, h1, h2⟩ := hf.split
  rw [eA, List.map_append] at e
  rcases List.append_eq_append_iff.1 e with ⟨y, e1, e2⟩ | ⟨y, e1, e2⟩
  · left
    have : p ∈ L2.map Red.kt := by rw [e2]; simp
    obtain ⟨t, ht, rfl⟩ := List.mem_map.1 this
    exact h1 t ht
  · cases y with
    | nil =>
      left
      have : p ∈ L2.map Red.kt := by
        have e2 : p :: A2 = L2.map Red.kt := e2
        rw [← e2]; simp
      obtain ⟨t, ht, rfl⟩ := List.mem_map.1 this
      exact h1 t ht
    | cons b y =>
      injection e2 with e2 e3
      subst e2
      rcases h2 with h2 | ⟨L, q1, h2, hk1⟩
      · rw [h2] at e1; cases A1 <;> cases e1
      · rw [h2, List.map_append] at e1
        have hq1 : q1.kt ∈ p :: y ∧ ∀ (y0 : List (Kind × Text)) , y = y0 → (y0 = [] → p = q1.kt) ∧ (y0 ≠ [] → q1.kt ∈ y0) := by
          have key : ∀ (y0 : List (Kind × Text)), y = y0 → (y0 = [] → p = q1.kt) ∧ (y0 ≠ [] → q1.kt ∈ y0) := by
            rintro y0 rfl
            constructor
            · rintro rfl
              have e1 : L.map Red.kt ++ [q1.kt] = A1 ++ [p] := e1
              have := (List.append_inj' e1 rfl).2
              simpa using this.symm
            · intro hy
              rcases List.eq_nil_or_concat y with h0 | ⟨y1, b, h0⟩
              · exact absurd h0 hy
              · rw [List.concat_eq_append] at h0
                rw [h0] at e1 ⊢
                have e1 : L.map Red.kt ++ [q1.kt] = (A1 ++ p :: y1) ++ [b] := by simpa using e1
                have := (List.append_inj' e1 rfl).2
                have : q1.kt = b := by simpa using this
                rw [this]; simp
          refine ⟨?_, key⟩
          by_cases hy : y = []
          · rw [(key y rfl).1 hy]; simp
          · exact List.mem_cons_of_mem _ ((key y rfl).2 hy)
        by_cases hy : y = []
        · left
          rw [(hq1.2 y rfl).1 hy, show q1.kt.1 = q1.kind from rfl, hk1]
          decide
        · right
          have hin := (hq1.2 y rfl).2 hy
          have hb := brace_text (p := q1.kt) (hr q1 (by rw [eA, h2]; simp)) hk1
          refine List.mem_append_left _ ?_
          have e3 : A2 = y ++ L2.map Red.kt := e3
          rw [e3, flat_append]
          refine List.mem_append_left _ ?_
          obtain ⟨y1, y2, e4⟩ := List.append_of_mem hin
          rw [e4, flat_append, flat_cons]
          simp [hb]

/-- Nothing reads across the end of the front. -/
theorem front_barrier {A : List Red} (hf : Front A) (hr : ∀ t ∈ A, HasRule t.kt) {A0 : List Red} {q : Red} (hA : A = A0 ++ [q]) (hq : q.kind ∈ frontKinds)
    {c0 : Char} (hc0 : c0 ∈ openers) : Barrier c0 (A.map Red.kt) := by
  refine front_cross hf hr ?_
  intro r hrr hb V U x z hV hm
  exfalso
  have hx : midClass.has x = true := by
    obtain ⟨rq, h1, h2, h3⟩ := hr q (by rw [hA]; simp)
    have := List.all_eq_true.1 front_mid rq h1
    rw [h2, show q.kt.1 = q.kind from rfl, List.contains_iff_mem.2 hq, Bool.not_true, Bool.false_or] at this
    refine within_has h3 this x ?_
    rw [hA, List.map_append, List.map_cons, List.map_nil, flat_snoc] at hV
    rcases List.eq_nil_or_concat q.kt.2 with h0 | ⟨T, y, h0⟩
    · obtain ⟨c, v, e⟩ := rule_cons h1 h3
      rw [e] at h0; cases h0
    · rw [List.concat_eq_append] at h0
      rw [h0, ← List.append_assoc] at hV
      have : y = x := by simpa using (List.append_inj' hV rfl).2
      rw [h0, this]; simp
  have h := List.all_eq_true.1 hop_states r hrr
  have hb : roughKinds.contains r.kind = false := by
    cases h : roughKinds.contains r.kind with
    | false => rfl
    | true => exact absurd (List.contains_iff_mem.1 h) hb
  rw [hb, Bool.false_or] at h
  have h := List.all_eq_true.1 h c0 hc0
  have h := everyState_sound h (by
    rw [List.all_eq_true]
    intro n _
    exact isNone_iff.2 rfl) U
  rw [← derivs_iff, ← deriv_iff, ← deriv_iff] at hm
  obtain ⟨n, hn, e⟩ := repsIn_spec (q := r.re.derivs U) hx
  have := List.all_eq_true.1 h n hn
  rw [isNone_iff, e, ← deriv_eq] at this
  rw [this] at hm
  exact matches_none hm

section
variable {text : Text} {g : Green} (P : Parsed text g) (hC : ∀ n ∈ g.nodes, Complete sparqlRules n)
include P hC

/-- A select clause in its document. -/
structure ClausePlace (g : Green) (c : Red) (L R : List Red) : Prop where
  eq : (Red.root g).tokens = L ++ c.tokens ++ R
  front : Front L
  fill : ∀ w, Derives sparqlRules (.node K.SelectClause) w → Derives sparqlRules (.node g.kind) (sigKs L ++ w ++ sigKs R)
  ahead : ∃ k rest, sigKs R = k :: rest ∧ k ∈ [K.FROM, K.WHERE, K.LCurly]

theorem clause_place {s c : Red} (hs : IsSelect g s) (hc : Part s K.SelectClause c) : ∃ L R, ClausePlace g c L R := by
  obtain ⟨L, R, e, hf, hx⟩ := front_select P hC hs
  obtain ⟨hsT, hsn, hsk⟩ := hs
  obtain ⟨hcm, hcn, hck⟩ := hc
  obtain ⟨a, b, hab⟩ := List.append_of_mem hcm
  have hcT := hsT.child hcm
  have hsig : sigC s = a.filter Red.sig ++ c :: b.filter Red.sig := by
    unfold sigC; rw [hab, List.filter_append, List.filter_cons_of_pos (node_sig P hcT hcn)]
  have hcsym : symOf c = .node K.SelectClause := by rw [symOf_node hcn, hck]
  obtain ⟨Rl, hR, hn1, hn2⟩ : ∃ Rl, sparqlRules s.kind = some Rl ∧ nexts nullNodes (fun x y => y != .node K.SelectClause && (x != .node K.SelectClause ||
      (y == .node K.DatasetClause || y == .node K.WhereClause))) Rl = true ∧ (tailSyms nullNodes Rl).contains (.node K.SelectClause) = false := by
    rcases hsk with h | h
    · exact ⟨_, h ▸ selectQueryRule, by decide +kernel, by decide +kernel⟩
    · exact ⟨_, h ▸ subSelectRule, by decide +kernel, by decide +kernel⟩
  have ha : a.filter Red.sig = [] := by
    rcases List.eq_nil_or_concat (a.filter Red.sig) with h | ⟨X, y, h⟩
    · exact h
    · exfalso
      rw [List.concat_eq_append] at h
      have := sigC_next P hC hsT hsn hR hn1 (L := X) (a := y) (b := c) (T := b.filter Red.sig) (by rw [hsig, h]; simp)
      rw [hcsym] at this
      simp at this
  obtain ⟨y, T, hb⟩ : ∃ y T, b.filter Red.sig = y :: T := by
    cases h : b.filter Red.sig with
    | cons y T => exact ⟨y, T, rfl⟩
    | nil =>
      exfalso
      have := sigC_tail P hC hsT hsn hR (L := a.filter Red.sig) (a := c) (by rw [hsig, h])
      rw [hcsym] at this
      rw [List.contains_iff_mem.2 this] at hn2; cases hn2
  have hy : symOf y = .node K.DatasetClause ∨ symOf y = .node K.WhereClause := by
    have := sigC_next P hC hsT hsn hR hn1 (L := a.filter Red.sig) (a := c) (b := y) (T := T) (by rw [hsig, hb])
    rw [hcsym] at this
    simp only [Bool.and_eq_true, Bool.or_eq_true, beq_iff_eq, bne_self_eq_false, Bool.false_eq_true, false_or] at this
    exact this.2
  have ham : ∀ x ∈ a, x ∈ s.childrenT := fun x hx => by rw [hab]; simp [hx]
  have hbm : ∀ x ∈ b, x ∈ s.childrenT := fun x hx => by rw [hab]; simp [hx]
  have hst : s.tokens = a.flatMap Red.tokens ++ c.tokens ++ b.flatMap Red.tokens := by rw [tokens_eq s, if_pos hsn, hab]; simp
  refine ⟨L ++ a.flatMap Red.tokens, b.flatMap Red.tokens ++ R, ?_, ?_, ?_, ?_⟩
  · rw [e, hst]; simp
  · refine hf.add ?_
    intro t ht
    rcases token_word P hsT ham ht with h | ⟨x, hx, -⟩
    · exact trivia_less h
    · rw [ha] at hx; cases hx
  · intro w hw
    have h2 := hx _ (exchange_child P hC hsT hab hcn (w := w) (by rw [hck]; exact hw))
    rw [sigKs_append, sigKs_append]
    simpa using h2
  · rw [sigKs_append, flat_words P hsT hbm, hb, List.map_cons, List.flatten_cons]
    have hym := List.mem_filter.1 (show y ∈ b.filter Red.sig by rw [hb]; simp)
    have hd := word_derives P hC y (hsT.child (hbm y hym.1)) hym.2
    have hmask : ∀ k, (k = K.DatasetClause ∨ k = K.WhereClause) → Derives sparqlRules (.node k) (word y) →
        ∃ k' rest, word y = k' :: rest ∧ k' ∈ [K.FROM, K.WHERE, K.LCurly] := by
      intro k hk hd
      cases hw : word y with
      | nil =>
        exfalso
        rw [hw] at hd
        rcases hk with rfl | rfl
        · exact not_null (by decide +kernel) hd
        · exact not_null (by decide +kernel) hd
      | cons k' rest =>
        refine ⟨k', rest, rfl, ?_⟩
        obtain ⟨s', h1, h2⟩ := first_derives hd hw
        have h1 : s' = .node k := by simpa [headSyms] using h1
        rw [h1] at h2
        refine maskOf_mem (sub_mask ?_ h2)
        rcases hk with rfl | rfl <;> decide +kernel
    obtain ⟨k', rest, h1, h2⟩ : ∃ k' rest, word y = k' :: rest ∧ k' ∈ [K.FROM, K.WHERE, K.LCurly] := by
      rcases hy with h | h <;> rw [h] at hd
      · exact hmask _ (.inl rfl) hd
      · exact hmask _ (.inr rfl) hd
    exact ⟨k', rest ++ ((T.map word).flatten ++ sigKs R), by rw [h1]; simp, h2⟩

omit P hC in
/-- The items without assignment are variables. -/
theorem whole_vars {r : Rule} {l : List Sym} (h : Whole sparqlRules r l) : r = .rep ruleItem → Sym.tok K.LParen ∉ l → ∀ s ∈ l, s = .node K.Var := by
  induction h with
  | tok => intro e; cases e
  | node => intro e; cases e
  | empty => intro e; cases e
  | seq => intro e; cases e
  | altL => intro e; cases e
  | altR => intro e; cases e
  | optNone => intro e; cases e
  | optSome => intro e; cases e
  | repNil => intro _ _ s hs; cases hs
  | @repCons r' x y d ds _ ih =>
    intro e
    cases e
    intro hno s hs
    rcases List.mem_append.1 hs with hs | hs
    · rcases whole_item d with h | h
      · rw [h] at hs; exact List.mem_singleton.1 hs
      · exact absurd (by rw [h]; simp) hno
    · exact ih rfl (fun h => hno (List.mem_append_right _ h)) s hs

end

section
variable {errLen : Text → Nat} {text : Text} {g : Green} {errs : List SyntaxErr} (hp : parseSource errLen text = some (g, errs))
  (hd : Derives sparqlRules (.node g.kind) (kinds (lex errLen text)))
include hp hd

theorem all_rules : ∀ t ∈ (Red.root g).tokens, HasRule t.kt := by
  intro t ht
  have P := parsed_of hp
  have hE := valid_noError hd
  have h1 : t.kt ∈ tokenPairs errLen text := by rw [← tokens_pairs hp]; exact List.mem_map.2 ⟨t, ht, rfl⟩
  refine P.lexed _ ?_ (hE _ h1)
  rw [show g.leaves = tokenPairs errLen text from source_leaves hp]; exact h1

theorem text_split {A D B : List Red} (e : (Red.root g).tokens = A ++ D ++ B) :
    text = flat (A.map Red.kt) ++ flat (D.map Red.kt) ++ flat (B.map Red.kt) := by
  have hL : Lexes text (tokenPairs errLen text) := c47_longest_match errLen text
  rw [← (lexes_flat hL).1, ← tokens_pairs hp, e]; simp [flat]

/-- **Tokens in place of others**, for text that begins with `?`, `$` or `(`. -/
theorem put_opener {A D B : List Red} (e : (Red.root g).tokens = A ++ D ++ B) (hf : Front A)
    {A0 : List Red} {q : Red} (hA : A = A0 ++ [q]) (hq : q.kind ∈ frontKinds)
    (hD : ∀ c ∈ flat (D.map Red.kt), plainClass.has c = true) (hDk : ∀ t ∈ D, t.kind ∉ queryKeywords ++ updateKeywords)
    {I : List (Kind × Text)} {c0 : Char} {i : Text} (hc0 : c0 ∈ openers) (hI : flat I = c0 :: i) (hr : ∀ p ∈ I, HasRule p) (hIE : ∀ p ∈ I, p.1 ≠ K.Error)
    (hc : okChain (I.map (·.1)) = true) (hlast : ∀ p I0, I = I0 ++ [p] → ∀ y B', B = y :: B' → touch p.1 y.kind = true)
    (hcalm : Calm (c0 :: i)) (hw : Derives sparqlRules (.node g.kind) (sigKs A ++ sigK I ++ sigKs B)) :
    text = flat (A.map Red.kt) ++ flat (D.map Red.kt) ++ flat (B.map Red.kt) ∧
    tokenPairs errLen (flat (A.map Red.kt) ++ flat I ++ flat (B.map Red.kt)) = A.map Red.kt ++ I ++ B.map Red.kt ∧
    Derives sparqlRules (.node g.kind) (kinds (lex errLen (flat (A.map Red.kt) ++ flat I ++ flat (B.map Red.kt)))) ∧
    ∃ g', parseSource errLen (flat (A.map Red.kt) ++ flat I ++ flat (B.map Red.kt)) = some (g', []) ∧ g'.kind = g.kind := by
  have hrules := all_rules hp hd
  rw [e] at hrules
  have hE := valid_noError hd
  have hL : Lexes text (tokenPairs errLen text) := c47_longest_match errLen text
  have hpairs := tokens_pairs hp
  rw [e, List.map_append, List.map_append] at hpairs
  have htext := text_split hp hd e
  rw [← hpairs] at hE hL
  have hLB : Lexes (flat (B.map Red.kt)) (B.map Red.kt) := lexes_suffix hL
  have hne := (lexes_flat hL).2
  have hLI : Lexes (c0 :: i ++ flat (B.map Red.kt)) (I ++ B.map Red.kt) := by
    rw [← hI]
    refine lexes_chain hr hc ?_ hLB
    intro p I0 eI c y ec
    cases B with
    | nil => cases ec
    | cons b B' =>
      obtain ⟨c', v, e1, e2⟩ := touch_cons (hrules b (by simp))
      have : flat ((b :: B').map Red.kt) = c' :: (v ++ flat (B'.map Red.kt)) := by rw [List.map_cons, flat_cons, e1]; rfl
      rw [this] at ec
      injection ec with ec _
      rw [← ec]
      exact e2 _ (hlast p I0 eI b B' rfl)
  have hnew : Lexes (flat (A.map Red.kt) ++ (c0 :: i ++ flat (B.map Red.kt))) (A.map Red.kt ++ (I ++ B.map Red.kt)) := by
    refine lexes_splice (B := D.map Red.kt ++ B.map Red.kt) (d := flat (D.map Red.kt)) (List.all_eq_true.1 openers_plain c0 hc0) ?_ ?_ ?_ ?_ ?_
      (front_barrier hf (fun t ht => hrules t (by simp [ht])) hA hq hc0) hD hcalm hLI
    · rw [htext] at hL; simpa using hL
    · intro p hp'; exact hE p (by simp only [List.mem_append]; exact .inl (.inl hp'))
    · intro p hp'; exact hne p (by simp only [List.mem_append]; exact .inl (.inl hp'))
    · rw [hA]; simp
    · intro A1 q1 e1
      rw [hA, List.map_append] at e1
      have : q.kt = q1 := by
        have := (List.append_inj' e1 rfl).2
        simpa using this
      rw [← this]
      refine longest_before (hrules q (by rw [hA]; simp)) ?_
      intro c y ec
      injection ec with ec _
      rw [← ec]
      exact ends_opener hq hc0
  rw [← hI, ← List.append_assoc, ← List.append_assoc] at hnew
  exact ⟨htext, put_lexed hp hd e hDk hIE hnew hw⟩

end
end Verif.Props
