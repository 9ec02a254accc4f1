import Verif.Features.Semicolon
import Verif.Props.ObjectSuffix
import Verif.Props.SameSubject
import Verif.Features.DemoSemicolon
/-!
# C71: a further predicate of the subject in front
-/
namespace Verif.Props
open Verif Verif.Grammar Verif.Lexer Verif.Features Verif.Format

/-! ## Specification -/

/-- `t` is a triple with the subject `s`, which is the element `c`. -/
def HasSubject (t c : Red) (s : Text) : Prop :=
  t.isNode = true ∧ t.kind = K.TriplesSameSubjectPath ∧ c ∈ t.childrenT ∧ c.isNode = true ∧ c.kind = K.VarOrTerm ∧ c.text = s

/-- The triple `t` ends with the dot `d`, and the next triple is `t'`. -/
def NextTriple (g : Green) (t d t' : Red) : Prop :=
  ∃ b b', InTree g b ∧ b.isNode = true ∧ b.kind = K.TriplesBlock ∧ t ∈ b.childrenT ∧ d ∈ b.childrenT ∧ d.isNode = false ∧ d.kind = K.Dot ∧
    b' ∈ b.childrenT ∧ b'.isNode = true ∧ b'.kind = K.TriplesBlock ∧ t' ∈ b'.childrenT

/-- `t` is a triple of the block `b` (blocks are nested). -/
def TripleIn (g : Green) (b t : Red) : Prop :=
  InTree g t ∧ t.isNode = true ∧ t.kind = K.TriplesSameSubjectPath ∧ ∃ bs, Red.chain t.up = bs ++ b :: Red.chain b.up ∧ ∀ x ∈ bs, x.kind = K.TriplesBlock

/-- The anchor is a token of a block of triples that ends with the dot `d`, `t` is the first triple of it and `c` its first part. -/
def Offered (g : Green) (anchor : Option Red) (t c d : Red) : Prop :=
  ∃ a b, anchor = some a ∧ a.parent = some b ∧ b.kind = K.TriplesBlock ∧ TripleIn g b t ∧ (∀ t', TripleIn g b t' → t' = t ∨ t.stop ≤ t'.start) ∧
    (∃ x y, t.childrenT = x ++ c :: y ∧ c.isNode = true ∧ ∀ z ∈ x, z.isNode = false) ∧ (c.kind = K.VarOrTerm ∨ c.kind = K.TriplesNodePath) ∧
    (∃ x, b.tokens = x ++ [d]) ∧ d.kind = K.Dot

/-! ## Proof -/

theorem whole_subject {l : List Sym} (h : Whole sparqlRules rule_TriplesSameSubjectPath l) (hm : Sym.node K.VarOrTerm ∈ l) :
    l = [.node K.VarOrTerm, .node K.PropertyListPathNotEmpty] := by
  cases h with
  | altL h =>
    cases h with
    | seq h1 h2 => rw [whole_node (by decide +kernel) h1, whole_node (by decide +kernel) h2]; rfl
  | altR h =>
    exfalso
    cases h with
    | altL h =>
      cases h with
      | seq h1 h2 =>
        rw [whole_node (by decide +kernel) h1] at hm
        cases h2 with
        | node => revert hm; decide
        | empty => revert hm; decide
    | altR h => rw [whole_node (by decide +kernel) h] at hm; revert hm; decide

theorem r_subject : sparqlRules K.TriplesSameSubjectPath = some rule_TriplesSameSubjectPath := by decide +kernel
theorem r_properties : sparqlRules K.PropertyListPathNotEmpty = some rule_PropertyListPathNotEmpty := by decide +kernel

theorem rep_append {R : Kind → Option Rule} {r : Rule} {u v : List Kind} (hu : Derives R (.rep r) u) (hv : Derives R (.rep r) v) :
    Derives R (.rep r) (u ++ v) := by
  generalize e : Rule.rep r = q at hu
  induction hu with
  | repNil => injection e with e; subst e; exact hv
  | repCons r' u1 u2 h1 h2 _ ih2 =>
    injection e with e
    subst e
    rw [List.append_assoc]
    exact .repCons _ _ _ h1 (ih2 rfl)
  | _ => cases e

/-- Two lists of predicates are one with a semicolon between them. -/
theorem properties_append {u v : List Kind} (hu : Derives sparqlRules (.node K.PropertyListPathNotEmpty) u)
    (hv : Derives sparqlRules (.node K.PropertyListPathNotEmpty) v) :
    Derives sparqlRules (.node K.PropertyListPathNotEmpty) (u ++ K.Semicolon :: v) := by
  cases hu with
  | node _ r _ h1 d1 =>
    cases hv with
    | node _ r' _ h2 d2 =>
      rw [r_properties] at h1 h2
      cases h1; cases h2
      refine .node _ _ _ r_properties ?_
      unfold rule_PropertyListPathNotEmpty at d1 d2 ⊢
      cases d1 with
      | seq _ _ u1 u2 a1 a2 =>
        cases a2 with
        | seq _ _ u3 u4 a3 a4 =>
          cases d2 with
          | seq _ _ v1 v2 b1 b2 =>
            cases b2 with
            | seq _ _ v3 v4 b3 b4 =>
              have h : Derives sparqlRules (.rep (.seq (.tok K.Semicolon) (.opt (.seq (.alt (.node K.VerbPath) (.node K.VerbSimple)) (.node K.ObjectListPath)))))
                  (([K.Semicolon] ++ (v1 ++ v3)) ++ v4) :=
                .repCons _ _ _ (.seq _ _ _ _ (.tok _) (.optSome _ _ (.seq _ _ _ _ b1 b3))) b4
              have h' := rep_append a4 h
              have := Derives.seq (R := sparqlRules) _ _ u1 _ a1 (.seq _ _ u3 _ a3 h')
              simpa using this

theorem filter_cons_split {α : Type} {p : α → Bool} {l : List α} {x : α} {r : List α} (h : l.filter p = x :: r) :
    ∃ a b, l = a ++ x :: b ∧ a.filter p = [] ∧ b.filter p = r := by
  obtain ⟨a, b, h1, h2, -, h3⟩ := List.filter_eq_cons_iff.1 h
  exact ⟨a, b, h1, List.filter_eq_nil_iff.2 h2, h3⟩

section
variable {text : Text} {g : Green} (P : Parsed text g) (hC : ∀ n ∈ g.nodes, Grammar.Complete sparqlRules n)
include P hC

/-- The parts of a triple with a subject. -/
theorem subject_parts {t c : Red} {s : Text} (htT : InTree g t) (h : HasSubject t c s) : ∃ a pl r, t.childrenT = a ++ c :: r ∧
    a.filter Red.sig = [] ∧ r.filter Red.sig = [pl] ∧ Derives sparqlRules (.node K.VarOrTerm) (word c) ∧
    Derives sparqlRules (.node K.PropertyListPathNotEmpty) (word pl) ∧ word t = word c ++ word pl ∧ sigKs (r.flatMap Red.tokens) = word pl := by
  obtain ⟨hn, hk, hc, hcn, hck, -⟩ := h
  have hw := sigC_whole P hC htT hn (by rw [hk]; exact r_subject)
  have hcT := htT.child hc
  have hcs := node_sig P hcT hcn
  have hcm : c ∈ sigC t := List.mem_filter.2 ⟨hc, hcs⟩
  have hl := whole_subject hw (List.mem_map.2 ⟨c, hcm, by rw [symOf_node hcn, hck]⟩)
  obtain ⟨x, l1, e1, hx, hl1⟩ := List.map_eq_cons_iff.1 hl
  obtain ⟨pl, l2, e2, hp, hl2⟩ := List.map_eq_cons_iff.1 hl1
  have hl2 : l2 = [] := by simpa using hl2
  subst hl2; subst e2
  have hplm : pl ∈ sigC t := by rw [e1]; simp
  obtain ⟨hplc, hpls⟩ := List.mem_filter.1 hplm
  have hxc : c = x := by
    rw [e1] at hcm
    rcases List.mem_cons.1 hcm with h | h
    · exact h
    · have := List.mem_singleton.1 h
      rw [this] at hcn hck
      rw [symOf_node hcn, hck] at hp
      injection hp with hp
      exact absurd hp (by decide)
  subst hxc
  obtain ⟨a, r, e3, ha, hr⟩ := filter_cons_split e1
  have hwp := word_derives P hC pl (htT.child hplc) hpls
  rw [hp] at hwp
  have hwc := word_derives P hC c hcT hcs
  rw [hx] at hwc
  refine ⟨a, pl, r, e3, ha, hr, hwc, hwp, ?_, ?_⟩
  · rw [word_children P htT hn, e1]; simp
  · rw [flat_words P htT (fun x hx => by rw [e3]; simp [hx]), hr]; simp

/-- The dot and the subject behind it give way to a semicolon. -/
theorem merge_triples {t d t' c c' : Red} {s s' : Text} (hnext : NextTriple g t d t') (hs : HasSubject t c s) (hs' : HasSubject t' c' s') :
    InTree g t ∧ t.up ≠ [] ∧ InTree g c' ∧ ∃ L W0 W1 B : List Red, (Red.root g).tokens = (L ++ t.tokens) ++ W0 ++ d :: W1 ++ c'.tokens ++ B ∧
      sigKs W0 = [] ∧ sigKs W1 = [] ∧ Derives sparqlRules (.node g.kind) (sigKs (L ++ t.tokens) ++ K.Semicolon :: sigKs B) := by
  obtain ⟨b, b', hb, hbn, hbk, htb, hdb, hdn, hdk, hb'b, hb'n, hb'k, ht'b'⟩ := hnext
  have htT := hb.child htb
  have hb'T := hb.child hb'b
  have ht'T := hb'T.child ht'b'
  have hts := node_sig P htT hs.1
  have ht's := node_sig P ht'T hs'.1
  have hb's := node_sig P hb'T hb'n
  -- the outer block
  obtain ⟨a, R1, e1, ha, hR1⟩ := filter_cons_split (p := Red.sig) (l := b.childrenT) (x := t) (r := (b.childrenT.filter Red.sig).tail) (by
    have hw := whole_block (sigC_whole P hC hb hbn (by rw [hbk]; exact r_block))
    obtain ⟨u, v, huv⟩ := List.append_of_mem (show t ∈ sigC b from List.mem_filter.2 ⟨htb, hts⟩)
    rw [huv, List.map_append, List.map_cons, symOf_node hs.1, hs.2.1] at hw
    have hu : u = [] := by simpa using (block_shape hw).1
    have huv : b.childrenT.filter Red.sig = u ++ t :: v := huv
    rw [huv, hu]; rfl)
  have hw := whole_block (sigC_whole P hC hb hbn (by rw [hbk]; exact r_block))
  have hsigb : sigC b = t :: R1.filter Red.sig := by
    unfold sigC; rw [e1, List.filter_append, ha, List.filter_cons_of_pos hts]; rfl
  have hb'm : b' ∈ sigC b := List.mem_filter.2 ⟨hb'b, hb's⟩
  have hdm : d ∈ sigC b := List.mem_filter.2 ⟨hdb, by unfold Red.sig; rw [hdk]; decide⟩
  rw [hsigb, List.map_cons, symOf_node hs.1, hs.2.1] at hw
  have hw := (block_shape (u := []) hw).2
  have hmem3 : Sym.node K.TriplesBlock ∈ (R1.filter Red.sig).map symOf := by
    rw [hsigb] at hb'm
    rcases List.mem_cons.1 hb'm with h | h
    · rw [h, hs.2.1] at hb'k; exact absurd hb'k (by decide)
    · exact List.mem_map.2 ⟨b', h, by rw [symOf_node hb'n, hb'k]⟩
  have hw : (R1.filter Red.sig).map symOf = [.tok K.Dot, .node K.TriplesBlock] := by
    rcases hw with h | h | h
    · rw [h] at hmem3; cases hmem3
    · rw [h] at hmem3; exact absurd hmem3 (by decide)
    · exact h
  obtain ⟨x, l1, e2, hx, hl1⟩ := List.map_eq_cons_iff.1 hw
  obtain ⟨y, l2, e3, hy, hl2⟩ := List.map_eq_cons_iff.1 hl1
  have hl2 : l2 = [] := by simpa using hl2
  subst hl2; subst e3
  obtain ⟨hxn, hxk⟩ := symOf_eq_tok.1 hx
  rw [hsigb, e2] at hb'm hdm
  have hdx : d = x := by
    rcases List.mem_cons.1 hdm with h | h
    · rw [h, hs.1] at hdn; cases hdn
    · rcases List.mem_cons.1 h with h | h
      · exact h
      · rw [List.mem_singleton.1 h] at hdn
        rw [symOf_tok hdn] at hy; cases hy
  have hby : b' = y := by
    rcases List.mem_cons.1 hb'm with h | h
    · rw [h, hs.2.1] at hb'k; exact absurd hb'k (by decide)
    · rcases List.mem_cons.1 h with h | h
      · rw [h, hxn] at hb'n; cases hb'n
      · exact List.mem_singleton.1 h
  subst hdx; subst hby
  obtain ⟨m1, R2, e4, hm1, hR2⟩ := filter_cons_split e2
  obtain ⟨m2, R3, e5, hm2, hR3⟩ := filter_cons_split hR2
  -- the inner block
  have hw' := whole_block (sigC_whole P hC hb'T hb'n (by rw [hb'k]; exact r_block))
  obtain ⟨u, v, huv⟩ := List.append_of_mem (show t' ∈ sigC b' from List.mem_filter.2 ⟨ht'b', ht's⟩)
  rw [huv, List.map_append, List.map_cons, symOf_node hs'.1, hs'.2.1] at hw'
  obtain ⟨hu, hv⟩ := block_shape hw'
  have hu : u = [] := by simpa using hu
  subst hu
  obtain ⟨a', R4, e6, ha', hR4⟩ := filter_cons_split (p := Red.sig) (l := b'.childrenT) (x := t') (r := v) huv
  -- the triples
  obtain ⟨p1, pl1, q1, e7, hp1, hq1, hwc, hwpl, hwt, -⟩ := subject_parts P hC htT hs
  obtain ⟨p2, pl2, q2, e8, hp2, hq2, -, hwpl2, -, hq2w⟩ := subject_parts P hC ht'T hs'
  obtain ⟨L, R, e, hfill⟩ := exchange P hC hb hbn
  have hbt : b.tokens = a.flatMap Red.tokens ++ t.tokens ++ m1.flatMap Red.tokens ++ d :: m2.flatMap Red.tokens ++ b'.tokens ++ R3.flatMap Red.tokens := by
    rw [tokens_eq b, if_pos hbn, e1, e4, e5]
    have hd1 : d.tokens = [d] := by rw [tokens_eq d, if_neg (by simp [hdn])]
    simp [hd1]
  have hb't : b'.tokens = a'.flatMap Red.tokens ++ t'.tokens ++ R4.flatMap Red.tokens := by
    rw [tokens_eq b', if_pos hb'n, e6]; simp
  have ht't : t'.tokens = p2.flatMap Red.tokens ++ c'.tokens ++ q2.flatMap Red.tokens := by
    rw [tokens_eq t', if_pos hs'.1, e8]; simp
  have z1 := flat_nil P hb (l := a) (fun x hx => by rw [e1]; simp [hx]) ha
  have z2 := flat_nil P hb (l := m1) (fun x hx => by rw [e1, e4]; simp [hx]) hm1
  have z3 := flat_nil P hb (l := m2) (fun x hx => by rw [e1, e4, e5]; simp [hx]) hm2
  have z4 := flat_nil P hb (l := R3) (fun x hx => by rw [e1, e4, e5]; simp [hx]) hR3
  have z5 := flat_nil P hb'T (l := a') (fun x hx => by rw [e6]; simp [hx]) ha'
  have z6 := flat_nil P ht'T (l := p2) (fun x hx => by rw [e8]; simp [hx]) hp2
  have hrest : Derives sparqlRules (.opt (.seq (.tok K.Dot) (.opt (.node K.TriplesBlock)))) (sigKs (R4.flatMap Red.tokens)) := by
    have hf := words_derive P hC hb'T (l := v) (fun x hx => by
      rw [← hR4] at hx
      obtain ⟨h1, h2⟩ := List.mem_filter.1 hx
      exact ⟨by rw [e6]; simp [h1], h2⟩)
    have hfw : sigKs (R4.flatMap Red.tokens) = (v.map word).flatten := by
      rw [flat_words P hb'T (fun x hx => by rw [e6]; simp [hx]), hR4]
    rw [hfw]
    rcases hv with h | h | h
    · have : v = [] := by simpa using h
      rw [this]; exact .optNone _
    · rw [h] at hf
      generalize v.map word = ws at hf
      cases hf with
      | cons h1 h2 =>
        cases h2
        rw [List.flatten_cons]
        exact .optSome _ _ (.seq _ _ _ _ h1 (.optNone _))
    · rw [h] at hf
      generalize v.map word = ws at hf
      cases hf with
      | cons h1 h2 =>
        cases h2 with
        | cons h2 h3 =>
          cases h3
          rw [List.flatten_cons, List.flatten_cons, List.flatten_nil, List.append_nil]
          exact .optSome _ _ (.seq _ _ _ _ h1 (.optSome _ _ h2))
  have hnew : Derives sparqlRules (.node K.TriplesBlock) ((sigKs t.tokens ++ K.Semicolon :: sigKs (q2.flatMap Red.tokens)) ++ sigKs (R4.flatMap Red.tokens)) := by
    refine .node _ _ _ r_block (.seq _ _ _ _ ?_ hrest)
    rw [show sigKs t.tokens = word t from rfl, hwt, hq2w, List.append_assoc]
    exact .node _ _ _ r_subject (.altL _ _ _ (.seq _ _ _ _ hwc (properties_append hwpl hwpl2)))
  refine ⟨htT, by rw [child_up htb]; simp, ht'T.child hs'.2.2.1, L ++ a.flatMap Red.tokens, m1.flatMap Red.tokens,
    m2.flatMap Red.tokens ++ (a'.flatMap Red.tokens ++ p2.flatMap Red.tokens),
    q2.flatMap Red.tokens ++ R4.flatMap Red.tokens ++ R3.flatMap Red.tokens ++ R, ?_, z2, ?_, ?_⟩
  · rw [e, hbt, hb't, ht't]; simp
  · simp only [sigKs_append, z3, z5, z6]; rfl
  · have := hfill _ (by rw [hbk]; exact hnew)
    simp only [sigKs_append, z1, z4, List.append_nil]
    simpa using this

end

theorem plain_of {c : Char} (h : c ≠ '"') (h' : c ≠ '\'') : Lexer.plainClass.has c = true := by
  have h1 : c.toNat ≠ 0x22 := fun e => h (by
    have := congrArg Char.ofNat e
    rwa [Char.ofNat_toNat] at this)
  have h2 : c.toNat ≠ 0x27 := fun e => h' (by
    have := congrArg Char.ofNat e
    rwa [Char.ofNat_toNat] at this)
  have h3 : c.toNat ≤ 0x10FFFF := by
    have := c.valid
    simp only [UInt32.isValidChar, Nat.isValidChar] at this
    show c.val.toNat ≤ _
    omega
  simp only [Lexer.plainClass, Class.has, List.any_cons, List.any_nil, Bool.or_false, Bool.or_eq_true, Bool.and_eq_true, Nat.ble_eq]
  omega

theorem trivia_keywords : (queryKeywords ++ updateKeywords).all (fun k => !triviaKind k) = true := by decide

theorem trivia_of {l : List Red} (h : sigKs l = []) : ∀ z ∈ l, triviaKind z.kind = true := by
  intro z hz
  cases ht : triviaKind z.kind with
  | true => rfl
  | false =>
    exfalso
    have : z ∈ l.filter (fun t => !triviaKind t.kind) := List.mem_filter.2 ⟨hz, by rw [ht]; rfl⟩
    have h2 : z.kind ∈ sigKs l := List.mem_map.2 ⟨z, this, rfl⟩
    rw [h] at h2; cases h2

/-- C71. Valid documents: a triple with a dot, and behind it a triple with a variable for a subject. A semicolon, a line break and blanks
in place of the dot and the variable leave the document valid: of the significant tokens, the dot and the variable give way to the semicolon. -/
theorem c71_valid (errLen : Text → Nat) (text : Text) (g errs) (hp : parseSource errLen text = some (g, errs))
    (hd : Derives sparqlRules (.node g.kind) (kinds (lex errLen text))) {t d t' c c' : Red} {s : Text}
    (hnext : NextTriple g t d t') (hs : HasSubject t c s) (hs' : HasSubject t' c' s)
    (hvar : ∀ z ∈ c'.tokens, z.kind = K.VAR1 ∨ z.kind = K.VAR2) {u w0 w1 r : Text} (ht : text = u ++ ' ' :: w0 ++ '.' :: w1 ++ s ++ r)
    (h1 : blen u = t.stop) (h2 : blen (u ++ ' ' :: w0) = d.start) (h3 : blen (u ++ ' ' :: w0 ++ '.' :: w1) = c'.start)
    (hw0 : Spaces w0) (hw1 : ∀ x ∈ w1, x ≠ '"' ∧ x ≠ '\'') (n : Nat) :
    ∃ X Y g', kinds (lex errLen text) = X ++ K.Dot :: sigKs c'.tokens ++ Y ∧
      kinds (lex errLen (u ++ ' ' :: w0 ++ ([';', '\n'] ++ List.replicate n ' ') ++ r)) = X ++ K.Semicolon :: Y ∧
      Derives sparqlRules (.node g.kind) (kinds (lex errLen (u ++ ' ' :: w0 ++ ([';', '\n'] ++ List.replicate n ' ') ++ r))) ∧
      parseSource errLen (u ++ ' ' :: w0 ++ ([';', '\n'] ++ List.replicate n ' ') ++ r) = some (g', []) ∧ g'.kind = g.kind := by
  have P := parsed_of hp
  have hC := complete_of hp hd
  obtain ⟨htT, htu, hc'T, L, W0, W1, B, e, hW0, hW1, hnew⟩ := merge_triples P hC hnext hs hs'
  obtain ⟨b, b', hb, hbn, hbk, htb, hdb, hdn, hdk, -⟩ := hnext
  have hn := hs.1
  have hc'n := hs'.2.2.2.1
  -- the texts
  have hflat : flat ((Red.root g).tokens.map Red.kt) = text := by
    rw [tokens_pairs hp]; exact (lexes_flat (c47_longest_match errLen text)).1
  have hstop := tokens_at P hC hn htT htu (L := L) (R := W0 ++ d :: W1 ++ c'.tokens ++ B) (by rw [e]; simp)
  have hcstop := tokens_at P hC hc'n hc'T (by rw [child_up hs'.2.2.1]; simp) (L := L ++ t.tokens ++ W0 ++ d :: W1) (R := B) (by rw [e])
  have hrow := (tokens_row (Red.root g)).2
  rw [show (Red.root g).start = 0 from rfl, e, List.append_assoc _ c'.tokens, List.append_assoc _ (d :: W1)] at hrow
  have hdst := (row_split hrow).1
  rw [Nat.zero_add] at hdst
  have hctext : flat (c'.tokens.map Red.kt) = s := by
    rw [(tokens_row c').1, flat_leaves]
    exact hs'.2.2.2.2.2
  have hfl : (flat ((L ++ t.tokens).map Red.kt) ++ flat (W0.map Red.kt)) ++ flat ((d :: W1).map Red.kt) ++ s ++ flat (B.map Red.kt) =
      (u ++ ' ' :: w0) ++ '.' :: w1 ++ s ++ r := by
    rw [← ht, ← hflat, e, ← hctext]
    simp only [List.map_append, List.map_cons, flat_append, flat_cons, List.append_assoc]
  have hdst' : blen (flat ((L ++ t.tokens).map Red.kt) ++ flat (W0.map Red.kt)) = d.start := by
    rw [hdst, ← flat_append, ← List.map_append]
  have hcst : blen ((flat ((L ++ t.tokens).map Red.kt) ++ flat (W0.map Red.kt)) ++ flat ((d :: W1).map Red.kt)) = c'.start := by
    have hcs : c'.stop = c'.start + blen s := by
      rw [show c'.stop = c'.start + blen c'.text from rfl, hs'.2.2.2.2.2]
    rw [List.map_append, flat_append, blen_append, hctext, hcs] at hcstop
    have : flat ((L ++ t.tokens ++ W0 ++ d :: W1).map Red.kt) =
        (flat ((L ++ t.tokens).map Red.kt) ++ flat (W0.map Red.kt)) ++ flat ((d :: W1).map Red.kt) := by
      simp [flat_append]
    rw [this] at hcstop
    omega
  obtain ⟨e1, e2⟩ := append_blen hfl (by rw [blen_append _ s, blen_append _ s, hcst, h3])
  obtain ⟨e1, -⟩ := append_blen e1 (by rw [hcst, h3])
  obtain ⟨e1, e3⟩ := append_blen e1 (by rw [hdst', h2])
  obtain ⟨e1, e4⟩ := append_blen e1 (by rw [hstop, h1])
  have hsp : Spaces (' ' :: w0) := by
    intro x hx
    rcases List.mem_cons.1 hx with rfl | hx
    · decide
    · exact hw0 x hx
  have hW0r : HasRule (K.WHITESPACE, ' ' :: w0) := dot_ws_rule (by simp) hsp
  have hw0p := (ws_plain hW0r).2
  have hw1p : ∀ x ∈ '.' :: w1, Lexer.plainClass.has x = true := by
    intro x hx
    rcases List.mem_cons.1 hx with rfl | hx
    · decide
    · exact plain_of (hw1 x hx).1 (hw1 x hx).2
  have hsp' : ∀ x ∈ s, Lexer.plainClass.has x = true := by
    rw [← hctext]
    intro x hx
    obtain ⟨y, hy1, hy2⟩ := flat_mem hx
    obtain ⟨z, hz, rfl⟩ := List.mem_map.1 hy1
    have hzT : z ∈ (Red.root g).tokens := by rw [e]; simp [hz]
    obtain ⟨k1, k2⟩ := mem_tokens.1 hzT
    rcases hvar z hz with hk | hk
    · have := P.lexed (z.kind, z.text) (Parsed.token_leaf k1 k2) (by dsimp only; rw [hk]; decide)
      exact within_has (r := rule_VAR1.re) (lexed_rule this hk (by decide +kernel)) (by decide +kernel) x hy2
    · have := P.lexed (z.kind, z.text) (Parsed.token_leaf k1 k2) (by dsimp only; rw [hk]; decide)
      exact within_has (r := rule_VAR2.re) (lexed_rule this hk (by decide +kernel)) (by decide +kernel) x hy2
  -- the white space behind the variable is part of the new one
  obtain ⟨E, B', hEB, hEw, hBw⟩ := split_white B
  have hErule : ∀ z ∈ E, Spaces z.text ∧ ∀ c ∈ z.text, Lexer.plainClass.has c = true := by
    intro z hz
    have hzk := hEw z hz
    have hzT : z ∈ (Red.root g).tokens := by rw [e, ← hEB]; simp [hz]
    obtain ⟨k1, k2⟩ := mem_tokens.1 hzT
    have := P.lexed (z.kind, z.text) (Parsed.token_leaf k1 k2) (by dsimp only; rw [hzk]; decide)
    rw [hzk] at this
    exact ws_plain this
  have hEs : Spaces (flat (E.map Red.kt)) ∧ ∀ c ∈ flat (E.map Red.kt), Lexer.plainClass.has c = true := by
    constructor
    · intro c hc
      obtain ⟨p, hp1, hp2⟩ := flat_mem hc
      obtain ⟨z, hz, rfl⟩ := List.mem_map.1 hp1
      exact (hErule z hz).1 c hp2
    · intro c hc
      obtain ⟨p, hp1, hp2⟩ := flat_mem hc
      obtain ⟨z, hz, rfl⟩ := List.mem_map.1 hp1
      exact (hErule z hz).2 c hp2
  obtain ⟨-, k, w, l, el, hkx⟩ := P.tight t.green (P.inner_of htT hn htu)
  obtain ⟨hkt, -⟩ := tokens_row t
  rw [el] at hkt
  obtain ⟨X, Q, q1, q2, q3⟩ := List.map_eq_append_iff.1 hkt
  obtain ⟨q, Q', rfl, q4, q5⟩ := List.map_eq_cons_iff.1 q3
  have : Q' = [] := by simpa using q5
  subst this
  have hqk : q.kind = k := congrArg Prod.fst q4
  have eD : (Red.root g).tokens = (L ++ t.tokens) ++ (W0 ++ d :: W1 ++ c'.tokens ++ E) ++ B' := by rw [e, ← hEB]; simp
  have hDflat : flat ((W0 ++ d :: W1 ++ c'.tokens ++ E).map Red.kt) = ' ' :: w0 ++ '.' :: w1 ++ s ++ flat (E.map Red.kt) := by
    rw [List.map_append, List.map_append, List.map_append, flat_append, flat_append, flat_append, e4, e3, hctext]
  have hEs0 : sigKs E = [] := by
    unfold sigKs
    rw [List.filter_eq_nil_iff.2 (fun z hz => by rw [hEw z hz]; decide)]
    rfl
  have hBk : sigKs B = sigKs B' := by rw [← hEB, sigKs_append, hEs0]; rfl
  have hI : sigK [(K.WHITESPACE, ' ' :: w0), (K.Semicolon, [';']), (K.WHITESPACE, '\n' :: (List.replicate n ' ' ++ flat (E.map Red.kt)))] = [K.Semicolon] := rfl
  have hput := put_tokens hp hd eD (A0 := L ++ X) (q := q) (by rw [q1]; simp) (by rw [hqk]; exact hkx)
    (by rw [hqk]; exact node_end P hC htT hn el hkx)
    (by
      rw [hDflat]
      intro x hx
      simp only [List.mem_append] at hx
      rcases hx with ((hx | hx) | hx) | hx
      · exact hw0p x hx
      · exact hw1p x hx
      · exact hsp' x hx
      · exact hEs.2 x hx)
    (by
      have hkw : ∀ z : Red, triviaKind z.kind = true → z.kind ∉ queryKeywords ++ updateKeywords := by
        intro z hz hm
        have := List.all_eq_true.1 trivia_keywords _ hm
        rw [hz] at this; cases this
      intro z hz
      simp only [List.mem_append, List.mem_cons] at hz
      rcases hz with ((hz | hz | hz) | hz) | hz
      · exact hkw z (trivia_of hW0 z hz)
      · rw [hz, hdk]; decide
      · exact hkw z (trivia_of hW1 z hz)
      · rcases hvar z hz with h | h <;> rw [h] <;> decide
      · rw [hEw z hz]; decide)
    (I := [(K.WHITESPACE, ' ' :: w0), (K.Semicolon, [';']), (K.WHITESPACE, '\n' :: (List.replicate n ' ' ++ flat (E.map Red.kt)))])
    (i := w0 ++ ';' :: '\n' :: (List.replicate n ' ' ++ flat (E.map Red.kt))) (by simp [flat])
    (by
      intro p hp'
      simp only [List.mem_cons, List.not_mem_nil, or_false] at hp'
      rcases hp' with rfl | rfl | rfl
      · exact hW0r
      · exact hasRule_of (by decide +kernel)
      · refine dot_ws_rule (by simp) ?_
        intro c hc
        rcases List.mem_cons.1 hc with rfl | hc
        · decide
        · rcases List.mem_append.1 hc with hc | hc
          · rw [(List.mem_replicate.1 hc).2]; decide
          · exact hEs.1 c hc)
    (by
      intro p hp'
      simp only [List.mem_cons, List.not_mem_nil, or_false] at hp'
      rcases hp' with rfl | rfl | rfl <;> dsimp only <;> decide)
    (by
      show okChain [K.WHITESPACE, K.Semicolon, K.WHITESPACE] = true
      decide +kernel)
    (by
      intro p I0 eI y B' eB
      have : p.1 = K.WHITESPACE := by
        have h1 := congrArg List.getLast? eI
        rw [List.getLast?_concat] at h1
        simp only [List.getLast?_cons_cons, List.getLast?_singleton, Option.some.injEq] at h1
        rw [← h1]
      rw [this, touch, Bool.or_eq_true, Bool.and_eq_true]
      exact .inr ⟨by decide, ink_first (hBw y B' eB)⟩)
    (by
      refine calm_plain ?_
      intro c hc
      rw [← List.cons_append] at hc
      rcases List.mem_append.1 hc with hc | hc
      · exact hw0p c hc
      · simp only [List.mem_cons, List.mem_append] at hc
        rcases hc with rfl | rfl | hc | hc
        · decide
        · decide
        · rw [(List.mem_replicate.1 hc).2]; decide
        · exact hEs.2 c hc)
    (by
      rw [hI, ← hBk]
      simpa using hnew)
  obtain ⟨-, p2, p3, g', p4, p5⟩ := hput
  have hnt : flat ((L ++ t.tokens).map Red.kt) ++ flat [(K.WHITESPACE, ' ' :: w0), (K.Semicolon, [';']),
      (K.WHITESPACE, '\n' :: (List.replicate n ' ' ++ flat (E.map Red.kt)))] ++ flat (B'.map Red.kt) =
      u ++ ' ' :: w0 ++ ([';', '\n'] ++ List.replicate n ' ') ++ r := by
    rw [← e2, ← hEB, e1]
    simp [flat]
  rw [hnt] at p2 p3 p4
  refine ⟨sigKs (L ++ t.tokens), sigKs B', g', ?_, ?_, p3, p4, p5⟩
  · rw [sigK_kinds, ← tokens_pairs hp, ← sigKs_kt, eD]
    have hd1 : sigKs (d :: W1) = [K.Dot] := by
      have : sigKs (d :: W1) = sigKs [d] ++ sigKs W1 := sigKs_append [d] W1
      rw [this, hW1]
      unfold sigKs
      rw [List.filter_cons_of_pos (by rw [hdk]; decide)]
      simp [hdk]
    rw [sigKs_append, sigKs_append _ (W0 ++ d :: W1 ++ c'.tokens ++ E), sigKs_append _ E, sigKs_append _ c'.tokens, sigKs_append W0, hW0, hd1, hEs0]
    simp
  · rw [sigK_kinds, p2, sigK_append, sigK_append, hI, sigKs_kt, sigKs_kt]
    simp

/-- C71. When the item is offered, for which subject, and from where on. -/
theorem c71_offer (errLen : Text → Nat) (text : Text) (g errs) (hp : parseSource errLen text = some (g, errs)) (location : Location)
    (anchor : Option Red) (ha : ∀ a, anchor = some a → InTree g a) (o : SemicolonOffer) :
    semicolonOffer g location anchor = some o ↔ location = .subject ∧ ∃ t c d v, Offered g anchor t c d ∧ firstVerb t = some v ∧
      o = ⟨c.text, d.start, lineOffset v.start 0 g.text⟩ := by
  have P := parsed_of hp
  have hhead : ∀ b t, InTree g b → ((triplesOf b).head? = some t ↔ TripleIn g b t ∧ ∀ t', TripleIn g b t' → t' = t ∨ t.stop ≤ t'.start) := by
    intro b t hb
    have hmem : ∀ t, t ∈ triplesOf b ↔ TripleIn g b t := fun t => mem_triplesOf b hb t
    have hsort := triplesOf_sorted b
    cases hl : triplesOf b with
    | nil =>
      rw [hl] at hmem
      simp only [List.head?_nil, reduceCtorEq, false_iff]
      rintro ⟨h, -⟩
      cases (hmem t).2 h
    | cons h l =>
      rw [hl] at hmem hsort
      rw [List.pairwise_cons] at hsort
      simp only [List.head?_cons, Option.some.injEq]
      constructor
      · rintro rfl
        refine ⟨(hmem h).1 List.mem_cons_self, fun t' ht' => ?_⟩
        rcases List.mem_cons.1 ((hmem t').2 ht') with h1 | h1
        · exact .inl h1
        · exact .inr (hsort.1 t' h1)
      · rintro ⟨h1, h2⟩
        rcases List.mem_cons.1 ((hmem t).2 h1) with h3 | h3
        · exact h3.symm
        · rcases h2 h ((hmem h).1 List.mem_cons_self) with h4 | h4
          · exact h4
          · exfalso
            have h5 := hsort.1 t h3
            obtain ⟨ht, hn, hk, -⟩ := h1
            have htu : t.up ≠ [] := by
              intro hu
              cases ht with
              | root => rcases P.root with h' | h' <;> rw [show (Red.root g).kind = g.kind from rfl, h'] at hk <;> exact absurd hk (by decide)
              | child hp hc => rw [child_up hc] at hu; cases hu
            have h6 := blen_pos (P.node_nonempty ht hn htu)
            have h7 : t.stop = t.start + blen t.text := rfl
            have h8 : h.stop = h.start + blen h.text := rfl
            omega
  have hsub : ∀ t s, subjectText t = some s ↔ ∃ c, (∃ x y, t.childrenT = x ++ c :: y ∧ c.isNode = true ∧ ∀ z ∈ x, z.isNode = false) ∧
      (c.kind = K.VarOrTerm ∨ c.kind = K.TriplesNodePath) ∧ s = c.text := by
    intro t s
    have hfc : ∀ c, t.firstChild = some c ↔ ∃ x y, t.childrenT = x ++ c :: y ∧ c.isNode = true ∧ ∀ z ∈ x, z.isNode = false := by
      intro c
      unfold Red.firstChild Red.children
      rw [List.head?_filter, List.find?_eq_some_iff_append]
      constructor
      · rintro ⟨h, x, y, e, hx⟩
        exact ⟨x, y, e, h, fun z hz => by simpa using hx z hz⟩
      · rintro ⟨x, y, e, h, hx⟩
        exact ⟨h, x, y, e, fun z hz => by simp [hx z hz]⟩
    unfold subjectText
    constructor
    · intro h
      cases hc : t.firstChild with
      | none => rw [hc] at h; cases h
      | some c =>
        rw [hc] at h
        dsimp only at h
        split at h
        · next hk => injection h with h; exact ⟨c, (hfc c).1 hc, hk, h.symm⟩
        · cases h
    · rintro ⟨c, h1, h2, rfl⟩
      rw [(hfc c).2 h1]
      dsimp only
      rw [if_pos h2]
  have hlast : ∀ b d : Red, b.lastToken = some d ↔ ∃ x, b.tokens = x ++ [d] := by
    intro b d
    unfold Red.lastToken
    exact List.getLast?_eq_some_iff
  constructor
  · intro h
    unfold semicolonOffer at h
    split at h
    · split at h
      · cases h
      · next a =>
        split at h
        · cases h
        · next b hb =>
          split at h
          · next hbk =>
            split at h
            · cases h
            · next t ht =>
              split at h
              · next s d v h1 h2 h3 =>
                split at h
                · next hd =>
                  injection h with h
                  obtain ⟨c, h4, h5, rfl⟩ := (hsub t s).1 h1
                  have hbT := ((ha a rfl).parent hb).1
                  obtain ⟨h6, h7⟩ := (hhead b t hbT).1 ht
                  exact ⟨rfl, t, c, d, v, ⟨a, b, rfl, hb, hbk, h6, h7, h4, h5, (hlast b d).1 h2, hd⟩, h3, h.symm⟩
                · cases h
              · cases h
          · cases h
    · cases h
  · rintro ⟨rfl, t, c, d, v, ⟨a, b, rfl, hb, hbk, h6, h7, h4, h5, h2, hd⟩, h3, rfl⟩
    have hbT := ((ha a rfl).parent hb).1
    unfold semicolonOffer
    simp only [hb, if_pos hbk, (hhead b t hbT).2 ⟨h6, h7⟩, (hsub t _).2 ⟨c, h4, h5, rfl⟩, (hlast b d).2 h2, h3, if_pos hd]

theorem line_run : ∀ (y z : Text) (acc : Nat), '\n' ∉ y → lineOffset (blen y) acc (y ++ z) = acc + blen y := by
  intro y
  induction y with
  | nil => intro z acc _; cases z <;> rfl
  | cons c y ih =>
    intro z acc h
    have hc : c ≠ '\n' := fun e => h (by rw [e]; exact List.mem_cons_self)
    have h0 := u8_pos c
    rw [show blen (c :: y) = u8 c + blen y from rfl]
    obtain ⟨m, hm⟩ : ∃ m, u8 c + blen y = m + 1 := ⟨u8 c + blen y - 1, by omega⟩
    rw [hm, List.cons_append, lineOffset, if_pos (by omega), if_neg hc, show m + 1 - u8 c = blen y by omega,
      ih z _ (fun hh => h (List.mem_cons_of_mem _ hh))]
    omega

theorem line_break : ∀ (x y z : Text) (acc : Nat), '\n' ∉ y → lineOffset (blen (x ++ '\n' :: y)) acc (x ++ '\n' :: y ++ z) = blen y := by
  intro x
  induction x with
  | nil =>
    intro y z acc h
    rw [List.nil_append, show blen ('\n' :: y) = 1 + blen y from rfl, Nat.add_comm, List.cons_append, lineOffset, if_pos (by
      have : u8 '\n' = 1 := by decide
      omega), if_pos rfl, show blen y + 1 - u8 '\n' = blen y from rfl, line_run y z 0 h, Nat.zero_add]
  | cons c x ih =>
    intro y z acc h
    have h0 := u8_pos c
    rw [List.cons_append, show blen (c :: (x ++ '\n' :: y)) = u8 c + blen (x ++ '\n' :: y) from rfl]
    obtain ⟨m, hm⟩ : ∃ m, u8 c + blen (x ++ '\n' :: y) = m + 1 := ⟨u8 c + blen (x ++ '\n' :: y) - 1, by omega⟩
    rw [hm, List.cons_append, lineOffset, if_pos (by omega), show m + 1 - u8 c = blen (x ++ '\n' :: y) by omega]
    exact ih y z _ h

/-- C71. The indentation: the bytes between the last line break in front of the verb, or the start of the document, and the verb. -/
theorem c71_indent (x y z : Text) (h : '\n' ∉ y) : lineOffset (blen (x ++ '\n' :: y)) 0 (x ++ '\n' :: y ++ z) = blen y ∧
    lineOffset (blen y) 0 (y ++ z) = blen y :=
  ⟨line_break x y z 0 h, by rw [line_run y z 0 h, Nat.zero_add]⟩

/-- C71. Accepting the item in a valid document: `a` is the text in front of the cursor, and behind it the variable `s` would begin a triple.
The item is given for exactly the variable that is the subject in front; the document with the two edits is valid. -/
theorem c71_accepted {errLen : Text → Nat} {u w0 w1 r s v : Text} {g : Green} {errs} {o : SemicolonOffer} (hv : itemValue v = s)
    (hp : parseSource errLen (u ++ ' ' :: w0 ++ '.' :: w1 ++ s ++ r) = some (g, errs))
    (hd : Derives sparqlRules (.node g.kind) (kinds (lex errLen (u ++ ' ' :: w0 ++ '.' :: w1 ++ s ++ r))))
    {t d t' c c' : Red} (hnext : NextTriple g t d t') (hs : HasSubject t c s) (hs' : HasSubject t' c' s)
    (hvar : ∀ z ∈ c'.tokens, z.kind = K.VAR1 ∨ z.kind = K.VAR2) (h1 : blen u = t.stop) (h2 : blen (u ++ ' ' :: w0) = d.start)
    (h3 : blen (u ++ ' ' :: w0 ++ '.' :: w1) = c'.start) (hw0 : Spaces w0) (hw1 : ∀ x ∈ w1, x ≠ '"' ∧ x ≠ '\'')
    -- the offer
    (hsame : o.subject = s) (hdot : o.dot = d.start) :
    semicolonItem o (blen (u ++ ' ' :: w0 ++ '.' :: w1)) v =
        some (blen (u ++ ' ' :: w0), blen (u ++ ' ' :: w0 ++ '.' :: w1), [';', '\n'] ++ List.replicate o.indent ' ') ∧
      (∀ v', itemValue v' ≠ s → semicolonItem o (blen (u ++ ' ' :: w0 ++ '.' :: w1)) v' = none) ∧
      ∃ g', Derives sparqlRules (.node g.kind) (kinds (lex errLen (u ++ ' ' :: w0 ++ ([';', '\n'] ++ List.replicate o.indent ' ') ++ r))) ∧
        parseSource errLen (u ++ ' ' :: w0 ++ ([';', '\n'] ++ List.replicate o.indent ' ') ++ r) = some (g', []) ∧ g'.kind = g.kind := by
  refine ⟨?_, ?_, ?_⟩
  · unfold semicolonItem
    rw [if_pos (by rw [hv, hsame]), hdot, h2]
  · intro v' h
    unfold semicolonItem
    rw [if_neg (by rw [hsame]; exact h)]
  · obtain ⟨X, Y, g', -, -, q1, q2, q3⟩ := c71_valid errLen _ g errs hp hd hnext hs hs' hvar rfl h1 h2 h3 hw0 hw1 o.indent
    exact ⟨g', q1, q2, q3⟩

theorem dropWhile_run {p : Char → Bool} : ∀ {w x : Text}, (∀ c ∈ w, p c = true) → (∀ c, x.head? = some c → p c = false) → (w ++ x).dropWhile p = x := by
  intro w
  induction w with
  | nil =>
    intro x _ h
    cases x with
    | nil => rfl
    | cons c x => rw [List.nil_append, List.dropWhile_cons_of_neg (by rw [h c rfl]; simp)]
  | cons c w ih =>
    intro x hw h
    rw [List.cons_append, List.dropWhile_cons_of_pos (hw c List.mem_cons_self)]
    exact ih (fun c hc => hw c (List.mem_cons_of_mem _ hc)) h

/-- C71. The text of an item that is compared: without the white space around it, and with a question mark. -/
theorem c71_item (w x w' : Text) (hw : ∀ c ∈ w, White c) (hw' : ∀ c ∈ w', White c) (hx : ∀ c, x.head? = some c → ¬ White c)
    (hx' : ∀ c, x.getLast? = some c → ¬ White c) (h0 : x ≠ []) :
    itemValue (w ++ x ++ w') = if x.head? = some '?' then x else '?' :: x := by
  have key : trimBoth (w ++ x ++ w') = x := by
    have h1 : trimEnd (w ++ x ++ w') = w ++ x := by
      unfold trimEnd
      rw [List.reverse_append, dropWhile_run (fun c hc => (isWhite_iff c).2 (hw' c (List.mem_reverse.1 hc))) (fun c hc => ?_), List.reverse_reverse]
      rw [List.head?_reverse, List.getLast?_append_of_ne_nil _ h0] at hc
      cases h : isWhite c with
      | false => rfl
      | true => exact absurd ((isWhite_iff c).1 h) (hx' c hc)
    unfold trimBoth
    rw [h1]
    refine dropWhile_run (fun c hc => (isWhite_iff c).2 (hw c hc)) (fun c hc => ?_)
    cases h : isWhite c with
    | false => rfl
    | true => exact absurd ((isWhite_iff c).1 h) (hx c hc)
  unfold itemValue
  rw [key]

/-! ## Cases -/

/-- An element of a list. -/
def pick (l : List Red) (p : Red → Bool) (h : (l.find? p).isSome = true) : Red := (l.find? p).get h

theorem pick_mem (l : List Red) (p : Red → Bool) (h : (l.find? p).isSome = true) : pick l p h ∈ l :=
  List.mem_of_find?_eq_some (Option.some_get h).symm

theorem semiBlock_some : ((Red.root semiFullTree).descendantsT.find? (fun z => z.isNode && z.kind == K.TriplesBlock)).isSome = true := by decide +kernel
def semiBlock : Red := pick (Red.root semiFullTree).descendantsT (fun z => z.isNode && z.kind == K.TriplesBlock) semiBlock_some
theorem semiTriple_some : (semiBlock.childrenT.find? (fun z => z.isNode && z.kind == K.TriplesSameSubjectPath)).isSome = true := by decide +kernel
def semiTriple : Red := pick semiBlock.childrenT (fun z => z.isNode && z.kind == K.TriplesSameSubjectPath) semiTriple_some
theorem semiDot_some : (semiBlock.childrenT.find? (fun z => !z.isNode && z.kind == K.Dot)).isSome = true := by decide +kernel
def semiDot : Red := pick semiBlock.childrenT (fun z => !z.isNode && z.kind == K.Dot) semiDot_some
theorem semiInner_some : (semiBlock.childrenT.find? (fun z => z.isNode && z.kind == K.TriplesBlock)).isSome = true := by decide +kernel
def semiInner : Red := pick semiBlock.childrenT (fun z => z.isNode && z.kind == K.TriplesBlock) semiInner_some
theorem semiNext_some : (semiInner.childrenT.find? (fun z => z.isNode && z.kind == K.TriplesSameSubjectPath)).isSome = true := by decide +kernel
def semiNext : Red := pick semiInner.childrenT (fun z => z.isNode && z.kind == K.TriplesSameSubjectPath) semiNext_some
theorem semiSubject_some : (semiTriple.childrenT.find? (fun z => z.isNode)).isSome = true := by decide +kernel
def semiSubject : Red := pick semiTriple.childrenT (fun z => z.isNode) semiSubject_some
theorem semiAgain_some : (semiNext.childrenT.find? (fun z => z.isNode)).isSome = true := by decide +kernel
def semiAgain : Red := pick semiNext.childrenT (fun z => z.isNode) semiAgain_some

/-- A document, the offer behind its dot, and the document with the item. -/
theorem c71_cases :
    (parseSource (fun _ => 1) semiCutText).map Prod.fst = some semiCutTree ∧ blen semiCutText = 21 ∧
    Conts semiCutTree (anchorOf semiCutTree 21) [K.TriplesBlock, K.GraphPatternNotTriples, K.RCurly] ∧
    atEnd semiCutTree 21 [K.TriplesBlock, K.GraphPatternNotTriples, K.RCurly] = (3, 0, 0) ∧
    semicolonOffer semiCutTree .subject (anchorOf semiCutTree 21) = some ⟨['?', 's'], 19, 13⟩ ∧
    semicolonItem ⟨['?', 's'], 19, 13⟩ 21 ['s', ' '] = some (19, 21, [';', '\n'] ++ List.replicate 13 ' ') ∧
    semicolonItem ⟨['?', 's'], 19, 13⟩ 21 ['?', 'p'] = none ∧
    parseSource (fun _ => 1) semiFullText = some (semiFullTree, []) ∧
    Derives sparqlRules (.node semiFullTree.kind) (kinds (lex (fun _ => 1) semiFullText)) ∧
    semiFullText = semiFullText.take 18 ++ ' ' :: [] ++ '.' :: [' '] ++ ['?', 's'] ++ semiFullText.drop 23 ∧
    (∃ t d t' c c', NextTriple semiFullTree t d t' ∧ HasSubject t c ['?', 's'] ∧ HasSubject t' c' ['?', 's'] ∧
      (∀ z ∈ c'.tokens, z.kind = K.VAR1 ∨ z.kind = K.VAR2) ∧ t.stop = 18 ∧ d.start = 19 ∧ c'.start = 21) ∧
    semiFullText.take 18 ++ ' ' :: [] ++ ([';', '\n'] ++ List.replicate 13 ' ') ++ semiFullText.drop 23 = semiDoneText ∧
    parseSource (fun _ => 1) semiDoneText = some (semiDoneTree, []) := by
  refine ⟨by rw [semiCutTree_parse]; rfl, by decide +kernel, conts_run (by decide +kernel), by decide +kernel, by decide +kernel, by decide +kernel,
    by decide +kernel, semiFullTree_parse, semiFull_derives, by decide +kernel, ?_, by decide +kernel, semiDoneTree_parse⟩
  refine ⟨semiTriple, semiDot, semiNext, semiSubject, semiAgain,
    ⟨semiBlock, semiInner, inTree_of_mem_descendantsT _ .root _ (pick_mem _ _ _), by decide +kernel, by decide +kernel, pick_mem _ _ _, pick_mem _ _ _,
      by decide +kernel, by decide +kernel, pick_mem _ _ _, by decide +kernel, by decide +kernel, pick_mem _ _ _⟩,
    ⟨by decide +kernel, by decide +kernel, pick_mem _ _ _, by decide +kernel, by decide +kernel, by decide +kernel⟩,
    ⟨by decide +kernel, by decide +kernel, pick_mem _ _ _, by decide +kernel, by decide +kernel, by decide +kernel⟩,
    by decide +kernel, by decide +kernel, by decide +kernel, by decide +kernel⟩

end Verif.Props
