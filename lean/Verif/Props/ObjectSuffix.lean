import Verif.Features.ObjectSuffix
import Verif.Props.Location
import Verif.Props.SearchTerm
import Verif.Props.AddFilter
/-!
# C70: the end of the triple behind a completed object
-/
namespace Verif.Props
open Verif Verif.Grammar Verif.Lexer Verif.Features Verif.Format

/-! ## Specification -/

/-- What separates triples, predicates and objects. -/
def separatorKinds : List Kind := [K.Dot, K.Semicolon, K.Comma]

/-- What holds predicates and objects of its own inside of a triple: brackets and annotations. -/
def enclosers : List Kind := brackets ++ [K.AnnotationBlockPath]

/-- The offset is between two tokens of the text; `k` is the kind of the next one that is not white space or a comment. -/
def Ahead (errLen : Text → Nat) (text : Text) (off : Nat) (k : Option Kind) : Prop :=
  ∃ A B, tokenPairs errLen text = A ++ B ∧ blen (flat A) = off ∧ k = (sigK B).head?

/-- The object `o` is one of the triple `x` itself, not of a bracket or an annotation inside of it. -/
def ObjectOf (o x : Red) : Prop :=
  ∃ A B, Red.chain o.up = A ++ x :: B ∧ x.kind = K.TriplesSameSubjectPath ∧ ∀ y ∈ A, y.kind ∉ K.TriplesSameSubjectPath :: enclosers

/-! ## Proof -/

/-- The kinds between an object and its triple. -/
def objectPath : List Kind := [K.ObjectPath, K.ObjectListPath, K.PropertyListPathNotEmpty, K.PropertyListPath, K.ReifiedTripleBlockPath]

theorem path_parents : objectPath.all (fun k => sparqlRulesTree.toList.all (fun p => !(symbols p.2).contains (.node k) ||
    (K.TriplesSameSubjectPath :: (objectPath ++ enclosers)).contains p.1)) = true := by decide +kernel

theorem path_nexts : sparqlRulesTree.toList.all (fun p => enclosers.contains p.1 || nexts nullNodes (fun a b =>
    !(objectPath.any (fun k => a == .node k)) || b == .tok K.Semicolon || b == .tok K.Comma) p.2) = true := by decide +kernel

section
variable {text : Text} {g : Green} (P : Parsed text g) (hC : ∀ n ∈ g.nodes, Grammar.Complete sparqlRules n)
include P hC

/-- Where the tokens of a node stand. -/
theorem tokens_at {y : Red} (hn : y.isNode = true) (hy : InTree g y) (hu : y.up ≠ []) {L R : List Red}
    (e : (Red.root g).tokens = L ++ y.tokens ++ R) : blen (flat ((L ++ y.tokens).map Red.kt)) = y.stop := by
  obtain ⟨-, k, w, l, el, hkx⟩ := P.tight y.green (P.inner_of hy hn hu)
  obtain ⟨h1, h2⟩ := tokens_row y
  have hrow := (tokens_row (Red.root g)).2
  rw [show (Red.root g).start = 0 from rfl, e, List.append_assoc] at hrow
  have hrow := row_split hrow
  have hxt : blen (flat (y.tokens.map Red.kt)) = blen y.text := by rw [h1, flat_leaves]
  have hs : y.start = blen (flat (L.map Red.kt)) := by
    cases hz : y.tokens with
    | nil => rw [hz, el] at h1; cases l <;> cases h1
    | cons z zs =>
      rw [hz] at h2 hrow
      have := h2.1
      rw [← this, hrow.1]; omega
  rw [List.map_append, flat_append, blen_append, hxt, ← hs]; rfl

/-- From an object to its triple. -/
theorem path_up {y p : Red} (hy : InTree g y) (hn : y.isNode = true) (hk : y.kind ∈ objectPath) (hyp : y ∈ p.childrenT) (hp : InTree g p)
    (hpk : p.kind ∉ enclosers) (hpt : p.up ≠ [])
    (hR : ∀ A B, (Red.root g).tokens = A ++ B → blen (flat (A.map Red.kt)) = y.stop → ∀ k, (sigKs B).head? = some k → k ∉ separatorKinds) :
    (p.kind = K.TriplesSameSubjectPath ∨ p.kind ∈ objectPath) ∧ p.stop = y.stop := by
  have hpn := child_isNode hyp
  have hys := node_sig P hy hn
  have hyu : y.up ≠ [] := by
    intro h
    have := child_parent hyp
    unfold Red.parent at this
    rw [h] at this; cases this
  constructor
  · have h0 := List.all_eq_true.1 path_parents _ hk
    obtain ⟨p', h1, h2, h3, h4⟩ := P.parent_kind hy hn (by intro h; rw [h] at hk; revert hk; decide) (by
      rintro rfl; exact hyu rfl) _ h0
    have : p' = p := by
      have e1 := child_parent h3
      have e2 := child_parent hyp
      rw [e1] at e2; injection e2
    subst this
    rcases List.mem_cons.1 h4 with h | h
    · exact .inl h
    · rcases List.mem_append.1 h with h | h
      · exact .inr h
      · exact absurd h hpk
  · obtain ⟨X, rest, hXr⟩ := List.append_of_mem hyp
    cases hrest : rest.filter Red.sig with
    | nil =>
      obtain ⟨X', z, h1, h2⟩ := last_sig P hp hpn hpt
      have : rest = [] := by
        rcases List.eq_nil_or_concat rest with h | ⟨r0, w, h⟩
        · exact h
        · exfalso
          rw [List.concat_eq_append] at h
          rw [hXr, h] at h1
          have h1 : (X ++ y :: r0) ++ [w] = X' ++ [z] := by simpa using h1
          have := (List.append_inj' h1 rfl).2
          have : w = z := by simpa using this
          have hm : w ∈ rest.filter Red.sig := List.mem_filter.2 ⟨by rw [h]; simp, by rw [this]; exact h2⟩
          rw [hrest] at hm; cases hm
      subst this
      obtain ⟨L, R, e, -⟩ := exchange P hC hp hpn
      have h3 := tokens_at P hC hpn hp hpt e
      have hpt' : p.tokens = X.flatMap Red.tokens ++ y.tokens := by rw [tokens_eq p, if_pos hpn, hXr]; simp
      rw [hpt'] at e h3
      have h4 := tokens_at P hC hn hy hyu (L := L ++ X.flatMap Red.tokens) (R := R) (by rw [e]; simp)
      rw [← h3, ← h4]; simp
    | cons z T =>
      exfalso
      have hsig : sigC p = X.filter Red.sig ++ y :: z :: T := by
        unfold sigC; rw [hXr, List.filter_append, List.filter_cons_of_pos hys, hrest]
      obtain ⟨-, Rl, hRl, hmem, -⟩ := whole_of P hC hp hpn
      have h1 := List.all_eq_true.1 path_nexts _ hmem
      dsimp only at h1
      rw [Bool.or_eq_true] at h1
      have h1 := h1.resolve_left (by simpa using hpk)
      have h2 := sigC_next P hC hp hpn hRl h1 hsig
      have hz : symOf z = .tok K.Semicolon ∨ symOf z = .tok K.Comma := by
        rw [symOf_node hn] at h2
        simp only [Bool.or_eq_true, Bool.not_eq_true', beq_iff_eq] at h2
        rcases h2 with (h2 | h2) | h2
        · exfalso
          have := List.any_eq_false.1 h2 _ hk
          simp at this
        · exact .inl h2
        · exact .inr h2
      obtain ⟨c1, c2, hc, hc1, -⟩ := (List.filter_eq_cons_iff.1 hrest)
      obtain ⟨L, R, e, -⟩ := exchange P hC hp hpn
      have hpt' : p.tokens = X.flatMap Red.tokens ++ y.tokens ++ (c1.flatMap Red.tokens ++ z.tokens ++ c2.flatMap Red.tokens) := by
        rw [tokens_eq p, if_pos hpn, hXr, hc]; simp
      rw [hpt'] at e
      have e' : (Red.root g).tokens = (L ++ X.flatMap Red.tokens ++ y.tokens) ++ (c1.flatMap Red.tokens ++ z.tokens ++ c2.flatMap Red.tokens ++ R) := by
        rw [e]; simp
      have h4 := tokens_at P hC hn hy hyu (L := L ++ X.flatMap Red.tokens) e'
      have hzn : z.isNode = false ∧ (z.kind = K.Semicolon ∨ z.kind = K.Comma) := by
        rcases hz with h | h
        · exact ⟨(symOf_eq_tok.1 h).1, .inl (symOf_eq_tok.1 h).2⟩
        · exact ⟨(symOf_eq_tok.1 h).1, .inr (symOf_eq_tok.1 h).2⟩
      have hc1k : sigKs (c1.flatMap Red.tokens) = [] :=
        flat_nil P hp (fun x hx => by rw [hXr, hc]; simp [hx]) (List.filter_eq_nil_iff.2 hc1)
      have hzk : sigKs z.tokens = [z.kind] := by
        rw [tokens_tok hzn.1]
        unfold sigKs
        rw [List.filter_cons_of_pos (by rcases hzn.2 with h | h <;> rw [h] <;> decide)]
        rfl
      refine hR _ _ e' h4 z.kind ?_ ?_
      · rw [sigKs_append, sigKs_append, sigKs_append, hc1k, hzk]; rfl
      · rcases hzn.2 with h | h <;> rw [h] <;> decide

theorem path_triple {y : Red} (hy : InTree g y) (hn : y.isNode = true) (hk : y.kind ∈ objectPath) {A B : List Red} {x : Red}
    (hch : Red.chain y.up = A ++ x :: B) (hx : x.kind = K.TriplesSameSubjectPath) (hA : ∀ z ∈ A, z.kind ∉ K.TriplesSameSubjectPath :: enclosers)
    (hR : ∀ A B, (Red.root g).tokens = A ++ B → blen (flat (A.map Red.kt)) = y.stop → ∀ k, (sigKs B).head? = some k → k ∉ separatorKinds) :
    x.stop = y.stop ∧ InTree g x ∧ x.isNode = true := by
  induction A generalizing y with
  | nil =>
    have hpar : ∃ p, y ∈ p.childrenT ∧ InTree g p ∧ Red.chain y.up = p :: Red.chain p.up := by
      cases hy with
      | root => cases hch
      | child hp hc => exact ⟨_, hc, hp, parent_chain (child_parent hc)⟩
    obtain ⟨p, h1, h2, h3⟩ := hpar
    rw [h3] at hch
    injection hch with h4 h5
    subst h4
    have hu : p.up ≠ [] := by
      intro h
      cases h2 with
      | root => rcases P.root with h' | h' <;> rw [show (Red.root g).kind = g.kind from rfl, h'] at hx <;> revert hx <;> decide
      | child hp hc => 
        have := child_parent hc
        unfold Red.parent at this
        rw [h] at this; cases this
    obtain ⟨-, h6⟩ := path_up P hC hy hn hk h1 h2 (by rw [hx]; decide) hu hR
    exact ⟨h6, h2, child_isNode h1⟩
  | cons q A ih =>
    have hpar : ∃ p, y ∈ p.childrenT ∧ InTree g p ∧ Red.chain y.up = p :: Red.chain p.up := by
      cases hy with
      | root => cases hch
      | child hp hc => exact ⟨_, hc, hp, parent_chain (child_parent hc)⟩
    obtain ⟨p, h1, h2, h3⟩ := hpar
    rw [h3] at hch
    injection hch with h4 h5
    subst h4
    have hpk := hA p List.mem_cons_self
    have hu : p.up ≠ [] := by
      intro h
      have : Red.chain p.up = [] := by rw [h]; rfl
      rw [this] at h5; cases A <;> cases h5
    obtain ⟨h6, h7⟩ := path_up P hC hy hn hk h1 h2 (fun h => hpk (List.mem_cons_of_mem _ h)) hu hR
    obtain ⟨h8, h9⟩ := ih h2 (child_isNode h1) (h6.resolve_left (fun h => hpk (by rw [h]; simp))) h5
      (fun z hz => hA z (List.mem_cons_of_mem _ hz)) (by rw [h7]; exact hR)
    exact ⟨by rw [h8, h7], h9⟩

end

theorem ink_first {k : Kind} (h : k ≠ K.WHITESPACE) : inkFirst k = true := by
  have hall : lexRules.all (fun r => r.kind == K.WHITESPACE || subClass (firsts r.re) inkClass) = true := by decide +kernel
  unfold inkFirst
  rw [List.all_eq_true] at hall ⊢
  intro r hr
  have := hall r hr
  rw [Bool.or_eq_true, beq_iff_eq] at this
  rw [Bool.or_eq_true, bne_iff_ne]
  rcases this with h1 | h1
  · exact .inl (by rw [h1]; exact h.symm)
  · exact .inr h1

theorem ws_plain {w : Text} (h : HasRule (K.WHITESPACE, w)) : Spaces w ∧ ∀ c ∈ w, plainClass.has c = true := by
  have hm : Matches rule_WHITESPACE.re w := lexed_rule h rfl (by decide +kernel)
  refine ⟨(ws_matches.1 hm).2, within_has hm (by decide +kernel)⟩

theorem dot_ws_rule {w : Text} (h0 : w ≠ []) (h : Spaces w) : HasRule (K.WHITESPACE, w) := by
  obtain ⟨r, h1, h2, -⟩ := hasRule_of (k := K.WHITESPACE) (w := [' ']) (by decide +kernel)
  refine ⟨r, h1, h2, ?_⟩
  have hall : lexRules.all (fun r => r.kind != K.WHITESPACE || r.re == rule_WHITESPACE.re) = true := by decide +kernel
  have := List.all_eq_true.1 hall r h1
  have h2 : r.kind = K.WHITESPACE := h2
  rw [h2] at this
  have : r.re = rule_WHITESPACE.re := by simpa using this
  rw [this]
  exact ws_matches.2 ⟨h0, h⟩

theorem split_white : ∀ l : List Red, ∃ D B, D ++ B = l ∧ (∀ z ∈ D, z.kind = K.WHITESPACE) ∧ ∀ y B', B = y :: B' → y.kind ≠ K.WHITESPACE := by
  intro l
  induction l with
  | nil => exact ⟨[], [], rfl, by simp, by simp⟩
  | cons z l ih =>
    by_cases h : z.kind = K.WHITESPACE
    · obtain ⟨D, B, h1, h2, h3⟩ := ih
      exact ⟨z :: D, B, by rw [← h1]; rfl, fun y hy => by rcases List.mem_cons.1 hy with rfl | hy; exact h; exact h2 y hy, h3⟩
    · exact ⟨[], z :: l, rfl, by simp, fun y B' e => by injection e with e _; rw [← e]; exact h⟩

theorem flat_mem {l : List (Kind × Text)} {c : Char} (h : c ∈ flat l) : ∃ p ∈ l, c ∈ p.2 := by
  unfold flat at h
  obtain ⟨w, h1, h2⟩ := List.mem_flatten.1 h
  obtain ⟨p, h3, rfl⟩ := List.mem_map.1 h1
  exact ⟨p, h3, h2⟩

section
variable {errLen : Text → Nat} {text : Text} {g : Green} {errs : List SyntaxErr} (hp : parseSource errLen text = some (g, errs))
  (hd : Derives sparqlRules (.node g.kind) (kinds (lex errLen text)))
include hp hd

/-- A dot behind a triple that has none. -/
theorem insert_dot {t : Red} (ht : InTree g t) (hn : t.isNode = true) (hk : t.kind = K.TriplesSameSubjectPath)
    (hR : ∀ A B, (Red.root g).tokens = A ++ B → blen (flat (A.map Red.kt)) = t.stop → ∀ k, (sigKs B).head? = some k → k ∉ separatorKinds) (n : Nat) :
    ∃ A B g', tokenPairs errLen text = A ++ B ∧ blen (flat A) = t.stop ∧ text = flat A ++ flat B ∧
      kinds (lex errLen (flat A ++ ([' ', '.', '\n'] ++ List.replicate n ' ') ++ flat B)) = sigK A ++ K.Dot :: sigK B ∧
      Derives sparqlRules (.node g.kind) (kinds (lex errLen (flat A ++ ([' ', '.', '\n'] ++ List.replicate n ' ') ++ flat B))) ∧
      parseSource errLen (flat A ++ ([' ', '.', '\n'] ++ List.replicate n ' ') ++ flat B) = some (g', []) ∧ g'.kind = g.kind := by
  have P := parsed_of hp
  have hC := complete_of hp hd
  obtain ⟨b, hb, hbn, htb, hbk⟩ := triple_block P ht hn hk
  obtain ⟨a, rest, hab⟩ := List.append_of_mem htb
  have htu : t.up ≠ [] := by rw [child_up htb]; simp
  have hsig : sigC b = a.filter Red.sig ++ t :: rest.filter Red.sig := by
    unfold sigC; rw [hab, List.filter_append, List.filter_cons_of_pos (node_sig P ht hn)]
  have hw := sigC_whole P hC hb hbn (by rw [hbk]; exact r_block)
  rw [hsig, List.map_append, List.map_cons, symOf_node hn, hk] at hw
  obtain ⟨ha, hr⟩ := block_shape (whole_block hw)
  have ha : a.filter Red.sig = [] := by simpa using ha
  have ham : ∀ x ∈ a, x ∈ b.childrenT := fun x hx => by rw [hab]; simp [hx]
  have hrm : ∀ x ∈ rest, x ∈ b.childrenT := fun x hx => by rw [hab]; simp [hx]
  have hbt : b.tokens = a.flatMap Red.tokens ++ t.tokens ++ rest.flatMap Red.tokens := by
    rw [tokens_eq b, if_pos hbn, hab]; simp
  obtain ⟨L, R, e, hfill⟩ := exchange P hC hb hbn
  rw [hbt] at e
  have e' : (Red.root g).tokens = (L ++ a.flatMap Red.tokens ++ t.tokens) ++ (rest.flatMap Red.tokens ++ R) := by rw [e]; simp
  have hstop := tokens_at P hC hn ht htu (L := L ++ a.flatMap Red.tokens) e'
  have hr0 : rest.filter Red.sig = [] := by
    cases hc : rest.filter Red.sig with
    | nil => rfl
    | cons z T =>
      exfalso
      rw [hc] at hr
      have hz : symOf z = .tok K.Dot := by
        rcases hr with hr | hr | hr
        · cases hr
        · injection hr
        · injection hr
      obtain ⟨hzn, hzk⟩ := symOf_eq_tok.1 hz
      obtain ⟨c1, c2, hcc, hc1, -⟩ := (List.filter_eq_cons_iff.1 hc)
      have hc1k : sigKs (c1.flatMap Red.tokens) = [] :=
        flat_nil P hb (fun x hx => hrm x (by rw [hcc]; simp [hx])) (List.filter_eq_nil_iff.2 hc1)
      have hzk' : sigKs z.tokens = [K.Dot] := by
        rw [tokens_tok hzn]
        unfold sigKs
        rw [List.filter_cons_of_pos (by rw [hzk]; decide)]
        simp [hzk]
      refine hR _ _ e' hstop K.Dot ?_ (by decide)
      rw [hcc, List.flatMap_append, List.flatMap_cons, sigKs_append, sigKs_append, sigKs_append, hc1k, hzk']; rfl
  have ha0 : sigKs (a.flatMap Red.tokens) = [] := flat_nil P hb ham ha
  have hrest0 : sigKs (rest.flatMap Red.tokens) = [] := flat_nil P hb hrm hr0
  have hwt : Derives sparqlRules (.node K.TriplesSameSubjectPath) (sigKs t.tokens) := by
    have := word_derives P hC t ht (node_sig P ht hn)
    rw [symOf_node hn, hk] at this
    exact this
  have hnew : Derives sparqlRules (.node g.kind) (sigKs L ++ (sigKs t.tokens ++ [K.Dot]) ++ sigKs R) := by
    refine hfill _ ?_
    rw [hbk]
    refine .node _ _ _ r_block (.seq _ _ _ _ hwt (.optSome _ _ ?_))
    exact Derives.seq (R := sparqlRules) _ _ [K.Dot] [] (.tok _) (.optNone _)
  obtain ⟨-, k, w, l, el, hkx⟩ := P.tight t.green (P.inner_of ht hn htu)
  obtain ⟨hkt, -⟩ := tokens_row t
  rw [el] at hkt
  obtain ⟨X, Q, e1, e2, e3⟩ := List.map_eq_append_iff.1 hkt
  obtain ⟨q, Q', rfl, e4, e5⟩ := List.map_eq_cons_iff.1 e3
  have : Q' = [] := by simpa using e5
  subst this
  have hqk : q.kind = k := congrArg Prod.fst e4
  -- the white space behind the triple is part of the new one
  obtain ⟨D, B, hDB, hDw, hBw⟩ := split_white (rest.flatMap Red.tokens ++ R)
  have eD : (Red.root g).tokens = (L ++ a.flatMap Red.tokens ++ t.tokens) ++ D ++ B := by rw [e', List.append_assoc _ D B, hDB]
  have hDrule : ∀ z ∈ D, Spaces z.text ∧ ∀ c ∈ z.text, plainClass.has c = true := by
    intro z hz
    have hzk := hDw z hz
    have hzT : z ∈ (Red.root g).tokens := by rw [eD]; simp [hz]
    obtain ⟨h1, h2⟩ := mem_tokens.1 hzT
    have := P.lexed (z.kind, z.text) (Parsed.token_leaf h1 h2) (by dsimp only; rw [hzk]; decide)
    rw [hzk] at this
    exact ws_plain this
  have hDs : Spaces (flat (D.map Red.kt)) ∧ ∀ c ∈ flat (D.map Red.kt), plainClass.has c = true := by
    constructor
    · intro c hc
      obtain ⟨p, hp1, hp2⟩ := flat_mem hc
      obtain ⟨z, hz, rfl⟩ := List.mem_map.1 hp1
      exact (hDrule z hz).1 c hp2
    · intro c hc
      obtain ⟨p, hp1, hp2⟩ := flat_mem hc
      obtain ⟨z, hz, rfl⟩ := List.mem_map.1 hp1
      exact (hDrule z hz).2 c hp2
  have hput := put_tokens hp hd eD (A0 := L ++ a.flatMap Red.tokens ++ X) (q := q) (by rw [e1]; simp) (by rw [hqk]; exact hkx)
    (by rw [hqk]; exact node_end P hC ht hn el hkx) hDs.2 (fun z hz => by rw [hDw z hz]; decide)
    (I := [(K.WHITESPACE, [' ']), (K.Dot, ['.']), (K.WHITESPACE, '\n' :: (List.replicate n ' ' ++ flat (D.map Red.kt)))])
    (i := '.' :: '\n' :: (List.replicate n ' ' ++ flat (D.map Red.kt))) (by simp [flat])
    (by
      intro p hp'
      simp only [List.mem_cons, List.not_mem_nil, or_false] at hp'
      rcases hp' with rfl | rfl | rfl
      · exact hasRule_of (by decide +kernel)
      · exact hasRule_of (by decide +kernel)
      · refine dot_ws_rule (by simp) ?_
        intro c hc
        rcases List.mem_cons.1 hc with rfl | hc
        · decide
        · rcases List.mem_append.1 hc with hc | hc
          · rw [(List.mem_replicate.1 hc).2]; decide
          · exact hDs.1 c hc)
    (by
      intro p hp'
      simp only [List.mem_cons, List.not_mem_nil, or_false] at hp'
      rcases hp' with rfl | rfl | rfl <;> dsimp only <;> decide)
    (by
      show okChain [K.WHITESPACE, K.Dot, K.WHITESPACE] = true
      decide +kernel)
    (by
      intro p I0 eI y B' eB
      have : p.1 = K.WHITESPACE := by
        have h1 := congrArg List.getLast? eI
        rw [List.getLast?_concat] at h1
        simp only [List.getLast?_cons_cons, List.getLast?_singleton, Option.some.injEq] at h1
        rw [← h1]
      rw [this, touch, Bool.or_eq_true, Bool.and_eq_true]
      exact .inr ⟨by decide, ink_first (hBw y B' eB)⟩)
    (by
      refine calm_plain ?_
      intro c hc
      simp only [List.mem_cons, List.mem_append] at hc
      rcases hc with rfl | rfl | rfl | hc | hc
      · decide
      · decide
      · decide
      · rw [(List.mem_replicate.1 hc).2]; decide
      · exact hDs.2 c hc)
    (by
      have h1 : sigK [(K.WHITESPACE, [' ']), (K.Dot, ['.']), (K.WHITESPACE, '\n' :: (List.replicate n ' ' ++ flat (D.map Red.kt)))] = [K.Dot] := rfl
      have h2 : sigKs B = sigKs R := by
        have : sigKs (D ++ B) = sigKs R := by rw [hDB, sigKs_append, hrest0]; rfl
        rw [sigKs_append] at this
        have hD0 : sigKs D = [] := by
          unfold sigKs
          rw [List.filter_eq_nil_iff.2 (fun z hz => by rw [hDw z hz]; decide)]
          rfl
        rw [hD0] at this; exact this
      rw [h1, h2, sigKs_append, sigKs_append, ha0, List.append_nil]
      simpa using hnew)
  obtain ⟨h1, h2, h3, g', h4, h5⟩ := hput
  have htxt : ∀ U V : Text, U ++ flat [(K.WHITESPACE, [' ']), (K.Dot, ['.']), (K.WHITESPACE, '\n' :: (List.replicate n ' ' ++ flat (D.map Red.kt)))] ++ V =
      U ++ ([' ', '.', '\n'] ++ List.replicate n ' ') ++ (flat (D.map Red.kt) ++ V) := by
    intro U V; simp [flat]
  have hBflat : flat ((rest.flatMap Red.tokens ++ R).map Red.kt) = flat (D.map Red.kt) ++ flat (B.map Red.kt) := by
    rw [← hDB, List.map_append, flat_append]
  refine ⟨(L ++ a.flatMap Red.tokens ++ t.tokens).map Red.kt, (rest.flatMap Red.tokens ++ R).map Red.kt, g', ?_, hstop, ?_, ?_, ?_, ?_, h5⟩
  · rw [← tokens_pairs hp, e', List.map_append]
  · rw [hBflat, ← List.append_assoc]; exact h1
  · rw [hBflat, ← htxt, sigK_kinds, h2, sigK_append, sigK_append]
    have h6 : sigK ((rest.flatMap Red.tokens ++ R).map Red.kt) = sigK (D.map Red.kt) ++ sigK (B.map Red.kt) := by
      rw [← hDB, List.map_append, sigK_append]
    have hD0 : sigK (D.map Red.kt) = [] := by
      rw [← sigKs_kt]
      unfold sigKs
      rw [List.filter_eq_nil_iff.2 (fun z hz => by rw [hDw z hz]; decide)]
      rfl
    rw [h6, hD0]
    have h7 : sigK [(K.WHITESPACE, [' ']), (K.Dot, ['.']), (K.WHITESPACE, '\n' :: (List.replicate n ' ' ++ flat (D.map Red.kt)))] = [K.Dot] := rfl
    rw [h7]; simp
  · rw [hBflat, ← htxt]; exact h3
  · rw [hBflat, ← htxt]; exact h4

end

/-! ## The token ahead -/

theorem row_at {o off : Nat} : ∀ {l : List Red}, Row o l → o ≤ off → off < o + blen (flat (l.map Red.kt)) →
    ∃ L s R, l = L ++ s :: R ∧ (∀ x ∈ L, x.stop ≤ off) ∧ s.start ≤ off ∧ off < s.stop := by
  intro l
  induction l generalizing o with
  | nil => intro _ h1 h2; simp [flat] at h2; omega
  | cons t l ih =>
    rintro ⟨h1, h2⟩ h3 h4
    by_cases h : off < t.stop
    · exact ⟨[], t, l, rfl, by simp, by omega, h⟩
    · have hlen : o + blen (flat ((t :: l).map Red.kt)) = t.stop + blen (flat (l.map Red.kt)) := by
        rw [List.map_cons, flat_cons, blen_append]
        have : t.stop = t.start + blen t.text := rfl
        have e : blen t.kt.2 = blen t.text := rfl
        omega
      rw [hlen] at h4
      obtain ⟨L, s, R, e, h5, h6⟩ := ih h2 (by omega) h4
      refine ⟨t :: L, s, R, by rw [e]; rfl, fun x hx => ?_, h6⟩
      rcases List.mem_cons.1 hx with rfl | hx
      · omega
      · exact h5 x hx

theorem row_stops {o : Nat} : ∀ {l : List Red}, Row o l → l.Pairwise (fun a b => a.stop ≤ b.start) ∧ ∀ t ∈ l, o ≤ t.start := by
  intro l
  induction l generalizing o with
  | nil => intro _; exact ⟨.nil, by simp⟩
  | cons t l ih =>
    rintro ⟨h1, h2⟩
    obtain ⟨h3, h4⟩ := ih h2
    refine ⟨List.pairwise_cons.2 ⟨h4, h3⟩, fun x hx => ?_⟩
    rcases List.mem_cons.1 hx with rfl | hx
    · omega
    · have := h4 x hx
      have : t.start ≤ t.stop := by show t.start ≤ t.start + _; omega
      omega

theorem find_congr {p q : Red → Bool} : ∀ {l : List Red}, (∀ x ∈ l, p x = q x) → l.find? p = l.find? q := by
  intro l
  induction l with
  | nil => intro _; rfl
  | cons z l ih =>
    intro h
    simp only [List.find?_cons]
    rw [h z List.mem_cons_self, ih (fun x hx => h x (List.mem_cons_of_mem _ hx))]

theorem following_first {text : Text} {g : Green} (P : Parsed text g) {off : Nat} (h : off < blen (flat ((Red.root g).tokens.map Red.kt))) :
    followingToken g off = (Red.root g).tokens.find? (fun t => !triviaKind t.kind && decide (off < t.stop)) := by
  have hrow := (tokens_row (Red.root g)).2
  rw [show (Red.root g).start = 0 from rfl] at hrow
  obtain ⟨L, s, R, e, h1, h2, h3⟩ := row_at hrow (Nat.zero_le _) (by rw [Nat.zero_add]; exact h)
  have hne := root_texts P
  have hpw := (row_stops hrow).1
  rw [e, List.pairwise_append, List.pairwise_cons] at hpw
  obtain ⟨-, ⟨hsR, -⟩, hLs⟩ := hpw
  have hpos : ∀ z ∈ (Red.root g).tokens, z.start < z.stop := fun z hz => (token_pos P hz).2.2
  have hright : tokenAtRight g off = some s := by
    unfold tokenAtRight
    rw [e, List.find?_append]
    have : L.find? (fun t => decide (t.text ≠ []) && decide (t.start ≤ off) && decide (off < t.stop)) = none := by
      rw [List.find?_eq_none]
      intro x hx
      have := h1 x hx
      simp; intro _ _; omega
    rw [this, List.find?_cons_of_pos (by simp; exact ⟨⟨hne s (by rw [e]; simp), h2⟩, h3⟩)]
    rfl
  unfold followingToken
  rw [hright]
  dsimp only
  have hfil : (Red.root g).tokens.filter (fun t => decide (s.stop ≤ t.start)) = R := by
    rw [e, List.filter_append, List.filter_eq_nil_iff.2 (fun x hx => ?_), List.nil_append, List.filter_cons_of_neg, List.filter_eq_self.2]
    · intro x hx; simpa using hsR x hx
    · have := hpos s (by rw [e]; simp)
      simp; omega
    · have := hLs x hx s List.mem_cons_self
      have h4 := hpos x (by rw [e]; simp [hx])
      have h5 := hpos s (by rw [e]; simp)
      simp; omega
  rw [hfil, e, List.find?_append]
  have : L.find? (fun t => !triviaKind t.kind && decide (off < t.stop)) = none := by
    rw [List.find?_eq_none]
    intro x hx
    have := h1 x hx
    simp; intro _; omega
  rw [this, Option.none_or]
  refine find_congr ?_
  intro x hx
  have : off < x.stop := by
    rcases List.mem_cons.1 hx with rfl | hx
    · exact h3
    · have h4 := hsR x hx
      have h5 := hpos x (by rw [e]; simp [hx])
      omega
  simp [this]

theorem find_head : ∀ l : List Red, (l.find? (fun t => !triviaKind t.kind)).map Red.kind = (sigKs l).head? := by
  intro l
  induction l with
  | nil => rfl
  | cons z l ih =>
    unfold sigKs
    cases h : triviaKind z.kind with
    | true => rw [List.find?_cons_of_neg (by simp [h]), List.filter_cons_of_neg (by simp [h])]; exact ih
    | false => rw [List.find?_cons_of_pos (by simp [h]), List.filter_cons_of_pos (by simp [h])]; rfl

/-- C70. Any document, also one that is not valid: the token found ahead of an offset is the first one ending behind it that is neither white
space nor a comment; at the end of the document it is the last token — although nothing is ahead. -/
theorem c70_following (errLen : Text → Nat) (text : Text) (g errs) (hp : parseSource errLen text = some (g, errs)) (off : Nat) :
    (off < blen text → followingToken g off = (Red.root g).tokens.find? (fun t => !triviaKind t.kind && decide (off < t.stop))) ∧
    (∀ k, off < blen text → Ahead errLen text off k → (followingToken g off).map Red.kind = k) ∧
    (off = blen text → followingToken g off = (Red.root g).tokens.getLast?.filter (fun t => !triviaKind t.kind)) := by
  have P := parsed_of hp
  have hlen : flat ((Red.root g).tokens.map Red.kt) = text := by
    rw [tokens_pairs hp]; exact (lexes_flat (c47_longest_match errLen text)).1
  have hrow := (tokens_row (Red.root g)).2
  rw [show (Red.root g).start = 0 from rfl] at hrow
  refine ⟨fun h => following_first P (by rw [hlen]; exact h), fun k h hk => ?_, fun h => ?_⟩
  · obtain ⟨A, B, e, h1, rfl⟩ := hk
    rw [following_first P (by rw [hlen]; exact h)]
    rw [← tokens_pairs hp] at e
    obtain ⟨X, Y, e1, e2, e3⟩ := List.map_eq_append_iff.1 e
    subst e2; subst e3
    have hXs : ∀ x ∈ X, x.stop ≤ off := by
      intro x hx
      obtain ⟨a, b, rfl⟩ := List.append_of_mem hx
      have hr : Row 0 ((a ++ [x]) ++ (b ++ Y)) := by rw [e1] at hrow; simpa using hrow
      have := row_stop (row_prefix hr)
      rw [this, ← h1, Nat.zero_add, lv_flat]
      simp only [List.map_append, List.map_cons, List.map_nil, flat_append, flat_cons, blen_append]
      have : blen (flat []) = 0 := rfl
      omega
    have hYs : ∀ x ∈ Y, off < x.stop := by
      intro x hx
      rw [e1] at hrow
      have := (row_stops (row_split hrow)).2 x hx
      have h4 := (token_pos P (show x ∈ (Red.root g).tokens by rw [e1]; simp [hx])).2.2
      omega
    rw [e1, List.find?_append, List.find?_eq_none.2 (fun x hx => by
      have := hXs x hx
      simp; intro _; omega), Option.none_or]
    rw [← sigKs_kt, ← find_head]
    congr 1
    refine find_congr ?_
    intro x hx
    simp [hYs x hx]
  · unfold followingToken tokenAtRight
    have hend : ∀ x ∈ (Red.root g).tokens, x.stop ≤ off := by
      intro x hx
      have := P.stop_le (token_pos P hx).1
      omega
    rw [List.find?_eq_none.2 (fun x hx => by have := hend x hx; simp; intro _ _; omega)]
    dsimp only
    rcases List.eq_nil_or_concat (Red.root g).tokens with hl | ⟨l0, s, hl⟩
    · rw [hl]; rfl
    rw [List.concat_eq_append] at hl
    have hs : s ∈ (Red.root g).tokens := by rw [hl]; simp
    have h3 : s.stop = off := by
      rw [hl] at hrow
      have := row_stop hrow
      rw [this, Nat.zero_add, lv_flat, ← hl, hlen, h]
    have h2 := (token_pos P hs).2.2
    have hlast : ((Red.root g).tokens.filter (fun t => decide (t.text ≠ []) && decide (t.start ≤ off) && decide (off ≤ t.stop))).getLast? = some s := by
      rw [hl, List.filter_append, List.filter_cons_of_pos]
      · rw [List.filter_nil, List.getLast?_concat]
      · simp only [Bool.and_eq_true, decide_eq_true_eq]
        exact ⟨⟨root_texts P s hs, by omega⟩, by omega⟩
    rw [hlast]
    dsimp only
    rw [List.filter_eq_nil_iff.2 (fun x hx => by
      have h1 := hend x hx
      have h2 := (token_pos P hx).2.2
      simp; omega), hl, List.getLast?_concat]
    cases h4 : triviaKind s.kind with
    | true => rw [List.find?_cons_of_neg (by simp [h4])]; simp [Option.filter, h4]
    | false => rw [List.find?_cons_of_pos (by simp [h4])]; simp [Option.filter, h4]

/-! ## Where the object stands -/

theorem enclosers_open : sparqlRulesTree.toList.all (fun p => !enclosers.contains p.1 ||
    (headSyms nullNodes p.2).all (fun s => match s with | .tok _ => true | .node _ => false)) = true := by decide +kernel

section
variable {text : Text} {g : Green} (P : Parsed text g) (hC : ∀ n ∈ g.nodes, Grammar.Complete sparqlRules n)
include P hC

/-- A node around a token by the offsets. -/
theorem holds_token {y t : Red} (hy : InTree g y) (hn : y.isNode = true) (hu : y.up ≠ []) (ht : t ∈ (Red.root g).tokens) (h1 : y.start ≤ t.start)
    (h2 : t.start < y.stop) : y ∈ Red.chain t.up := by
  obtain ⟨L, R, e, -⟩ := exchange P hC hy hn
  have hstop := tokens_at P hC hn hy hu e
  have hrow := (tokens_row (Red.root g)).2
  rw [show (Red.root g).start = 0 from rfl, e] at hrow
  obtain ⟨-, k, w, l, el, hkx⟩ := P.tight y.green (P.inner_of hy hn hu)
  obtain ⟨h3, h4⟩ := tokens_row y
  rw [e] at ht
  rcases List.mem_append.1 ht with ht | ht
  · rcases List.mem_append.1 ht with ht | ht
    · exfalso
      cases hz : y.tokens with
      | nil => rw [hz, el] at h3; cases l <;> cases h3
      | cons z zs =>
        rw [hz] at h4
        have hp := (row_pairwise (row_prefix hrow) (fun z hz => root_texts P z (by rw [e]; simp only [List.mem_append] at hz ⊢; exact .inl hz))).2
        rw [hz, List.pairwise_append] at hp
        have := hp.2.2 t ht z List.mem_cons_self
        have := h4.1
        omega
    · have hd : t ∈ y.descendantsT := (List.mem_filter.1 ht).1
      have htn : t.isNode = false := by simpa using (List.mem_filter.1 ht).2
      rcases List.mem_cons.1 (descendantsT_anc hd) with h | h
      · rw [h] at hn; rw [hn] at htn; cases htn
      · exact h
  · exfalso
    have := (row_stops (row_split hrow)).2 t ht
    rw [hstop] at this
    omega

/-- What encloses an object that begins behind a token, encloses the token. -/
theorem encloser_of {o t : Red} (ho : InTree g o) (hon : o.isNode = true) (ht : t ∈ (Red.root g).tokens) (hts : triviaKind t.kind = false)
    (hto : t.stop ≤ o.start) (hfirst : ∀ z ∈ (Red.root g).tokens, triviaKind z.kind = false → t.stop ≤ z.start → o.start ≤ z.start)
    {y : Red} (hy : y ∈ Red.chain o.up) (hyk : y.kind ∈ enclosers) : y ∈ Red.chain t.up := by
  obtain ⟨hyT, hyn⟩ := ho.chain y hy
  obtain ⟨e, he, heo⟩ := chain_child ho hy
  have hen : e.isNode = true := by
    rcases List.mem_cons.1 heo with rfl | h
    · exact hon
    · exact (ho.chain e h).2
  have heT := hyT.child he
  have hes := node_sig P heT hen
  have hyu : y.up ≠ [] := by
    intro h
    cases hyT with
    | root => rcases P.root with h' | h' <;> rw [show (Red.root g).kind = g.kind from rfl, h'] at hyk <;> revert hyk <;> decide
    | child hp hc =>
      have := child_parent hc
      unfold Red.parent at this
      rw [h] at this; cases this
  obtain ⟨X, B, hXB⟩ := List.append_of_mem he
  have hsig : sigC y = X.filter Red.sig ++ e :: B.filter Red.sig := by
    unfold sigC; rw [hXB, List.filter_append, List.filter_cons_of_pos hes]
  obtain ⟨-, Rl, hRl, hmem, -⟩ := whole_of P hC hyT hyn
  have hwe := ho.anc_within e heo
  have hwy := ho.anc_within y (List.mem_cons_of_mem _ hy)
  cases hX : X.filter Red.sig with
  | nil =>
    exfalso
    rw [hX] at hsig
    have h1 := sigC_head P hC hyT hyn hRl hsig
    have h2 := List.all_eq_true.1 enclosers_open _ hmem
    dsimp only at h2
    rw [Bool.or_eq_true] at h2
    have h2 := h2.resolve_left (by simp [hyk])
    have h3 := List.all_eq_true.1 h2 _ h1
    rw [symOf_node hen] at h3
    cases h3
  | cons c T =>
    have hcX := List.mem_filter.1 (show c ∈ X.filter Red.sig by rw [hX]; simp)
    have hc : c ∈ y.childrenT := by rw [hXB]; simp [hcX.1]
    have hcw := child_within hc
    have hpw := childrenT_pairwise y
    rw [hXB, List.pairwise_append] at hpw
    have hce : c.stop ≤ e.start := hpw.2.2 c hcX.1 e List.mem_cons_self
    obtain ⟨z, hz, hzk, hzs⟩ := first_sig P (hyT.child hc) hcX.2 (by rw [child_up hc]; simp)
    have hzpos := (token_pos P hz).2.2
    have htpos := (token_pos P ht).2.2
    have hcpos : c.start < c.stop := by
      cases hcn : c.isNode with
      | true =>
        have := P.node_nonempty (hyT.child hc) hcn (by rw [child_up hc]; simp)
        have := blen_pos this
        show c.start < c.start + blen c.text
        omega
      | false => exact Format.token_pos P (hyT.child hc) hcn
    have hzt : z.start ≤ t.start := by
      apply Nat.le_of_not_lt
      intro hlt
      have hts : t.stop ≤ z.start := by
        have hpw := (row_stops (tokens_row (Red.root g)).2).1
        obtain ⟨a, b, e⟩ := List.append_of_mem ht
        rw [e] at hz hpw
        rw [List.pairwise_append, List.pairwise_cons] at hpw
        rcases List.mem_append.1 hz with h | h
        · have := hpw.2.2 z h t List.mem_cons_self; omega
        · rcases List.mem_cons.1 h with h | h
          · rw [h] at hlt; omega
          · exact hpw.2.1.1 z h
      have := hfirst z hz hzk hts
      have := hwe.1
      omega
    refine holds_token P hC hyT hyn hyu ht (by have := hcw.1; omega) ?_
    have h1 : o.start ≤ o.stop := by show o.start ≤ o.start + _; omega
    have := hwy.2
    omega

/-- An object that is not enclosed has a triple. -/
theorem object_triple : ∀ {y : Red}, InTree g y → y.isNode = true → y.kind ∈ objectPath → (∀ z ∈ Red.chain y.up, z.kind ∉ enclosers) →
    ∃ x, ObjectOf y x := by
  intro y hy
  induction hy with
  | root =>
    intro _ hk
    exfalso
    rcases P.root with h' | h' <;> rw [show (Red.root g).kind = g.kind from rfl, h'] at hk <;> revert hk <;> decide
  | @child p c hp hc ih =>
    intro hn hk hA
    have hch : Red.chain c.up = p :: Red.chain p.up := parent_chain (child_parent hc)
    have h0 := List.all_eq_true.1 path_parents _ hk
    obtain ⟨p', h1, h2, h3, h4⟩ := P.parent_kind (hp.child hc) hn (by intro h; rw [h] at hk; revert hk; decide) (by
      rintro rfl
      have := child_up hc
      cases this) _ h0
    have : p' = p := by
      have e1 := child_parent h3
      have e2 := child_parent hc
      rw [e1] at e2; injection e2
    subst this
    rw [hch] at hA
    rcases List.mem_cons.1 h4 with h | h
    · exact ⟨p', [], Red.chain p'.up, by rw [hch]; rfl, h, by simp⟩
    · rcases List.mem_append.1 h with h | h
      · obtain ⟨x, A, B, h5, h6, h7⟩ := ih h2 h (fun z hz => hA z (List.mem_cons_of_mem _ hz))
        refine ⟨x, p' :: A, B, by rw [hch, h5]; rfl, h6, fun z hz => ?_⟩
        rcases List.mem_cons.1 hz with rfl | hz
        · intro hh
          rcases List.mem_cons.1 hh with hh | hh
          · rw [hh] at h; revert h; decide
          · exact hA z List.mem_cons_self hh
        · exact h7 z hz
      · exact absurd h (hA p' List.mem_cons_self)

end

/-- The token that ends a row of significant tokens is determined. -/
theorem before_inj {text : Text} {g : Green} (P : Parsed text g) {s t : Red} (hs : s ∈ (Red.root g).tokens) (ht : t ∈ (Red.root g).tokens)
    (hsk : triviaKind s.kind = false) (htk : triviaKind t.kind = false) (h : before (Red.root g) s.stop = before (Red.root g) t.stop) : s = t := by
  have key : ∀ {s t : Red}, triviaKind t.kind = false → ∀ {a b c : List Red}, (Red.root g).tokens = a ++ s :: (b ++ t :: c) →
      before (Red.root g) s.stop = before (Red.root g) t.stop → False := by
    intro s t htk a b c e h
    rw [before_split P e, before_split P (a := a ++ s :: b) (b := c) (by rw [e]; simp)] at h
    have := congrArg List.length h
    have h1 : sigKs [t] = [t.kind] := by
      unfold sigKs
      rw [List.filter_cons_of_pos (by simp [htk])]
      rfl
    rw [show a ++ s :: b ++ [t] = (a ++ [s]) ++ b ++ [t] by simp, sigKs_append (a ++ [s] ++ b), sigKs_append (a ++ [s]), h1] at this
    simp at this
  obtain ⟨a, b, e⟩ := List.append_of_mem hs
  have ht' := ht
  rw [e] at ht'
  rcases List.mem_append.1 ht' with h1 | h1
  · exfalso
    obtain ⟨x, y, e1⟩ := List.append_of_mem h1
    exact key (a := x) (b := y) (c := b) hsk (by rw [e, e1]; simp) h.symm
  · rcases List.mem_cons.1 h1 with h1 | h1
    · exact h1.symm
    · exfalso
      obtain ⟨x, y, e1⟩ := List.append_of_mem h1
      exact key (a := a) (b := x) (c := y) htk (by rw [e, e1]) h

theorem not_ahead {errLen : Text → Nat} {text : Text} {g errs} (hp : parseSource errLen text = some (g, errs)) {off : Nat}
    (h : ∀ k, Ahead errLen text off (some k) → k ∉ separatorKinds) :
    ∀ A B, (Red.root g).tokens = A ++ B → blen (flat (A.map Red.kt)) = off → ∀ k, (sigKs B).head? = some k → k ∉ separatorKinds := by
  intro A B e h1 k hk
  refine h k ⟨A.map Red.kt, B.map Red.kt, ?_, h1, ?_⟩
  · rw [← tokens_pairs hp, e, List.map_append]
  · rw [← sigKs_kt]; exact hk.symm

/-- C70. Valid documents: behind an object of a triple that is not followed by a dot, a semicolon or a comma, a dot and a new line can be put;
the new document is valid, of the same type, and has that one token more. -/
theorem c70_suffix (errLen : Text → Nat) (text : Text) (g errs) (hp : parseSource errLen text = some (g, errs))
    (hd : Derives sparqlRules (.node g.kind) (kinds (lex errLen text))) (o x : Red) (ho : InTree g o) (hn : o.isNode = true)
    (hk : o.kind = K.ObjectPath) (hx : ObjectOf o x) (hnext : ∀ k, Ahead errLen text o.stop (some k) → k ∉ separatorKinds) (n : Nat) :
    ∃ A B g', tokenPairs errLen text = A ++ B ∧ blen (flat A) = o.stop ∧ text = flat A ++ flat B ∧
      kinds (lex errLen (flat A ++ ([' ', '.', '\n'] ++ List.replicate n ' ') ++ flat B)) = sigK A ++ K.Dot :: sigK B ∧
      Derives sparqlRules (.node g.kind) (kinds (lex errLen (flat A ++ ([' ', '.', '\n'] ++ List.replicate n ' ') ++ flat B))) ∧
      parseSource errLen (flat A ++ ([' ', '.', '\n'] ++ List.replicate n ' ') ++ flat B) = some (g', []) ∧ g'.kind = g.kind := by
  have P := parsed_of hp
  have hC := complete_of hp hd
  have hR := not_ahead hp hnext
  obtain ⟨A, B, h1, h2, h3⟩ := hx
  obtain ⟨h4, h5, h6⟩ := path_triple P hC ho hn (by rw [hk]; decide) h1 h2 h3 hR
  rw [← h4] at hR ⊢
  exact insert_dot hp hd h5 h6 h2 hR n

theorem append_blen {a b c d : Text} (h : a ++ b = c ++ d) (hl : blen a = blen c) : a = c ∧ b = d := by
  rcases List.append_eq_append_iff.1 h with ⟨z, e1, e2⟩ | ⟨z, e1, e2⟩
  · have : z = [] := by
      cases hz : z with
      | nil => rfl
      | cons c z' =>
        exfalso
        rw [e1, blen_append] at hl
        have : z ≠ [] := by rw [hz]; simp
        have := blen_pos this
        omega
    subst this; exact ⟨by simpa using e1.symm, by simpa using e2⟩
  · have : z = [] := by
      cases hz : z with
      | nil => rfl
      | cons c z' =>
        exfalso
        rw [e1, blen_append] at hl
        have : z ≠ [] := by rw [hz]; simp
        have := blen_pos this
        omega
    subst this; exact ⟨by simpa using e1, by simpa using e2.symm⟩

/-- C70. A completion is asked for between the tokens of a document `a ++ r`, valid or not, where an object is expected, and not inside of an
annotation. Accepting the item `v` in place of the search term without what is added to it would make the valid document `p ++ v ++ r`, in
which the item is one object. Then, if the transformer sees no separator, what it makes of the item is a text and the place of the cursor, and
accepting it makes a valid document with one dot more; if it sees one and there is text behind the cursor, the item is left as it is, and a
separator is what comes next. -/
theorem c70_accepted {errLen : Text → Nat} {a r p v : Text} {g g' G : Green} {errs errs' errsG}
    -- the text in front of the cursor and the location
    (hp : parseSource errLen a = some (g, errs)) {t : Red} (ht : t ∈ (Red.root g).tokens) (hs : triviaKind t.kind = false)
    {ks : List Kind} {off : Nat} {x : Red} (hloc : getLocation (some t) ks off = .object x)
    (hann : ∀ y ∈ Red.chain t.up, y.kind ≠ K.AnnotationBlockPath)
    -- the whole document
    (hG : parseSource errLen (a ++ r) = some (G, errsG)) {A B : List (Kind × Text)} (hcur : tokenPairs errLen (a ++ r) = A ++ B) (hA : flat A = a)
    -- the document with the item
    (hp' : parseSource errLen (p ++ trimEnd v ++ r) = some (g', errs')) (hkind : g.kind = g'.kind)
    (hd : Derives sparqlRules (.node g'.kind) (kinds (lex errLen (p ++ trimEnd v ++ r))))
    (hpre : kinds (lex errLen a) <+: kinds (lex errLen (p ++ trimEnd v ++ r)))
    {t' o : Red} (ht' : t' ∈ (Red.root g').tokens) (hs' : triviaKind t'.kind = false)
    (hsame : sigKs ((Red.root g').tokens.filter (fun z => decide (z.start < t'.stop))) = sigKs ((Red.root g).tokens.filter (fun z => decide (z.start < t.stop))))
    (ho : InTree g' o) (hon : o.isNode = true) (hok : o.kind = K.ObjectPath) (hto : t'.stop ≤ o.start)
    (hfirst : ∀ z ∈ (Red.root g').tokens, triviaKind z.kind = false → t'.stop ≤ z.start → o.start ≤ z.start)
    (hend : o.stop = blen (p ++ trimEnd v)) (tab : Nat) :
    (followedBySeparator G (blen a) = false → ∃ w g'', objectSuffix G (blen a) (.object x) (some t) tab v = some (w ++ ['$', '0']) ∧
      w = trimEnd v ++ [' ', '.', '\n'] ++ List.replicate (braceDepth t * tab) ' ' ∧
      Derives sparqlRules (.node g'.kind) (kinds (lex errLen (p ++ w ++ r))) ∧
      parseSource errLen (p ++ w ++ r) = some (g'', []) ∧ g''.kind = g'.kind ∧
      ∃ X Y, kinds (lex errLen (p ++ trimEnd v ++ r)) = X ++ Y ∧ kinds (lex errLen (p ++ w ++ r)) = X ++ K.Dot :: Y) ∧
    (followedBySeparator G (blen a) = true → objectSuffix G (blen a) (.object x) (some t) tab v = some (trimEnd v) ∧
      (r ≠ [] → ∃ k ∈ separatorKinds, Ahead errLen (p ++ trimEnd v ++ r) (blen (p ++ trimEnd v)) (some k))) := by
  have P' := parsed_of hp'
  have hC' := complete_of hp' hd
  have hou : o.up ≠ [] := by
    intro h
    cases ho with
    | root => rcases P'.root with h' | h' <;> rw [show (Red.root g').kind = g'.kind from rfl, h'] at hok <;> revert hok <;> decide
    | child hp hc =>
      have := child_parent hc
      unfold Red.parent at this
      rw [h] at this; cases this
  -- the rest of the two documents
  obtain ⟨L, R, eLR, -⟩ := exchange P' hC' ho hon
  have hLR := tokens_at P' hC' hon ho hou eLR
  have hpairs' := tokens_pairs hp'
  rw [eLR, List.map_append] at hpairs'
  have hL' : Lexes (p ++ trimEnd v ++ r) (tokenPairs errLen (p ++ trimEnd v ++ r)) := c47_longest_match _ _
  have hfl' := (lexes_flat hL').1
  rw [← hpairs', flat_append] at hfl'
  obtain ⟨hfA', hfR⟩ := append_blen hfl' (by rw [hLR, hend])
  have hLR' : Lexes r (R.map Red.kt) := by
    rw [← hpairs'] at hL'
    have := lexes_suffix hL'
    rw [hfR] at this
    exact this
  have hBR : B = R.map Red.kt := by
    have hL : Lexes (a ++ r) (tokenPairs errLen (a ++ r)) := c47_longest_match _ _
    have hfl := (lexes_flat hL).1
    rw [hcur, flat_append, hA] at hfl
    have hfB : flat B = r := List.append_cancel_left hfl
    rw [hcur] at hL
    have := lexes_suffix hL
    rw [hfB] at this
    refine (c47_determined _ _ _ hLR' this ?_).symm
    intro z hz
    refine valid_noError hd z ?_
    rw [← hpairs']
    exact List.mem_append_right _ hz
  have hahead : ∀ k, Ahead errLen (p ++ trimEnd v ++ r) o.stop (some k) → (sigK B).head? = some k := by
    rintro k ⟨X, Y, h1, h2, h3⟩
    have hfY : flat X ++ flat Y = (p ++ trimEnd v) ++ r := by
      rw [← flat_append, ← h1]; exact (lexes_flat (c47_longest_match errLen _)).1
    obtain ⟨-, h5⟩ := append_blen hfY (by rw [h2, hend])
    have h6 : Lexes r Y := by
      have h7 : Lexes (p ++ trimEnd v ++ r) (X ++ Y) := by rw [← h1]; exact c47_longest_match _ _
      have := lexes_suffix h7
      rw [h5] at this
      exact this
    have : R.map Red.kt = Y := c47_determined _ _ _ hLR' h6 (fun z hz => valid_noError hd z (by rw [← hpairs']; exact List.mem_append_right _ hz))
    rw [hBR, this]; exact h3.symm
  have hrlen : r ≠ [] → blen a < blen (a ++ r) := by
    intro h
    have := blen_pos h
    rw [blen_append]; omega
  have hfol : r ≠ [] → (followingToken G (blen a)).map Red.kind = (sigK B).head? := fun h =>
    (c70_following errLen (a ++ r) G errsG hG (blen a)).2.1 _ (hrlen h) ⟨A, B, hcur, by rw [hA], rfl⟩
  have hsep : followedBySeparator G (blen a) = true ↔ ∃ k ∈ separatorKinds, (followingToken G (blen a)).map Red.kind = some k := by
    unfold followedBySeparator
    cases followingToken G (blen a) with
    | none => simp
    | some s =>
      simp only [separatorKinds, Option.map_some, Option.some.injEq, List.mem_cons, List.not_mem_nil, or_false, Bool.or_eq_true, beq_iff_eq]
      constructor
      · intro h; exact ⟨s.kind, by rcases h with (h | h) | h <;> simp [h], rfl⟩
      · rintro ⟨k, h, rfl⟩
        rcases h with h | h | h <;> simp [h]
  -- the triple
  have hobj : ∃ x', ObjectOf o x' := by
    refine object_triple P' hC' ho hon (by rw [hok]; decide) ?_
    intro z hz hzk
    have hz' := encloser_of P' hC' ho hon ht' hs' hto hfirst hz hzk
    obtain ⟨t2, ht2, hs2, hb2, halike, -⟩ := typing_sound hp hp' hkind hd hpre ht hs
    have : t2 = t' := before_inj P' ht2 ht' hs2 hs' (by rw [hb2]; exact hsame.symm)
    subst this
    have hback : ∃ q ∈ Red.chain t.up, q.kind = z.kind := by
      clear hb2 hsame hloc hann
      generalize Red.chain t.up = l at halike
      generalize Red.chain t2.up = l' at halike hz'
      induction l' generalizing l with
      | nil => cases hz'
      | cons q' l' ih =>
        cases l with
        | nil => exact absurd halike (by intro h; exact h)
        | cons q l =>
          obtain ⟨h1, -, h3⟩ := halike
          rcases List.mem_cons.1 hz' with h | h
          · exact ⟨q, List.mem_cons_self, by rw [h1, h]⟩
          · obtain ⟨y, h4, h5⟩ := ih l h3 h
            exact ⟨y, List.mem_cons_of_mem _ h4, h5⟩
    obtain ⟨q, hq, hqk⟩ := hback
    rcases List.mem_append.1 hzk with h | h
    · have := ((c69_around t ks off).1 x (.inr hloc)).2 q hq
      rw [hqk] at this
      exact this h
    · rw [List.mem_singleton.1 h] at hqk
      exact hann q hq hqk
  refine ⟨fun hno => ?_, fun hyes => ⟨?_, fun hr => ?_⟩⟩
  · obtain ⟨x', hx'⟩ := hobj
    have hnext : ∀ k, Ahead errLen (p ++ trimEnd v ++ r) o.stop (some k) → k ∉ separatorKinds := by
      intro k hk hkm
      have h1 := hahead k hk
      have hr : r ≠ [] := by
        rintro rfl
        have hl : Lexes [] (R.map Red.kt) := hLR'
        have := (lexes_flat hl)
        rw [hBR] at h1
        cases hR0 : R.map Red.kt with
        | nil => rw [hR0] at h1; cases h1
        | cons z zs =>
          rw [hR0, flat_cons] at this
          have h2 := this.2 z List.mem_cons_self
          have h3 := this.1
          cases hz2 : z.2 with
          | nil => exact h2 hz2
          | cons c cs => rw [hz2] at h3; cases h3
      have : followedBySeparator G (blen a) = true := hsep.2 ⟨k, hkm, by rw [hfol hr]; exact h1⟩
      rw [this] at hno; cases hno
    obtain ⟨A1, B1, g'', h1, h2, h3, h4, h5, h6, h7⟩ := c70_suffix errLen _ g' errs' hp' hd o x' ho hon hok hx' hnext (braceDepth t * tab)
    obtain ⟨e1, e2⟩ := append_blen h3.symm (by rw [h2, hend])
    rw [e1, e2] at h4 h5 h6
    refine ⟨_, g'', ?_, rfl, ?_, ?_, h7, sigK A1, sigK B1, ?_, ?_⟩
    · simp only [objectSuffix, suffixed, hno, suffixIndent, Bool.false_eq_true, if_false]
    · simpa using h5
    · simpa using h6
    · rw [sigK_kinds, h1, sigK_append]
    · simpa using h4
  · simp only [objectSuffix, suffixed, hyes, if_true]
  · obtain ⟨k, hk, h1⟩ := hsep.1 hyes
    rw [hfol hr] at h1
    exact ⟨k, hk, (L ++ o.tokens).map Red.kt, R.map Red.kt, hpairs'.symm, by rw [hfA'], by rw [← hBR]; exact h1.symm⟩

/-! ## Cases -/

theorem cut_anchor : (anchorOf cutTree 19).isSome = true := by decide +kernel
theorem obj_verb : ((Red.root objFullTree).tokens.find? (fun z => z.start == 14)).isSome = true := by decide +kernel
theorem obj_path : ((Red.root objFullTree).descendantsT.find? (fun z => z.isNode && z.kind == K.ObjectPath)).isSome = true := by decide +kernel

/-- A document, an item for the object at the cursor behind it, and everything that `c70_accepted` asks for; the item stands without a separator behind it. -/
theorem c70_cases : ∃ t t' o : Red,
    -- the text in front of the cursor
    parseSource (fun _ => 1) cutText = some (cutTree, [{ start := 19, stop := 19, expected := [K.RCurly] }, { start := 19, stop := 19, expected := [K.RCurly] }]) ∧
    anchorOf cutTree 19 = some t ∧ t ∈ (Red.root cutTree).tokens ∧ triviaKind t.kind = false ∧ Conts cutTree (some t) [K.ObjectListPath] ∧
    (∃ x, getLocation (some t) [K.ObjectListPath] 19 = .object x) ∧ (∀ y ∈ Red.chain t.up, y.kind ≠ K.AnnotationBlockPath) ∧
    -- the whole document and the document with the item
    cutText ++ ['}', '}'] = objFullText ∧ cutText.take 17 ++ trimEnd ['?', 'o', ' '] ++ ['}', '}'] = objFullText ∧
    parseSource (fun _ => 1) objFullText = some (objFullTree, []) ∧ cutTree.kind = objFullTree.kind ∧
    Derives sparqlRules (.node objFullTree.kind) (kinds (lex (fun _ => 1) objFullText)) ∧
    kinds (lex (fun _ => 1) cutText) <+: kinds (lex (fun _ => 1) objFullText) ∧
    (∃ A B, tokenPairs (fun _ => 1) objFullText = A ++ B ∧ flat A = cutText) ∧
    t' ∈ (Red.root objFullTree).tokens ∧ triviaKind t'.kind = false ∧
    sigKs ((Red.root objFullTree).tokens.filter (fun z => decide (z.start < t'.stop))) =
      sigKs ((Red.root cutTree).tokens.filter (fun z => decide (z.start < t.stop))) ∧
    InTree objFullTree o ∧ o.isNode = true ∧ o.kind = K.ObjectPath ∧ t'.stop ≤ o.start ∧
    (∀ z ∈ (Red.root objFullTree).tokens, triviaKind z.kind = false → t'.stop ≤ z.start → o.start ≤ z.start) ∧
    o.stop = blen (cutText.take 17 ++ trimEnd ['?', 'o', ' ']) ∧
    followedBySeparator objFullTree 19 = false ∧
    -- the item, and the document with it
    objectSuffix objFullTree 19 (getLocation (some t) [K.ObjectListPath] 19) (some t) 2 ['?', 'o', ' '] =
      some (['?', 'o', ' ', '.', '\n', ' ', ' ', ' ', ' '] ++ ['$', '0']) ∧
    cutText.take 17 ++ ['?', 'o', ' ', '.', '\n', ' ', ' ', ' ', ' '] ++ ['}', '}'] = objDoneText ∧
    parseSource (fun _ => 1) objDoneText = some (objDoneTree, []) := by
  have ea := (Option.some_get cut_anchor).symm
  have e1 := (Option.some_get obj_verb).symm
  have e2 := (Option.some_get obj_path).symm
  refine ⟨_, _, _, cutTree_parse, ea, ?_, by decide +kernel, conts_run (by decide +kernel), ?_, by decide +kernel, by decide +kernel, by decide +kernel,
    objFullTree_parse, by decide +kernel, objFull_derives, ⟨[K.RCurly, K.RCurly], by decide +kernel⟩, ?_,
    List.mem_of_find?_eq_some e1, by decide +kernel, by decide +kernel, inTree_of_mem_descendantsT _ .root _ (List.mem_of_find?_eq_some e2),
    by decide +kernel, by decide +kernel, by decide +kernel, by decide +kernel, by decide +kernel, by decide +kernel, by decide +kernel,
    by decide +kernel, objDoneTree_parse⟩
  · exact anchor_token cutTree_parse ea
  · have : (match getLocation (some ((anchorOf cutTree 19).get cut_anchor)) [K.ObjectListPath] 19 with | .object _ => true | _ => false) = true := by
      decide +kernel
    revert this
    cases getLocation (some ((anchorOf cutTree 19).get cut_anchor)) [K.ObjectListPath] 19 <;> simp
  · exact ⟨(tokenPairs (fun _ => 1) objFullText).take (tokenPairs (fun _ => 1) cutText).length,
      (tokenPairs (fun _ => 1) objFullText).drop (tokenPairs (fun _ => 1) cutText).length, (List.take_append_drop _ _).symm, by decide +kernel⟩

/-- Inside of an annotation the item gets its dot, too, and the document that was valid is not any more. -/
theorem c70_annotation_breaks : (parseSource (fun _ => 1) annCutText).map Prod.fst = some annCutTree ∧
    (anchorOf annCutTree 26).map (fun a => (a.kind, braceDepth a)) = some (K.IRIREF, 1) ∧
    Conts annCutTree (anchorOf annCutTree 26) [K.PathMod, K.Slash, K.Pipe, K.ObjectListPath] ∧
    atEnd annCutTree 26 [K.PathMod, K.Slash, K.Pipe, K.ObjectListPath] = (4, 10, 0) ∧ followedBySeparator annDoneTree 29 = false ∧
    objectSuffix annDoneTree 29 (getLocation (anchorOf annCutTree 26) [K.PathMod, K.Slash, K.Pipe, K.ObjectListPath] 26) (anchorOf annCutTree 26) 2
      ['<', 'b', '>', ' '] = some ['<', 'b', '>', ' ', '.', '\n', ' ', ' ', '$', '0'] ∧
    annDoneText = annCutText ++ ['<', 'b', '>'] ++ [' ', '|', '}', '}'] ∧ parseSource (fun _ => 1) annDoneText = some (annDoneTree, []) ∧
    Derives sparqlRules (.node annDoneTree.kind) (kinds (lex (fun _ => 1) annDoneText)) ∧
    annDotText = annCutText ++ ['<', 'b', '>', ' ', '.', '\n', ' ', ' '] ++ ['|', '}', '}'] ∧
    ∃ e es, parseSource (fun _ => 1) annDotText = some (annDotTree, e :: es) :=
  ⟨by rw [annCutTree_parse]; rfl, by decide +kernel, conts_run (by decide +kernel), by decide +kernel, by decide +kernel, by decide +kernel,
    by decide +kernel, annDoneTree_parse, annDone_derives, by decide +kernel, _, _, annDotTree_parse⟩

/-- At the end of the document the separator in front of the cursor counts as the following one. -/
theorem c70_end_of_document : (parseSource (fun _ => 1) commaText).map Prod.fst = some commaTree ∧ blen commaText = 20 ∧
    followedBySeparator commaTree 20 = true ∧ ∀ k, Ahead (fun _ => 1) commaText 20 k → k = none := by
  refine ⟨by rw [commaTree_parse]; rfl, by decide +kernel, by decide +kernel, ?_⟩
  rintro k ⟨A, B, h1, h2, rfl⟩
  have hL : Lexes commaText (A ++ B) := by rw [← h1]; exact c47_longest_match _ _
  have hf := (lexes_flat hL)
  rw [flat_append] at hf
  have h3 : flat A ++ flat B = commaText ++ [] := by rw [hf.1]; simp
  have h4 := (append_blen h3 (by rw [h2]; decide +kernel)).2
  cases hB : B with
  | nil => rfl
  | cons z zs =>
    exfalso
    rw [hB, flat_cons] at h4
    have := hf.2 z (by rw [hB]; simp)
    cases hz : z.2 with
    | nil => exact this hz
    | cons c cs => rw [hz] at h4; cases h4

end Verif.Props
