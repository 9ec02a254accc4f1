import Verif.Features.Projection
import Verif.Features.TripleEnd
import Verif.Props.SelectDiagnostics
import Verif.Lexer.Splice
/-!
# The select clause

How a select clause of a valid document is made up, what is in front of it and what behind it.
-/
namespace Verif.Props
open Verif Verif.Grammar Verif.Lexer Verif.Features Verif.Format

/-! ## Words -/

def ruleAssign : Rule := .seq (.tok K.LParen) (.seq (.node K.Expression) (.seq (.tok K.AS) (.seq (.node K.Var) (.tok K.RParen))))
def ruleItem : Rule := .alt (.node K.Var) ruleAssign
def ruleItems : Rule := .seq ruleItem (.rep ruleItem)
def ruleClause : Rule := .seq (.tok K.SELECT) (.seq (.opt (.alt (.tok K.DISTINCT) (.tok K.REDUCED))) (.alt ruleItems (.tok K.Star)))

theorem r_clause : sparqlRules K.SelectClause = some ruleClause := by decide +kernel

theorem whole_item {l : List Sym} (h : Whole sparqlRules ruleItem l) : l = [.node K.Var] ∨
    l = [.tok K.LParen, .node K.Expression, .tok K.AS, .node K.Var, .tok K.RParen] := by
  cases h with
  | altL h => exact .inl (whole_node (by decide +kernel) h)
  | altR h =>
    right
    cases h with
    | seq h1 h =>
      cases h with
      | seq h2 h =>
        cases h with
        | seq h3 h =>
          cases h with
          | seq h4 h5 =>
            rw [whole_tok h1, whole_node (by decide +kernel) h2, whole_tok h3, whole_node (by decide +kernel) h4, whole_tok h5]
            rfl

/-- An opening parenthesis starts an item. -/
theorem whole_items_split {r : Rule} {l : List Sym} (h : Whole sparqlRules r l) : r = .rep ruleItem → ∀ {u v}, l = u ++ .tok K.LParen :: v →
    Whole sparqlRules (.rep ruleItem) u ∧ Whole sparqlRules (.rep ruleItem) (.tok K.LParen :: v) := by
  induction h with
  | tok => intro e; cases e
  | node => intro e; cases e
  | empty => intro e; cases e
  | seq => intro e; cases e
  | altL => intro e; cases e
  | altR => intro e; cases e
  | optNone => intro e; cases e
  | optSome => intro e; cases e
  | repNil => intro _ u v e; cases u <;> cases e
  | @repCons r' x y d ds _ ih =>
    intro e
    cases e
    intro u v e
    rcases List.append_eq_append_iff.1 e with ⟨z, e1, e2⟩ | ⟨z, e1, e2⟩
    · obtain ⟨h1, h2⟩ := ih rfl e2
      rw [e1]
      exact ⟨.repCons d h1, h2⟩
    · cases z with
      | nil =>
        rw [List.append_nil] at e1
        have e2 : y = .tok K.LParen :: v := e2.symm
        rw [← e1, ← e2]
        refine ⟨?_, ds⟩
        have := Whole.repCons d (.repNil (R := sparqlRules) ruleItem)
        rwa [List.append_nil] at this
      | cons c z =>
        injection e2 with e2 e3
        subst e2
        have hu : u = [] := by
          rcases whole_item d with h | h
          · exfalso
            have : Sym.tok K.LParen ∈ x := by rw [e1]; simp
            rw [h] at this; revert this; decide
          · rw [h] at e1
            cases u with
            | nil => rfl
            | cons a u =>
              exfalso
              injection e1 with _ e1
              have : Sym.tok K.LParen ∈ [Sym.node K.Expression, .tok K.AS, .node K.Var, .tok K.RParen] := by rw [e1]; simp
              revert this; decide
        subst hu
        refine ⟨.repNil _, ?_⟩
        have := Whole.repCons d ds
        rw [e1] at this
        rw [e3]
        simpa using this

theorem derives_rep_append {r : Rule} {u v : List Kind} (hu : Derives sparqlRules (.rep r) u) (hv : Derives sparqlRules (.rep r) v) :
    Derives sparqlRules (.rep r) (u ++ v) := by
  generalize hR : Rule.rep r = R at hu
  induction hu with
  | repNil => cases hR; exact hv
  | repCons r' a b d ds _ ih =>
    cases hR
    rw [List.append_assoc]
    exact .repCons _ _ _ d (ih rfl)
  | _ => cases hR

theorem derives_items {w : List Kind} (h : Derives sparqlRules (.rep ruleItem) w) (hw : w ≠ []) : Derives sparqlRules ruleItems w := by
  generalize hR : Rule.rep ruleItem = R at h
  cases h with
  | repNil => exact absurd rfl hw
  | repCons r' a b d ds => cases hR; exact .seq _ _ _ _ d ds
  | _ => cases hR

theorem derives_one {r : Rule} {w : List Kind} (h : Derives sparqlRules r w) : Derives sparqlRules (.rep r) w := by
  have := Derives.repCons r w [] h (.repNil r)
  rwa [List.append_nil] at this

/-- What is in a node: the tokens of every word. -/
theorem kinds_within {f : Sym → Bool} (ht : sparqlRulesTree.toList.all (fun p => !f (.node p.1) || allSyms f p.2) = true) {r : Rule} {w : List Kind}
    (h : Derives sparqlRules r w) : allSyms f r = true → ∀ k ∈ w, f (.tok k) = true := by
  induction h with
  | tok k => intro hf k' hk; rw [List.mem_singleton.1 hk]; exact hf
  | node k r w hr d ih =>
    intro hf
    have := List.all_eq_true.1 ht (k, r) (sparqlRulesTree.find_mem k r hr)
    have hf : f (.node k) = true := hf
    rw [hf, Bool.not_true, Bool.false_or] at this
    exact ih this
  | seq a b u v da db iha ihb =>
    intro hf k hk
    simp only [allSyms, Bool.and_eq_true] at hf
    rcases List.mem_append.1 hk with h | h
    · exact iha hf.1 k h
    · exact ihb hf.2 k h
  | altL a b w d ih => intro hf; simp only [allSyms, Bool.and_eq_true] at hf; exact ih hf.1
  | altR a b w d ih => intro hf; simp only [allSyms, Bool.and_eq_true] at hf; exact ih hf.2
  | optNone r => intro _ k hk; cases hk
  | optSome r w d ih => intro hf; exact ih hf
  | repNil r => intro _ k hk; cases hk
  | repCons r u v d ds iha ihb =>
    intro hf k hk
    rcases List.mem_append.1 hk with h | h
    · exact iha hf k h
    · exact ihb hf k h

section
variable {text : Text} {g : Green} (P : Parsed text g) (hC : ∀ n ∈ g.nodes, Complete sparqlRules n)
include P hC

/-- The parts of a select clause. -/
structure Head (c : Red) (H M : List Red) : Prop where
  eq : sigC c = H ++ M
  head : ∀ x ∈ H, x.isNode = false ∧ x.kind ∈ [K.SELECT, K.DISTINCT, K.REDUCED]
  ne : H ≠ []
  fill : ∀ w, Derives sparqlRules ruleItems w → Derives sparqlRules (.node K.SelectClause) ((H.map word).flatten ++ w)
  items : (∃ t, M = [t] ∧ t.isNode = false ∧ t.kind = K.Star) ∨ (M ≠ [] ∧ Whole sparqlRules (.rep ruleItem) (M.map symOf))

theorem clause_head {c : Red} (hc : InTree g c) (hn : c.isNode = true) (hk : c.kind = K.SelectClause) : ∃ H M, Head c H M := by
  have hw := sigC_whole P hC hc hn (by rw [hk]; exact r_clause)
  generalize hl : (sigC c).map symOf = l at hw
  cases hw with
  | @seq _ _ u v h1 h2 =>
    have hu := whole_tok h1
    subst hu
    cases h2 with
    | @seq _ _ d m h2 h3 =>
      obtain ⟨S, rest, e1, e2, e3⟩ := List.map_eq_append_iff.1 hl
      obtain ⟨D, M, e4, e5, e6⟩ := List.map_eq_append_iff.1 e3
      obtain ⟨s, S', rfl, e7, e8⟩ := List.map_eq_cons_iff.1 e2
      have : S' = [] := by simpa using e8
      subst this
      obtain ⟨hs1, hs2⟩ := symOf_eq_tok.1 e7
      have hd : d = [] ∨ d = [.tok K.DISTINCT] ∨ d = [.tok K.REDUCED] := by
        cases h2 with
        | optNone => exact .inl rfl
        | optSome h2 =>
          cases h2 with
          | altL h2 => exact .inr (.inl (whole_tok h2))
          | altR h2 => exact .inr (.inr (whole_tok h2))
      have hsigm : ∀ x ∈ sigC c, x.sig = true := fun x hx => (mem_sigC.1 hx).2
      have hDm : ∀ x ∈ D, x.isNode = false ∧ x.kind ∈ [K.DISTINCT, K.REDUCED] := by
        intro x hx
        have : symOf x ∈ d := by rw [← e5]; exact List.mem_map.2 ⟨x, hx, rfl⟩
        rcases hd with hd | hd | hd <;> rw [hd] at this
        · cases this
        · have h := symOf_eq_tok.1 (List.mem_singleton.1 this); exact ⟨h.1, by rw [h.2]; simp⟩
        · have h := symOf_eq_tok.1 (List.mem_singleton.1 this); exact ⟨h.1, by rw [h.2]; simp⟩
      refine ⟨s :: D, M, ?_, ?_, by simp, ?_, ?_⟩
      · rw [e1, e4]; rfl
      · intro x hx
        rcases List.mem_cons.1 hx with rfl | hx
        · exact ⟨hs1, by rw [hs2]; simp⟩
        · have := hDm x hx
          refine ⟨this.1, ?_⟩
          have h2 := this.2
          simp only [List.mem_cons, List.not_mem_nil, or_false] at h2 ⊢
          exact .inr h2
      · intro w hw
        refine .node _ _ _ r_clause ?_
        have hs : word s = [K.SELECT] := by
          rw [word_tok hs1 (hsigm s (by rw [e1]; simp)), hs2]
        rw [List.map_cons, List.flatten_cons, hs, List.append_assoc]
        refine .seq _ _ _ _ (.tok _) (.seq _ _ _ _ ?_ (.altL _ _ _ hw))
        have key := words_derive P hC hc (l := D) (fun x hx => mem_sigC.1 (by rw [e1, e4]; simp [hx]))
        rw [e5] at key
        exact whole_subst h2 key
      · cases h3 with
        | altL h3 =>
          right
          constructor
          · rintro rfl
            have e6 : m = [] := e6.symm
            subst e6
            have := null_whole null_ok h3 rfl
            revert this; decide +kernel
          · rw [e6]
            cases h3 with
            | seq h4 h5 => exact .repCons h4 h5
        | altR h3 =>
          left
          rw [whole_tok h3] at e6
          obtain ⟨t, M', rfl, e9, e10⟩ := List.map_eq_cons_iff.1 e6
          have : M' = [] := by simpa using e10
          subst this
          exact ⟨t, rfl, symOf_eq_tok.1 e9⟩

omit hC in
/-- The last child of a node is significant. -/
theorem last_sig {c : Red} (hc : InTree g c) (hn : c.isNode = true) (hu : c.up ≠ []) : ∃ X y, c.childrenT = X ++ [y] ∧ y.sig = true := by
  obtain ⟨-, k, w, l, el, hkx⟩ := P.tight c.green (P.inner_of hc hn hu)
  rcases List.eq_nil_or_concat c.childrenT with h | ⟨X, y, h⟩
  · exfalso
    have := (tokens_row c).1
    rw [tokens_eq c, if_pos hn, h, el] at this
    cases l <;> cases this
  · rw [List.concat_eq_append] at h
    refine ⟨X, y, h, ?_⟩
    cases hs : y.sig with
    | true => rfl
    | false =>
      exfalso
      have ht : triviaKind y.kind = true := by simpa [Red.sig] using hs
      have hyn := trivia_token P (hc.child (by rw [h]; simp)) ht
      have := (tokens_row c).1
      rw [tokens_eq c, if_pos hn, h, el, List.flatMap_append, List.flatMap_cons, List.flatMap_nil, List.append_nil, tokens_tok hyn,
        List.map_append] at this
      have := (List.append_inj' this rfl).2
      have : y.kt = (k, w) := by simpa using this
      have : y.kind = k := congrArg Prod.fst this
      rw [this, hkx] at ht; cases ht

omit hC in
/-- The tokens of children: trivia, or part of the word of a child. -/
theorem token_word {r : Red} (hr : InTree g r) {l : List Red} (hl : ∀ c ∈ l, c ∈ r.childrenT) {t : Red} (ht : t ∈ l.flatMap Red.tokens) :
    triviaKind t.kind = true ∨ ∃ x ∈ l.filter Red.sig, t.kind ∈ word x := by
  obtain ⟨x, hx, htx⟩ := List.mem_flatMap.1 ht
  cases hk : triviaKind t.kind with
  | true => exact .inl rfl
  | false =>
    right
    refine ⟨x, List.mem_filter.2 ⟨hx, ?_⟩, ?_⟩
    · cases hs : x.sig with
      | true => rfl
      | false =>
        exfalso
        have htr : triviaKind x.kind = true := by simpa [Red.sig] using hs
        have hxn := trivia_token P (hr.child (hl x hx)) htr
        rw [tokens_tok hxn] at htx
        rw [List.mem_singleton.1 htx, htr] at hk; cases hk
    · exact List.mem_map.2 ⟨t, List.mem_filter.2 ⟨htx, by simp [hk]⟩, rfl⟩

/-! ## What is around a select clause -/

/-- Tokens that begin like an IRI. -/
def lessKinds : List Kind := [K.Less, K.LessEquals, K.DoubleLess, K.DoubleLessLParen]

/-- In front of a gap: no `<` since the last brace. -/
structure Front (A : List Red) : Prop where
  split : ∃ L1 L2, A = L1 ++ L2 ∧ (∀ t ∈ L2, t.kind ∉ lessKinds) ∧ (L1 = [] ∨ ∃ L q, L1 = L ++ [q] ∧ q.kind = K.LCurly)

omit P hC in
theorem Front.add {A B : List Red} (h : Front A) (hB : ∀ t ∈ B, t.kind ∉ lessKinds) : Front (A ++ B) := by
  obtain ⟨L1, L2, e, h1, h2⟩ := h.split
  refine ⟨L1, L2 ++ B, by rw [e]; simp, ?_, h2⟩
  intro t ht
  rcases List.mem_append.1 ht with ht | ht
  · exact h1 t ht
  · exact hB t ht

omit P hC in
theorem trivia_less {k : Kind} (h : triviaKind k = true) : k ∉ lessKinds := by
  have : k = K.WHITESPACE ∨ k = K.Comment := by simpa [triviaKind] using h
  rcases this with rfl | rfl <;> decide

/-- What a prologue is made of. -/
def prologueSym : Sym → Bool
  | .node k => [K.Prologue, K.BaseDecl, K.PrefixDecl, K.VersionDecl, K.VersionSpecifier].contains k
  | .tok k => [K.BASE, K.PREFIX, K.VERSION, K.IRIREF, K.PNAME_NS, K.STRING_LITERAL1, K.STRING_LITERAL2].contains k

omit P hC in
theorem prologue_table : sparqlRulesTree.toList.all (fun p => !prologueSym (.node p.1) || allSyms prologueSym p.2) = true := by decide +kernel

/-- What a query is written behind, white space and comments aside. -/
def frontEnds : List Kind := [K.LCurly, K.IRIREF, K.STRING_LITERAL1, K.STRING_LITERAL2]

/-- What a prologue ends with. -/
def prologueEnd : Sym → Nat
  | .node k => if [K.Prologue, K.BaseDecl, K.PrefixDecl, K.VersionDecl, K.VersionSpecifier].contains k then 1 else 0
  | .tok k => if frontEnds.contains k then 1 else 0

omit P hC in
theorem prologue_ends : sparqlRulesTree.toList.all (fun p => (tailSyms nullNodes p.2).all (fun s => subMask (prologueEnd (.node p.1)) (prologueEnd s))) = true := by
  decide +kernel

/-- The last token of a row of children. -/
theorem flat_last {r : Red} (hr : InTree g r) {l : List Red} (hl : ∀ c ∈ l, c ∈ r.childrenT) {L0 : List Red} {q : Red} (e : l.flatMap Red.tokens = L0 ++ [q])
    (hq : triviaKind q.kind = false) : ∃ l0 x T, l = l0 ++ [x] ∧ x.tokens = T ++ [q] ∧ x.sig = true := by
  rcases List.eq_nil_or_concat l with h | ⟨l0, x, h⟩
  · rw [h] at e; cases L0 <;> cases e
  · rw [List.concat_eq_append] at h
    have hx := hl x (by rw [h]; simp)
    have hne : x.tokens ≠ [] := by
      cases hn : x.isNode with
      | false => rw [tokens_tok hn]; simp
      | true =>
        obtain ⟨-, k, w, l, el, -⟩ := P.tight x.green (P.inner_of (hr.child hx) hn (by rw [child_up hx]; simp))
        intro h0
        have := (tokens_row x).1
        rw [h0, el] at this
        cases l <;> cases this
    rcases List.eq_nil_or_concat x.tokens with h0 | ⟨T, y, h0⟩
    · exact absurd h0 hne
    rw [List.concat_eq_append] at h0
    have hy : y = q := by
      rw [h, List.flatMap_append, List.flatMap_cons, List.flatMap_nil, List.append_nil, h0, ← List.append_assoc] at e
      simpa using (List.append_inj' e rfl).2
    subst hy
    refine ⟨l0, x, T, h, h0, ?_⟩
    cases hs : x.sig with
    | true => rfl
    | false =>
      exfalso
      have ht : triviaKind x.kind = true := by simpa [Red.sig] using hs
      have hxn := trivia_token P (hr.child hx) ht
      rw [tokens_tok hxn] at h0
      cases T with
      | nil => injection h0 with h0 _; rw [h0, hq] at ht; cases ht
      | cons z T => injection h0 with _ h0; cases T <;> cases h0

theorem front_ends {s : Red} (hs : IsSelect g s) : ∃ L R, (Red.root g).tokens = L ++ s.tokens ++ R ∧ Front L ∧
    (∀ w, Derives sparqlRules (.node s.kind) w → Derives sparqlRules (.node g.kind) (sigKs L ++ w ++ sigKs R)) ∧
    ∀ L0 q, L = L0 ++ [q] → triviaKind q.kind = false → q.kind ∈ frontEnds := by
  obtain ⟨hT, hn, hk⟩ := hs
  have hroot : ∀ {x : Red}, x.kind ≠ K.QueryUnit → x.kind ≠ K.UpdateUnit → x ≠ Red.root g := by
    rintro x h1 h2 rfl
    rcases P.root with h | h
    · exact h1 h
    · exact h2 h
  -- one step down
  have down : ∀ {p x : Red} {L R a b : List Red}, InTree g p → (Red.root g).tokens = L ++ p.tokens ++ R → p.childrenT = a ++ x :: b → x.isNode = true →
      (∀ w, Derives sparqlRules (.node p.kind) w → Derives sparqlRules (.node g.kind) (sigKs L ++ w ++ sigKs R)) →
      (Red.root g).tokens = (L ++ a.flatMap Red.tokens) ++ x.tokens ++ (b.flatMap Red.tokens ++ R) ∧
      ∀ w, Derives sparqlRules (.node x.kind) w → Derives sparqlRules (.node g.kind) (sigKs (L ++ a.flatMap Red.tokens) ++ w ++ sigKs (b.flatMap Red.tokens ++ R)) := by
    intro p x L R a b hp e hab hxn h
    have hpn := child_isNode (show x ∈ p.childrenT by rw [hab]; simp)
    refine ⟨?_, fun w hw => ?_⟩
    · have : p.tokens = a.flatMap Red.tokens ++ x.tokens ++ b.flatMap Red.tokens := by
        rw [tokens_eq p, if_pos hpn, hab]; simp
      rw [e, this]; simp
    · have h2 := h _ (exchange_child P hC hp hab hxn hw)
      rw [sigKs_append, sigKs_append]
      simpa using h2
  rcases hk with hk | hk
  · obtain ⟨q, hq, hqn, hsq, hqk⟩ := P.parent_kind hT hn (by rw [hk]; decide) (hroot (by rw [hk]; decide) (by rw [hk]; decide)) [K.Query]
      (by rw [hk]; decide +kernel)
    have hqk : q.kind = K.Query := by simpa using hqk
    obtain ⟨u, hu, hun, hqu, huk⟩ := P.parent_kind hq hqn (by rw [hqk]; decide) (hroot (by rw [hqk]; decide) (by rw [hqk]; decide)) [K.QueryUnit]
      (by rw [hqk]; decide +kernel)
    have huk : u.kind = K.QueryUnit := by simpa using huk
    obtain ⟨a', b', hab'⟩ := List.append_of_mem hqu
    obtain ⟨a, b, hab⟩ := List.append_of_mem hsq
    have hur : u = Red.root g := by
      apply Classical.byContradiction
      intro hne
      obtain ⟨r, -, -, -, h4⟩ := P.parent_kind hu hun (by rw [huk]; decide) hne [] (by rw [huk]; decide +kernel)
      cases h4
    obtain ⟨e1, x1⟩ := down (L := []) (R := []) hu (by rw [hur]; simp) hab' hqn (by
      intro w hw
      rw [hur] at hw
      rw [show sigKs [] = [] from rfl, List.nil_append, List.append_nil]; exact hw)
    obtain ⟨e2, x2⟩ := down hq e1 hab hn x1
    have hpart1 : ∀ t ∈ a'.flatMap Red.tokens, triviaKind t.kind = true := by
      intro t ht
      rcases token_word P hu (l := a') (fun c hc => by rw [hab']; simp [hc]) ht with h | ⟨x, hx, -⟩
      · exact h
      · exfalso
        have hsig : sigC u = a'.filter Red.sig ++ q :: b'.filter Red.sig := by
          unfold sigC; rw [hab', List.filter_append, List.filter_cons_of_pos (node_sig P hq hqn)]
        have hw := sigC_whole P hC hu hun (R := .node K.Query) (by rw [huk]; decide +kernel)
        have hw := whole_node (by decide +kernel) hw
        rw [hsig, List.map_append, List.map_cons] at hw
        have h0 : a'.filter Red.sig = [] := by
          cases hf : a'.filter Red.sig with
          | nil => rfl
          | cons y T => rw [hf] at hw; injection hw with _ hw; cases T <;> cases hw
        rw [h0] at hx; cases hx
    have hpart2 : ∀ x ∈ a.filter Red.sig, symOf x = .node K.Prologue := by
        intro x hx
        have hsig : sigC q = a.filter Red.sig ++ s :: b.filter Red.sig := by
          unfold sigC; rw [hab, List.filter_append, List.filter_cons_of_pos (node_sig P hT hn)]
        have hxm := List.mem_filter.1 hx
        have hxq : x ∈ q.childrenT := by rw [hab]; simp [hxm.1]
        have hwh := sigC_whole P hC hq hqn (R := rule_Query) (by rw [hqk]; decide +kernel)
        rw [hsig, List.map_append, List.map_cons, symOf_node hn, hk] at hwh
        obtain ⟨u1, u2, e3⟩ := List.append_of_mem hx
        rw [e3] at hwh
        generalize hl : (u1 ++ x :: u2).map symOf ++ Sym.node K.SelectQuery :: (b.filter Red.sig).map symOf = l at hwh
        cases hwh with
        | @seq _ _ m1 m2 h1 h2 =>
          cases h1 with
          | node =>
            cases u1 with
            | nil => injection hl
            | cons y u1 =>
              exfalso
              injection hl with _ hl
              cases h2 with
              | @seq _ _ n1 n2 h2 h3 =>
                obtain ⟨k1, hk1⟩ : ∃ k1, n1 = [.node k1] := by
                  cases h2 with
                  | altL h2 => exact ⟨_, whole_node (by decide +kernel) h2⟩
                  | altR h2 =>
                    cases h2 with
                    | altL h2 => exact ⟨_, whole_node (by decide +kernel) h2⟩
                    | altR h2 =>
                      cases h2 with
                      | altL h2 => exact ⟨_, whole_node (by decide +kernel) h2⟩
                      | altR h2 => exact ⟨_, whole_node (by decide +kernel) h2⟩
                have hn2 : n2 = [] ∨ n2 = [.node K.ValuesClause] := by
                  cases h3 with
                  | node => exact .inr rfl
                  | empty => exact .inl rfl
                rw [hk1] at hl
                cases u1 with
                | nil =>
                  injection hl with _ hl
                  rcases hn2 with h | h <;> rw [h] at hl
                  · cases u2 <;> cases hl
                  · have hl : u2.map symOf ++ Sym.node K.SelectQuery :: (b.filter Red.sig).map symOf = [.node K.ValuesClause] := hl
                    have : Sym.node K.SelectQuery ∈ [Sym.node K.ValuesClause] := by rw [← hl]; simp
                    revert this; decide
                | cons y' u1 =>
                  injection hl with _ hl
                  have hl : (u1 ++ x :: u2).map symOf ++ Sym.node K.SelectQuery :: (b.filter Red.sig).map symOf = n2 := hl
                  have : Sym.node K.SelectQuery ∈ n2 := by rw [← hl]; simp
                  rcases hn2 with h | h <;> rw [h] at this <;> revert this <;> decide
          | empty =>
            exfalso
            cases h2 with
            | @seq _ _ n1 n2 h2 h3 =>
              obtain ⟨k1, hk1⟩ : ∃ k1, n1 = [.node k1] := by
                cases h2 with
                | altL h2 => exact ⟨_, whole_node (by decide +kernel) h2⟩
                | altR h2 =>
                  cases h2 with
                  | altL h2 => exact ⟨_, whole_node (by decide +kernel) h2⟩
                  | altR h2 =>
                    cases h2 with
                    | altL h2 => exact ⟨_, whole_node (by decide +kernel) h2⟩
                    | altR h2 => exact ⟨_, whole_node (by decide +kernel) h2⟩
              have hn2 : n2 = [] ∨ n2 = [.node K.ValuesClause] := by
                cases h3 with
                | node => exact .inr rfl
                | empty => exact .inl rfl
              rw [hk1] at hl
              have hl : (u1 ++ x :: u2).map symOf ++ Sym.node K.SelectQuery :: (b.filter Red.sig).map symOf = .node k1 :: n2 := hl
              have hin : Sym.node K.SelectQuery ∈ n2 := by
                cases u1 with
                | nil => injection hl with _ hl; rw [← hl]; simp
                | cons y u1 => injection hl with _ hl; rw [← hl]; simp
              rcases hn2 with h | h <;> rw [h] at hin <;> revert hin <;> decide
    refine ⟨_, _, e2, ?_, x2, ?_⟩
    · refine ⟨[], _, rfl, ?_, .inl rfl⟩
      intro t ht
      rcases List.mem_append.1 (show t ∈ a'.flatMap Red.tokens ++ a.flatMap Red.tokens from ht) with ht | ht
      · exact trivia_less (hpart1 t ht)
      rcases token_word P hq (l := a) (fun c hc => by rw [hab]; simp [hc]) ht with h | ⟨x, hx, hw⟩
      · exact trivia_less h
      · have hxm := List.mem_filter.1 hx
        have hxq : x ∈ q.childrenT := by rw [hab]; simp [hxm.1]
        have hxs := hpart2 x hx
        have hd := word_derives P hC x (hq.child hxq) hxm.2
        rw [hxs] at hd
        have hd : Derives sparqlRules (.node K.Prologue) (word x) := hd
        have := kinds_within prologue_table hd (by decide) _ hw
        intro hless
        simp only [prologueSym, List.contains_iff_mem] at this
        revert hless this
        generalize t.kind = k
        intro h1 h2
        have hall : ([K.BASE, K.PREFIX, K.VERSION, K.IRIREF, K.PNAME_NS, K.STRING_LITERAL1, K.STRING_LITERAL2] : List Kind).all (fun k => !lessKinds.contains k) = true := by
          decide
        have := List.all_eq_true.1 hall k h2
        rw [List.contains_iff_mem.2 h1] at this; cases this
    · intro L0 z e hz
      have e : a'.flatMap Red.tokens ++ a.flatMap Red.tokens = L0 ++ [z] := e
      rcases List.eq_nil_or_concat (a.flatMap Red.tokens) with h0 | ⟨L1, z', h0⟩
      · rw [h0, List.append_nil] at e
        have := hpart1 z (by rw [e]; simp)
        rw [this] at hz; cases hz
      · rw [List.concat_eq_append] at h0
        have hz' : z' = z := by
          rw [h0, ← List.append_assoc] at e
          simpa using (List.append_inj' e rfl).2
        subst hz'
        obtain ⟨l0, x, T, h1, h2, h3⟩ := flat_last P hC hq (l := a) (fun c hc => by rw [hab]; simp [hc]) h0 hz
        have hxq : x ∈ q.childrenT := by rw [hab, h1]; simp
        have hxs := hpart2 x (List.mem_filter.2 ⟨by rw [h1]; simp, h3⟩)
        have hleaves : x.green.leaves = T.map Red.kt ++ [z'.kt] := by
          rw [← (tokens_row x).1, h2]; simp
        have hb := behind_gen P hC prologueEnd (fun k => prologueEnd (.tok k)) (fun _ => rfl) prologue_ends x (hq.child hxq) (by simpa [Red.sig] using h3) hleaves hz 0
          (by rw [hxs]; decide)
        have hb : (prologueEnd (.tok z'.kind)).testBit 0 = true := hb
        unfold prologueEnd at hb
        dsimp only at hb
        split at hb
        · next h => exact List.contains_iff_mem.1 h
        · exfalso; revert hb; decide
  · obtain ⟨p, hp, hpn, hsp, hpk⟩ := P.parent_kind hT hn (by rw [hk]; decide) (hroot (by rw [hk]; decide) (by rw [hk]; decide)) [K.GroupGraphPattern]
      (by rw [hk]; decide +kernel)
    have hpk : p.kind = K.GroupGraphPattern := by simpa using hpk
    obtain ⟨L, R, e, hx⟩ := exchange P hC hp hpn
    obtain ⟨a, b, hab⟩ := List.append_of_mem hsp
    obtain ⟨e2, x2⟩ := down hp e hab hn hx
    have hsig : sigC p = a.filter Red.sig ++ s :: b.filter Red.sig := by
      unfold sigC; rw [hab, List.filter_append, List.filter_cons_of_pos (node_sig P hT hn)]
    have hwh := sigC_whole P hC hp hpn (by rw [hpk]; exact r_pattern)
    rw [hsig, List.map_append, List.map_cons, symOf_node hn, hk] at hwh
    have ha : ∃ lc, a.filter Red.sig = [lc] ∧ lc.isNode = false ∧ lc.kind = K.LCurly := by
      generalize hl : (a.filter Red.sig).map symOf ++ Sym.node K.SubSelect :: (b.filter Red.sig).map symOf = l at hwh
      cases hwh with
      | @seq _ _ m1 m2 h1 h2 =>
        rw [whole_tok h1] at hl
        cases hf : a.filter Red.sig with
        | nil => rw [hf] at hl; injection hl with hl _; cases hl
        | cons lc T =>
          rw [hf] at hl
          injection hl with hl1 hl2
          refine ⟨lc, ?_, symOf_eq_tok.1 hl1⟩
          cases T with
          | nil => rfl
          | cons y T =>
            exfalso
            cases h2 with
            | @seq _ _ n1 n2 h2 h3 =>
              rw [whole_tok h3] at hl2
              have hn1 : n1 = [] ∨ ∃ k, n1 = [.node k] := by
                cases h2 with
                | altL h2 => cases h2 with
                  | node => exact .inr ⟨_, rfl⟩
                  | empty => exact .inl rfl
                | altR h2 => cases h2 with
                  | node => exact .inr ⟨_, rfl⟩
                  | empty => exact .inl rfl
              have hin : Sym.node K.SubSelect ∈ T.map symOf ++ Sym.node K.SubSelect :: (b.filter Red.sig).map symOf := by simp
              rcases hn1 with h | ⟨k1, h⟩ <;> rw [h] at hl2 <;> injection hl2 with _ hl2
              · have hl2 : T.map symOf ++ Sym.node K.SubSelect :: (b.filter Red.sig).map symOf = [] := hl2
                rw [hl2] at hin; cases hin
              · have hl2 : T.map symOf ++ Sym.node K.SubSelect :: (b.filter Red.sig).map symOf = [.tok K.RCurly] := hl2
                rw [hl2] at hin; revert hin; decide
    obtain ⟨lc, hlc, hln, hlk⟩ := ha
    obtain ⟨a1, a2, haa⟩ := List.append_of_mem (List.mem_filter.1 (show lc ∈ a.filter Red.sig by rw [hlc]; simp)).1
    have hlsig : lc.sig = true := (List.mem_filter.1 (show lc ∈ a.filter Red.sig by rw [hlc]; simp)).2
    have ha2 : a2.filter Red.sig = [] := by
      rw [haa, List.filter_append, List.filter_cons_of_pos hlsig] at hlc
      cases hf : a1.filter Red.sig with
      | nil => rw [hf] at hlc; simpa using hlc
      | cons y T => rw [hf] at hlc; injection hlc with _ hlc; cases T <;> cases hlc
    have htriv : ∀ t ∈ a2.flatMap Red.tokens, triviaKind t.kind = true := by
      intro t ht
      rcases token_word P hp (l := a2) (fun c hc => by rw [hab, haa]; simp [hc]) ht with h | ⟨x, hx, -⟩
      · exact h
      · rw [ha2] at hx; cases hx
    refine ⟨_, _, e2, ⟨L ++ a1.flatMap Red.tokens ++ [lc], a2.flatMap Red.tokens, ?_, fun t ht => trivia_less (htriv t ht), .inr ⟨_, _, rfl, hlk⟩⟩, x2, ?_⟩
    · rw [haa]; simp [tokens_tok hln]
    · intro L0 z e hz
      have e : (L ++ a1.flatMap Red.tokens ++ [lc]) ++ a2.flatMap Red.tokens = L0 ++ [z] := by rw [← e, haa]; simp [tokens_tok hln]
      rcases List.eq_nil_or_concat (a2.flatMap Red.tokens) with h0 | ⟨L1, z', h0⟩
      · rw [h0, List.append_nil] at e
        have hz' : lc = z := by simpa using (List.append_inj' e rfl).2
        rw [← hz', hlk]; decide
      · rw [List.concat_eq_append] at h0
        have hz' : z' = z := by
          rw [h0, ← List.append_assoc] at e
          simpa using (List.append_inj' e rfl).2
        have := htriv z (by rw [h0, hz']; simp)
        rw [this] at hz; cases hz

theorem front_select {s : Red} (hs : IsSelect g s) : ∃ L R, (Red.root g).tokens = L ++ s.tokens ++ R ∧ Front L ∧
    ∀ w, Derives sparqlRules (.node s.kind) w → Derives sparqlRules (.node g.kind) (sigKs L ++ w ++ sigKs R) := by
  obtain ⟨L, R, h1, h2, h3, -⟩ := front_ends P hC hs
  exact ⟨L, R, h1, h2, h3⟩

end
end Verif.Props
