import Verif.Features.SubSelectPut
import Verif.Features.DemoActions
import Verif.Props.Projection
/-!
# C64: "Transform into Sub-Select"
-/
namespace Verif.Props
open Verif Verif.Grammar Verif.Lexer Verif.Features Verif.Format

/-! ## Specification -/

/-- The selected element is the query, or the keyword `SELECT` of its head. -/
def Chosen (el s : Red) : Prop := el = s ∨ ∃ c, Part s K.SelectClause c ∧ el ∈ c.childrenT ∧ el.isNode = false ∧ el.kind = K.SELECT

/-- The head contains a `*`. -/
def Starred (c : Red) : Prop := ∃ t ∈ c.childrenT, t.isNode = false ∧ t.kind = K.Star

/-- The new query has the same columns: `*` if the query has one, otherwise its variables, those behind `AS` included. -/
def SameColumns (c : Red) (I : List (Kind × Text)) : Prop :=
  (Starred c → I = [(K.Star, ['*'])]) ∧
  (¬ Starred c → ∃ vs, vs = c.childrenT.filter (fun v => v.isNode && v.kind == K.Var) ∧ vs ≠ [] ∧
    sigPairs I = (vs.map (fun v => v.tokens.map Red.kt)).flatten ∧ ∀ v ∈ vs, ∃ k, (k = K.VAR1 ∨ k = K.VAR2) ∧ v.tokens.map Red.kt = [(k, v.text)])

/-- The outcome: the tokens `Q` of the query are now inside two pairs of braces behind a new head with the same columns. They have the same kinds, and
the same text but for blanks behind line breaks; the tokens around are as before. The new document is valid and of the same type. -/
def Wrapped (errLen : Text → Nat) (text : Text) (g : Green) (n : Nat) (s : Red) (edits : List TextEdit) : Prop :=
  ∃ A B Q' c I L g', tokenPairs errLen text = A ++ s.tokens.map Red.kt ++ B ∧ blen (flat A) = s.start ∧ Part s K.SelectClause c ∧ SameColumns c I ∧
    L = A ++ (wrapTokens I n ++ (Q' ++ (closeTokens '\n' n ++ B))) ∧
    List.Forall₂ (fun p q : Kind × Text => q.1 = p.1 ∧ q.2 = indentLines (2 * n) p.2) (s.tokens.map Red.kt) Q' ∧
    applyTextEdits text edits = some (ensureNL (flat L)) ∧ tokenPairs errLen (flat L) = L ∧
    Derives sparqlRules (.node g.kind) (kinds (lex errLen (flat L))) ∧ parseSource errLen (flat L) = some (g', []) ∧ g'.kind = g.kind

/-! ## The columns -/

/-- The tokens of the variables, with blanks in between. -/
def varTokens : List Red → List (Kind × Text)
  | [] => []
  | [v] => v.tokens.map Red.kt
  | v :: w :: l => v.tokens.map Red.kt ++ (K.WHITESPACE, [' ']) :: varTokens (w :: l)

def selTokens (c : Red) : List (Kind × Text) := if starSelection c then [(K.Star, ['*'])] else varTokens (projectedVars c)

theorem star_ok : SelOk [(K.Star, ['*'])] := by
  refine ⟨?_, ?_, by decide +kernel, ll_sound (n := 20) (by decide +kernel), ?_⟩
  · intro p hp; rw [List.mem_singleton.1 hp]; exact hasRule_of (by decide +kernel)
  · intro p hp; rw [List.mem_singleton.1 hp]; decide
  · intro c hc
    have : c = '*' := by simpa [flat] using hc
    rw [this]; decide

/-- A list of variables. -/
structure VarsOk (I : List (Kind × Text)) : Prop where
  rules : ∀ p ∈ I, HasRule p
  noErr : ∀ p ∈ I, p.1 ≠ K.Error
  chain : okChain (K.WHITESPACE :: (I.map (·.1) ++ [K.WHITESPACE])) = true
  items : Derives sparqlRules (.rep ruleItem) (sigK I)
  ne : sigK I ≠ []
  plain : ∀ c ∈ flat I, plainClass.has c = true

theorem vars_ok : ∀ {l : List Red}, l ≠ [] → (∀ v ∈ l, ∃ k, (k = K.VAR1 ∨ k = K.VAR2) ∧ v.tokens.map Red.kt = [(k, v.text)] ∧ HasRule (k, v.text)) →
    VarsOk (varTokens l) := by
  intro l
  have one : ∀ {k : Kind} {w : Text}, (k = K.VAR1 ∨ k = K.VAR2) → HasRule (k, w) → VarsOk [(k, w)] := by
    intro k w hk hr
    refine ⟨?_, ?_, ?_, ?_, ?_, ?_⟩
    · intro p hp; rw [List.mem_singleton.1 hp]; exact hr
    · intro p hp; rw [List.mem_singleton.1 hp]; show k ≠ K.Error; rcases hk with rfl | rfl <;> decide
    · show okChain [K.WHITESPACE, k, K.WHITESPACE] = true
      rcases hk with rfl | rfl <;> decide +kernel
    · have : sigK [(k, w)] = [k] := by rcases hk with rfl | rfl <;> rfl
      rw [this]
      rcases hk with rfl | rfl
      · exact ll_sound (n := 20) (by decide +kernel)
      · exact ll_sound (n := 20) (by decide +kernel)
    · have : sigK [(k, w)] = [k] := by rcases hk with rfl | rfl <;> rfl
      rw [this]; simp
    · intro c hc
      have : c ∈ w := by simpa [flat] using hc
      exact var_plain hk hr c this
  induction l with
  | nil => intro h; exact absurd rfl h
  | cons v l ih =>
    intro _ h
    obtain ⟨k, hk, hv, hr⟩ := h v (by simp)
    cases l with
    | nil => rw [varTokens, hv]; exact one hk hr
    | cons w l =>
      have i := ih (by simp) (fun x hx => h x (by simp [hx]))
      have o := one hk hr
      rw [varTokens, hv]
      refine ⟨?_, ?_, ?_, ?_, ?_, ?_⟩
      · intro p hp
        rcases List.mem_append.1 hp with h | h
        · exact o.rules p h
        · rcases List.mem_cons.1 h with rfl | h
          · exact blank_rule
          · exact i.rules p h
      · intro p hp
        rcases List.mem_append.1 hp with h | h
        · exact o.noErr p h
        · rcases List.mem_cons.1 h with rfl | h
          · decide
          · exact i.noErr p h
      · have := okChain_join (a := [K.WHITESPACE, k]) (k := K.WHITESPACE) (b := (varTokens (w :: l)).map (·.1) ++ [K.WHITESPACE]) o.chain i.chain
        simpa using this
      · rw [sigK_append]
        exact derives_rep_append o.items i.items
      · rw [sigK_append]
        intro h0
        exact o.ne (List.append_eq_nil_iff.1 h0).1
      · intro c hc
        rw [flat_append, flat_cons] at hc
        rcases List.mem_append.1 hc with h | h
        · exact o.plain c h
        · rcases List.mem_append.1 h with h | h
          · have : c = ' ' := by simpa using h
            rw [this]; decide
          · exact i.plain c h

theorem VarsOk.sel {I : List (Kind × Text)} (h : VarsOk I) : SelOk I := by
  refine ⟨h.rules, h.noErr, h.chain, ?_, h.plain⟩
  have := Derives.node K.SelectClause ruleClause _ r_clause (.seq _ _ _ _ (.tok K.SELECT) (.seq _ _ _ _ (.optNone _) (.altL _ _ _ (derives_items h.items h.ne))))
  simpa using this

theorem varTokens_flat : ∀ {l : List Red}, (∀ v ∈ l, ∃ k, v.tokens.map Red.kt = [(k, v.text)]) → flat (varTokens l) = unwords (l.map Red.text) := by
  intro l
  induction l with
  | nil => intro _; rfl
  | cons v l ih =>
    intro h
    obtain ⟨k, hv⟩ := h v (by simp)
    cases l with
    | nil => rw [varTokens, hv]; simp [flat, unwords]
    | cons w l =>
      have i := ih (fun x hx => h x (by simp [hx]))
      rw [varTokens, hv, flat_append, flat_cons (_, _) (varTokens _), i]
      simp [flat, unwords]

theorem varTokens_sig : ∀ {l : List Red}, (∀ v ∈ l, ∃ k, (k = K.VAR1 ∨ k = K.VAR2) ∧ v.tokens.map Red.kt = [(k, v.text)]) →
    sigPairs (varTokens l) = (l.map (fun v => v.tokens.map Red.kt)).flatten := by
  intro l
  have one : ∀ {k : Kind} {w : Text}, (k = K.VAR1 ∨ k = K.VAR2) → sigPairs [(k, w)] = [(k, w)] := by
    intro k w hk; rcases hk with rfl | rfl <;> rfl
  induction l with
  | nil => intro _; rfl
  | cons v l ih =>
    intro h
    obtain ⟨k, hk, hv⟩ := h v (by simp)
    cases l with
    | nil => rw [varTokens, hv, one hk]; simp [hv]
    | cons w l =>
      rw [varTokens, hv, List.map_cons, List.flatten_cons, ← ih (fun x hx => h x (by simp [hx])), hv]
      show sigPairs ([(k, v.text)] ++ ([(K.WHITESPACE, [' '])] ++ varTokens (w :: l))) = _
      unfold sigPairs
      rw [List.filter_append, List.filter_append]
      have := one (w := v.text) hk
      unfold sigPairs at this
      rw [this]; rfl

/-! ## The element -/

theorem coverIn_mem {a b : Nat} {up : List Site} : ∀ {cs : List Green} {idx off : Nat} {x : Red}, coverIn a b cs idx off up = some x →
    ∃ s ∈ childSites idx off cs, x = coverAt a b s.green s.idx s.off up := by
  intro cs
  induction cs with
  | nil => intro idx off x h; rw [coverIn] at h; cases h
  | cons g gs ih =>
    intro idx off x h
    unfold coverIn at h
    rw [childSites]
    split at h
    · exact ⟨⟨g, idx, off⟩, by simp, by injection h with h; exact h.symm⟩
    · obtain ⟨s, hs, e⟩ := ih h
      exact ⟨s, by simp [hs], e⟩

theorem coverRed_in {g : Green} {a b : Nat} (r : Red) : InTree g r → InTree g (coverRed a b r) := by
  refine red_induction (P := fun r => InTree g r → InTree g (coverRed a b r)) ?_ r
  intro r ih hr
  obtain ⟨⟨gr, idx, off⟩, up⟩ := r
  cases gr with
  | tok k t => unfold coverRed coverAt; exact hr
  | node k cs =>
    show InTree g (coverAt a b (.node k cs) idx off up)
    unfold coverAt
    cases h : coverIn a b cs 0 off (⟨.node k cs, idx, off⟩ :: up) with
    | none => exact hr
    | some x =>
      obtain ⟨s, hs, e⟩ := coverIn_mem h
      have hm : (⟨s, ⟨.node k cs, idx, off⟩ :: up⟩ : Red) ∈ Red.childrenT ⟨⟨.node k cs, idx, off⟩, up⟩ := List.mem_map.2 ⟨s, hs, rfl⟩
      rw [Option.getD_some, e]
      exact ih _ hm (hr.child hm)

theorem covering_in (g : Green) (a b : Nat) : InTree g (covering g a b) := coverRed_in (Red.root g) .root

section
variable {text : Text} {g : Green} (P : Parsed text g) (hC : ∀ n ∈ g.nodes, Complete sparqlRules n)
include P hC

/-- Where a symbol occurs. -/
theorem child_kind {r c : Red} (hr : InTree g r) (hc : c ∈ r.childrenT) (hs : c.sig = true) {f : Kind → Sym → Bool}
    (ht : sparqlRulesTree.toList.all (fun p => allSyms (f p.1) p.2) = true) : f r.kind (symOf c) = true := by
  have hrn := child_isNode hc
  obtain ⟨-, Rl, hR, -⟩ := whole_of P hC hr hrn
  have hw := sigC_whole P hC hr hrn hR
  exact allSyms_sound hw (List.all_eq_true.1 ht _ (KTree.find_mem _ _ _ hR)) _ (List.mem_map.2 ⟨c, mem_sigC.2 ⟨hc, hs⟩, rfl⟩)

/-- The head of a query: its first part. -/
theorem clause_first {s : Red} (hs : IsSelect g s) : ∃ c, Part s K.SelectClause c ∧ c.start = s.start := by
  obtain ⟨⟨t, T, ht, htk⟩, -⟩ := select_tokens P hC hs
  obtain ⟨hT, hn, hk⟩ := hs
  have hw : ∃ R, sparqlRules s.kind = some R ∧ (headSyms nullNodes R).all (fun x => x == .node K.SelectClause) = true := by
    rcases hk with h | h
    · exact ⟨_, h ▸ selectQueryRule, by decide +kernel⟩
    · exact ⟨_, h ▸ subSelectRule, by decide +kernel⟩
  obtain ⟨R, hR, h1⟩ := hw
  have hst := tokens_eq s
  rw [if_pos hn, ht] at hst
  cases hcs : s.childrenT with
  | nil => rw [hcs] at hst; cases hst
  | cons x l =>
    have hxm : x ∈ s.childrenT := by rw [hcs]; simp
    have hxs : x.sig = true := by
      cases h : x.sig with
      | true => rfl
      | false =>
        exfalso
        have htr : triviaKind x.kind = true := by simpa [Red.sig] using h
        rw [hcs, List.flatMap_cons, tokens_tok (trivia_token P (hT.child hxm) htr)] at hst
        injection hst with e _
        rw [← e, htk] at htr
        revert htr; decide
    have hsg : sigC s = x :: l.filter Red.sig := by unfold sigC; rw [hcs, List.filter_cons_of_pos hxs]
    have h4 := List.all_eq_true.1 h1 _ (sigC_head P hC hT hn hR hsg)
    have h4 : symOf x = .node K.SelectClause := by simpa using h4
    obtain ⟨h5, h6⟩ := symOf_eq_node.1 h4
    refine ⟨x, ⟨hxm, h5, h6⟩, ?_⟩
    obtain ⟨⟨gs, idx, off⟩, up⟩ := s
    cases gs with
    | tok k w => cases hcs
    | node k cs =>
      cases cs with
      | nil => cases hcs
      | cons c0 cs =>
        have : Red.childrenT ⟨⟨.node k (c0 :: cs), idx, off⟩, up⟩ = ⟨⟨c0, 0, off⟩, ⟨.node k (c0 :: cs), idx, off⟩ :: up⟩ ::
            (childSites 1 (off + blen c0.text) cs).map (fun s => ⟨s, ⟨.node k (c0 :: cs), idx, off⟩ :: up⟩) := rfl
        rw [this] at hcs
        injection hcs with e _
        rw [← e]; rfl

/-- What is selected. -/
theorem columns {s c : Red} (hs : IsSelect g s) (hc : Part s K.SelectClause c)
    (hvar : ∀ v, InTree g v → v.isNode = true → v.kind = K.Var → ∃ k, (k = K.VAR1 ∨ k = K.VAR2) ∧ v.green.leaves = [(k, v.text)] ∧ HasRule (k, v.text)) :
    SelOk (selTokens c) ∧ flat (selTokens c) = selection c ∧ SameColumns c (selTokens c) := by
  have hcT := hs.1.child hc.1
  have hstar : starSelection c = true ↔ Starred c := by
    unfold starSelection
    constructor
    · intro h
      split at h
      · cases h
      · next t ht => exact ⟨t, (star_iff P hC hs.1 hc).1 ⟨ht, by simpa using h⟩⟩
    · rintro ⟨t, ht⟩
      obtain ⟨h1, h2⟩ := (star_iff P hC hs.1 hc).2 ht
      have h1 : c.tokens.getLast? = some t := h1
      rw [h1]
      simp [h2]
  have hvs : projectedVars c = c.childrenT.filter (fun v => v.isNode && v.kind == K.Var) := by
    unfold projectedVars Red.children
    rw [List.filter_filter]
    exact List.filter_congr (fun v _ => Bool.and_comm _ _)
  have hall : ∀ v ∈ projectedVars c, ∃ k, (k = K.VAR1 ∨ k = K.VAR2) ∧ v.tokens.map Red.kt = [(k, v.text)] ∧ HasRule (k, v.text) := by
    intro v hv
    rw [hvs] at hv
    obtain ⟨h1, h2⟩ := List.mem_filter.1 hv
    simp only [Bool.and_eq_true, beq_iff_eq] at h2
    obtain ⟨k, h3, h4, h5⟩ := hvar v (hcT.child h1) h2.1 h2.2
    exact ⟨k, h3, by rw [(tokens_row v).1]; exact h4, h5⟩
  unfold selTokens selection
  cases hS : starSelection c with
  | true =>
    simp only [if_true]
    refine ⟨star_ok, rfl, fun _ => rfl, fun h => absurd (hstar.1 hS) h⟩
  | false =>
    have hno : ¬ Starred c := fun h => by rw [hstar.2 h] at hS; cases hS
    have hne : projectedVars c ≠ [] := by
      obtain ⟨H, M, hd'⟩ := clause_head P hC hcT hc.2.1 hc.2.2
      have hM : ∀ x ∈ M, x ∈ c.childrenT := fun x hx => (mem_sigC.1 (by rw [hd'.eq]; simp [hx])).1
      rcases hd'.items with ⟨t, e, h1, h2⟩ | ⟨hMn, hw⟩
      · exact absurd ⟨t, hM t (by rw [e]; simp), h1, h2⟩ hno
      · have hin : Sym.node K.Var ∈ M.map symOf := by
          generalize hl : M.map symOf = l at hw
          generalize hR : Rule.rep ruleItem = R at hw
          cases hw with
          | repNil => exact absurd (List.map_eq_nil_iff.1 hl) hMn
          | @repCons r' x y d ds =>
            cases hR
            rcases whole_item d with h | h <;> rw [h] <;> simp
          | _ => cases hR
        obtain ⟨v, hv, e⟩ := List.mem_map.1 hin
        obtain ⟨h1, h2⟩ := symOf_eq_node.1 e
        intro h0
        have : v ∈ projectedVars c := by rw [hvs]; exact List.mem_filter.2 ⟨hM v hv, by simp [h1, h2]⟩
        rw [h0] at this; cases this
    simp only [Bool.false_eq_true, if_false]
    refine ⟨(vars_ok hne hall).sel, varTokens_flat (fun v hv => (hall v hv).imp fun k h => h.2.1), fun h => absurd h hno, fun _ => ?_⟩
    exact ⟨_, hvs.symm ▸ rfl, hne, varTokens_sig (fun v hv => (hall v hv).imp fun k h => ⟨h.1, h.2.1⟩), fun v hv => (hall v hv).imp fun k h => ⟨h.1, h.2.1⟩⟩

end

theorem ink_ends : lexRules.all (fun r => triviaKind r.kind || everyState (fun q => !(q.derivN 0xA).nullable) r.re) = true := by decide +kernel

/-- A significant token does not end with a line break. -/
theorem ink_break {p : Kind × Text} (h : HasRule p) (hk : triviaKind p.1 = false) (u : Text) : p.2 ≠ u ++ ['\n'] := by
  intro e
  obtain ⟨r, h1, h2, h3⟩ := h
  have := List.all_eq_true.1 ink_ends r h1
  rw [h2, hk, Bool.false_or] at this
  have := everyState_sound this rfl u
  rw [e, ← derivs_iff, ← deriv_iff, ← nullable_iff, deriv_eq] at h3
  have h3 : ((r.re.derivs u).derivN 0xA).nullable = true := h3
  rw [h3] at this; cases this

section
variable {errLen : Text → Nat} {text : Text} {g : Green} {errs : List SyntaxErr} (hp : parseSource errLen text = some (g, errs))
  (hd : Derives sparqlRules (.node g.kind) (kinds (lex errLen text)))
include hp hd

/-- The edits for a query. -/
theorem edits_exist {s c : Red} (hs : IsSelect g s) (n : Nat) {A B : List Red} (e : (Red.root g).tokens = A ++ s.tokens ++ B) (hc : c.start = s.start) :
    blen (flat (A.map Red.kt)) = s.start ∧ ∃ ls,
      unwrapAll (fun o => insertion (flat (A.map Red.kt) ++ s.text ++ flat (B.map Red.kt)) o (List.replicate (2 * n) ' ')) (breakEnds (blen (flat (A.map Red.kt))) s.text) = some ls ∧
      wrapEdits text n s c = some (⟨⟨posOf (flat (A.map Red.kt) ++ s.text), posOf (flat (A.map Red.kt) ++ s.text)⟩, wrapSuffix n⟩ :: ls ++
        [⟨⟨posOf (flat (A.map Red.kt)), posOf (flat (A.map Red.kt))⟩, wrapPrefix (selection c) n⟩]) := by
  have P := parsed_of hp
  have hC := complete_of hp hd
  obtain ⟨⟨t, T, ht, htk⟩, -⟩ := select_tokens P hC hs
  have hts : t.start = s.start := by
    have := (tokens_row s).2
    rw [ht] at this
    exact this.1
  have hbl : blen (flat (A.map Red.kt)) = s.start := by
    rw [← hts]; exact blen_front (B := T ++ B) (by rw [e, ht]; simp)
  have hfs : flat (s.tokens.map Red.kt) = s.text := by rw [(tokens_row s).1]; rfl
  have htext := text_split hp hd e
  rw [hfs] at htext
  refine ⟨hbl, ?_⟩
  have hls := lineSegs_edits (2 * n) s.text [] (flat (A.map Red.kt)) (flat (B.map Red.kt))
  rw [List.append_nil] at hls
  refine ⟨_, hls, ?_⟩
  have h1 : insertion text s.stop (wrapSuffix n) = some ⟨⟨posOf (flat (A.map Red.kt) ++ s.text), posOf (flat (A.map Red.kt) ++ s.text)⟩, wrapSuffix n⟩ := by
    have : s.stop = blen (flat (A.map Red.kt) ++ s.text) := by rw [blen_append, hbl]; rfl
    rw [this]
    conv_lhs => rw [htext]
    exact insert_at _ _ _
  have h3 : insertion text s.start (wrapPrefix (selection c) n) = some ⟨⟨posOf (flat (A.map Red.kt)), posOf (flat (A.map Red.kt))⟩, wrapPrefix (selection c) n⟩ := by
    rw [← hbl]
    conv_lhs => rw [htext, List.append_assoc]
    exact insert_at _ _ _
  unfold wrapEdits
  rw [h1, h3, hc, ← hbl]
  conv_lhs => rw [htext]
  rw [hls]

theorem wrap_edits {s : Red} (hs : IsSelect g s) (n : Nat) : ∃ c edits, Part s K.SelectClause c ∧ wrapEdits text n s c = some edits := by
  have P := parsed_of hp
  have hC := complete_of hp hd
  obtain ⟨c, hc, hcs⟩ := clause_first P hC hs
  obtain ⟨A, B, e, -⟩ := front_ends P hC hs
  obtain ⟨-, ls, -, h⟩ := edits_exist hp hd hs n e hcs
  exact ⟨c, _, hc, h⟩

/-- The edits have the outcome. -/
theorem wrapped_of {s c : Red} (hs : IsSelect g s) (hc : Part s K.SelectClause c) (hds : ∀ d, ¬ Part s K.DatasetClause d) (n : Nat) :
    ∃ edits, wrapEdits text n s c = some edits ∧ Wrapped errLen text g n s edits := by
  have P := parsed_of hp
  have hC := complete_of hp hd
  have hcs : c.start = s.start := by
    obtain ⟨c', hc', h⟩ := clause_first P hC hs
    obtain ⟨R, hR, -, h1, h2, -⟩ := select_rule hs.2.2
    rw [part_unique P hC hs.1 hs.2.1 hR h1 h2 hc hc']; exact h
  obtain ⟨hI, hfl, hcol⟩ := columns P hC hs hc (fun v h1 h2 h3 => var_pair hp hd h1 h2 h3)
  obtain ⟨A, B, e, hput⟩ := wrap_put hp hd hs hds hI n
  obtain ⟨hbl, ls, hls, hed⟩ := edits_exist hp hd hs n e hcs
  obtain ⟨h1, h2, g', h3, h4⟩ := hput _ rfl
  refine ⟨_, hed, A.map Red.kt, B.map Red.kt, (s.tokens.map Red.kt).map (deepen (2 * n)), c, selTokens c, _, g', ?_, hbl, hc, hcol, rfl, ?_, ?_, h1, h2, h3, h4⟩
  · rw [← tokens_pairs hp, e, List.map_append, List.map_append]
  · generalize s.tokens.map Red.kt = M
    induction M with
    | nil => exact .nil
    | cons p M ih => exact .cons ⟨rfl, rfl⟩ ih
  · have hfs : flat (s.tokens.map Red.kt) = s.text := by rw [(tokens_row s).1]; rfl
    obtain ⟨-, T', q, hq, hqs, -⟩ := select_tokens P hC hs
    have hqr : HasRule q.kt := all_rules hp hd q (by rw [e, hq]; simp)
    have hst : s.text = flat (T'.map Red.kt) ++ q.text := by
      rw [← hfs, hq, List.map_append, List.map_cons, List.map_nil, flat_snoc]; rfl
    obtain ⟨c0, v0, hc0, -⟩ := touch_cons hqr
    have hc0 : q.text = c0 :: v0 := hc0
    have := wrap_apply (flat (A.map Red.kt)) s.text (flat (B.map Red.kt)) (wrapPrefix (selection c) n) (wrapSuffix n) (2 * n) (by rw [hst, hc0]; simp) (by
      intro u hu
      rw [hst] at hu
      rcases List.eq_nil_or_concat q.text with h0 | ⟨w, y, h0⟩
      · rw [h0] at hc0; cases hc0
      · rw [List.concat_eq_append] at h0
        rw [h0, ← List.append_assoc] at hu
        have hy : y = '\n' := by simpa using (List.append_inj' hu rfl).2
        rw [hy] at h0
        exact ink_break hqr hqs w h0) hls rfl
    have htext := text_split hp hd e
    rw [hfs] at htext
    conv_lhs => rw [htext]
    rw [this]
    simp only [flat_append, flat_wrap, flat_close, flat_deepen, hfs, hfl, List.append_assoc]

/-- The dispatch of the request. -/
theorem action_of {el s : Red} (hel : InTree g el) (hs : IsSelect g s) (hch : Chosen el s) :
    el.parent.any Red.isFullIri = false ∧ el.parent.any (fun p => p.kind == K.Var) = false ∧ (el.kind = K.SelectQuery ∨ el.kind = K.SELECT ∨ el.kind = K.SubSelect) ∧
      wrapTarget el = some s := by
  have P := parsed_of hp
  have hC := complete_of hp hd
  rcases hch with rfl | ⟨c, hc, hm, hn, hk⟩
  · have hpar : ∀ p, el.parent = some p → p.kind ≠ K.iri ∧ p.kind ≠ K.Var := by
      intro p hpar
      cases hel with
      | root =>
        have : (Red.root g).parent = none := rfl
        rw [this] at hpar; cases hpar
      | @child r c hr hm =>
        rw [child_parent hm] at hpar
        cases hpar
        have := child_kind P hC hr hm (node_sig P (hr.child hm) hs.2.1)
          (f := fun k s => (s != .node K.SelectQuery && s != .node K.SubSelect) || (k != K.iri && k != K.Var)) (by decide +kernel)
        rw [symOf_node hs.2.1] at this
        rcases hs.2.2 with h | h <;> rw [h] at this <;> simpa using this
    refine ⟨?_, ?_, ?_, ?_⟩
    · cases h : el.parent with
      | none => rfl
      | some p => simp [Red.isFullIri, (hpar p h).1]
    · cases h : el.parent with
      | none => rfl
      | some p => simp [(hpar p h).2]
    · rcases hs.2.2 with h | h
      · exact .inl h
      · exact .inr (.inr h)
    · unfold wrapTarget
      rw [if_pos hs.2.1, if_pos (isSel_iff.2 hs.2.2)]
  · rw [child_parent hm]
    refine ⟨?_, ?_, .inr (.inl hk), ?_⟩
    · have : c.kind ≠ K.iri := by rw [hc.2.2]; decide
      simp [Red.isFullIri, this]
    · have : c.kind ≠ K.Var := by rw [hc.2.2]; decide
      simp [this]
    · unfold wrapTarget
      rw [if_neg (by simp [hn]), child_up hm]
      have : Red.chain (c.here :: c.up) = c :: Red.chain c.up := rfl
      rw [this, child_up hc.1]
      have : Red.chain (s.here :: s.up) = s :: Red.chain s.up := rfl
      rw [this]
      simp only [List.getElem?_cons_succ, List.getElem?_cons_zero]
      rw [if_pos (isSel_iff.2 hs.2.2)]

/-- The elements that the action is for. -/
theorem chosen_of {el : Red} (hel : InTree g el) (hk : el.kind = K.SelectQuery ∨ el.kind = K.SELECT ∨ el.kind = K.SubSelect) : ∃ s, IsSelect g s ∧ Chosen el s := by
  have P := parsed_of hp
  have hC := complete_of hp hd
  have hsig : el.sig = true := by rcases hk with h | h | h <;> simp only [Red.sig, h] <;> decide
  have hroot : g.kind ≠ K.SelectQuery ∧ g.kind ≠ K.SELECT ∧ g.kind ≠ K.SubSelect := by rcases P.root with h | h <;> rw [h] <;> decide
  cases hel with
  | root =>
    exfalso
    rcases hk with h | h | h
    · exact hroot.1 h
    · exact hroot.2.1 h
    · exact hroot.2.2 h
  | @child r c hr hm =>
    have hT := hr.child hm
    cases hn : el.isNode with
    | true =>
      have h1 := child_kind P hC hr hm hsig (f := fun _ s => s != .node K.SELECT) (by decide +kernel)
      rw [symOf_node hn] at h1
      refine ⟨el, ⟨hT, hn, ?_⟩, .inl rfl⟩
      rcases hk with h | h | h
      · exact .inl h
      · rw [h] at h1; simp at h1
      · exact .inr h
    | false =>
      have h1 := child_kind P hC hr hm hsig
        (f := fun k s => s != .tok K.SelectQuery && s != .tok K.SubSelect && (s != .tok K.SELECT || k == K.SelectClause)) (by decide +kernel)
      rw [symOf_tok hn] at h1
      have hsel : el.kind = K.SELECT := by
        rcases hk with h | h | h
        · rw [h] at h1; simp at h1
        · exact h
        · rw [h] at h1; simp at h1
      rw [hsel] at h1
      have hrk : r.kind = K.SelectClause := by
        simp only [Bool.and_eq_true, Bool.or_eq_true, bne_self_eq_false, Bool.false_eq_true, false_or, beq_iff_eq] at h1
        exact h1.2
      have hrn := child_isNode hm
      cases hr with
      | root =>
        exfalso
        have hrk : g.kind = K.SelectClause := hrk
        rcases P.root with h | h <;> rw [h] at hrk <;> revert hrk <;> decide
      | @child s _ hs hm' =>
        have h2 := child_kind P hC hs hm' (by simp only [Red.sig, hrk]; decide)
          (f := fun k s => s != .node K.SelectClause || (k == K.SelectQuery || k == K.SubSelect)) (by decide +kernel)
        rw [symOf_node hrn, hrk] at h2
        refine ⟨s, ⟨hs, child_isNode hm', by simpa using h2⟩, .inr ⟨r, ⟨hm', hrn, hrk⟩, hm, hn, hsel⟩⟩

end

/-! ## Properties -/

/-- **C64.** The action is offered in a valid document exactly if the selected element is a query, or the keyword `SELECT` of one; computing it does not
fail. -/
theorem c64_offered (errLen : Text → Nat) (text : Text) (g errs) (hp : parseSource errLen text = some (g, errs))
    (hd : Derives sparqlRules (.node g.kind) (kinds (lex errLen text))) (n a b : Nat) :
    (selectAction text g n a b).isSome ↔ ∃ s, IsSelect g s ∧ Chosen (covering g a b) s := by
  have hel := covering_in g a b
  constructor
  · intro h
    unfold selectAction at h
    simp only at h
    split at h
    · cases h
    · split at h
      · cases h
      · split at h
        · next hk => exact chosen_of hp hd hel hk
        · cases h
  · rintro ⟨s, hs, hch⟩
    obtain ⟨h1, h2, h3, h4⟩ := action_of hp hd hel hs hch
    obtain ⟨c, edits, hc, he⟩ := wrap_edits hp hd hs n
    unfold selectAction
    simp only [h1, h2, if_pos h3, Bool.false_eq_true, if_false]
    unfold subSelect
    rw [h4]
    simp only [(clause_find hp hd hs).2 hc, he]
    rfl

/-- **C64.** Accepting it for a query without `FROM`: the query becomes a sub-select of a query with the same columns, the document stays valid, and
nothing else changes. -/
theorem c64_transform (errLen : Text → Nat) (text : Text) (g errs) (hp : parseSource errLen text = some (g, errs))
    (hd : Derives sparqlRules (.node g.kind) (kinds (lex errLen text))) (n a b : Nat) (s : Red) (hs : IsSelect g s) (hch : Chosen (covering g a b) s)
    (hfrom : ∀ d, ¬ Part s K.DatasetClause d) : ∃ edits, selectAction text g n a b = some edits ∧ Wrapped errLen text g n s edits := by
  obtain ⟨h1, h2, h3, h4⟩ := action_of hp hd (covering_in g a b) hs hch
  obtain ⟨c, -, hc, -⟩ := wrap_edits hp hd hs n
  obtain ⟨edits, he, hw⟩ := wrapped_of hp hd hs hc hfrom n
  refine ⟨edits, ?_, hw⟩
  unfold selectAction
  simp only [h1, h2, if_pos h3, Bool.false_eq_true, if_false]
  unfold subSelect
  rw [h4]
  simp only [(clause_find hp hd hs).2 hc]
  exact he

/-- **C64.** A cursor behind the first letter of a keyword `SELECT`, or a selection inside it, chooses its query. -/
theorem c64_cursor (g : Green) (s c t : Red) (hs : IsSelect g s) (hc : Part s K.SelectClause c) (ht : t ∈ c.childrenT) (htn : t.isNode = false)
    (htk : t.kind = K.SELECT) (a b : Nat) (h1 : t.start ≤ a) (h2 : a ≤ b) (h3 : b ≤ t.stop) (h4 : a < b ∨ t.start < a) : Chosen (covering g a b) s := by
  have hT := (hs.1.child hc.1).child ht
  have key : ∀ {x : Red}, InTree g x → x.start ≤ a → b ≤ x.stop → (a < b ∨ x.start < a) → covering g a b = coverRed a b x := by
    intro x hx
    induction hx with
    | root => intro _ _ _; rfl
    | @child r c hr hc ih =>
      intro h1 h3 h4
      have hw := child_within hc
      rw [ih (Nat.le_trans hw.1 h1) (Nat.le_trans h3 hw.2) (h4.imp id (fun h => Nat.lt_of_le_of_lt hw.1 h))]
      obtain ⟨⟨g, idx, off⟩, up⟩ := r
      unfold Red.childrenT at hc
      cases g with
      | tok k t => cases hc
      | node k cs =>
        obtain ⟨s, hs, rfl⟩ := List.mem_map.1 hc
        show coverAt a b (.node k cs) idx off up = _
        unfold coverAt
        have : ∀ {cs : List Green} {idx off : Nat} {s : Site} {up : List Site}, s ∈ childSites idx off cs → s.off ≤ a → b ≤ s.off + blen s.green.text →
            (a < b ∨ s.off < a) → coverIn a b cs idx off up = some (coverAt a b s.green s.idx s.off up) := by
          intro cs
          induction cs with
          | nil => intro idx off s up h; cases h
          | cons g gs ih =>
            intro idx off s up h h1 h2 h4
            rw [childSites] at h
            unfold coverIn
            rcases List.mem_cons.1 h with rfl | h
            · rw [if_pos ⟨h1, h2⟩]
            · obtain ⟨x, y, -, -, h3⟩ := mem_childSites h
              rw [if_neg (by omega)]
              exact ih h h1 h2 h4
        rw [this hs h1 h3 h4]
        rfl
  have h5 : covering g a b = t := by
    rw [key hT h1 h3 h4]
    obtain ⟨⟨gt, idx, off⟩, up⟩ := t
    cases gt with
    | tok k w => unfold coverRed coverAt; rfl
    | node k cs => cases htn
  rw [h5]
  exact .inr ⟨c, hc, ht, htn, htk⟩

/-- **C64.** The tokens of the query without line breaks stay as they are: every keyword, name, IRI and number, every comment, and all strings but the
long ones. -/
theorem c64_unchanged (errLen : Text → Nat) (text : Text) (g : Green) (n : Nat) (s : Red) (edits : List TextEdit) (h : Wrapped errLen text g n s edits) :
    ∃ A B I Q', tokenPairs errLen text = A ++ s.tokens.map Red.kt ++ B ∧
      List.Forall₂ (fun p q : Kind × Text => q.1 = p.1 ∧ ('\n' ∉ p.2 → q = p)) (s.tokens.map Red.kt) Q' ∧
      applyTextEdits text edits = some (ensureNL (flat (A ++ (wrapTokens I n ++ (Q' ++ (closeTokens '\n' n ++ B)))))) := by
  obtain ⟨A, B, Q', c, I, L, g', h1, -, -, -, rfl, h2, h3, -⟩ := h
  refine ⟨A, B, I, Q', h1, h2.imp ?_, h3⟩
  rintro ⟨k, w⟩ ⟨k', w'⟩ ⟨e1, e2⟩
  refine ⟨e1, fun hn => ?_⟩
  have e1 : k' = k := e1
  have e2 : w' = indentLines (2 * n) w := e2
  rw [e1, e2, (indent_deeper (2 * n) w).same hn]

/-! ## Examples -/

/-- The text after the action. -/
def afterWrap (text : Text) (g : Green) (n a b : Nat) : Option Text :=
  match selectAction text g n a b with
  | none => none
  | some edits => applyTextEdits text edits

/-- Example: `SELECT ?a (1 AS ?n) {\n?a ?p ?o\n} LIMIT 5` with the cursor in `SELECT` (`c64_transform` applies: there is no `FROM`). -/
theorem c64_cases : parseSource (fun _ => 1) wrapText = some (wrapTree, []) ∧
    Derives sparqlRules (.node wrapTree.kind) (kinds (lex (fun _ => 1) wrapText)) ∧
    (covering wrapTree 3 3).kind = K.SELECT ∧ wrapTree.nodes.all (fun n => n.kind != K.DatasetClause) = true ∧
    afterWrap wrapText wrapTree 2 3 3 = some
      ['S', 'E', 'L', 'E', 'C', 'T', ' ', '?', 'a', ' ', '?', 'n', ' ', 'W', 'H', 'E', 'R', 'E', ' ', '{', '\n', ' ', ' ', '{', '\n', ' ', ' ', ' ',
      ' ', 'S', 'E', 'L', 'E', 'C', 'T', ' ', '?', 'a', ' ', '(', '1', ' ', 'A', 'S', ' ', '?', 'n', ')', ' ', '{', '\n', ' ', ' ', ' ', ' ', '?',
      'a', ' ', '?', 'p', ' ', '?', 'o', '\n', ' ', ' ', ' ', ' ', '}', ' ', 'L', 'I', 'M', 'I', 'T', ' ', '5', '\n', ' ', ' ', '}', '\n', '}', '\n'] ∧
    afterWrap wrapText wrapTree 2 22 22 = none := by
  exact ⟨wrapTree_parse, Features.wrap_derives, by decide +kernel, by decide +kernel, by decide +kernel, by decide +kernel⟩

/-- With `FROM` the action is offered, too, but the new document is not valid: a sub-select has no `FROM`. -/
theorem c64_from_breaks : parseSource (fun _ => 1) fromText = some (fromTree, []) ∧
    Derives sparqlRules (.node fromTree.kind) (kinds (lex (fun _ => 1) fromText)) ∧
    afterWrap fromText fromTree 2 3 3 = some (fromBadText ++ ['\n']) ∧
    ∃ g' e errs, parseSource (fun _ => 1) fromBadText = some (g', e :: errs) :=
  ⟨fromTree_parse, from_derives, by decide +kernel, _, _, _, fromBadTree_parse⟩

/-- The lines of a long string are indented, too: its value changes. -/
theorem c64_string_changes : parseSource (fun _ => 1) longText = some (longTree, []) ∧
    Derives sparqlRules (.node longTree.kind) (kinds (lex (fun _ => 1) longText)) ∧
    afterWrap longText longTree 2 3 3 = some
      ['S', 'E', 'L', 'E', 'C', 'T', ' ', '*', ' ', 'W', 'H', 'E', 'R', 'E', ' ', '{', '\n', ' ', ' ', '{', '\n', ' ', ' ', ' ', ' ', 'S', 'E', 'L',
      'E', 'C', 'T', ' ', '*', ' ', '{', '?', 's', ' ', '?', 'p', ' ', '"', '"', '"', 'a', '\n', ' ', ' ', ' ', ' ', 'b', '"', '"', '"', '}', '\n',
      ' ', ' ', '}', '\n', '}', '\n'] :=
  ⟨longTree_parse, long_derives, by decide +kernel⟩

end Verif.Props
