import Verif.Features.SelectItem
import Verif.Features.SubSelect
import Verif.Lexer.Lines
import Verif.Props.AddFilter
/-!
# Wrapping a select query
-/
namespace Verif.Props
open Verif Verif.Grammar Verif.Lexer Verif.Features Verif.Format

/-! ## The new tokens -/

/-- The tokens in front of the query, for the tokens `I` of the selection. -/
def wrapTokens (I : List (Kind × Text)) (n : Nat) : List (Kind × Text) :=
  [(K.SELECT, ['S', 'E', 'L', 'E', 'C', 'T']), (K.WHITESPACE, [' '])] ++ I ++
    [(K.WHITESPACE, [' ']), (K.WHERE, ['W', 'H', 'E', 'R', 'E']), (K.WHITESPACE, [' ']), (K.LCurly, ['{']), (K.WHITESPACE, '\n' :: List.replicate n ' '),
      (K.LCurly, ['{']), (K.WHITESPACE, '\n' :: List.replicate (2 * n) ' ')]

/-- The tokens behind the query; `c` is a line break. -/
def closeTokens (c : Char) (n : Nat) : List (Kind × Text) :=
  [(K.WHITESPACE, c :: List.replicate n ' '), (K.RCurly, ['}']), (K.WHITESPACE, ['\n']), (K.RCurly, ['}'])]

/-- A token with its lines indented. -/
def deepen (n : Nat) (p : Kind × Text) : Kind × Text := (p.1, indentLines n p.2)

theorem flat_wrap (I : List (Kind × Text)) (n : Nat) : flat (wrapTokens I n) = wrapPrefix (flat I) n := by
  simp [wrapTokens, wrapPrefix, flat, List.flatMap_append]

theorem flat_close (n : Nat) : flat (closeTokens '\n' n) = wrapSuffix n := by simp [closeTokens, wrapSuffix, flat]

theorem indent_append (n : Nat) (a b : Text) : indentLines n (a ++ b) = indentLines n a ++ indentLines n b := by
  induction a with
  | nil => rfl
  | cons c a ih =>
    rw [List.cons_append]
    simp only [indentLines]
    split <;> simp [ih]

theorem flat_deepen (n : Nat) (Q : List (Kind × Text)) : flat (Q.map (deepen n)) = indentLines n (flat Q) := by
  induction Q with
  | nil => rfl
  | cons p Q ih => rw [List.map_cons, flat_cons, flat_cons, indent_append, ih]; rfl

theorem indent_deeper (n : Nat) (w : Text) : Deeper w (indentLines n w) := by
  induction w with
  | nil => exact .nil
  | cons c w ih =>
    unfold indentLines
    split
    · next h => subst h; exact .brk n ih
    · exact .cons c ih

/-- What is selected. -/
structure SelOk (I : List (Kind × Text)) : Prop where
  rules : ∀ p ∈ I, HasRule p
  noErr : ∀ p ∈ I, p.1 ≠ K.Error
  chain : okChain (K.WHITESPACE :: (I.map (·.1) ++ [K.WHITESPACE])) = true
  clause : Derives sparqlRules (.node K.SelectClause) (K.SELECT :: sigK I)
  plain : ∀ c ∈ flat I, plainClass.has c = true

theorem okChain_join {a b : List Kind} {k : Kind} (h1 : okChain (a ++ [k]) = true) (h2 : okChain (k :: b) = true) : okChain (a ++ k :: b) = true := by
  induction a with
  | nil => exact h2
  | cons x a ih =>
    cases a with
    | nil =>
      simp only [List.cons_append, List.nil_append, okChain, Bool.and_eq_true] at h1 ⊢
      exact ⟨h1.1, h2⟩
    | cons y a =>
      simp only [List.cons_append, okChain, Bool.and_eq_true] at h1 ⊢
      exact ⟨h1.1, ih h1.2⟩

theorem ws_rule {c : Char} (hc : c = '\n' ∨ c = ' ') (n : Nat) : HasRule (K.WHITESPACE, c :: List.replicate n ' ') := by
  have hin : ∃ r ∈ lexRules, r.kind = K.WHITESPACE ∧ r.re = rule_WHITESPACE.re := by
    have : lexRules.any (fun r => r.kind == K.WHITESPACE && r.re == rule_WHITESPACE.re) = true := by decide +kernel
    obtain ⟨r, h1, h2⟩ := List.any_eq_true.1 this
    simp only [Bool.and_eq_true, beq_iff_eq] at h2
    exact ⟨r, h1, h2⟩
  obtain ⟨r, h1, h2, h3⟩ := hin
  refine ⟨r, h1, h2, ?_⟩
  rw [h3]
  refine ws_matches.2 ⟨by simp, ?_⟩
  intro x hx
  rcases List.mem_cons.1 hx with rfl | hx
  · rcases hc with rfl | rfl <;> decide
  · rw [List.eq_of_mem_replicate hx]; decide

theorem wrap_rules {I : List (Kind × Text)} (hI : SelOk I) (n : Nat) : ∀ p ∈ wrapTokens I n, HasRule p ∧ p.1 ≠ K.Error := by
  intro p hp
  simp only [wrapTokens, List.mem_append, List.mem_cons, List.not_mem_nil, or_false] at hp
  rcases hp with ((rfl | rfl) | h) | rfl | rfl | rfl | rfl | rfl | rfl | rfl
  · exact ⟨hasRule_of (by decide +kernel), by decide⟩
  · exact ⟨ws_rule (.inr rfl) 0, by decide⟩
  · exact ⟨hI.rules p h, hI.noErr p h⟩
  · exact ⟨ws_rule (.inr rfl) 0, by decide⟩
  · exact ⟨hasRule_of (by decide +kernel), by decide⟩
  · exact ⟨ws_rule (.inr rfl) 0, by decide⟩
  · exact ⟨hasRule_of (by decide +kernel), by decide⟩
  · exact ⟨ws_rule (.inl rfl) n, (by decide : K.WHITESPACE ≠ K.Error)⟩
  · exact ⟨hasRule_of (by decide +kernel), by decide⟩
  · exact ⟨ws_rule (.inl rfl) _, (by decide : K.WHITESPACE ≠ K.Error)⟩

theorem wrap_chain {I : List (Kind × Text)} (hI : SelOk I) (n : Nat) : okChain ((wrapTokens I n).map (·.1)) = true := by
  have e : (wrapTokens I n).map (·.1) = ([K.SELECT] ++ K.WHITESPACE :: I.map (·.1)) ++ K.WHITESPACE :: [K.WHERE, K.WHITESPACE, K.LCurly, K.WHITESPACE, K.LCurly, K.WHITESPACE] := by
    simp [wrapTokens]
  rw [e]
  refine okChain_join ?_ (by decide +kernel)
  rw [List.append_assoc, List.cons_append]
  exact okChain_join (a := [K.SELECT]) (by decide +kernel) hI.chain

theorem close_rules {c : Char} (hc : c = '\n' ∨ c = ' ') (n : Nat) : ∀ p ∈ closeTokens c n, HasRule p ∧ p.1 ≠ K.Error := by
  intro p hp
  simp only [closeTokens, List.mem_cons, List.not_mem_nil, or_false] at hp
  rcases hp with rfl | rfl | rfl | rfl
  · exact ⟨ws_rule hc n, (by decide : K.WHITESPACE ≠ K.Error)⟩
  · exact ⟨hasRule_of (by decide +kernel), by decide⟩
  · exact ⟨ws_rule (.inl rfl) 0, by decide⟩
  · exact ⟨hasRule_of (by decide +kernel), by decide⟩

theorem wrap_plain {I : List (Kind × Text)} (hI : SelOk I) (n : Nat) : ∀ c ∈ flat (wrapTokens I n), plainClass.has c = true := by
  have hb : ∀ (m : Nat) c, c ∈ List.replicate m ' ' → plainClass.has c = true := by
    intro m c h; rw [List.eq_of_mem_replicate h]; decide
  intro c hc
  rw [flat_wrap] at hc
  unfold wrapPrefix at hc
  rcases List.mem_append.1 hc with hc | hc
  · rcases List.mem_append.1 hc with hc | hc
    · rcases List.mem_append.1 hc with hc | hc
      · rcases List.mem_append.1 hc with hc | hc
        · rcases List.mem_append.1 hc with hc | hc
          · have : (['S', 'E', 'L', 'E', 'C', 'T', ' '] : Text).all (fun c => plainClass.has c) = true := by decide
            exact List.all_eq_true.1 this c hc
          · exact hI.plain c hc
        · have : ([' ', 'W', 'H', 'E', 'R', 'E', ' ', '{', '\n'] : Text).all (fun c => plainClass.has c) = true := by decide
          exact List.all_eq_true.1 this c hc
      · exact hb _ c hc
    · have : (['{', '\n'] : Text).all (fun c => plainClass.has c) = true := by decide
      exact List.all_eq_true.1 this c hc
  · exact hb _ c hc

theorem close_plain (n : Nat) : ∀ c ∈ flat (closeTokens ' ' n), plainClass.has c = true := by
  intro c hc
  have e : flat (closeTokens ' ' n) = ' ' :: (List.replicate n ' ' ++ ['}', '\n', '}']) := by simp [closeTokens, flat]
  rw [e] at hc
  simp only [List.mem_cons, List.mem_append, List.not_mem_nil, or_false] at hc
  rcases hc with rfl | h | rfl | rfl | rfl
  · decide
  · rw [List.eq_of_mem_replicate h]; decide
  · decide
  · decide
  · decide

/-! ## Grammar -/

theorem r_select : sparqlRules K.SelectQuery = some rule_SelectQuery := by decide +kernel
theorem r_subselect : sparqlRules K.SubSelect = some rule_SubSelect := by decide +kernel

/-- The query of the transformed document. -/
theorem wrap_derives {k : Kind} (hk : k = K.SelectQuery ∨ k = K.SubSelect) {sel w : List Kind} (hsel : Derives sparqlRules (.node K.SelectClause) sel)
    (hw : Derives sparqlRules (.node K.SubSelect) w) :
    Derives sparqlRules (.node k) (sel ++ ([K.WHERE] ++ ([K.LCurly] ++ ([K.LCurly] ++ (w ++ [K.RCurly]) ++ [K.RCurly])))) := by
  have hmod : Derives sparqlRules (.node K.SolutionModifier) [] := ll_sound (n := 20) (by decide +kernel)
  have hval : Derives sparqlRules (.node K.ValuesClause) [] := ll_sound (n := 20) (by decide +kernel)
  have hin : Derives sparqlRules (.node K.GroupGraphPattern) ([K.LCurly] ++ (w ++ [K.RCurly])) :=
    .node _ rule_GroupGraphPattern _ (by decide +kernel) (.seq _ _ _ _ (.tok _) (.seq _ _ _ _ (.altL _ _ _ hw) (.tok _)))
  have hun : Derives sparqlRules (.node K.GroupOrUnionGraphPattern) (([K.LCurly] ++ (w ++ [K.RCurly])) ++ []) :=
    .node _ rule_GroupOrUnionGraphPattern _ (by decide +kernel) (.seq _ _ _ _ hin (.repNil _))
  have hnot : Derives sparqlRules (.node K.GraphPatternNotTriples) (([K.LCurly] ++ (w ++ [K.RCurly])) ++ []) :=
    .node _ rule_GraphPatternNotTriples _ (by decide +kernel) (.altL _ _ _ hun)
  have hsub : Derives sparqlRules (.node K.GroupGraphPatternSub) ([] ++ (((([K.LCurly] ++ (w ++ [K.RCurly])) ++ []) ++ ([] ++ [])) ++ [])) :=
    .node _ rule_GroupGraphPatternSub _ (by decide +kernel) (.seq _ _ _ _ (.optNone _)
      (.repCons _ _ _ (.seq _ _ _ _ hnot (.seq _ _ _ _ (.optNone _) (.optNone _))) (.repNil _)))
  simp only [List.append_nil, List.nil_append] at hsub
  have hout : Derives sparqlRules (.node K.GroupGraphPattern) ([K.LCurly] ++ (([K.LCurly] ++ (w ++ [K.RCurly])) ++ [K.RCurly])) :=
    .node _ rule_GroupGraphPattern _ (by decide +kernel) (.seq _ _ _ _ (.tok _) (.seq _ _ _ _ (.altR _ _ _ hsub) (.tok _)))
  have hwhere : Derives sparqlRules (.node K.WhereClause) ([K.WHERE] ++ ([K.LCurly] ++ (([K.LCurly] ++ (w ++ [K.RCurly])) ++ [K.RCurly]))) :=
    .node _ rule_WhereClause _ (by decide +kernel) (.seq _ _ _ _ (.optSome _ _ (.tok _)) hout)
  rcases hk with rfl | rfl
  · have := Derives.node K.SelectQuery rule_SelectQuery _ r_select (.seq _ _ _ _ hsel (.seq _ _ _ _ (.repNil _) (.seq _ _ _ _ hwhere hmod)))
    simpa only [List.append_nil, List.nil_append] using this
  · have := Derives.node K.SubSelect rule_SubSelect _ r_subselect (.seq _ _ _ _ hsel (.seq _ _ _ _ hwhere (.seq _ _ _ _ hmod hval)))
    simpa only [List.append_nil, List.nil_append] using this

section
variable {text : Text} {g : Green} (P : Parsed text g) (hC : ∀ n ∈ g.nodes, Complete sparqlRules n)
include P hC

/-- A query without `FROM` can be a sub-select. -/
theorem as_subselect {s : Red} (hs : IsSelect g s) (hds : ∀ d, ¬ Part s K.DatasetClause d) : Derives sparqlRules (.node K.SubSelect) (sigKs s.tokens) := by
  obtain ⟨hT, hn, hk⟩ := hs
  have hword : sigKs s.tokens = ((sigC s).map word).flatten := by
    rw [tokens_eq s, if_pos hn, flat_words P hT (fun c hc => hc)]; rfl
  have hall : ∀ x ∈ sigC s, x ∈ s.childrenT ∧ x.sig = true := fun x hx => mem_sigC.1 hx
  have hwd := words_derive P hC hT hall
  rw [hword]
  rcases hk with hk | hk
  · have hw := sigC_whole P hC hT hn (by rw [hk]; exact r_select)
    have hno : Sym.node K.DatasetClause ∉ (sigC s).map symOf := by
      intro h
      obtain ⟨d, hd, e⟩ := List.mem_map.1 h
      exact hds d ⟨(hall d hd).1, symOf_eq_node.1 e⟩
    have hsub : Whole sparqlRules rule_SubSelect ((sigC s).map symOf) := by
      generalize (sigC s).map symOf = l at hw hno
      unfold rule_SelectQuery at hw
      cases hw with
      | @seq _ _ u v h1 h2 =>
        cases h2 with
        | @seq _ _ d v h2 h3 =>
          have hd : d = [] := by
            have hdd : ∀ x ∈ d, x = Sym.node K.DatasetClause := by
              have := allSyms_sound (f := fun s => s == .node K.DatasetClause) h2 (by decide)
              intro x hx
              simpa using this x hx
            cases d with
            | nil => rfl
            | cons x d => exact absurd (by rw [hdd x (by simp)]; simp) hno
          subst hd
          cases h3 with
          | @seq _ _ a b h3 h4 =>
            have hv : Whole sparqlRules (.node K.ValuesClause) [] := .empty _ (ll_sound (n := 20) (by decide +kernel))
            have := Whole.seq h1 (Whole.seq h3 (Whole.seq h4 hv))
            rw [List.append_nil] at this
            exact this
    exact .node _ _ _ r_subselect (whole_subst hsub hwd)
  · have hw := sigC_whole P hC hT hn (by rw [hk]; exact r_subselect)
    exact .node _ _ _ r_subselect (whole_subst hw hwd)

/-- The tokens of a query begin with `SELECT` and end with a token that can be followed by a blank. -/
theorem select_tokens {s : Red} (hs : IsSelect g s) : (∃ t T, s.tokens = t :: T ∧ t.kind = K.SELECT) ∧
    ∃ T q, s.tokens = T ++ [q] ∧ triviaKind q.kind = false ∧ (safeOf q.kind).has ' ' = true := by
  obtain ⟨hT, hn, hk⟩ := hs
  have hu : s.up ≠ [] := by
    intro hu
    have hr := hT.root_of_up hu
    have : s.kind = g.kind := by rw [hr]; rfl
    rcases P.root with h | h <;> rw [h] at this <;> rw [this] at hk <;> revert hk <;> decide
  obtain ⟨⟨k1, w1, l1, e1, h1⟩, k2, w2, l2, e2, h2⟩ := P.tight s.green (P.inner_of hT hn hu)
  have hrow := (tokens_row s).1
  constructor
  · rw [e1] at hrow
    cases ht : s.tokens with
    | nil => rw [ht] at hrow; cases hrow
    | cons t T =>
      rw [ht] at hrow
      injection hrow with hrow _
      have htk : t.kind = k1 := congrArg Prod.fst hrow
      refine ⟨t, T, rfl, ?_⟩
      rw [htk]
      have hf := first_sound P hC s hT (by simpa [Red.sig] using node_sig P hT hn) e1 h1
      rw [symOf_node hn] at hf
      have : k1 ∈ [K.SELECT] := by
        refine maskOf_mem (sub_mask ?_ hf)
        rcases hk with h | h <;> rw [h] <;> decide +kernel
      simpa using this
  · rw [e2] at hrow
    rcases List.eq_nil_or_concat s.tokens with h | ⟨T, q, h⟩
    · rw [h] at hrow; cases l2 <;> cases hrow
    · rw [List.concat_eq_append] at h
      have hq : q.kt = (k2, w2) := by
        rw [h, List.map_append] at hrow
        simpa using (List.append_inj' hrow rfl).2
      have hqk : q.kind = k2 := congrArg Prod.fst hq
      refine ⟨T, q, h, by rw [hqk]; exact h2, ?_⟩
      rw [hqk]
      exact node_end P hC hT hn (x := (k2, w2)) e2 h2

end

/-! ## In front of the query -/

/-- The characters that the tokens in front of a query end with. -/
def frontClass : Class := [(0x9, 0xA), (0xC, 0xD), (0x20, 0x20), (0x22, 0x22), (0x27, 0x27), (0x3E, 0x3E), (0x7B, 0x7B)]
/-- All other characters. -/
def notFront : Class := [(0, 0x8), (0xB, 0xB), (0xE, 0x1F), (0x21, 0x21), (0x23, 0x26), (0x28, 0x3D), (0x3F, 0x7A), (0x7C, 0x10FFFF)]

theorem not_front {c : Char} (h : frontClass.has c = false) : notFront.has c = true := by
  have hv : c.toNat ≤ 0x10FFFF := by
    rcases c.valid with h | ⟨-, h⟩
    · show c.val.toNat ≤ _
      have : c.val.toNat < 0xd800 := h
      omega
    · show c.val.toNat ≤ _
      have : c.val.toNat < 0x110000 := h
      omega
  rw [← Bool.not_eq_true] at h
  simp only [frontClass, notFront, Class.has, List.any_cons, List.any_nil, Bool.or_false, Bool.or_eq_true, Bool.and_eq_true, Nat.ble_eq] at h ⊢
  omega

/-- The kinds of the tokens in front of a query. -/
def aheadKinds : List Kind := K.WHITESPACE :: frontEnds

theorem ahead_last : lexRules.all (fun r => !aheadKinds.contains r.kind ||
    everyState (fun q => (repsIn notFront q).all (fun n => !(q.derivN n).nullable)) r.re) = true := by decide +kernel

theorem ahead_hop : lexRules.all (fun r => roughKinds.contains r.kind ||
    everyState (fun q => (repsIn frontClass q).all (fun n => ((q.derivN n).derivN 'S'.toNat).isNone || ((q.derivN n).nullable && !r.boundary))) r.re) = true := by decide +kernel

theorem ahead_ends : aheadKinds.all (fun k => (safeOf k).has 'S' || (k == K.WHITESPACE && !wsClass.has 'S')) = true := by decide +kernel

theorem ends_ahead {k : Kind} (hk : k ∈ aheadKinds) : EndsBefore k 'S' := by
  have := List.all_eq_true.1 ahead_ends k hk
  simp only [Bool.or_eq_true, Bool.and_eq_true, beq_iff_eq, Bool.not_eq_true'] at this
  exact this

theorem ahead_char {p : Kind × Text} (h : HasRule p) (hk : p.1 ∈ aheadKinds) {u : Text} {x : Char} (e : p.2 = u ++ [x]) : frontClass.has x = true := by
  cases hx : frontClass.has x with
  | true => rfl
  | false =>
    exfalso
    obtain ⟨r, h1, h2, h3⟩ := h
    have := List.all_eq_true.1 ahead_last r h1
    rw [h2, List.contains_iff_mem.2 hk, Bool.not_true, Bool.false_or] at this
    have := everyState_sound this (by
      rw [List.all_eq_true]
      intro n _
      rfl) u
    obtain ⟨n, hn, e'⟩ := repsIn_spec (q := r.re.derivs u) (not_front hx)
    have := List.all_eq_true.1 this n hn
    rw [e'] at this
    rw [e, ← derivs_iff, ← deriv_iff, ← nullable_iff] at h3
    rw [h3] at this; cases this

/-- Nothing reads across the beginning of the query. -/
theorem ahead_barrier {A : List Red} (hf : Front A) (hr : ∀ t ∈ A, HasRule t.kt) (hA : ∀ A0 q, A = A0 ++ [q] → q.kind ∈ aheadKinds) :
    Barrier 'S' (A.map Red.kt) := by
  refine front_cross hf hr ?_
  intro r hrr hb V U x z hV hm
  have hx : frontClass.has x = true := by
    rcases List.eq_nil_or_concat A with h0 | ⟨A0, q, h0⟩
    · rw [h0] at hV; cases V <;> cases hV
    · rw [List.concat_eq_append] at h0
      have hq := hr q (by rw [h0]; simp)
      rw [h0, List.map_append, List.map_cons, List.map_nil, flat_snoc] at hV
      rcases List.eq_nil_or_concat q.kt.2 with h1 | ⟨T, y, h1⟩
      · obtain ⟨c, v, e, -⟩ := touch_cons hq
        rw [e] at h1; cases h1
      · rw [List.concat_eq_append] at h1
        rw [h1, ← List.append_assoc] at hV
        have : y = x := by simpa using (List.append_inj' hV rfl).2
        rw [this] at h1
        exact ahead_char hq (hA A0 q h0) h1
  have h := List.all_eq_true.1 ahead_hop r hrr
  have hb : roughKinds.contains r.kind = false := by
    cases h : roughKinds.contains r.kind with
    | false => rfl
    | true => exact absurd (List.contains_iff_mem.1 h) hb
  rw [hb, Bool.false_or] at h
  have h := everyState_sound h (by
    rw [List.all_eq_true]
    intro n _
    rw [Bool.or_eq_true]; exact .inl (isNone_iff.2 rfl)) U
  rw [← derivs_iff, ← deriv_iff, ← deriv_iff] at hm
  obtain ⟨n, hn, e⟩ := repsIn_spec (q := r.re.derivs U) hx
  have := List.all_eq_true.1 h n hn
  rw [Bool.or_eq_true, isNone_iff, e, ← deriv_eq] at this
  rcases this with this | this
  · rw [this] at hm
    exact absurd hm matches_none
  · rw [Bool.and_eq_true, Bool.not_eq_true'] at this
    refine ⟨?_, this.2⟩
    rw [← derivs_iff, ← deriv_iff, ← nullable_iff]; exact this.1

/-! ## The new document -/

/-- A list of tokens that can be read back is a valid document. -/
theorem valid_tokens (errLen : Text → Nat) {k : Kind} (hk : k = K.QueryUnit ∨ k = K.UpdateUnit) {L : List (Kind × Text)} (hL : Lexes (flat L) L)
    (hE : ∀ p ∈ L, p.1 ≠ K.Error) (hw : Derives sparqlRules (.node k) (sigK L)) (hkw : ∃ p ∈ L, p.1 ∈ queryKeywords ++ updateKeywords) :
    tokenPairs errLen (flat L) = L ∧ Derives sparqlRules (.node k) (kinds (lex errLen (flat L))) ∧
    ∃ g', parseSource errLen (flat L) = some (g', []) ∧ g'.kind = k := by
  have htp : tokenPairs errLen (flat L) = L := tokenPairs_of hL hE
  have hval : Derives sparqlRules (.node k) (kinds (lex errLen (flat L))) := by rw [sigK_kinds, htp]; exact hw
  refine ⟨htp, hval, ?_⟩
  rcases hk with rfl | rfl
  · exact (c44_query _ _ (c47_lossless errLen _) hval).2
  · refine ((c44_update _ _ (c47_lossless errLen _) hval).1 ?_).2
    obtain ⟨p, h1, h2⟩ := hkw
    rw [← htp] at h1
    obtain ⟨t, h3, h4⟩ := List.mem_map.1 h1
    exact ⟨t, h3, by rw [← h4] at h2; exact h2⟩

theorem select_word : lexRules.all (fun r => !(r.kind == K.SELECT) || within commentClass r.re) = true := by decide +kernel

section
variable {errLen : Text → Nat} {text : Text} {g : Green} {errs : List SyntaxErr} (hp : parseSource errLen text = some (g, errs))
  (hd : Derives sparqlRules (.node g.kind) (kinds (lex errLen text)))
include hp hd

/-- No comment is directly in front of `SELECT`. -/
theorem no_comment_select {A B : List Red} {q y : Red} (e : (Red.root g).tokens = A ++ q :: y :: B) (hy : y.kind = K.SELECT) : q.kind ≠ K.Comment := by
  intro hk
  have h := longest_token hp hd e
  rw [hk] at h
  have h := (longest_comment.1 h).2
  obtain ⟨r, h1, h2, h3⟩ := all_rules hp hd y (by rw [e]; simp)
  have h2 : r.kind = y.kind := h2
  have hw : within commentClass r.re = true := by
    have := List.all_eq_true.1 select_word r h1
    rw [h2, hy] at this
    simpa using this
  obtain ⟨c, v, hcv⟩ := rule_cons h1 h3
  have hcv : y.text = c :: v := hcv
  have h3 : Matches r.re y.text := h3
  have hc := within_has h3 hw c (by rw [hcv]; simp)
  have := h c (v ++ flat (B.map Red.kt)) (by rw [List.map_cons, flat_cons]; show y.text ++ _ = _; rw [hcv]; rfl)
  rw [this] at hc; cases hc

/-- **The query in its document**, and the new document. -/
theorem wrap_put {s : Red} (hs : IsSelect g s) (hds : ∀ d, ¬ Part s K.DatasetClause d) {I : List (Kind × Text)} (hI : SelOk I) (n : Nat) :
    ∃ A B, (Red.root g).tokens = A ++ s.tokens ++ B ∧
      ∀ L, L = A.map Red.kt ++ (wrapTokens I n ++ ((s.tokens.map Red.kt).map (deepen (2 * n)) ++ (closeTokens '\n' n ++ B.map Red.kt))) →
        tokenPairs errLen (flat L) = L ∧ Derives sparqlRules (.node g.kind) (kinds (lex errLen (flat L))) ∧
        ∃ g', parseSource errLen (flat L) = some (g', []) ∧ g'.kind = g.kind := by
  have P := parsed_of hp
  have hC := complete_of hp hd
  obtain ⟨A, B, e, hf, hfill, hends⟩ := front_ends P hC hs
  obtain ⟨⟨t, T, ht, htk⟩, T', q, hq, hqs, hqb⟩ := select_tokens P hC hs
  refine ⟨A, B, e, ?_⟩
  rintro L rfl
  have hrules := all_rules hp hd
  rw [e] at hrules
  have hE := valid_noError hd
  have hL : Lexes text (tokenPairs errLen text) := c47_longest_match errLen text
  have hpairs := tokens_pairs hp
  rw [e, List.map_append, List.map_append] at hpairs
  have htext := text_split hp hd e
  rw [← hpairs] at hE hL
  have hne := (lexes_flat hL).2
  have hLB : Lexes (flat (B.map Red.kt)) (B.map Red.kt) := lexes_suffix hL
  -- behind the query
  have hclose : Lexes (flat (closeTokens ' ' n) ++ flat (B.map Red.kt)) (closeTokens ' ' n ++ B.map Red.kt) := by
    refine lexes_chain (fun p hp' => (close_rules (.inr rfl) n p hp').1) (show okChain [K.WHITESPACE, K.RCurly, K.WHITESPACE, K.RCurly] = true by decide +kernel) ?_ hLB
    intro p I0 eI c y _
    have hpk : p.1 = K.RCurly := by
      have h1 : ([(K.WHITESPACE, ' ' :: List.replicate n ' '), (K.RCurly, ['}']), (K.WHITESPACE, ['\n'])] : List (Kind × Text)) ++ [(K.RCurly, ['}'])] = I0 ++ [p] := eI
      have h2 := (List.append_inj' h1 rfl).2
      have : (K.RCurly, ['}']) = p := by simpa using h2
      rw [← this]
    rw [hpk]
    left
    have hcl : safeOf K.RCurly = [(0, 0x10FFFF)] := by decide +kernel
    rw [hcl]
    have hv : c.toNat ≤ 0x10FFFF := by
      rcases c.valid with h | ⟨-, h⟩
      · show c.val.toNat ≤ _
        have : c.val.toNat < 0xd800 := h
        omega
      · show c.val.toNat ≤ _
        have : c.val.toNat < 0x110000 := h
        omega
    simp [Class.has]; exact hv
  have hfc : flat (closeTokens ' ' n) = ' ' :: (List.replicate n ' ' ++ ['}', '\n', '}']) := by simp [closeTokens, flat]
  have h1 : Lexes (flat (A.map Red.kt ++ s.tokens.map Red.kt) ++ (' ' :: (List.replicate n ' ' ++ ['}', '\n', '}']) ++ flat (B.map Red.kt)))
      ((A.map Red.kt ++ s.tokens.map Red.kt) ++ (closeTokens ' ' n ++ B.map Red.kt)) := by
    refine lexes_insert (B := B.map Red.kt) (d := []) (A0 := A.map Red.kt ++ T'.map Red.kt) (q := q.kt) ?_ ?_ ?_ ?_ hqs hqb ?_ ?_ ?_
    · rw [htext] at hL; rw [flat_append]; simpa using hL
    · intro p hp'; exact hE p (by rw [List.mem_append]; exact .inl hp')
    · intro p hp'; exact hne p (by rw [List.mem_append]; exact .inl hp')
    · rw [hq]; simp
    · intro c hc; cases hc
    · rw [← hfc]; exact calm_plain (close_plain n)
    · rw [← hfc]; exact hclose
  rw [← hfc] at h1
  -- in front of the query
  have h2 : Lexes (flat (s.tokens.map Red.kt) ++ (flat (closeTokens ' ' n) ++ flat (B.map Red.kt))) (s.tokens.map Red.kt ++ (closeTokens ' ' n ++ B.map Red.kt)) := by
    have := lexes_suffix (A := A.map Red.kt) (X := s.tokens.map Red.kt ++ (closeTokens ' ' n ++ B.map Red.kt)) (by rw [← List.append_assoc]; exact h1)
    simpa [flat_append] using this
  have h3 : Lexes (flat (wrapTokens I n) ++ (flat (s.tokens.map Red.kt) ++ (flat (closeTokens ' ' n) ++ flat (B.map Red.kt))))
      (wrapTokens I n ++ (s.tokens.map Red.kt ++ (closeTokens ' ' n ++ B.map Red.kt))) := by
    refine lexes_chain (fun p hp' => (wrap_rules hI n p hp').1) (wrap_chain hI n) ?_ h2
    intro p I0 eI c y ec
    have hpk : p.1 = K.WHITESPACE := by
      have h1 : ([(K.SELECT, ['S', 'E', 'L', 'E', 'C', 'T']), (K.WHITESPACE, [' '])] ++ I ++
        [(K.WHITESPACE, [' ']), (K.WHERE, ['W', 'H', 'E', 'R', 'E']), (K.WHITESPACE, [' ']), (K.LCurly, ['{']), (K.WHITESPACE, '\n' :: List.replicate n ' '),
          (K.LCurly, ['{'])]) ++ [(K.WHITESPACE, '\n' :: List.replicate (2 * n) ' ')] = I0 ++ [p] := by rw [← eI]; simp [wrapTokens]
      have h2 := (List.append_inj' h1 rfl).2
      have : (K.WHITESPACE, '\n' :: List.replicate (2 * n) ' ') = p := by simpa using h2
      rw [← this]
    obtain ⟨c', v, e1, e2⟩ := touch_cons (hrules t (by rw [ht]; simp))
    have : flat (s.tokens.map Red.kt) ++ (flat (closeTokens ' ' n) ++ flat (B.map Red.kt)) =
        c' :: (v ++ (flat (T.map Red.kt) ++ (flat (closeTokens ' ' n) ++ flat (B.map Red.kt)))) := by
      rw [ht, List.map_cons, flat_cons, e1]; simp
    rw [this] at ec
    injection ec with ec _
    rw [← ec, hpk]
    refine e2 K.WHITESPACE ?_
    rw [show t.kt.1 = t.kind from rfl, htk]
    decide +kernel
  have hfw : ∃ i, flat (wrapTokens I n) = 'S' :: i := ⟨_, by rw [flat_wrap]; rfl⟩
  obtain ⟨i, hi⟩ := hfw
  have h4 : Lexes (flat (A.map Red.kt) ++ (flat (wrapTokens I n) ++ (flat (s.tokens.map Red.kt) ++ (flat (closeTokens ' ' n) ++ flat (B.map Red.kt)))))
      (A.map Red.kt ++ (wrapTokens I n ++ (s.tokens.map Red.kt ++ (closeTokens ' ' n ++ B.map Red.kt)))) := by
    rcases List.eq_nil_or_concat A with hA | ⟨A0, a, hA⟩
    · rw [hA]; exact h3
    · rw [List.concat_eq_append] at hA
      have hak : a.kind ∈ aheadKinds := by
        cases htr : triviaKind a.kind with
        | false => exact List.mem_cons_of_mem _ (hends A0 a hA htr)
        | true =>
          have hnc : a.kind ≠ K.Comment := no_comment_select hp hd (A := A0) (B := T ++ B) (q := a) (y := t) (by rw [e, hA, ht]; simp) htk
          have : a.kind = K.WHITESPACE := by
            have htr : (a.kind == K.WHITESPACE || a.kind == K.Comment) = true := htr
            simp only [Bool.or_eq_true, beq_iff_eq] at htr
            exact htr.resolve_right hnc
          rw [this]; exact List.mem_cons_self
      have hlastA : ∀ A1 q1, A = A1 ++ [q1] → q1 = a := by
        intro A1 q1 h
        rw [hA] at h
        have := (List.append_inj' h rfl).2
        simpa using this.symm
      rw [hi] at h3 ⊢
      refine lexes_splice (B := s.tokens.map Red.kt ++ (closeTokens ' ' n ++ B.map Red.kt)) (d := []) (c0 := 'S') (i := i) (by decide) ?_ ?_ ?_ ?_ ?_
        (ahead_barrier hf (fun t ht => hrules t (by simp [ht])) (fun A1 q1 h => by rw [hlastA A1 q1 h]; exact hak)) ?_ ?_ h3
      · rw [flat_append, ← List.append_assoc] at h1; simpa using h1
      · intro p hp'; exact hE p (by simp only [List.mem_append]; exact .inl (.inl hp'))
      · intro p hp'; exact hne p (by simp only [List.mem_append]; exact .inl (.inl hp'))
      · rw [hA]; simp
      · intro A1 q1 e1
        rw [hA, List.map_append] at e1
        have : a.kt = q1 := by
          have := (List.append_inj' e1 rfl).2
          simpa using this
        rw [← this]
        refine longest_before (hrules a (by rw [hA]; simp)) ?_
        intro c y ec
        injection ec with ec _
        rw [← ec]
        exact ends_ahead hak
      · intro c hc; cases hc
      · rw [← hi]; exact calm_plain (wrap_plain hI n)
  -- the lines
  have hE4 : ∀ p ∈ A.map Red.kt ++ (wrapTokens I n ++ (s.tokens.map Red.kt ++ (closeTokens ' ' n ++ B.map Red.kt))), p.1 ≠ K.Error := by
    intro p hp'
    simp only [List.mem_append] at hp'
    rcases hp' with h | h | h | h | h
    · exact hE p (by simp only [List.mem_append]; exact .inl (.inl h))
    · exact (wrap_rules hI n p h).2
    · exact hE p (by simp only [List.mem_append]; exact .inl (.inr h))
    · exact (close_rules (.inr rfl) n p h).2
    · exact hE p (by simp only [List.mem_append]; exact .inr h)
  have hrefl : ∀ (M : List (Kind × Text)), List.Forall₂ Relaid M M := by
    intro M
    induction M with
    | nil => exact .nil
    | cons p M ih => exact .cons (Relaid.refl p) ih
  have hdeep : ∀ (M : List (Kind × Text)), List.Forall₂ Relaid M (M.map (deepen (2 * n))) := by
    intro M
    induction M with
    | nil => exact .nil
    | cons p M ih => exact .cons (relaid_deeper (indent_deeper _ _)) ih
  have happ : ∀ {M M' N N' : List (Kind × Text)}, List.Forall₂ Relaid M M' → List.Forall₂ Relaid N N' → List.Forall₂ Relaid (M ++ N) (M' ++ N') := by
    intro M M' N N' h1 h2
    induction h1 with
    | nil => exact h2
    | cons h _ ih => exact .cons h ih
  have h5 := lexes_laid h4 hE4 (L' := A.map Red.kt ++ (wrapTokens I n ++ ((s.tokens.map Red.kt).map (deepen (2 * n)) ++ (closeTokens '\n' n ++ B.map Red.kt))))
    (happ (hrefl _) (happ (hrefl _) (happ (hdeep _) (happ (.cons relaid_turn (hrefl _)) (hrefl _)))))
  refine valid_tokens errLen P.root h5 ?_ ?_ ⟨(K.SELECT, ['S', 'E', 'L', 'E', 'C', 'T']), ?_, by decide⟩
  · intro p hp'
    simp only [List.mem_append, List.mem_map] at hp'
    rcases hp' with ⟨x, h, rfl⟩ | h | ⟨x, ⟨y, h, rfl⟩, rfl⟩ | h | ⟨x, h, rfl⟩
    · exact hE _ (by simp only [List.mem_append, List.mem_map]; exact .inl (.inl ⟨x, h, rfl⟩))
    · exact (wrap_rules hI n p h).2
    · exact hE y.kt (by simp only [List.mem_append, List.mem_map]; exact .inl (.inr ⟨y, h, rfl⟩))
    · exact (close_rules (.inl rfl) n p h).2
    · exact hE _ (by simp only [List.mem_append, List.mem_map]; exact .inr ⟨x, h, rfl⟩)
  · have hsd : sigK ((s.tokens.map Red.kt).map (deepen (2 * n))) = sigKs s.tokens := by
      rw [sigKs_kt]
      generalize s.tokens.map Red.kt = M
      induction M with
      | nil => rfl
      | cons p M ih =>
        rw [List.map_cons]
        have : ∀ (a : Kind × Text) (l : List (Kind × Text)), sigK (a :: l) = sigK [a] ++ sigK l := fun a l => sigK_append [a] l
        rw [this, this p, ih]
        have : sigK [deepen (2 * n) p] = sigK [p] := by
          unfold sigK sigPairs deepen
          cases h : (p.1 == K.WHITESPACE || p.1 == K.Comment) <;> rw [List.filter_cons, List.filter_cons, h] <;> rfl
        rw [this]
    have hsc : sigK (closeTokens '\n' n) = [K.RCurly, K.RCurly] := rfl
    have hsw : sigK (wrapTokens I n) = K.SELECT :: sigK I ++ [K.WHERE, K.LCurly, K.LCurly] := by
      unfold wrapTokens
      rw [sigK_append, sigK_append]
      rfl
    have := hfill _ (wrap_derives hs.2.2 hI.clause (as_subselect P hC hs hds))
    rw [sigK_append, sigK_append, sigK_append, sigK_append, hsd, hsc, hsw, ← sigKs_kt, ← sigKs_kt]
    simpa using this
  · rw [List.mem_append, List.mem_append]
    exact .inr (.inl (by simp [wrapTokens]))

end
end Verif.Props
