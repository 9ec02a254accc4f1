import Verif.Features.SelectItem
/-!
# C63: adding a variable or an aggregate to the result
-/
namespace Verif.Props
open Verif Verif.Grammar Verif.Lexer Verif.Features Verif.Format

/-! ## Specification -/

/-- `v` is written in the head of the sub-select `x`. -/
def Listed (v x : Red) : Prop := x.kind = K.SubSelect ∧ ∃ c, Part x K.SelectClause c ∧ v ∈ c.childrenT

def SelKind (k : Kind) : Prop := k = K.SelectQuery ∨ k = K.SubSelect

/-- The query whose result a variable can be added to: the innermost one around the variable; for a variable of the head of a sub-select the one
around this. -/
def ResultOf (v s : Red) : Prop :=
  ∃ a b, v.ancestors = a ++ s :: b ∧ SelKind s.kind ∧ ¬ Listed v s ∧ ∀ x ∈ a, SelKind x.kind → Listed v x

/-- The variable may be in the result: it is not there, and the query is not grouped, or grouped by the variable. (The `GROUP BY` of a sub-select
with `VALUES` is not taken into account.) -/
def Eligible (s c : Red) (t : Text) : Prop :=
  (∀ w, Selects c w → w.text ≠ t) ∧ ∀ gc, GroupedBy s gc → (∀ u, ¬ Part s K.ValuesClause u) → GroupVar gc t

/-- The tokens of `(COUNT(?x) AS ?count_x)` for `x`. -/
def aggTokens (k : Kind) (f pre name : Text) : List (Kind × Text) :=
  [(K.LParen, ['(']), (k, f), (K.LParen, ['(']), (K.VAR1, '?' :: name), (K.RParen, [')']), (K.WHITESPACE, [' ']), (K.AS, ['A', 'S']),
    (K.WHITESPACE, [' ']), (K.VAR1, '?' :: (pre ++ name)), (K.RParen, [')'])]

/-- The tokens of `(GROUP_CONCAT(DISTINCT ?x; SEPARATOR = ", ") as ?group_concat_x)`. -/
def concatTokens (name : Text) : List (Kind × Text) :=
  [(K.LParen, ['(']), (K.GROUP_CONCAT, ['G', 'R', 'O', 'U', 'P', '_', 'C', 'O', 'N', 'C', 'A', 'T']), (K.LParen, ['(']),
    (K.DISTINCT, ['D', 'I', 'S', 'T', 'I', 'N', 'C', 'T']), (K.WHITESPACE, [' ']), (K.VAR1, '?' :: name), (K.Semicolon, [';']), (K.WHITESPACE, [' ']),
    (K.SEPARATOR, ['S', 'E', 'P', 'A', 'R', 'A', 'T', 'O', 'R']), (K.WHITESPACE, [' ']), (K.Equals, ['=']), (K.WHITESPACE, [' ']),
    (K.STRING_LITERAL2, ['"', ',', ' ', '"']), (K.RParen, [')']), (K.WHITESPACE, [' ']), (K.AS, ['a', 's']), (K.WHITESPACE, [' ']),
    (K.VAR1, '?' :: (['g', 'r', 'o', 'u', 'p', '_', 'c', 'o', 'n', 'c', 'a', 't', '_'] ++ name)), (K.RParen, [')'])]

/-- The seven aggregates. -/
def aggItems (name : Text) : List (List (Kind × Text)) :=
  [aggTokens K.COUNT ['C', 'O', 'U', 'N', 'T'] ['c', 'o', 'u', 'n', 't', '_'] name,
   aggTokens K.SUM ['S', 'U', 'M'] ['s', 'u', 'm', '_'] name,
   aggTokens K.MIN ['M', 'I', 'N'] ['m', 'i', 'n', '_'] name,
   aggTokens K.MAX ['M', 'A', 'X'] ['m', 'a', 'x', '_'] name,
   aggTokens K.AVG ['A', 'V', 'G'] ['a', 'v', 'g', '_'] name,
   aggTokens K.SAMPLE ['S', 'A', 'M', 'P', 'L', 'E'] ['s', 'a', 'm', 'p', 'l', 'e', '_'] name,
   concatTokens name]

/-! ## Proof -/

theorem isSel_iff {r : Red} : Red.isSel r = true ↔ SelKind r.kind := by simp [Red.isSel, SelKind]

theorem star_pos (A : Text) : starEdit (posOf (A ++ ['*'])) = fun new => ⟨⟨posOf A, posOf (A ++ ['*'])⟩, new⟩ := by
  funext new
  unfold starEdit
  rw [posOf_snoc]
  have : (posOf A).step '*' = ⟨(posOf A).line, (posOf A).character + 1⟩ := rfl
  rw [this]
  simp

section
variable {errLen : Text → Nat} {text : Text} {g : Green} {errs : List SyntaxErr} (hp : parseSource errLen text = some (g, errs))
  (hd : Derives sparqlRules (.node g.kind) (kinds (lex errLen text)))
include hp hd

theorem result_iff {v : Red} (hv : InTree g v) (hn : v.isNode = true) (hk : v.kind = K.Var) (s : Red) : resultQuery v = some s ↔ ResultOf v s := by
  have P := parsed_of hp
  have hC := complete_of hp hd
  have hanc : v.ancestors = v :: Red.chain v.up := rfl
  have hvs : ¬ SelKind v.kind := by rw [hk]; unfold SelKind; decide
  cases hch : Red.chain v.up with
  | nil =>
    constructor
    · intro h; unfold resultQuery at h; rw [hanc, hch] at h; cases h
    · rintro ⟨a, b, e, hs, -, -⟩
      rw [hanc, hch] at e
      cases a with
      | nil => injection e with e _; rw [← e] at hs; exact absurd hs hvs
      | cons x a => injection e with _ e; cases a <;> cases e
  | cons p rest0 =>
    obtain ⟨hvp, hpc⟩ := child_of_chain hv hch
    have hpT : InTree g p := (hv.chain p (by rw [hch]; simp)).1
    have hpn : p.isNode = true := child_isNode hvp
    cases hch2 : rest0 with
    | nil =>
      constructor
      · intro h; unfold resultQuery at h; rw [hanc, hch, hch2] at h; cases h
      · rintro ⟨a, b, e, hs, -, -⟩
        exfalso
        have hpr : p = Red.root g := by
          cases hpT with
          | root => rfl
          | @child r _ hr hm =>
            rw [hch2, child_up hm] at hpc
            cases hpc
        have hps : ¬ SelKind p.kind := by
          rw [hpr]
          rcases P.root with h | h
          · rw [show (Red.root g).kind = g.kind from rfl, h]; unfold SelKind; decide
          · rw [show (Red.root g).kind = g.kind from rfl, h]; unfold SelKind; decide
        have : s ∈ v.ancestors := by rw [e]; simp
        rw [hanc, hch, hch2] at this
        simp only [List.mem_cons, List.not_mem_nil, or_false] at this
        rcases this with h | h
        · rw [h] at hs; exact hvs hs
        · rw [h] at hs; exact hps hs
    | cons gp rest =>
      rw [hch2] at hpc
      obtain ⟨hpg, hgc⟩ := child_of_chain hpT hpc
      have hgT : InTree g gp := (hpT.chain gp (by rw [hpc]; simp)).1
      have hgn : gp.isNode = true := child_isNode hpg
      have hl : ∀ x, Listed v x → x = gp := by
        rintro x ⟨-, c, h1, h2⟩
        have e1 : c = p := by
          have e1 := child_parent h2
          have e2 := child_parent hvp
          rw [e1] at e2; injection e2
        subst e1
        have e1 := child_parent h1.1
        have e2 := child_parent hpg
        rw [e1] at e2; injection e2
      have hrest : gp ∉ rest := by
        intro h
        rw [← hgc] at h
        exact absurd (chain_depth _ _ h) (Nat.lt_irrefl _)
      by_cases hgk : gp.kind = K.SubSelect
      · have hpk : p.kind = K.SelectClause := by
          have h1 := sigC_whole P hC hgT hgn (by rw [hgk]; exact subSelectRule)
          have h2 := allSyms_sound (f := fun s => s == .node K.SelectClause || s == .node K.WhereClause || s == .node K.SolutionModifier || s == .node K.ValuesClause)
            h1 (by decide +kernel) (symOf p) (List.mem_map.2 ⟨p, mem_sigC.2 ⟨hpg, node_sig P hpT hpn⟩, rfl⟩)
          rw [symOf_node hpn] at h2
          have hno : ∀ k R, p.kind = k → sparqlRules k = some R → allSyms (fun s => s != .node K.Var) R = true → False := by
            intro k R e hR ha
            have h1 := sigC_whole P hC hpT hpn (by rw [e]; exact hR)
            have h2 := allSyms_sound h1 ha (symOf v) (List.mem_map.2 ⟨v, mem_sigC.2 ⟨hvp, node_sig P hv hn⟩, rfl⟩)
            rw [symOf_node hn, hk] at h2
            revert h2; decide
          simp only [Bool.or_eq_true, beq_iff_eq] at h2
          rcases h2 with ((h | h) | h) | h
          · injection h
          · injection h with h; exact (hno _ rule_WhereClause h (by decide +kernel) (by decide +kernel)).elim
          · injection h with h; exact (hno _ rule_SolutionModifier h (by decide +kernel) (by decide +kernel)).elim
          · injection h with h; exact (hno _ rule_ValuesClause h (by decide +kernel) (by decide +kernel)).elim
        have hLg : Listed v gp := ⟨hgk, p, ⟨hpg, hpn, hpk⟩, hvp⟩
        have hps : ¬ SelKind p.kind := by rw [hpk]; unfold SelKind; decide
        have hq : resultQuery v = rest.find? Red.isSel := by
          unfold resultQuery
          rw [hanc, hch, hch2]
          show (if gp.kind = K.SubSelect then _ else _) = _
          rw [if_pos hgk]
          rfl
        rw [hq, List.find?_eq_some_iff_append]
        constructor
        · rintro ⟨h1, as, bs, e, h2⟩
          refine ⟨v :: p :: gp :: as, bs, by rw [hanc, hch, hch2, e]; rfl, isSel_iff.1 h1, ?_, ?_⟩
          · intro h
            rw [hl s h] at e
            exact hrest (by rw [e]; simp)
          · intro x hx hxs
            rcases List.mem_cons.1 hx with rfl | hx
            · exact absurd hxs hvs
            rcases List.mem_cons.1 hx with rfl | hx
            · exact absurd hxs hps
            rcases List.mem_cons.1 hx with rfl | hx
            · exact hLg
            · have := h2 x hx
              rw [isSel_iff.2 hxs] at this; cases this
        · rintro ⟨a, b, e, h1, h2, h3⟩
          rw [hanc, hch, hch2] at e
          cases a with
          | nil => injection e with e _; rw [← e] at h1; exact absurd h1 hvs
          | cons x1 a =>
            injection e with _ e
            cases a with
            | nil => injection e with e _; rw [← e] at h1; exact absurd h1 hps
            | cons x2 a =>
              injection e with _ e
              cases a with
              | nil => injection e with e _; rw [← e] at h2; exact absurd hLg h2
              | cons x3 a =>
                injection e with _ e
                refine ⟨isSel_iff.2 h1, a, b, e, ?_⟩
                intro x hx
                cases hxs : Red.isSel x with
                | false => rfl
                | true =>
                  have := hl x (h3 x (by simp [hx]) (isSel_iff.1 hxs))
                  exact absurd (by rw [← this, e]; simp [hx]) hrest
      · have hno : ∀ x, ¬ Listed v x := by
          intro x h
          have := hl x h
          rw [this] at h
          exact hgk h.1
        have hq : resultQuery v = v.ancestors.find? Red.isSel := by
          unfold resultQuery
          rw [hanc, hch, hch2]
          show (if gp.kind = K.SubSelect then _ else _) = _
          rw [if_neg hgk]
        rw [hq, List.find?_eq_some_iff_append]
        constructor
        · rintro ⟨h1, as, bs, e, h2⟩
          refine ⟨as, bs, e, isSel_iff.1 h1, hno s, ?_⟩
          intro x hx hxs
          have := h2 x hx
          rw [isSel_iff.2 hxs] at this; cases this
        · rintro ⟨a, b, e, h1, -, h3⟩
          refine ⟨isSel_iff.2 h1, a, b, e, ?_⟩
          intro x hx
          cases hxs : Red.isSel x with
          | false => rfl
          | true => exact absurd (h3 x hx (isSel_iff.1 hxs)) (hno x)

omit hp hd in
theorem result_select {v s : Red} (hv : InTree g v) (hn : v.isNode = true) (h : ResultOf v s) : IsSelect g s := by
  obtain ⟨a, b, e, h1, -, -⟩ := h
  have hm : s ∈ v.ancestors := by rw [e]; simp
  refine ⟨hv.ancestors s hm, ?_, h1⟩
  rcases List.mem_cons.1 hm with rfl | hm
  · exact hn
  · exact (hv.chain s hm).2

theorem clause_find {s c : Red} (hs : IsSelect g s) : s.childOf [K.SelectClause] = some c ↔ Part s K.SelectClause c := by
  obtain ⟨R, hR, -, h1, h2, -⟩ := select_rule hs.2.2
  exact childOf_iff (parsed_of hp) (complete_of hp hd) hs.1 hs.2.1 hR h1 h2

theorem eligible_iff {s c : Red} (hs : IsSelect g s) (hc : Part s K.SelectClause c) (t : Text) :
    mayAdd s c t = true ↔ Eligible s c t := by
  have P := parsed_of hp
  have hC := complete_of hp hd
  unfold Eligible mayAdd
  rw [Bool.and_eq_true]
  refine and_congr ?_ ?_
  · simp only [Bool.not_eq_true', ← Bool.not_eq_true, List.contains_iff_mem, List.mem_map, not_exists, not_and]
    refine forall_congr' fun w => ?_
    rw [mem_selectedVars P hC (hs.1.child hc.1) hc.2.1 hc.2.2]
  · cases hg : groupClause s with
    | none =>
      refine ⟨fun _ gc h1 h2 => ?_, fun _ => rfl⟩
      have := (groupClause_iff P hC hs).2 ⟨h1, h2⟩
      rw [hg] at this; cases this
    | some gc =>
      have hg' := (groupClause_iff P hC hs).1 hg
      obtain ⟨m, hm, hgc⟩ := hg'.1
      show (groupTexts gc).contains t = true ↔ _
      rw [List.contains_iff_mem, mem_groupTexts P hC ((hs.1.child hm.1).child hgc.1) hgc.2.1 hgc.2.2]
      constructor
      · intro h gc' h1 h2
        have := (groupClause_iff P hC hs).2 ⟨h1, h2⟩
        rw [hg] at this
        injection this with this
        rw [← this]; exact h
      · intro h; exact h gc hg'.1 hg'.2

theorem pos_at {x : Red} (hx : InTree g x) : ∃ p q, fromByteIndex x.start text = some p ∧ fromByteIndex x.stop text = some q := by
  have P := parsed_of hp
  obtain ⟨pre, post, e, h1⟩ := P.at_ hx
  refine ⟨posOf pre, posOf (pre ++ x.text), ?_, ?_⟩
  · have : x.start = blen pre := by rw [← h1]
    rw [this, e, List.append_assoc]; exact fromByteIndex_of_prefix _ _
  · have : x.stop = blen (pre ++ x.text) := by rw [blen_append, ← h1]; rfl
    rw [this, e]; exact fromByteIndex_of_prefix _ _

theorem var_item {k : Kind} (hk : k = K.VAR1 ∨ k = K.VAR2) {w : Text} (h : HasRule (k, w)) : ItemOk [(k, w)] := by
  refine ⟨?_, ?_, ?_, ?_, ?_, ?_, ?_⟩
  · intro p hp'; rw [List.mem_singleton.1 hp']; exact h
  · intro p hp'; rw [List.mem_singleton.1 hp']; show k ≠ K.Error; rcases hk with h | h <;> rw [h] <;> decide
  · show okChain [K.WHITESPACE, k] = true
    rcases hk with h | h <;> rw [h] <;> decide +kernel
  · show okChain [k, K.WHITESPACE] = true
    rcases hk with h | h <;> rw [h] <;> decide +kernel
  · have : sigK [(k, w)] = [k] := by rcases hk with h | h <;> rw [h] <;> rfl
    rw [this]
    rcases hk with h | h <;> rw [h] <;> exact ll_sound (n := 20) (by decide +kernel)
  · have : flat [(k, w)] = w := by simp [flat]
    rw [this]; exact calm_plain (var_plain hk h)
  · have e : flat [(k, w)] = w := by simp [flat]
    rw [e]
    rcases hk with rfl | rfl
    · have hm : Matches rule_VAR1.re w := lexed_rule h rfl (by decide +kernel)
      obtain ⟨n, e, -⟩ := (varRule_matches (s := '?') (.inl rfl) w).1 hm
      exact ⟨'?', n, e, by decide⟩
    · have hm : Matches rule_VAR2.re w := lexed_rule h rfl (by decide +kernel)
      obtain ⟨n, e, -⟩ := (varRule_matches (s := '$') (.inr rfl) w).1 hm
      exact ⟨'$', n, e, by decide⟩

end

theorem Replaced.offset {errLen text g edit off D I} (h : Replaced errLen text g edit off D I) : fromByteIndex off text = some edit.range.start := by
  obtain ⟨A, B, g', h1, h2, h3, -⟩ := h
  have hL : Lexes text (tokenPairs errLen text) := c47_longest_match errLen text
  have : text = flat A ++ (flat D ++ flat B) := by
    rw [← (lexes_flat hL).1, h1, flat_append, flat_append, List.append_assoc]
  rw [h3, ← h2]
  conv_lhs => rw [this]
  exact fromByteIndex_of_prefix _ _

/-- **C63.** "Add to result" is offered for a variable of a valid document exactly if there is a query around it that can have it in its result. -/
theorem c63_offered (errLen : Text → Nat) (text : Text) (g errs) (hp : parseSource errLen text = some (g, errs))
    (hd : Derives sparqlRules (.node g.kind) (kinds (lex errLen text))) (v : Red) (hv : InTree g v) (hn : v.isNode = true) (hk : v.kind = K.Var) :
    (addToResult text v).isSome ↔ ∃ s c, ResultOf v s ∧ Part s K.SelectClause c ∧ Eligible s c v.text := by
  have P := parsed_of hp
  constructor
  · intro h
    unfold addToResult at h
    split at h
    · cases h
    · rename_i s hs
      have hr := (result_iff hp hd hv hn hk s).1 hs
      have hsel := result_select hv hn hr
      split at h
      · cases h
      · rename_i c hc
        have hc := (clause_find hp hd hsel).1 hc
        split at h
        · rename_i hE
          exact ⟨s, c, hr, hc, (eligible_iff hp hd hsel hc v.text).1 hE⟩
        · cases h
  · rintro ⟨s, c, hr, hc, hE⟩
    have hsel := result_select hv hn hr
    have hcT := hsel.1.child hc.1
    obtain ⟨X, y, hXy, -⟩ := last_sig P hcT hc.2.1 (by rw [child_up hc.1]; simp)
    have hlast : c.childrenT.getLast? = some y := by rw [hXy]; simp
    unfold addToResult
    rw [(result_iff hp hd hv hn hk s).2 hr]
    simp only [(clause_find hp hd hsel).2 hc]
    rw [if_pos ((eligible_iff hp hd hsel hc v.text).2 hE)]
    unfold addEdit addOffset
    rw [hlast]
    obtain ⟨p, q, h1, h2⟩ := pos_at hp hd hcT
    cases hf : firstParen c with
    | none =>
      simp only [h2]
      split <;> rfl
    | some l =>
      obtain ⟨p', q', h3, -⟩ := pos_at hp hd (hcT.child (List.mem_of_find?_eq_some hf))
      simp only [h3]
      split <;> rfl

section
variable {errLen : Text → Nat} {text : Text} {g : Green} {errs : List SyntaxErr} (hp : parseSource errLen text = some (g, errs))
  (hd : Derives sparqlRules (.node g.kind) (kinds (lex errLen text)))
include hp hd

/-- What the action computes. -/
theorem add_eq {v s c : Red} (hv : InTree g v) (hn : v.isNode = true) (hk : v.kind = K.Var) (hr : ResultOf v s) (hc : Part s K.SelectClause c)
    (hE : Eligible s c v.text) : addToResult text v = addEdit text c v.text := by
  have hsel := result_select hv hn hr
  unfold addToResult
  rw [(result_iff hp hd hv hn hk s).2 hr]
  simp only [(clause_find hp hd hsel).2 hc]
  rw [if_pos ((eligible_iff hp hd hsel hc v.text).2 hE)]

end

/-- **C63.** A select clause with a star: the star is replaced by the variable, all other tokens stay, and the document is valid – if the star is not
glued to `WHERE` or `FROM`. -/
theorem c63_star (errLen : Text → Nat) (text : Text) (g errs) (hp : parseSource errLen text = some (g, errs))
    (hd : Derives sparqlRules (.node g.kind) (kinds (lex errLen text))) (v : Red) (hv : InTree g v) (hn : v.isNode = true) (hk : v.kind = K.Var)
    (s c t : Red) (hr : ResultOf v s) (hc : Part s K.SelectClause c) (hE : Eligible s c v.text) (ht : t ∈ c.childrenT) (htk : t.kind = K.Star)
    (hglue : ∀ y ∈ (Red.root g).tokens, y.start = t.stop → y.kind ≠ K.WHERE ∧ y.kind ≠ K.FROM) :
    ∃ edit k, addToResult text v = some edit ∧ (k = K.VAR1 ∨ k = K.VAR2) ∧
      Replaced errLen text g edit t.start [(K.Star, ['*'])] [(k, v.text)] := by
  have hsel := result_select hv hn hr
  obtain ⟨k, hkk, -, hrule⟩ := var_pair hp hd hv hn hk
  obtain ⟨h1, h2, h3, A, h4, h5, h6⟩ := put_star hp hd hsel hc ht htk (var_item hp hd hkk hrule) (by
    intro p I0 e y hy hys hyk
    have : p = (k, v.text) := by
      have := (List.append_inj' (show [] ++ [(k, v.text)] = I0 ++ [p] from e) rfl).2
      simpa using this.symm
    rw [this]
    obtain ⟨n1, n2⟩ := hglue y hy hys
    have hz : y.kind ∈ [K.WHITESPACE, K.Comment, K.FROM, K.WHERE, K.LCurly] := by
      rcases hyk with h | h
      · have : y.kind = K.WHITESPACE ∨ y.kind = K.Comment := by simpa [triviaKind] using h
        rcases this with h | h <;> rw [h] <;> decide
      · exact List.mem_cons_of_mem _ (List.mem_cons_of_mem _ h)
    have : [K.WHITESPACE, K.Comment, K.FROM, K.WHERE, K.LCurly].all (fun k => k == K.FROM || k == K.WHERE || (touch K.VAR1 k && touch K.VAR2 k)) = true := by decide +kernel
    have := List.all_eq_true.1 this _ hz
    simp only [Bool.or_eq_true, beq_iff_eq, Bool.and_eq_true] at this
    rcases this with (h' | h') | h'
    · exact absurd h' n2
    · exact absurd h' n1
    · rcases hkk with h | h <;> rw [h]
      · exact h'.1
      · exact h'.2)
  have hflat : flat [(k, v.text)] = v.text := by simp [flat]
  rw [hflat] at h6
  refine ⟨_, k, ?_, hkk, h6⟩
  rw [add_eq hp hd hv hn hk hr hc hE]
  unfold addEdit addOffset
  rw [h3, h1]
  have h7 : fromByteIndex c.stop text = some (posOf (A ++ ['*'])) := by
    have : c.stop = blen (A ++ ['*']) := by rw [h2, blen_append, h5]; rfl
    rw [this, h4]
    exact fromByteIndex_of_prefix _ _
  simp only [h7]
  rw [if_pos htk, star_pos]

/-- **C63.** A select clause with assignments: the variable and a blank are put in front of the first one. -/
theorem c63_before (errLen : Text → Nat) (text : Text) (g errs) (hp : parseSource errLen text = some (g, errs))
    (hd : Derives sparqlRules (.node g.kind) (kinds (lex errLen text))) (v : Red) (hv : InTree g v) (hn : v.isNode = true) (hk : v.kind = K.Var)
    (s c : Red) (hr : ResultOf v s) (hc : Part s K.SelectClause c) (hE : Eligible s c v.text)
    (X Y : List Red) (lp : Red) (hX : c.childrenT = X ++ lp :: Y) (hlk : lp.kind = K.LParen) (hf : ∀ x ∈ X, x.kind ≠ K.LParen) :
    ∃ edit k, addToResult text v = some edit ∧ (k = K.VAR1 ∨ k = K.VAR2) ∧
      Replaced errLen text g edit lp.start [] [(k, v.text), (K.WHITESPACE, [' '])] := by
  have hsel := result_select hv hn hr
  obtain ⟨k, hkk, -, hrule⟩ := var_pair hp hd hv hn hk
  have hlp : firstParen c = some lp := by
    unfold firstParen
    rw [List.find?_eq_some_iff_append]
    exact ⟨by simp [hlk], X, Y, hX, fun x hx => by simpa using hf x hx⟩
  obtain ⟨⟨l, h1, h2⟩, A, B, h3, h4, h5⟩ := put_before hp hd hsel hc hlp (var_item hp hd hkk hrule)
  have hflat : flat [(k, v.text)] = v.text := by simp [flat]
  rw [hflat] at h5
  refine ⟨_, k, ?_, hkk, h5⟩
  rw [add_eq hp hd hv hn hk hr hc hE]
  unfold addEdit addOffset
  rw [hlp, h1]
  have h7 : fromByteIndex lp.start text = some (posOf A) := by rw [h3, ← h4]; exact fromByteIndex_of_prefix _ _
  simp only [h7]
  rw [if_neg h2]
  rfl

/-- **C63.** A select clause that is a list of variables: a blank and the variable are put at its end. -/
theorem c63_end (errLen : Text → Nat) (text : Text) (g errs) (hp : parseSource errLen text = some (g, errs))
    (hd : Derives sparqlRules (.node g.kind) (kinds (lex errLen text))) (v : Red) (hv : InTree g v) (hn : v.isNode = true) (hk : v.kind = K.Var)
    (s c : Red) (hr : ResultOf v s) (hc : Part s K.SelectClause c) (hE : Eligible s c v.text)
    (hno : ∀ x ∈ c.childrenT, x.kind ≠ K.LParen ∧ x.kind ≠ K.Star) :
    ∃ edit k, addToResult text v = some edit ∧ (k = K.VAR1 ∨ k = K.VAR2) ∧
      Replaced errLen text g edit c.stop [] [(K.WHITESPACE, [' ']), (k, v.text)] := by
  have hsel := result_select hv hn hr
  obtain ⟨k, hkk, -, hrule⟩ := var_pair hp hd hv hn hk
  have hlp : firstParen c = none := by
    unfold firstParen
    rw [List.find?_eq_none]
    intro x hx
    simpa using (hno x hx).1
  obtain ⟨⟨l, h1, h2⟩, A, B, h3, h4, h5⟩ := put_end hp hd hsel hc (fun l hl => (hno l (List.mem_of_getLast? hl)).2) (var_item hp hd hkk hrule) (by
    intro p I0 e
    have : p = (k, v.text) := by
      have := (List.append_inj' (show [] ++ [(k, v.text)] = I0 ++ [p] from e) rfl).2
      simpa using this.symm
    rw [this]
    exact .inr ⟨hkk, hlp⟩)
  have hflat : flat [(k, v.text)] = v.text := by simp [flat]
  rw [hflat] at h5
  refine ⟨_, k, ?_, hkk, h5⟩
  rw [add_eq hp hd hv hn hk hr hc hE]
  unfold addEdit addOffset
  rw [hlp, h1]
  have h7 : fromByteIndex c.stop text = some (posOf A) := by rw [h3, ← h4]; exact fromByteIndex_of_prefix _ _
  simp only [h7]
  rw [if_neg h2]
  rfl

/-! ## Aggregates -/

theorem flat_agg (k : Kind) (f pre name : Text) : flat (aggTokens k f pre name) = aggText f pre ('?' :: name) := by
  simp [flat, aggTokens, aggText, varName]

theorem flat_concat (name : Text) : flat (concatTokens name) = concatText ('?' :: name) := by
  simp [flat, concatTokens, concatText, varName]

theorem var_rule {n : Text} (h : isValidVariableName n = true) : HasRule (K.VAR1, '?' :: n) :=
  ⟨rule_VAR1, List.mem_of_getElem? lexRules_var1, rfl, (varRule_matches (s := '?') (.inl rfl) _).2 ⟨n, rfl, h⟩⟩

theorem valid_pre {pre n : Text} (hp : isValidVariableName pre = true) (h : isValidVariableName n = true) : isValidVariableName (pre ++ n) = true := by
  obtain ⟨d, m, rfl, h1, h2⟩ := (valid_iff pre).1 hp
  refine (valid_iff _).2 ⟨d, m ++ n, rfl, h1, ?_⟩
  intro x hx
  rcases List.mem_append.1 hx with hx | hx
  · exact h2 x hx
  · exact valid_all h x hx

theorem agg_item {k : Kind} {f pre name : Text} (hname : isValidVariableName name = true) (hpre : isValidVariableName pre = true)
    (hf : HasRule (k, f)) (hk : k ≠ K.Error) (htr : triviaKind k = false)
    (hc : okChain [K.WHITESPACE, K.LParen, k, K.LParen, K.VAR1, K.RParen, K.WHITESPACE, K.AS, K.WHITESPACE, K.VAR1, K.RParen, K.WHITESPACE] = true)
    (hcalm : calmB (['('] ++ f ++ ['(']) = true) (hd : Derives sparqlRules ruleItem [K.LParen, k, K.LParen, K.VAR1, K.RParen, K.AS, K.VAR1, K.RParen]) :
    ItemOk (aggTokens k f pre name) := by
  refine ⟨?_, ?_, ?_, ?_, ?_, ?_, ?_⟩
  · intro p hp'
    simp only [aggTokens, List.mem_cons, List.not_mem_nil, or_false] at hp'
    rcases hp' with rfl | rfl | rfl | rfl | rfl | rfl | rfl | rfl | rfl | rfl
    · exact hasRule_of (by decide +kernel)
    · exact hf
    · exact hasRule_of (by decide +kernel)
    · exact var_rule hname
    · exact hasRule_of (by decide +kernel)
    · exact hasRule_of (by decide +kernel)
    · exact hasRule_of (by decide +kernel)
    · exact hasRule_of (by decide +kernel)
    · exact var_rule (valid_pre hpre hname)
    · exact hasRule_of (by decide +kernel)
  · intro p hp'
    simp only [aggTokens, List.mem_cons, List.not_mem_nil, or_false] at hp'
    rcases hp' with rfl | rfl | rfl | rfl | rfl | rfl | rfl | rfl | rfl | rfl <;> dsimp only
    · decide
    · exact hk
    all_goals decide
  · show okChain [K.WHITESPACE, K.LParen, k, K.LParen, K.VAR1, K.RParen, K.WHITESPACE, K.AS, K.WHITESPACE, K.VAR1, K.RParen] = true
    simp only [okChain, Bool.and_eq_true] at hc ⊢
    obtain ⟨h0, h1, h2, h3, h4, h5, h6, h7, h8, h9, -⟩ := hc
    exact ⟨h0, h1, h2, h3, h4, h5, h6, h7, h8, h9, trivial⟩
  · exact okChain_tail hc
  · have : sigK (aggTokens k f pre name) = [K.LParen, k, K.LParen, K.VAR1, K.RParen, K.AS, K.VAR1, K.RParen] := by
      have h2 : sigK [(k, f)] = [k] := by
        unfold sigK sigPairs
        rw [List.filter_cons_of_pos (by simpa [triviaKind] using htr)]
        rfl
      rw [show aggTokens k f pre name = [(K.LParen, ['('])] ++ [(k, f)] ++ (aggTokens k f pre name).drop 2 from rfl, sigK_append, sigK_append, h2]
      rfl
    rw [this]; exact hd
  · rw [flat_agg]
    have e : aggText f pre ('?' :: name) = (['('] ++ f ++ ['(']) ++ ('?' :: name) ++ [')', ' ', 'A', 'S', ' '] ++ ('?' :: (pre ++ name)) ++ [')'] := by
      simp [aggText, varName]
    rw [e]
    exact calm_append (calm_append (calm_append (calm_append (calm_of hcalm) (calm_plain (var_plain (.inl rfl) (var_rule hname)))) (calm_of (by decide +kernel)))
      (calm_plain (var_plain (.inl rfl) (var_rule (valid_pre hpre hname))))) (calm_of (by decide +kernel))
  · rw [flat_agg]
    exact ⟨'(', _, rfl, by decide⟩

theorem concat_item {name : Text} (hname : isValidVariableName name = true) : ItemOk (concatTokens name) := by
  have hpre : isValidVariableName ['g', 'r', 'o', 'u', 'p', '_', 'c', 'o', 'n', 'c', 'a', 't', '_'] = true := by decide +kernel
  have hck : (concatTokens name).map (·.1) = [K.LParen, K.GROUP_CONCAT, K.LParen, K.DISTINCT, K.WHITESPACE, K.VAR1, K.Semicolon, K.WHITESPACE, K.SEPARATOR,
      K.WHITESPACE, K.Equals, K.WHITESPACE, K.STRING_LITERAL2, K.RParen, K.WHITESPACE, K.AS, K.WHITESPACE, K.VAR1, K.RParen] := rfl
  refine ⟨?_, ?_, ?_, ?_, ?_, ?_, ?_⟩
  · intro p hp'
    simp only [concatTokens, List.mem_cons, List.not_mem_nil, or_false] at hp'
    rcases hp' with rfl | rfl | rfl | rfl | rfl | rfl | rfl | rfl | rfl | rfl | rfl | rfl | rfl | rfl | rfl | rfl | rfl | rfl | rfl
    · exact hasRule_of (by decide +kernel)
    · exact hasRule_of (by decide +kernel)
    · exact hasRule_of (by decide +kernel)
    · exact hasRule_of (by decide +kernel)
    · exact hasRule_of (by decide +kernel)
    · exact var_rule hname
    · exact hasRule_of (by decide +kernel)
    · exact hasRule_of (by decide +kernel)
    · exact hasRule_of (by decide +kernel)
    · exact hasRule_of (by decide +kernel)
    · exact hasRule_of (by decide +kernel)
    · exact hasRule_of (by decide +kernel)
    · exact hasRule_of (by decide +kernel)
    · exact hasRule_of (by decide +kernel)
    · exact hasRule_of (by decide +kernel)
    · exact hasRule_of (by decide +kernel)
    · exact hasRule_of (by decide +kernel)
    · exact var_rule (valid_pre hpre hname)
    · exact hasRule_of (by decide +kernel)
  · intro p hp'
    have : p.1 ∈ (concatTokens name).map (·.1) := List.mem_map.2 ⟨p, hp', rfl⟩
    rw [hck] at this
    intro h
    rw [h] at this
    revert this; decide
  · rw [hck]; decide +kernel
  · rw [hck]; decide +kernel
  · have : sigK (concatTokens name) = [K.LParen, K.GROUP_CONCAT, K.LParen, K.DISTINCT, K.VAR1, K.Semicolon, K.SEPARATOR, K.Equals, K.STRING_LITERAL2,
      K.RParen, K.AS, K.VAR1, K.RParen] := rfl
    rw [this]
    exact ll_sound (n := 120) (by decide +kernel)
  · rw [flat_concat]
    have e : concatText ('?' :: name) = ['(', 'G', 'R', 'O', 'U', 'P', '_', 'C', 'O', 'N', 'C', 'A', 'T', '(', 'D', 'I', 'S', 'T', 'I', 'N', 'C', 'T', ' '] ++
        ('?' :: name) ++ [';', ' ', 'S', 'E', 'P', 'A', 'R', 'A', 'T', 'O', 'R', ' ', '=', ' ', '"', ',', ' ', '"', ')', ' ', 'a', 's', ' '] ++
        ('?' :: (['g', 'r', 'o', 'u', 'p', '_', 'c', 'o', 'n', 'c', 'a', 't', '_'] ++ name)) ++ [')'] := by
      simp [concatText, varName]
    rw [e]
    exact calm_append (calm_append (calm_append (calm_append (calm_of (by decide +kernel)) (calm_plain (var_plain (.inl rfl) (var_rule hname)))) (calm_of (by decide +kernel)))
      (calm_plain (var_plain (.inl rfl) (var_rule (valid_pre hpre hname))))) (calm_of (by decide +kernel))
  · rw [flat_concat]
    exact ⟨'(', _, rfl, by decide⟩

theorem agg_items {name : Text} (hname : isValidVariableName name = true) :
    ∀ I ∈ aggItems name, ItemOk I ∧ ∃ I0 p, I = I0 ++ [p] ∧ p.1 = K.RParen := by
  intro I hI
  simp only [aggItems, List.mem_cons, List.not_mem_nil, or_false] at hI
  rcases hI with rfl | rfl | rfl | rfl | rfl | rfl | rfl
  case inr.inr.inr.inr.inr.inr => exact ⟨concat_item hname, (concatTokens name).dropLast, (K.RParen, [')']), rfl, rfl⟩
  all_goals refine ⟨?_, (aggTokens _ _ _ name).dropLast, (K.RParen, [')']), rfl, rfl⟩
  all_goals refine agg_item hname ?_ (hasRule_of ?_) ?_ ?_ ?_ ?_ (ll_sound (n := 120) ?_) <;> decide +kernel

theorem agg_texts (name : Text) : aggTexts ('?' :: name) = (aggItems name).map flat := by
  simp only [aggItems, List.map_cons, List.map_nil, flat_agg, flat_concat]
  rfl

theorem forall₂_map {α β γ : Type} {R : β → γ → Prop} {f : α → β} {g : α → γ} : ∀ {l : List α}, (∀ a ∈ l, R (f a) (g a)) → List.Forall₂ R (l.map f) (l.map g) := by
  intro l
  induction l with
  | nil => intro _; exact .nil
  | cons a l ih => intro h; exact .cons (h a (by simp)) (ih (fun b hb => h b (by simp [hb])))

section
variable {errLen : Text → Nat} {text : Text} {g : Green} {errs : List SyntaxErr} (hp : parseSource errLen text = some (g, errs))
  (hd : Derives sparqlRules (.node g.kind) (kinds (lex errLen text)))
include hp hd

theorem var_name {v : Red} (hv : InTree g v) (hn : v.isNode = true) (hk : v.kind = K.Var) :
    ∃ sg name, v.text = sg :: name ∧ (sg = '?' ∨ sg = '$') ∧ isValidVariableName name = true := by
  obtain ⟨k, hkk, -, h⟩ := var_pair hp hd hv hn hk
  rcases hkk with rfl | rfl
  · have hm : Matches rule_VAR1.re v.text := lexed_rule h rfl (by decide +kernel)
    obtain ⟨n, e, hn'⟩ := (varRule_matches (s := '?') (.inl rfl) _).1 hm
    exact ⟨'?', n, e, .inl rfl, hn'⟩
  · have hm : Matches rule_VAR2.re v.text := lexed_rule h rfl (by decide +kernel)
    obtain ⟨n, e, hn'⟩ := (varRule_matches (s := '$') (.inr rfl) _).1 hm
    exact ⟨'$', n, e, .inr rfl, hn'⟩

theorem group_find {s gc : Red} (hs : IsSelect g s) : groupClause s = some gc ↔ GroupedBy s gc ∧ ∀ v, ¬ Part s K.ValuesClause v :=
  groupClause_iff (parsed_of hp) (complete_of hp hd) hs

theorem group_var {s gc : Red} (hs : IsSelect g s) (hg : GroupedBy s gc) (t : Text) : (groupTexts gc).contains t = true ↔ GroupVar gc t := by
  obtain ⟨m, hm, hgc⟩ := hg
  rw [List.contains_iff_mem, mem_groupTexts (parsed_of hp) (complete_of hp hd) ((hs.1.child hm.1).child hgc.1) hgc.2.1 hgc.2.2]

end

/-- **C63.** Aggregates are offered for a variable of a valid document exactly if the query is grouped (and has no `VALUES`), and the *name* of the
variable, without `?`, is none of the group: see `c63_cases` for what this means. -/
theorem c63_aggregates_offered (errLen : Text → Nat) (text : Text) (g errs) (hp : parseSource errLen text = some (g, errs))
    (hd : Derives sparqlRules (.node g.kind) (kinds (lex errLen text))) (v : Red) (hv : InTree g v) (hn : v.isNode = true) (hk : v.kind = K.Var) :
    (addAggregates text v).isSome ↔ ∃ s gc, ResultOf v s ∧ GroupedBy s gc ∧ (∀ u, ¬ Part s K.ValuesClause u) ∧
      ∀ t, (v.text = '?' :: t ∨ (v.text = t ∧ ∃ n, t = '$' :: n)) → ¬ GroupVar gc t := by
  have P := parsed_of hp
  have hC := complete_of hp hd
  obtain ⟨sg, name, htx, hsg, -⟩ := var_name hp hd hv hn hk
  have hvn : ∀ t, (v.text = '?' :: t ∨ (v.text = t ∧ ∃ n, t = '$' :: n)) ↔ t = varName v.text := by
    intro t
    rw [htx]
    rcases hsg with rfl | rfl
    · constructor
      · rintro (h | ⟨h1, n, h2⟩)
        · injection h with _ h; exact h.symm
        · rw [h2] at h1; injection h1 with h1 _; exfalso; revert h1; decide
      · intro h; left; rw [h]; rfl
    · constructor
      · rintro (h | ⟨h1, n, h2⟩)
        · injection h with h _; exfalso; revert h; decide
        · rw [← h1]; rfl
      · intro h; right; exact ⟨by rw [h]; rfl, name, by rw [h]; rfl⟩
  constructor
  · intro h
    unfold addAggregates at h
    split at h
    · cases h
    · rename_i s hs
      have hr := (result_iff hp hd hv hn hk s).1 hs
      have hsel := result_select hv hn hr
      split at h
      · cases h
      · rename_i gc hgc
        have hg := (group_find hp hd hsel).1 hgc
        split at h
        · cases h
        · rename_i hno
          refine ⟨s, gc, hr, hg.1, hg.2, ?_⟩
          intro t ht hv'
          rw [(hvn t).1 ht] at hv'
          exact hno ((group_var hp hd hsel hg.1 _).2 hv')
  · rintro ⟨s, gc, hr, hg, hvals, hno⟩
    have hsel := result_select hv hn hr
    obtain ⟨c, hc⟩ : ∃ c, Part s K.SelectClause c := by
      have hw : ∃ R, sparqlRules s.kind = some R ∧ (headSyms nullNodes R).all (fun x => x == .node K.SelectClause) = true ∧ nullRule nullNodes R = false := by
        rcases hsel.2.2 with h | h
        · exact ⟨_, h ▸ selectQueryRule, by decide +kernel, by decide +kernel⟩
        · exact ⟨_, h ▸ subSelectRule, by decide +kernel, by decide +kernel⟩
      obtain ⟨R, hR, h1, h2⟩ := hw
      cases hs : sigC s with
      | nil =>
        exfalso
        have := sigC_whole P hC hsel.1 hsel.2.1 hR
        rw [hs] at this
        have := null_whole null_ok this rfl
        rw [h2] at this; cases this
      | cons a T =>
        have h3 := sigC_head P hC hsel.1 hsel.2.1 hR hs
        have h4 := List.all_eq_true.1 h1 _ h3
        have h4 : symOf a = .node K.SelectClause := by simpa using h4
        obtain ⟨h5, h6⟩ := symOf_eq_node.1 h4
        exact ⟨a, (mem_sigC.1 (by rw [hs]; simp)).1, h5, h6⟩
    have hcT := hsel.1.child hc.1
    obtain ⟨X, y, hXy, -⟩ := last_sig P hcT hc.2.1 (by rw [child_up hc.1]; simp)
    have hlast : c.childrenT.getLast? = some y := by rw [hXy]; simp
    obtain ⟨p, q, h1, h2⟩ := pos_at hp hd hcT
    unfold addAggregates
    rw [(result_iff hp hd hv hn hk s).2 hr]
    simp only [(group_find hp hd hsel).2 ⟨hg, hvals⟩, (clause_find hp hd hsel).2 hc, hlast, h2]
    rw [if_neg]
    · rfl
    · intro h
      exact hno _ ((hvn _).2 rfl) ((group_var hp hd hsel hg _).1 h)

/-- **C63.** Accepting an aggregate for `?x` in a valid document: each of the seven is put in place of the star or at the end of the select clause;
all other tokens stay, and the document is valid. -/
theorem c63_aggregates (errLen : Text → Nat) (text : Text) (g errs) (hp : parseSource errLen text = some (g, errs))
    (hd : Derives sparqlRules (.node g.kind) (kinds (lex errLen text))) (v : Red) (hv : InTree g v) (hn : v.isNode = true) (hk : v.kind = K.Var)
    (name : Text) (hname : v.text = '?' :: name) (s c : Red) (hr : ResultOf v s) (hc : Part s K.SelectClause c) (edits : List TextEdit)
    (he : addAggregates text v = some edits) :
    List.Forall₂ (fun edit I =>
      (∀ t ∈ c.childrenT, t.kind = K.Star → Replaced errLen text g edit t.start [(K.Star, ['*'])] I) ∧
      ((∀ t ∈ c.childrenT, t.kind ≠ K.Star) → Replaced errLen text g edit c.stop [] ((K.WHITESPACE, [' ']) :: I))) edits (aggItems name) := by
  have P := parsed_of hp
  have hsel := result_select hv hn hr
  have hval : isValidVariableName name = true := by
    obtain ⟨sg, n, htx, -, h⟩ := var_name hp hd hv hn hk
    rw [hname] at htx
    injection htx with _ htx
    rw [htx]; exact h
  have hcT := hsel.1.child hc.1
  obtain ⟨X, y, hXy, -⟩ := last_sig P hcT hc.2.1 (by rw [child_up hc.1]; simp)
  have hlast : c.childrenT.getLast? = some y := by rw [hXy]; simp
  obtain ⟨p0, p, -, hpos⟩ := pos_at hp hd hcT
  have hed : edits = (aggTexts v.text).map (fun new => if y.kind = K.Star then starEdit p new else ⟨⟨p, p⟩, ' ' :: new⟩) := by
    unfold addAggregates at he
    rw [(result_iff hp hd hv hn hk s).2 hr] at he
    split at he
    · cases he
    · rename_i heq
      cases heq
      split at he
      · cases he
      · split at he
        · cases he
        · simp only [(clause_find hp hd hsel).2 hc, hlast, hpos] at he
          exact (Option.some.inj he).symm
  rw [hed, hname, agg_texts, List.map_map]
  conv => rhs; rw [← List.map_id (aggItems name)]
  refine forall₂_map ?_
  intro I hI
  obtain ⟨hok, I0, pl, eI, hpl⟩ := agg_items hval I hI
  refine ⟨?_, ?_⟩
  · intro t ht htk
    obtain ⟨h1, h2, h3, A, h4, h5, h6⟩ := put_star hp hd hsel hc ht htk hok (by
      intro p' I0' e z hz hzs hzk
      have : pl = p' := by
        rw [eI] at e
        have := (List.append_inj' e rfl).2
        simpa using this
      rw [← this, hpl]
      have hz : z.kind ∈ [K.WHITESPACE, K.Comment, K.FROM, K.WHERE, K.LCurly] := by
        rcases hzk with h | h
        · have : z.kind = K.WHITESPACE ∨ z.kind = K.Comment := by simpa [triviaKind] using h
          rcases this with h | h <;> rw [h] <;> decide
        · exact List.mem_cons_of_mem _ (List.mem_cons_of_mem _ h)
      have : [K.WHITESPACE, K.Comment, K.FROM, K.WHERE, K.LCurly].all (fun k => touch K.RParen k) = true := by decide +kernel
      exact List.all_eq_true.1 this _ hz)
    have hyt : y = t := by rw [hlast] at h1; injection h1
    have h7 : fromByteIndex c.stop text = some (posOf (A ++ ['*'])) := by
      have : c.stop = blen (A ++ ['*']) := by rw [h2, blen_append, h5]; rfl
      rw [this, h4]
      exact fromByteIndex_of_prefix _ _
    have hpp : p = posOf (A ++ ['*']) := by rw [hpos] at h7; injection h7
    show Replaced errLen text g (if y.kind = K.Star then starEdit p (flat I) else ⟨⟨p, p⟩, ' ' :: flat I⟩) _ _ _
    rw [hyt, if_pos htk, hpp, star_pos]
    exact h6
  · intro hno
    obtain ⟨⟨l, h1, h2⟩, A, B, h3, h4, h5⟩ := put_end hp hd hsel hc (fun l hl => hno l (List.mem_of_getLast? hl)) hok (by
      intro p' I0' e
      have : pl = p' := by
        rw [eI] at e
        have := (List.append_inj' e rfl).2
        simpa using this
      rw [← this]
      exact .inl hpl)
    have hyl : y = l := by rw [hlast] at h1; injection h1
    have hpp : p = posOf A := by
      have h7 : fromByteIndex c.stop text = some (posOf A) := by rw [h3, ← h4]; exact fromByteIndex_of_prefix _ _
      rw [hpos] at h7; injection h7
    show Replaced errLen text g (if y.kind = K.Star then starEdit p (flat I) else ⟨⟨p, p⟩, ' ' :: flat I⟩) _ _ _
    rw [hyl, if_neg h2, hpp]
    exact h5

/-! ## The hypotheses are met -/

/-- The variables of a document with the query, the edit of "Add to result" and the number of aggregates. -/
def projectionOf (text : Text) (g : Green) : List (Nat × Option Nat × Option (Nat × Nat × List Char) × Option Nat) :=
  ((Red.root g).descendantsT.filter (fun v => v.isNode && v.kind == K.Var)).map (fun v => (v.start, (resultQuery v).map Red.start,
    (addToResult text v).map (fun e => (e.range.start.character, e.range.stop.character, e.newText)), (addAggregates text v).map List.length))

set_option synthInstance.maxSize 1000 in
/-- Examples: in `SELECT * {?s ?p ?o.OPTIONAL{$o ?q 1 .?x ?y (2)}}` each variable can replace the star (`c63_star` applies). In
`SELECT ?a (COUNT(?o) AS ?n) {?a ?p ?o {SELECT *WHERE{?x ?q $z}}} GROUP BY ?a ?p` only the grouped `?p` can be added, in front of the
parenthesis; aggregates are offered even for the grouped variables `?a` and `?p`; and adding `?x` to the sub-select gives `?xWHERE`. -/
theorem c63_cases : parseSource (fun _ => 1) projText = some (projTree, []) ∧
    Derives sparqlRules (.node projTree.kind) (kinds (lex (fun _ => 1) projText)) ∧
    projectionOf projText projTree = [(7, some 0, none, some 7), (17, some 0, none, some 7), (24, some 0, none, some 7), (29, some 0, none, some 7),
      (32, some 0, some (10, 10, ['?', 'p', ' ']), some 7), (35, some 0, none, some 7),
      (53, some 39, some (46, 47, ['?', 'x']), none), (56, some 39, some (46, 47, ['?', 'q']), none),
      (59, some 39, some (46, 47, ['$', 'z']), none), (74, some 0, none, some 7),
      (77, some 0, some (10, 10, ['?', 'p', ' ']), some 7)] ∧
    projectionOf roomText roomTree = [(10, some 0, some (7, 8, ['?', 's']), none), (13, some 0, some (7, 8, ['?', 'p']), none),
      (16, some 0, some (7, 8, ['?', 'o']), none), (28, some 0, some (7, 8, ['$', 'o']), none), (31, some 0, some (7, 8, ['?', 'q']), none),
      (37, some 0, some (7, 8, ['?', 'x']), none), (40, some 0, some (7, 8, ['?', 'y']), none)] := by
  exact ⟨projTree_parse, proj_derives, by decide +kernel, by decide +kernel⟩

end Verif.Props
