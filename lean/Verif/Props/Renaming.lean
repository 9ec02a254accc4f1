import Verif.Lexer.Renaming
import Verif.Props.Variables
import Verif.Features.Demo
/-!
# Renaming keeps the structure of the document (C26); variable names and the lexer (C27)
-/
namespace Verif.Props
open Verif Verif.Grammar Verif.Lexer Verif.Features

/-! ## C27 -/

/-- **C27.** A name is accepted by rename iff `?` followed by it is a variable token of the lexer; the same for `$`. -/
theorem c27_name_iff_token (n : Text) :
    (isValidVariableName n = true ↔ Matches rule_VAR1.re ('?' :: n)) ∧
    (isValidVariableName n = true ↔ Matches rule_VAR2.re ('$' :: n)) := by
  constructor
  · have := varRule_matches (s := '?') (Or.inl rfl) ('?' :: n)
    constructor
    · intro h; exact this.2 ⟨n, rfl, h⟩
    · intro h; obtain ⟨m, e, hm⟩ := this.1 h; cases e; exact hm
  · have := varRule_matches (s := '$') (Or.inr rfl) ('$' :: n)
    constructor
    · intro h; exact this.2 ⟨n, rfl, h⟩
    · intro h; obtain ⟨m, e, hm⟩ := this.1 h; cases e; exact hm

/-- A token of a variable kind is a sigil with a name. -/
theorem var_of_rule {r : LexRule} (hr : r ∈ lexRules) {s : Char} (hs : isSigil s) (hk : r.kind = sigilKind s) {w : Text}
    (hm : Matches r.re w) : ∃ n, w = s :: n ∧ isValidVariableName n = true := by
  have hu : lexRules.all (fun r => (r.kind != K.VAR1 || r.re == rule_VAR1.re) && (r.kind != K.VAR2 || r.re == rule_VAR2.re)) = true := by
    decide +kernel
  have hu := List.all_eq_true.1 hu r hr
  simp only [Bool.and_eq_true, Bool.or_eq_true, bne_iff_ne, beq_iff_eq] at hu
  have hre : r.re = (varRule s).re := by
    rcases hs with rfl | rfl
    · rcases hu.1 with h | h
      · exact absurd hk h
      · exact h
    · rcases hu.2 with h | h
      · exact absurd hk h
      · exact h
  rw [hre] at hm
  exact (varRule_matches hs w).1 hm

/-- **C27.** A text is lexed as exactly one variable token iff it is a sigil with a name accepted by rename. -/
theorem c27_single_token (errLen : Text → Nat) (w : Text) (s : Char) (hs : isSigil s) :
    (∃ t, lex errLen w = [t] ∧ t.kind = sigilKind s) ↔ ∃ n, w = s :: n ∧ isValidVariableName n = true := by
  constructor
  · rintro ⟨t, h, hk⟩
    have hl := c47_longest_match errLen w
    rw [h] at hl
    have hf := (lexes_flat hl).1
    simp only [flat, List.map_cons, List.map_nil, List.flatten_cons, List.flatten_nil, List.append_nil] at hf
    rw [← varRule_matches hs]
    generalize hx : [t].map (fun t => (t.kind, t.text)) = x at hl
    cases hl with
    | nil => cases hx
    | @tok k w' after l h1 h2 =>
      cases hx
      obtain ⟨r, hr, hk', hm⟩ := h1.rule
      obtain ⟨-, -, hm, -⟩ := hm
      rw [varRule_matches hs, ← hf]
      exact var_of_rule hr hs (hk'.trans hk) hm
    | @err w' after l h1 h2 h3 =>
      exfalso
      have hk0 : t.kind = K.Error := by
        simp only [List.map_cons, List.map_nil, List.cons.injEq] at hx
        exact congrArg Prod.fst hx.1
      rw [hk0] at hk
      revert hk
      unfold sigilKind
      split <;> decide
  · rintro ⟨n, rfl, hn⟩
    have h1 : Lexes (s :: n) [(sigilKind s, s :: n)] := by
      have := longest_var hs (rest := []) hn trivial
      have h2 := Lexes.tok (after := []) this .nil
      simpa using h2
    have h2 := c47_determined _ _ _ h1 (c47_longest_match errLen (s :: n)) (by
      intro p hp
      rw [List.mem_singleton.1 hp]
      show sigilKind s ≠ _
      unfold sigilKind
      split <;> decide)
    cases hl : lex errLen (s :: n) with
    | nil => rw [hl] at h2; cases h2
    | cons t ts =>
      rw [hl] at h2
      simp only [List.map_cons, List.cons.injEq] at h2
      have := h2.2
      rw [eq_comm, List.map_eq_nil_iff] at this
      subst this
      exact ⟨t, rfl, by rw [← show sigilKind s = t.kind from congrArg Prod.fst h2.1]⟩

/-- The name `é1` is accepted; the empty name, `a b` and `-` are not. -/
example : isValidVariableName ['é', '1'] = true ∧ isValidVariableName [] = false ∧
    isValidVariableName ['a', ' ', 'b'] = false ∧ isValidVariableName ['-'] = false := by decide

/-! ## Leaves of a node -/

theorem child_leaves {r c : Red} (h : c ∈ r.childrenT) :
    ∃ A B, r.green.leaves = A ++ c.green.leaves ++ B ∧ c.start = r.start + blen (flat A) := by
  unfold Red.childrenT at h
  have hgg : r.green = r.here.green := rfl
  rw [hgg]
  cases hg : r.here.green with
  | tok k t => rw [hg] at h; cases h
  | node k cs =>
    rw [hg] at h
    simp only [List.mem_map] at h
    obtain ⟨s, hs, rfl⟩ := h
    obtain ⟨a, b, h1, _, h3⟩ := mem_childSites hs
    have happ : ∀ x y, Green.leavesL (x ++ y) = Green.leavesL x ++ Green.leavesL y := by
      intro x y
      induction x with
      | nil => simp [Green.leavesL]
      | cons g gs ih => simp [Green.leavesL, ih]
    have hflat : ∀ x, flat (Green.leavesL x) = (x.map Green.text).flatten := by
      intro x
      induction x with
      | nil => simp [Green.leavesL, flat]
      | cons g gs ih =>
        rw [Green.leavesL, List.map_cons, List.flatten_cons, ← ih]
        simp [flat, Green.text]
    refine ⟨Green.leavesL a, Green.leavesL b, ?_, ?_⟩
    · rw [Green.leaves, h1, happ]
      simp [Green.leavesL, Red.green]
    · rw [hflat]; exact h3

theorem inTree_leaves {g : Green} {r : Red} (h : InTree g r) :
    ∃ A B, g.leaves = A ++ r.green.leaves ++ B ∧ r.start = blen (flat A) := by
  induction h with
  | root => exact ⟨[], [], by simp [Red.green, Red.root], rfl⟩
  | @child r c _ hc ih =>
    obtain ⟨a, b, h1, h2⟩ := ih
    obtain ⟨a', b', h3, h4⟩ := child_leaves hc
    refine ⟨a ++ a', b' ++ b, by rw [h1, h3]; simp, ?_⟩
    rw [h4, h2]
    simp [flat, blen_append]

theorem flat_leaves (r : Red) : flat r.green.leaves = r.text := rfl

theorem lexes_suffix {t : Text} : ∀ {A X : List (Kind × Text)}, Lexes t (A ++ X) → Lexes (flat X) X := by
  intro A
  induction A generalizing t with
  | nil => intro X h; have h : Lexes t X := h; rw [(lexes_flat h).1]; exact h
  | cons p A ih =>
    intro X h
    generalize hx : p :: A ++ X = y at h
    cases h with
    | nil => cases hx
    | tok h1 h2 => cases hx; exact ih h2
    | err h1 h2 h3 => cases hx; exact ih h3

/-- The leaves of the tree are the tokens. -/
theorem source_leaves {errLen : Text → Nat} {text : Text} {g errs} (h : parseSource errLen text = some (g, errs)) :
    g.leaves = (lex errLen text).map (fun t => (t.kind, t.text)) := by
  unfold parseSource parseDocument at h
  split at h <;> exact c09_leaves _ text _ (c47_lossless errLen text) g errs h

/-- An element whose text is a variable is one token. -/
theorem one_token {errLen : Text → Nat} {text : Text} {g errs} (hp : parseSource errLen text = some (g, errs)) {u : Red}
    (hu : InTree g u) {s : Char} {n : Text} (hs : isSigil s) (hn : isValidVariableName n = true) (ht : u.text = s :: n) :
    u.green.leaves = [(sigilKind s, s :: n)] := by
  obtain ⟨A, B, h1, -⟩ := inTree_leaves hu
  have hl := c47_longest_match errLen text
  rw [← source_leaves hp, h1, List.append_assoc] at hl
  have hX := lexes_suffix hl
  have hne := (lexes_flat hX).2
  have hfl := flat_leaves u
  rw [ht] at hfl
  cases hleaf : u.green.leaves with
  | nil => rw [hleaf] at hfl; cases hfl
  | cons p rest =>
    rw [hleaf] at hX hfl hne
    obtain ⟨k, w⟩ := p
    have hflX : flat ((k, w) :: rest ++ B) = s :: n ++ flat B := by
      rw [← hfl]; simp [flat]
    have hw : w ++ flat rest = s :: n := hfl
    obtain ⟨m1, m2, m3⟩ := varRule_mem hs
    have hmv : MatchesAt (varRule s) (s :: n ++ flat B) (s :: n) :=
      ⟨flat B, rfl, (varRule_matches hs _).2 ⟨n, rfl, hn⟩, by rw [m3]; simp⟩
    rw [hflX] at hX
    generalize hx : (k, w) :: rest ++ B = y at hX
    generalize hz : s :: n ++ flat B = z at hX hmv
    cases hX with
    | nil => cases hx
    | @tok k' w' after l h2 h3 =>
      cases hx
      have hlen := h2.longest _ m1 _ hmv
      have hlen2 := congrArg List.length hw
      simp only [List.length_append, List.length_cons] at hlen hlen2
      have hr0 : (flat rest).length = 0 := by omega
      have hrest : rest = [] := by
        cases rest with
        | nil => rfl
        | cons q rest =>
          have hq := hne q (by simp)
          have : 0 < q.2.length := List.length_pos_iff.2 hq
          simp only [flat, List.map_cons, List.flatten_cons, List.length_append] at hr0
          omega
      subst hrest
      have hw' : w = s :: n := by simpa [flat] using hw
      subst hw'
      obtain ⟨r, hr, hk, -, -, hm, -⟩ := h2.rule
      have := c47_unambiguous r (varRule s) hr m1 _ hm ((varRule_matches hs _).2 ⟨n, rfl, hn⟩)
      rw [this, m2] at hk
      rw [hk]
    | err h2 h3 h4 => exact absurd hmv (h2 _ m1 _)

theorem syms_of_tokens : ∀ cs : List Green, (∀ c ∈ cs, c.isTok = true) →
    cs.filterMap Green.sym = ((Green.leavesL cs).filter (fun p => !triviaKind p.1)).map (fun p => Sym.tok p.1) := by
  intro cs
  induction cs with
  | nil => intro _; simp [Green.leavesL]
  | cons c cs ih =>
    intro h
    have hc := h c (by simp)
    cases c with
    | node k cs => cases hc
    | tok k t =>
      have := ih (fun c hc => h c (by simp [hc]))
      simp only [List.filterMap_cons, Green.sym, Green.leavesL, Green.leaves, List.filter_cons, List.cons_append,
        List.nil_append]
      cases hk : triviaKind k <;> simp [this]

/-- In a tree without error nodes every variable node is one variable token. -/
theorem var_text {errLen : Text → Nat} {text : Text} {g errs} (hp : parseSource errLen text = some (g, errs))
    (hE : ∀ n ∈ g.nodes, n.kind ≠ K.Error) {u : Red} (hu : Occurs g u) :
    ∃ s n, isSigil s ∧ isValidVariableName n = true ∧ u.text = s :: n := by
  have P := parsed_of hp
  have hv := hu.2
  simp only [Red.isVar, Bool.and_eq_true, beq_iff_eq] at hv
  have hmem := hu.1.green_mem hv.1
  have hf := P.follows _ hmem
  have htight := P.tight _ (P.inner_of hu.1 hv.1 (occurs_up P hu))
  obtain ⟨A, B, hl1, -⟩ := inTree_leaves hu.1
  have hR : sparqlRules K.Var = some (.alt (.tok K.VAR1) (.tok K.VAR2)) := by decide +kernel
  have hk : u.green.kind = K.Var := hv.2
  cases hg : u.green with
  | tok k t => rw [hg] at hmem; exact absurd (by rw [Red.isNode, show u.here.green = .tok k t from hg] at hv; cases hv.1) id
  | node k cs =>
    rw [hg] at hf htight hk hl1 hmem
    have hk : k = K.Var := hk
    subst hk
    simp only [Follows] at hf
    rw [if_neg (by decide)] at hf
    obtain ⟨R, hR', w, hw, hsub⟩ := hf
    rw [hR] at hR'
    cases hR'
    -- the word is one variable token
    obtain ⟨s, hs, rfl⟩ : ∃ s, isSigil s ∧ w = [.tok (sigilKind s)] := by
      cases hw with
      | altL d => exact ⟨'?', Or.inl rfl, word_tok_inv d⟩
      | altR d => exact ⟨'$', Or.inr rfl, word_tok_inv d⟩
    -- the children are tokens
    have htoks : ∀ c ∈ cs, c.isTok = true := by
      intro c hc
      cases c with
      | tok k t => rfl
      | node k' cs' =>
        exfalso
        have hne : k' ≠ K.Error := by
          have hcn : Green.node k' cs' ∈ (Green.node K.Var cs).nodes := by
            simp only [Green.nodes, List.mem_cons]
            exact Or.inr (nodesL_mem.2 ⟨_, hc, by simp [Green.nodes]⟩)
          exact hE _ (nodes_trans hmem hcn)
        have : Sym.node k' ∈ cs.filterMap Green.sym := List.mem_filterMap.2 ⟨_, hc, by simp [Green.sym, hne]⟩
        have := hsub.subset this
        simp at this
    rw [syms_of_tokens cs htoks] at hsub
    obtain ⟨⟨k1, t1, l1, e1, n1⟩, ⟨k2, t2, l2, e2, n2⟩⟩ := htight
    rw [Green.leaves] at e1 e2
    have hl : l1 = [] := by
      by_contra hne
      obtain ⟨l3, rfl⟩ : ∃ l3, l1 = l3 ++ [(k2, t2)] := by
        rw [e1] at e2
        cases l2 with
        | nil =>
          simp only [List.nil_append, List.cons.injEq] at e2
          exact absurd e2.2 hne
        | cons q l2 =>
          simp only [List.cons_append, List.cons.injEq] at e2
          exact ⟨l2, e2.2⟩
      have hlen := hsub.length_le
      rw [e1] at hlen
      simp only [List.filter_cons, List.filter_append, List.filter_nil, n1, n2, Bool.not_false, if_true, List.length_map,
        List.length_cons, List.length_append, List.length_nil] at hlen
      omega
    subst hl
    rw [e1] at hsub
    simp only [List.filter_cons, List.filter_nil, n1, Bool.not_false, if_true, List.map_cons, List.map_nil] at hsub
    have hkk : k1 = sigilKind s := by
      have := hsub.subset (List.mem_singleton.2 rfl)
      simpa using this
    subst hkk
    have hlx := c47_longest_match errLen text
    rw [← source_leaves hp, hl1, Green.leaves, e1] at hlx
    obtain ⟨r, hr, hkr, hm⟩ := lexes_rule hlx (sigilKind s, t1) (by simp) (by
      show sigilKind s ≠ K.Error
      unfold sigilKind; split <;> decide)
    obtain ⟨n, hn1, hn2⟩ := var_of_rule hr hs hkr hm
    refine ⟨s, n, hs, hn2, ?_⟩
    rw [← flat_leaves, hg, Green.leaves, e1, ← hn1]
    simp [flat]

/-! ## Renaming tokens -/

/-- Token of the renamed document for a token of the document: only variable tokens change, to `?` and the new name. -/
def TokenRenamed (name : Text) (p q : Kind × Text) : Prop :=
  q = p ∨ (∃ s n, isSigil s ∧ isValidVariableName n = true ∧ p = (sigilKind s, s :: n)) ∧ q = (K.VAR1, '?' :: name)

theorem resultOf_cons (s : Seg) (segs : List Seg) : resultOf (s :: segs) = s.keep ++ s.new ++ resultOf segs := by
  simp [resultOf]

theorem origOf_cons (s : Seg) (segs : List Seg) : origOf (s :: segs) = s.keep ++ s.old ++ origOf segs := by
  simp [origOf]

theorem flat_append (a b : List (Kind × Text)) : flat (a ++ b) = flat a ++ flat b := by simp [flat]

/-- Replacing pieces that are variable tokens, in a list of tokens. -/
theorem cut_tokens (name : Text) (segs : List Seg) : ∀ (pre L : List (Kind × Text)) (last : Text), (∀ p ∈ L, p.2 ≠ []) →
    flat L = origOf segs ++ last → (∀ s ∈ segs, s.new = '?' :: name) →
    (∀ p ∈ (startsOf (blen (flat pre)) segs).zip segs, ∃ A B s n, pre ++ L = A ++ (sigilKind s, s :: n) :: B ∧ p.2.old = s :: n ∧
      isSigil s ∧ isValidVariableName n = true ∧ p.1 = blen (flat A)) →
    ∃ L', List.Forall₂ (TokenRenamed name) L L' ∧ flat L' = resultOf segs ++ last := by
  induction segs with
  | nil =>
    intro pre L last _ hf _ _
    exact ⟨L, List.forall₂_same.2 (fun p _ => Or.inl rfl), by rw [hf]; simp [origOf, resultOf]⟩
  | cons sg segs ih =>
    intro pre L last hne hf hnew hcut
    obtain ⟨A, B, s, n, h1, h2, h3, h4, h5⟩ := hcut (blen (flat pre) + blen sg.keep, sg) (by simp [startsOf])
    simp only at h2 h5
    -- `A` extends `pre`
    have hA : ∃ M, A = pre ++ M ∧ L = M ++ (sigilKind s, s :: n) :: B := by
      rcases List.append_eq_append_iff.1 h1 with ⟨M, e1, e2⟩ | ⟨M, e1, e2⟩
      · exact ⟨M, e1, e2⟩
      · cases M with
        | nil => exact ⟨[], by simpa using e1.symm, by simpa using e2.symm⟩
        | cons q M =>
          exfalso
          simp only [List.cons_append, List.cons.injEq] at e2
          obtain ⟨rfl, -⟩ := e2
          have := congrArg (fun x => blen (flat x)) e1
          have hc : blen (flat ((sigilKind s, s :: n) :: M)) = u8 s + blen n + blen (flat M) := by
            simp [flat, blen_append, blen_cons, Nat.add_assoc]
          simp only [flat_append, blen_append, hc] at this
          have := u8_pos s
          omega
    obtain ⟨M, rfl, rfl⟩ := hA
    have hM : blen (flat M) = blen sg.keep := by
      rw [flat_append, blen_append] at h5; omega
    have hf' : flat M ++ (s :: n ++ flat B) = sg.keep ++ (sg.old ++ (origOf segs ++ last)) := by
      rw [flat_append, origOf_cons] at hf
      have : flat ((sigilKind s, s :: n) :: B) = s :: n ++ flat B := rfl
      rw [this] at hf
      simpa using hf
    obtain ⟨m, e1, e2⟩ := prefix_of_blen rfl hf' (by omega)
    have hm : m = [] := by
      rw [e1, blen_append] at hM
      cases m with
      | nil => rfl
      | cons c m => have := u8_pos c; simp only [blen_cons] at hM; omega
    subst hm
    simp only [List.append_nil, List.nil_append] at e1 e2
    rw [h2] at e2
    have e3 := List.append_cancel_left e2
    obtain ⟨L', f1, f2⟩ := ih (pre ++ M ++ [(sigilKind s, s :: n)]) B last
      (fun p hp => hne p (by simp [hp])) e3 (fun x hx => hnew x (by simp [hx])) (by
        intro p hp
        have hst : blen (flat (pre ++ M ++ [(sigilKind s, s :: n)])) = blen (flat pre) + blen sg.keep + blen sg.old := by
          rw [flat_append, flat_append, blen_append, blen_append, h2, hM]
          simp [flat]
        rw [hst] at hp
        obtain ⟨A', B', s', n', g1, g2⟩ := hcut p (by simp only [startsOf, List.zip_cons_cons, List.mem_cons]; exact Or.inr hp)
        exact ⟨A', B', s', n', by rw [← g1]; simp, g2⟩)
    refine ⟨M ++ (K.VAR1, '?' :: name) :: L', ?_, ?_⟩
    · have hMM : List.Forall₂ (TokenRenamed name) M M := List.forall₂_same.2 (fun p _ => Or.inl rfl)
      refine List.rel_append hMM ?_
      exact .cons (Or.inr ⟨⟨s, n, h3, h4, rfl⟩, rfl⟩) f1
    · rw [flat_append, resultOf_cons, hnew sg (by simp), ← e1]
      have : flat ((K.VAR1, '?' :: name) :: L') = '?' :: name ++ flat L' := rfl
      rw [this, f2]
      simp

/-- The text of every occurrence of the variable is a variable (true if the document has no syntax error there). -/
def Clean (g : Green) (v : Red) : Prop :=
  ∀ u, Occurs g u → SameVariable g u v → ∃ s n, isSigil s ∧ isValidVariableName n = true ∧ u.text = s :: n

/-- Documents without error nodes are clean. -/
theorem clean_of_no_error {errLen : Text → Nat} {text : Text} {g errs} (hp : parseSource errLen text = some (g, errs))
    (hE : ∀ n ∈ g.nodes, n.kind ≠ K.Error) (v : Red) : Clean g v := fun _ hu _ => var_text hp hE hu

/-- **C26.** A successful rename changes exactly variable tokens: the new document has the same tokens as the old one, except
that the tokens of the variable are now `?` and the new name. In particular no token is split, merged with its neighbours or
turned into something else. (`applyTextEdits` appends a line break if the document does not end with one.) -/
theorem c26_tokens (errLen : Text → Nat) (text : Text) (g errs) (hp : parseSource errLen text = some (g, errs))
    (pos : Position) (newName : Text) (edits : List TextEdit) (h : rename text g pos newName = .ok edits)
    (hok : ∀ t ∈ lex errLen text, t.kind ≠ K.Error) (hclean : ∀ v, Occurs g v → Clean g v) :
    ∃ newText, applyTextEdits text edits = some (ensureNL newText) ∧
      List.Forall₂ (TokenRenamed (stripSigil newName)) ((lex errLen text).map (fun t => (t.kind, t.text)))
        ((lex errLen newText).map (fun t => (t.kind, t.text))) := by
  obtain ⟨v, o, occs, segs, last, h1, h2, h3, h4, h5, h6, h7, h8, h9, h10, h11, h12, h13⟩ :=
    c26_rename errLen text g errs hp pos newName edits h
  refine ⟨resultOf segs ++ last, h13, ?_⟩
  have hlx := c47_longest_match errLen text
  obtain ⟨q1, q2⟩ := lexes_flat hlx
  have hlen : ∀ (o : Nat) (segs : List Seg), (startsOf o segs).length = segs.length := by
    intro o segs
    induction segs generalizing o with
    | nil => rfl
    | cons s ss ih => simp [startsOf, ih]
  obtain ⟨L', k1, k2⟩ := cut_tokens (stripSigil newName) segs [] ((lex errLen text).map (fun t => (t.kind, t.text))) last q2
    (by rw [q1, h8]) h12 (by
      intro p hpz
      have hpz : p ∈ (startsOf 0 segs).zip segs := hpz
      have hz : (p.1, p.2.old) ∈ (startsOf 0 segs).zip (segs.map (·.old)) := by
        rw [List.zip_map_right]
        exact List.mem_map.2 ⟨p, hpz, rfl⟩
      rw [h10, h11, List.zip_map'] at hz
      obtain ⟨u, hu, e⟩ := List.mem_map.1 hz
      have huo := (h6 u).1 hu
      obtain ⟨s, n, c1, c2, c3⟩ := hclean v h1 u huo.1 huo.2
      have hone := one_token hp huo.1.1 c1 c2 c3
      obtain ⟨A, B, e1, e2⟩ := inTree_leaves huo.1.1
      have ea := congrArg Prod.fst e
      have eb := congrArg Prod.snd e
      simp only at ea eb
      refine ⟨A, B, s, n, ?_, ?_, c1, c2, ?_⟩
      · rw [← source_leaves hp, e1, hone]; simp
      · rw [← eb, c3]
      · rw [← ea, e2])
  have hren : List.Forall₂ Renamed ((lex errLen text).map (fun t => (t.kind, t.text))) L' := by
    refine k1.imp ?_
    rintro p q (rfl | ⟨⟨s, n, c1, c2, rfl⟩, rfl⟩)
    · exact .same _
    · exact Renamed.var (s' := '?') c1 (Or.inl rfl) c2 h5
  have hl' := lexes_renamed hlx L' hren
  rw [k2] at hl'
  have heq := c47_determined _ _ _ hl' (c47_longest_match errLen (resultOf segs ++ last)) (by
    intro q hq hE
    obtain ⟨p, hpm, hR⟩ : ∃ p ∈ (lex errLen text).map (fun t => (t.kind, t.text)), TokenRenamed (stripSigil newName) p q := by
      clear hl' hren k2
      generalize (lex errLen text).map (fun t => (t.kind, t.text)) = L at k1
      induction k1 with
      | nil => cases hq
      | cons ha _ ih =>
        rcases List.mem_cons.1 hq with rfl | hq
        · exact ⟨_, by simp, ha⟩
        · obtain ⟨p, h1, h2⟩ := ih hq
          exact ⟨p, by simp [h1], h2⟩
    rcases hR with rfl | ⟨-, rfl⟩
    · obtain ⟨t, ht, rfl⟩ := List.mem_map.1 hpm
      exact hok t ht hE
    · have hE : K.VAR1 = K.Error := hE
      exact absurd hE (by decide))
  rw [← heq]
  exact k1

/-! ## The tree depends on the kinds of the tokens only -/

theorem parseText_sig {e : Entry} {text text' : Text} {ts ts' : List Tok} (hL : Lexed text ts) (hL' : Lexed text' ts')
    (hkk : kinds ts' = kinds ts) {g errs} (h : parseText e ts = some (g, errs)) :
    ∃ g' errs', parseText e ts' = some (g', errs') ∧ g'.shape .nil = g.shape .nil ∧
      errs'.map (·.expected) = errs.map (·.expected) := by
  obtain ⟨F, cs, f1, f2, f3, f4, f5, f6, f7⟩ := parseText_some hL h
  rw [← hkk] at f1
  obtain ⟨F', cs', errs', g1, g2, g3, g4, g5, g6, g7⟩ := parseText_of_events hL'.noEof f1
  have := ser_inj g1
  simp only [Forest.node.injEq, true_and, and_true] at this
  subst this
  refine ⟨_, errs', g3, ?_, ?_⟩
  · rw [f3]
    simp only [Green.shape]
    rw [g6, f6]
  · rw [g4, f4]
    simp

theorem kinds_of_map {ts ts' : List Tok} (hk : ts.map (·.kind) = ts'.map (·.kind)) : kinds ts' = kinds ts := by
  have : ∀ (a b : List Tok), a.map (·.kind) = b.map (·.kind) → kinds b = kinds a := by
    intro a
    induction a with
    | nil => intro b hb; cases b with
      | nil => rfl
      | cons => cases hb
    | cons x a ih =>
      intro b hb
      cases b with
      | nil => cases hb
      | cons y b =>
        simp only [List.map_cons, List.cons.injEq] at hb
        have := ih b hb.2
        have ht : y.trivia = x.trivia := by unfold Tok.trivia; rw [hb.1]
        unfold kinds significant at this ⊢
        simp only [List.filter_cons, ht]
        split
        · simp only [List.map_cons, this, hb.1]
        · exact this
  exact this ts ts' hk

theorem guess_sig (l : List Tok) : guessOperationType l = (kinds l).findSome? (fun k =>
    if k ∈ queryKeywords then some Entry.query else if k ∈ updateKeywords then some .update else none) := by
  unfold guessOperationType kinds significant
  rw [List.findSome?_map]
  induction l with
  | nil => rfl
  | cons t l ih =>
    rw [List.findSome?_cons, List.filter_cons]
    cases ht : t.trivia with
    | true =>
      simp only [Bool.not_true, Bool.false_eq_true, if_false]
      have hk : t.kind = K.WHITESPACE ∨ t.kind = K.Comment := by
        unfold Tok.trivia at ht
        simpa using ht
      rw [if_neg (by rcases hk with h | h <;> rw [h] <;> decide), if_neg (by rcases hk with h | h <;> rw [h] <;> decide)]
      exact ih
    | false =>
      simp only [Bool.not_false, if_true, List.findSome?_cons, Function.comp]
      rw [ih]

/-- The parse of a document depends on the kinds of its significant tokens only: same kinds, same tree up to white space,
comments and the texts of the tokens, same errors up to their positions. -/
theorem parseDocument_sig {text text' : Text} {ts ts' : List Tok} (hL : Lexed text ts) (hL' : Lexed text' ts')
    (hk : kinds ts' = kinds ts) {g errs} (h : parseDocument ts = some (g, errs)) :
    ∃ g' errs', parseDocument ts' = some (g', errs') ∧ g'.shape .nil = g.shape .nil ∧
      errs'.map (·.expected) = errs.map (·.expected) := by
  have hg : guessOperationType ts' = guessOperationType ts := by rw [guess_sig, guess_sig, hk]
  unfold parseDocument at h ⊢
  rw [hg]
  split at h
  · exact parseText_sig hL hL' hk h
  · exact parseText_sig hL hL' hk h
  · exact parseText_sig hL hL' hk h

theorem parseDocument_kinds {text text' : Text} {ts ts' : List Tok} (hL : Lexed text ts) (hL' : Lexed text' ts')
    (hk : ts.map (·.kind) = ts'.map (·.kind)) {g errs} (h : parseDocument ts = some (g, errs)) :
    ∃ g' errs', parseDocument ts' = some (g', errs') ∧ g'.shape .nil = g.shape .nil ∧
      errs'.map (·.expected) = errs.map (·.expected) :=
  parseDocument_sig hL hL' (kinds_of_map hk) h

/-- **C26.** If the variable is written with `?` everywhere, the renamed document has the same syntax tree up to the texts of
tokens, and as many syntax errors: renaming never makes a document invalid and never changes what is nested in what. -/
theorem c26_same_tree (errLen : Text → Nat) (text : Text) (g errs) (hp : parseSource errLen text = some (g, errs))
    (pos : Position) (newName : Text) (edits : List TextEdit) (h : rename text g pos newName = .ok edits)
    (hok : ∀ t ∈ lex errLen text, t.kind ≠ K.Error) (hq : ∀ t ∈ lex errLen text, t.kind ≠ K.VAR2)
    (hclean : ∀ v, Occurs g v → Clean g v) :
    ∃ newText g' errs', applyTextEdits text edits = some (ensureNL newText) ∧
      parseSource errLen newText = some (g', errs') ∧ g'.shape .nil = g.shape .nil ∧
      errs'.map (·.expected) = errs.map (·.expected) := by
  obtain ⟨newText, h1, h2⟩ := c26_tokens errLen text g errs hp pos newName edits h hok hclean
  have hk : (lex errLen text).map (·.kind) = (lex errLen newText).map (·.kind) := by
    have : ∀ (a b : List Tok), (∀ t ∈ a, t.kind ≠ K.VAR2) →
        List.Forall₂ (TokenRenamed (stripSigil newName)) (a.map (fun t => (t.kind, t.text))) (b.map (fun t => (t.kind, t.text))) →
        a.map (·.kind) = b.map (·.kind) := by
      intro a
      induction a with
      | nil =>
        intro b _ hb
        cases b with
        | nil => rfl
        | cons => cases hb
      | cons x a ih =>
        intro b hx hb
        cases b with
        | nil => cases hb
        | cons y b =>
          simp only [List.map_cons] at hb ⊢
          cases hb with
          | cons h1 h2 =>
            rw [ih b (fun t ht => hx t (by simp [ht])) h2]
            congr 1
            rcases h1 with h1 | ⟨⟨s, n, c1, c2, c3⟩, h1⟩
            · exact (congrArg Prod.fst h1).symm
            · have e1 : x.kind = sigilKind s := congrArg Prod.fst c3
              have e2 : y.kind = K.VAR1 := congrArg Prod.fst h1
              rw [e2, e1]
              have := hx x (by simp)
              rw [e1] at this
              unfold sigilKind at this ⊢
              split
              · rfl
              · next hne => rw [if_neg hne] at this; exact absurd rfl this
    exact this _ _ hq h2
  obtain ⟨g', errs', h3, h4, h5⟩ := parseDocument_kinds (c47_lossless errLen text) (c47_lossless errLen newText) hk hp
  exact ⟨newText, g', errs', h1, h3, h4, h5⟩

/-! ## A concrete document: `SELECT ?x {<a> a ?x}`, renaming `?x` to `$é` (the sigil is dropped) -/

theorem exTree_noError : ∀ n ∈ exTree.nodes, n.kind ≠ K.Error := by
  have h : (exTree.nodes.map Green.kind).all (fun k => k != K.Error) = true := by decide +kernel
  intro n hn
  have := List.all_eq_true.1 h n.kind (List.mem_map.2 ⟨n, hn, rfl⟩)
  simpa using this

theorem exRename : rename exText exTree ⟨0, 8⟩ ['$', 'é'] =
    .ok [⟨⟨⟨0, 7⟩, ⟨0, 9⟩⟩, ['?', 'é']⟩, ⟨⟨⟨0, 17⟩, ⟨0, 19⟩⟩, ['?', 'é']⟩] := by
  have h : (match rename exText exTree ⟨0, 8⟩ ['$', 'é'] with | .ok e => some e | _ => none) =
    some [⟨⟨⟨0, 7⟩, ⟨0, 9⟩⟩, ['?', 'é']⟩, ⟨⟨⟨0, 17⟩, ⟨0, 19⟩⟩, ['?', 'é']⟩] := by decide +kernel
  split at h
  · next e he => rw [he]; cases h; rfl
  · cases h

/-- The hypotheses of `c26_tokens` and `c26_same_tree` are met. -/
example : ∃ newText g' errs', applyTextEdits exText [⟨⟨⟨0, 7⟩, ⟨0, 9⟩⟩, ['?', 'é']⟩, ⟨⟨⟨0, 17⟩, ⟨0, 19⟩⟩, ['?', 'é']⟩] =
      some (ensureNL newText) ∧
    parseSource (fun _ => 1) newText = some (g', errs') ∧ g'.shape .nil = exTree.shape .nil ∧ errs' = [] := by
  have h2 : ((lex (fun _ => 1) exText).all (fun t => (t.kind != K.Error) && (t.kind != K.VAR2))) = true := by decide +kernel
  have h3 := List.all_eq_true.1 h2
  obtain ⟨n, g', e', a, b, c, d⟩ := c26_same_tree (fun _ => 1) exText exTree [] exTree_parse ⟨0, 8⟩ ['$', 'é'] _ exRename
    (fun t ht => by have := h3 t ht; simp only [Bool.and_eq_true, bne_iff_ne] at this; exact this.1)
    (fun t ht => by have := h3 t ht; simp only [Bool.and_eq_true, bne_iff_ne] at this; exact this.2)
    (fun v _ => clean_of_no_error exTree_parse exTree_noError v)
  exact ⟨n, g', e', a, b, c, by simpa using d⟩

/-- The ranges of a rename. -/
def renameRanges (text : Text) (g : Green) (pos : Position) (name : Text) : Option (List TextEdit) :=
  match rename text g pos name with
  | .ok e => some e
  | _ => none

/-- **C26, negative result.** Rename does not look whether the new name is in use: in `SELECT ?x ?y {}`, `?x` can be renamed
to `?y`, which merges two different variables. -/
theorem c26_capture : renameRanges twoText twoTree ⟨0, 8⟩ ['y'] = some [⟨⟨⟨0, 7⟩, ⟨0, 9⟩⟩, ['?', 'y']⟩] := by
  decide +kernel

/-- **C26, negative result.** With the cursor right before a variable (where editors put it when the variable is entered from
the left) the blank on its left is taken, and rename fails. -/
theorem c26_cursor_before : renameRanges twoText twoTree ⟨0, 7⟩ ['y'] = none ∧
    renameRanges twoText twoTree ⟨0, 10⟩ ['y'] = none := by
  decide +kernel

/-- In `SELECT ?x {{SELECT ?y {?x ?p ?y}}}` the inner `?x` is not projected, so it is another variable than the outer one. -/
example : renameRanges subText subTree ⟨0, 8⟩ ['z'] = some [⟨⟨⟨0, 7⟩, ⟨0, 9⟩⟩, ['?', 'z']⟩] ∧
    renameRanges subText subTree ⟨0, 25⟩ ['z'] = some [⟨⟨⟨0, 23⟩, ⟨0, 25⟩⟩, ['?', 'z']⟩] ∧
    renameRanges subText subTree ⟨0, 20⟩ ['z'] =
      some [⟨⟨⟨0, 19⟩, ⟨0, 21⟩⟩, ['?', 'z']⟩, ⟨⟨⟨0, 29⟩, ⟨0, 31⟩⟩, ['?', 'z']⟩] := by
  decide +kernel

end Verif.Props
