import Verif.Features.TripleEnd
import Verif.Grammar.Search
import Verif.Props.Single
import Verif.Props.SelectDiagnostics
import Verif.Features.DemoActions
/-!
# C62: adding a filter for a variable
-/
namespace Verif.Props
open Verif Verif.Grammar Verif.Lexer Verif.Features Verif.Format

/-! ## Specification -/

/-- `t` is the nearest ancestor of kind `k`. -/
def Nearest (v : Red) (k : Kind) (t : Red) : Prop := ∃ a b, v.ancestors = a ++ t :: b ∧ t.kind = k ∧ ∀ x ∈ a, x.kind ≠ k

/-- Where a triple ends: behind its dot, if it has one. -/
def EndsAt (t : Red) (off : Nat) : Prop :=
  (∃ b d : Red, t ∈ b.childrenT ∧ d ∈ b.childrenT ∧ d.kind = K.Dot ∧ off = d.stop) ∨
  ((∀ b d : Red, t ∈ b.childrenT → d ∈ b.childrenT → d.kind ≠ K.Dot) ∧ off = t.stop)

/-- The tokens of ` FILTER (?x)`. -/
def filterTokens (v : Kind × Text) : List (Kind × Text) :=
  [(K.WHITESPACE, [' ']), (K.FILTER, ['F', 'I', 'L', 'T', 'E', 'R']), (K.WHITESPACE, [' ']), (K.LParen, ['(']), v, (K.RParen, [')'])]

/-- The tokens of ` FILTER (LANG(?x) = "en")`. -/
def langTokens (v : Kind × Text) : List (Kind × Text) :=
  [(K.WHITESPACE, [' ']), (K.FILTER, ['F', 'I', 'L', 'T', 'E', 'R']), (K.WHITESPACE, [' ']), (K.LParen, ['(']), (K.LANG, ['L', 'A', 'N', 'G']),
    (K.LParen, ['(']), v, (K.RParen, [')']), (K.WHITESPACE, [' ']), (K.Equals, ['=']), (K.WHITESPACE, [' ']),
    (K.STRING_LITERAL2, ['"', 'e', 'n', '"']), (K.RParen, [')'])]

/-- The outcome of inserting tokens: the edit is applied as described, the tokens of the document stay and the new ones are between them, and the
new document is valid and of the same type. -/
def Inserted (errLen : Text → Nat) (text : Text) (g : Green) (edit : TextEdit) (off : Nat) (I : List (Kind × Text)) : Prop :=
  ∃ A B g', tokenPairs errLen text = A ++ B ∧ blen (flat A) = off ∧ edit = ⟨⟨posOf (flat A), posOf (flat A)⟩, flat I⟩ ∧
    applyTextEdits text [edit] = some (ensureNL (flat A ++ flat I ++ flat B)) ∧
    tokenPairs errLen (flat A ++ flat I ++ flat B) = A ++ I ++ B ∧
    Derives sparqlRules (.node g.kind) (kinds (lex errLen (flat A ++ flat I ++ flat B))) ∧
    parseSource errLen (flat A ++ flat I ++ flat B) = some (g', []) ∧ g'.kind = g.kind

/-! ## Proof -/

theorem hasRule_of {k : Kind} {w : Text} (h : lexRules.any (fun r => r.kind == k && (r.re.derivs w).nullable) = true) : HasRule (k, w) := by
  obtain ⟨r, h1, h2⟩ := List.any_eq_true.1 h
  simp only [Bool.and_eq_true, beq_iff_eq] at h2
  refine ⟨r, h1, h2.1, ?_⟩
  have := (nullable_iff _).1 h2.2
  rw [derivs_iff] at this
  simpa using this

theorem nearest_iff {v : Red} {t : Red} : tripleOfVar v = some t ↔ Nearest v K.TriplesSameSubjectPath t := by
  unfold tripleOfVar Nearest
  rw [List.find?_eq_some_iff_append]
  constructor
  · rintro ⟨h1, a, b, h2, h3⟩
    exact ⟨a, b, h2, by simpa using h1, fun x hx => by simpa using h3 x hx⟩
  · rintro ⟨a, b, h1, h2, h3⟩
    exact ⟨by simpa using h2, a, b, h1, fun x hx => by simpa using h3 x hx⟩

theorem nearest_node {g : Green} {v t : Red} (hv : InTree g v) (hn : v.isNode = true) {k : Kind} (h : Nearest v k t) : InTree g t ∧ t.isNode = true := by
  obtain ⟨a, b, e, -, -⟩ := h
  have hm : t ∈ v.ancestors := by rw [e]; simp
  refine ⟨hv.ancestors t hm, ?_⟩
  cases a with
  | nil =>
    have : v.ancestors = v :: Red.chain v.up := rfl
    rw [this] at e
    injection e with e _
    rw [← e]; exact hn
  | cons x a =>
    have : v.ancestors = v :: Red.chain v.up := rfl
    rw [this] at e
    injection e with _ e
    exact (hv.chain t (by rw [e]; simp)).2

section
variable {errLen : Text → Nat} {text : Text} {g : Green} {errs : List SyntaxErr} (hp : parseSource errLen text = some (g, errs))
  (hd : Derives sparqlRules (.node g.kind) (kinds (lex errLen text)))
include hp hd

theorem var_pair {v : Red} (hv : InTree g v) (hn : v.isNode = true) (hk : v.kind = K.Var) :
    ∃ k, (k = K.VAR1 ∨ k = K.VAR2) ∧ v.green.leaves = [(k, v.text)] ∧ HasRule (k, v.text) := by
  have P := parsed_of hp
  have hC := complete_of hp hd
  have hmem : v.green ∈ g.nodes := hv.green_mem hn
  obtain ⟨p, h1, h2⟩ := single_of hp hmem (.inl hk)
  have htext : v.text = p.2 := by
    have := flat_leaves v
    rw [h1] at this
    rw [← this]; simp [flat]
  have hw := word_derives P hC v hv (node_sig P hv hn)
  have hkt : v.tokens.map Red.kt = [p] := by rw [(tokens_row v).1, h1]
  have hword : word v = [p.1] := by
    unfold word
    rw [sigKs_kt, hkt]
    have : sigK [p] = [p.1] := by
      unfold sigK sigPairs
      rw [List.filter_cons_of_pos (by simpa [triviaKind] using h2)]
      rfl
    exact this
  rw [symOf_node hn, hk, hword] at hw
  have hr := Derives.node_inv (r := .alt (.tok K.VAR1) (.tok K.VAR2)) hw (by decide +kernel)
  have hpk : p.1 = K.VAR1 ∨ p.1 = K.VAR2 := by
    rcases hr.alt_inv with h | h <;> have := h.tok_inv <;> injection this with this _
    · exact .inl this
    · exact .inr this
  have hrule : HasRule p := by
    refine P.lexed p ?_ (by rcases hpk with h | h <;> rw [h] <;> decide)
    obtain ⟨A, B, e, -⟩ := inTree_leaves hv
    rw [e, h1]; simp
  refine ⟨p.1, hpk, ?_, ?_⟩
  · rw [h1, htext]
  · rw [htext]; exact hrule

/-- Inserting patterns behind a triple. -/
theorem insert_pattern {t : Red} (ht : InTree g t) (hn : t.isNode = true) (hk : t.kind = K.TriplesSameSubjectPath)
    {I : List (Kind × Text)} {i : Text} (hI : flat I = ' ' :: i) (hr : ∀ p ∈ I, HasRule p) (hIE : ∀ p ∈ I, p.1 ≠ K.Error)
    (hc : okChain (I.map (·.1)) = true) (hlast : ∃ I0 p, I = I0 ++ [p] ∧ p.1 = K.RParen)
    (hcalm : Calm (' ' :: i)) (hw : Derives sparqlRules (.node K.GraphPatternNotTriples) (sigK I)) :
    ∃ edit, insertAt text (filterOffset t) (flat I) = some edit ∧ Inserted errLen text g edit (filterOffset t) I := by
  have P := parsed_of hp
  have hC := complete_of hp hd
  obtain ⟨A, B, ho, ⟨A0, q, hA, hq, hqs⟩, hplace⟩ := triple_end P hC ht hn hk
  have hput := put_tokens hp hd (A := A) (D := []) (B := B) (by rw [List.append_nil]; exact ho.eq) hA hq hqs (by intro c h; simp [flat] at h) (by simp)
    hI hr hIE hc (by
      intro p I0 e y B' eB
      obtain ⟨I0', p', e', hpk⟩ := hlast
      rw [e'] at e
      have : p' = p := by
        have := (List.append_inj' e rfl).2
        simpa using this
      rw [← this, hpk]
      cases htr : triviaKind y.kind with
      | true =>
        have : y.kind = K.WHITESPACE ∨ y.kind = K.Comment := by simpa [triviaKind] using htr
        rcases this with h | h <;> rw [h] <;> decide +kernel
      | false =>
        obtain ⟨k, rest, h1, h2⟩ := ho.ahead
        rw [eB] at h1
        have hs : sigKs (y :: B') = y.kind :: sigKs B' := by
          unfold sigKs
          rw [List.filter_cons_of_pos (by simp [htr])]
          rfl
        rw [hs] at h1
        injection h1 with h1 _
        rw [touch, Bool.or_eq_true]
        refine .inl <| ok_pair (sub_mask (a := aheadMask) (by decide +kernel) ?_)
        rw [h1]; exact h2) hcalm (ho.fill _ hw)
  obtain ⟨h1, h2, h3, g', h4, h5⟩ := hput
  have hnil : flat (([] : List Red).map Red.kt) = [] := rfl
  rw [hnil, List.append_nil] at h1
  refine ⟨⟨⟨posOf (flat (A.map Red.kt)), posOf (flat (A.map Red.kt))⟩, flat I⟩, ?_, A.map Red.kt, B.map Red.kt, g', ?_, hplace, rfl, ?_, h2, h3, h4, h5⟩
  · unfold insertAt
    rw [← hplace]
    conv_lhs => rw [h1]
    rw [fromByteIndex_of_prefix]
    rfl
  · rw [← tokens_pairs hp, ho.eq, List.map_append]
  · conv_lhs => rw [h1]
    have := apply_one (pre := flat (A.map Red.kt)) (old := []) (post := flat (B.map Red.kt)) (new := flat I)
    rw [List.append_nil] at this
    rw [List.nil_append] at this
    rw [this]; simp

theorem endsAt {t : Red} (ht : InTree g t) (hn : t.isNode = true) (hk : t.kind = K.TriplesSameSubjectPath) : EndsAt t (filterOffset t) := by
  have P := parsed_of hp
  have hC := complete_of hp hd
  obtain ⟨b, hb, hbn, htb, hbk⟩ := triple_block P ht hn hk
  obtain ⟨a, rest, hab⟩ := List.append_of_mem htb
  have hy : younger t = rest := (elder_eq hab).2
  have hsig : sigC b = a.filter Red.sig ++ t :: rest.filter Red.sig := by
    unfold sigC; rw [hab, List.filter_append, List.filter_cons_of_pos (node_sig P ht hn)]
  have hw := sigC_whole P hC hb hbn (by rw [hbk]; exact r_block)
  rw [hsig, List.map_append, List.map_cons, symOf_node hn, hk] at hw
  obtain ⟨ha, hr⟩ := block_shape (whole_block hw)
  have ha : a.filter Red.sig = [] := by simpa using ha
  unfold filterOffset laterSibling
  rw [hy]
  cases hf : rest.find? (fun s => s.kind == K.Dot) with
  | some d =>
    obtain ⟨hdk, c1, c2, hcd, hc1⟩ := List.find?_eq_some_iff_append.1 hf
    exact .inl ⟨b, d, htb, by rw [hab, hcd]; simp, by simpa using hdk, rfl⟩
  | none =>
    refine .inr ⟨?_, rfl⟩
    intro b' d hb' hd' hdk
    have : b' = b := by
      have e1 := child_parent hb'
      have e2 := child_parent htb
      rw [e1] at e2; injection e2
    subst this
    rw [hab] at hd'
    rcases List.mem_append.1 hd' with h | h
    · have : d ∈ a.filter Red.sig := List.mem_filter.2 ⟨h, by simp only [Red.sig, hdk]; decide⟩
      rw [ha] at this; cases this
    · rcases List.mem_cons.1 h with h | h
      · rw [h, hk] at hdk; revert hdk; decide
      · have := List.find?_eq_none.1 hf d h
        exact this (by simp [hdk])

end

theorem var_plain {k : Kind} {w : Text} (hk : k = K.VAR1 ∨ k = K.VAR2) (h : HasRule (k, w)) : ∀ c ∈ w, plainClass.has c = true := by
  obtain ⟨r, h1, h2, h3⟩ := h
  refine within_has h3 ?_
  have hall : lexRules.all (fun r => !(r.kind == K.VAR1 || r.kind == K.VAR2) || within plainClass r.re) = true := by decide +kernel
  have := List.all_eq_true.1 hall r h1
  have h2 : r.kind = k := h2
  rw [h2] at this
  rcases hk with rfl | rfl <;> simpa using this

/-- **C62.** "Add Filter" and "Add Lang-Filter" are offered for a variable exactly if it is part of a triple of a group graph pattern (documents
with syntax errors included). -/
theorem c62_offered (errLen : Text → Nat) (text : Text) (g errs) (hp : parseSource errLen text = some (g, errs)) (v : Red) (hv : InTree g v) :
    ((filterVar text v).isSome ↔ ∃ t, Nearest v K.TriplesSameSubjectPath t) ∧ ((filterLang text v).isSome ↔ ∃ t, Nearest v K.TriplesSameSubjectPath t) := by
  have P := parsed_of hp
  have key : ∀ t, tripleOfVar v = some t → ∀ new, (insertAt text (filterOffset t) new).isSome := by
    intro t ht new
    have htT : InTree g t := hv.ancestors t (List.mem_of_find?_eq_some ht)
    unfold insertAt filterOffset laterSibling
    have hs : ∀ x : Red, InTree g x → ∃ p, fromByteIndex x.stop text = some p := by
      intro x hx
      obtain ⟨pre, post, e, h1⟩ := P.at_ hx
      refine ⟨posOf (pre ++ x.text), ?_⟩
      have : x.stop = blen (pre ++ x.text) := by rw [blen_append, ← h1]; rfl
      rw [this, e]; exact fromByteIndex_of_prefix _ _
    split
    · rename_i d hd
      have hm := List.mem_of_find?_eq_some hd
      have hdT : InTree g d := by
        have hm := List.mem_of_mem_drop hm
        unfold siblings at hm
        split at hm
        · cases hm
        · rename_i p hpar
          exact (htT.parent hpar).1.child hm
      obtain ⟨p, h⟩ := hs d hdT
      rw [h]; rfl
    · obtain ⟨p, h⟩ := hs t htT
      rw [h]; rfl
  have main : ∀ f : Text → Text, ((match tripleOfVar v with
      | none => none
      | some t => insertAt text (filterOffset t) (f v.text)).isSome ↔ ∃ t, Nearest v K.TriplesSameSubjectPath t) := by
    intro f
    cases ht : tripleOfVar v with
    | none =>
      constructor
      · intro h; cases h
      · rintro ⟨t, h⟩
        rw [← nearest_iff, ht] at h; cases h
    | some t => exact ⟨fun _ => ⟨t, nearest_iff.1 ht⟩, fun _ => key t ht _⟩
  exact ⟨main filterNew, main langNew⟩

/-- **C62.** Accepting "Add Filter" in a valid document: ` FILTER (?x)` is inserted behind the triple (behind its dot, if there is one); all
tokens stay what they are, and the new document is valid. -/
theorem c62_filter (errLen : Text → Nat) (text : Text) (g errs) (hp : parseSource errLen text = some (g, errs))
    (hd : Derives sparqlRules (.node g.kind) (kinds (lex errLen text))) (v : Red) (hv : InTree g v) (hn : v.isNode = true) (hk : v.kind = K.Var)
    (t : Red) (ht : Nearest v K.TriplesSameSubjectPath t) :
    ∃ edit off k, filterVar text v = some edit ∧ EndsAt t off ∧ (k = K.VAR1 ∨ k = K.VAR2) ∧
      Inserted errLen text g edit off (filterTokens (k, v.text)) := by
  obtain ⟨htT, htn⟩ := nearest_node hv hn ht
  have htk : t.kind = K.TriplesSameSubjectPath := by obtain ⟨_, _, _, h, _⟩ := ht; exact h
  obtain ⟨k, hkk, -, hrule⟩ := var_pair hp hd hv hn hk
  have hflat : flat (filterTokens (k, v.text)) = filterNew v.text := by simp [flat, filterTokens, filterNew]
  have := insert_pattern hp hd htT htn htk (I := filterTokens (k, v.text)) (i := (filterNew v.text).tail) (by rw [hflat]; rfl)
    (by
      intro p hp'
      simp only [filterTokens, List.mem_cons, List.not_mem_nil, or_false] at hp'
      rcases hp' with rfl | rfl | rfl | rfl | rfl | rfl
      · exact hasRule_of (by decide +kernel)
      · exact hasRule_of (by decide +kernel)
      · exact hasRule_of (by decide +kernel)
      · exact hasRule_of (by decide +kernel)
      · exact hrule
      · exact hasRule_of (by decide +kernel))
    (by
      intro p hp'
      simp only [filterTokens, List.mem_cons, List.not_mem_nil, or_false] at hp'
      rcases hp' with rfl | rfl | rfl | rfl | rfl | rfl <;> dsimp only
      · decide
      · decide
      · decide
      · decide
      · rcases hkk with h | h <;> rw [h] <;> decide
      · decide)
    (by
      have e : (filterTokens (k, v.text)).map (·.1) = [K.WHITESPACE, K.FILTER, K.WHITESPACE, K.LParen, k, K.RParen] := rfl
      rw [e]
      rcases hkk with h | h <;> rw [h] <;> decide +kernel)
    ⟨(filterTokens (k, v.text)).dropLast, (K.RParen, [')']), rfl, rfl⟩
    (by
      have e : ' ' :: (filterNew v.text).tail = [' ', 'F', 'I', 'L', 'T', 'E', 'R', ' ', '('] ++ v.text ++ [')'] := rfl
      rw [e]
      exact calm_append (calm_append (calm_of (by decide +kernel)) (calm_plain (var_plain hkk hrule))) (calm_of (by decide +kernel)))
    (by
      have e : sigK (filterTokens (k, v.text)) = [K.FILTER, K.LParen, k, K.RParen] := by
        rcases hkk with h | h <;> rw [h] <;> rfl
      rw [e]
      rcases hkk with h | h <;> rw [h] <;> exact der_sound (n := 60) (by decide +kernel))
  obtain ⟨edit, h1, h2⟩ := this
  refine ⟨edit, filterOffset t, k, ?_, endsAt hp hd htT htn htk, hkk, h2⟩
  unfold filterVar
  rw [nearest_iff.2 ht, ← hflat]
  exact h1

/-- **C62.** Accepting "Add Lang-Filter" in a valid document: ` FILTER (LANG(?x) = "en")` is inserted at the same place. -/
theorem c62_lang (errLen : Text → Nat) (text : Text) (g errs) (hp : parseSource errLen text = some (g, errs))
    (hd : Derives sparqlRules (.node g.kind) (kinds (lex errLen text))) (v : Red) (hv : InTree g v) (hn : v.isNode = true) (hk : v.kind = K.Var)
    (t : Red) (ht : Nearest v K.TriplesSameSubjectPath t) :
    ∃ edit off k, filterLang text v = some edit ∧ EndsAt t off ∧ (k = K.VAR1 ∨ k = K.VAR2) ∧
      Inserted errLen text g edit off (langTokens (k, v.text)) := by
  obtain ⟨htT, htn⟩ := nearest_node hv hn ht
  have htk : t.kind = K.TriplesSameSubjectPath := by obtain ⟨_, _, _, h, _⟩ := ht; exact h
  obtain ⟨k, hkk, -, hrule⟩ := var_pair hp hd hv hn hk
  have hflat : flat (langTokens (k, v.text)) = langNew v.text := by simp [flat, langTokens, langNew]
  have := insert_pattern hp hd htT htn htk (I := langTokens (k, v.text)) (i := (langNew v.text).tail) (by rw [hflat]; rfl)
    (by
      intro p hp'
      simp only [langTokens, List.mem_cons, List.not_mem_nil, or_false] at hp'
      rcases hp' with rfl | rfl | rfl | rfl | rfl | rfl | rfl | rfl | rfl | rfl | rfl | rfl | rfl
      · exact hasRule_of (by decide +kernel)
      · exact hasRule_of (by decide +kernel)
      · exact hasRule_of (by decide +kernel)
      · exact hasRule_of (by decide +kernel)
      · exact hasRule_of (by decide +kernel)
      · exact hasRule_of (by decide +kernel)
      · exact hrule
      all_goals exact hasRule_of (by decide +kernel))
    (by
      intro p hp'
      simp only [langTokens, List.mem_cons, List.not_mem_nil, or_false] at hp'
      rcases hp' with rfl | rfl | rfl | rfl | rfl | rfl | rfl | rfl | rfl | rfl | rfl | rfl | rfl <;> dsimp only
      · decide
      · decide
      · decide
      · decide
      · decide
      · decide
      · rcases hkk with h | h <;> rw [h] <;> decide
      all_goals decide)
    (by
      have e : (langTokens (k, v.text)).map (·.1) = [K.WHITESPACE, K.FILTER, K.WHITESPACE, K.LParen, K.LANG, K.LParen, k, K.RParen, K.WHITESPACE,
        K.Equals, K.WHITESPACE, K.STRING_LITERAL2, K.RParen] := rfl
      rw [e]
      rcases hkk with h | h <;> rw [h] <;> decide +kernel)
    ⟨(langTokens (k, v.text)).dropLast, (K.RParen, [')']), rfl, rfl⟩
    (by
      have e : ' ' :: (langNew v.text).tail = [' ', 'F', 'I', 'L', 'T', 'E', 'R', ' ', '(', 'L', 'A', 'N', 'G', '('] ++ v.text ++
        [')', ' ', '=', ' ', '"', 'e', 'n', '"', ')'] := rfl
      rw [e]
      exact calm_append (calm_append (calm_of (by decide +kernel)) (calm_plain (var_plain hkk hrule))) (calm_of (by decide +kernel)))
    (by
      have e : sigK (langTokens (k, v.text)) = [K.FILTER, K.LParen, K.LANG, K.LParen, k, K.RParen, K.Equals, K.STRING_LITERAL2, K.RParen] := by
        rcases hkk with h | h <;> rw [h] <;> rfl
      rw [e]
      rcases hkk with h | h <;> rw [h] <;> exact der_sound (n := 90) (by decide +kernel))
  obtain ⟨edit, h1, h2⟩ := this
  refine ⟨edit, filterOffset t, k, ?_, endsAt hp hd htT htn htk, hkk, h2⟩
  unfold filterLang
  rw [nearest_iff.2 ht, ← hflat]
  exact h1

/-! ## The hypotheses are met -/

/-- Example: in `SELECT * {?s ?p ?o.OPTIONAL{$o ?q 1 .?x ?y (2)}}` the filters for `?o` and for `$o` come behind the dots, the filter for `?y`
behind the last triple; the document is valid. -/
theorem c62_cases : parseSource (fun _ => 1) roomText = some (roomTree, []) ∧
    Derives sparqlRules (.node roomTree.kind) (kinds (lex (fun _ => 1) roomText)) ∧
    (((Red.root roomTree).descendantsT.filter (fun v => v.isNode && v.kind == K.Var)).map (fun v => (v.start, (tripleOfVar v).map filterOffset))) =
      [(10, some 19), (13, some 19), (16, some 19), (28, some 37), (31, some 37), (37, some 46), (40, some 46)] := by
  exact ⟨roomTree_parse, room_derives, by decide +kernel⟩

end Verif.Props
