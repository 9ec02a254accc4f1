import Verif.Props.QuickFix
/-!
# C53: declaring a prefix

Specification as for C52. `IriChar` is the SPARQL grammar's class of characters inside `<` `>`.
-/
namespace Verif.Props
open Verif Verif.Grammar Verif.Lexer Verif.Features

/-- A character that may stand between `<` and `>`. -/
def IriChar (c : Char) : Prop := 0x20 < c.toNat ∧ c ∉ ['<', '>', '"', '{', '}', '|', '^', '`', '\\']

/-! ## The tokens of the declaration -/

theorem iri_mem : rule_IRIREF ∈ lexRules := List.mem_cons_of_mem _ (List.mem_cons_of_mem _ (List.mem_cons_of_mem _ (List.mem_cons_self)))
theorem prefix_mem : rule_PREFIX ∈ lexRules := List.mem_cons_of_mem _ (List.mem_cons_of_mem _ (List.mem_cons_of_mem _ (List.mem_cons_of_mem _ (List.mem_cons_self))))
theorem ns_mem : rule_PNAME_NS ∈ lexRules := List.mem_cons_of_mem _ (List.mem_cons_of_mem _ (List.mem_cons_of_mem _ (List.mem_cons_of_mem _ (List.mem_cons_of_mem _ (List.mem_cons_self)))))

theorem char_ne {c d : Char} (h : c ≠ d) : c.toNat ≠ d.toNat := by
  intro e
  exact h (Char.ext (UInt32.toNat_inj.1 e))

theorem iriChar_class {c : Char} (h : IriChar c) :
    Class.has [(0x21, 0x21), (0x23, 0x3B), (0x3D, 0x3D), (0x3F, 0x5B), (0x5D, 0x5D), (0x5F, 0x5F), (0x61, 0x7A), (0x7E, 0x10FFFF)] c = true := by
  obtain ⟨h0, h⟩ := h
  simp only [List.mem_cons, List.not_mem_nil, or_false, not_or] at h
  obtain ⟨h1, h2, h3, h4, h5, h6, h7, h8, h9⟩ := h
  have h1 : c.toNat ≠ 0x3C := char_ne h1
  have h2 : c.toNat ≠ 0x3E := char_ne h2
  have h3 : c.toNat ≠ 0x22 := char_ne h3
  have h4 : c.toNat ≠ 0x7B := char_ne h4
  have h5 : c.toNat ≠ 0x7D := char_ne h5
  have h6 : c.toNat ≠ 0x7C := char_ne h6
  have h7 : c.toNat ≠ 0x5E := char_ne h7
  have h8 : c.toNat ≠ 0x60 := char_ne h8
  have h9 : c.toNat ≠ 0x5C := char_ne h9
  have := char_le c
  rw [has_iff]
  simp only [List.mem_cons, List.not_mem_nil, or_false, exists_eq_or_imp, exists_eq_left]
  omega

theorem iri_matches {uri : Text} (h : ∀ c ∈ uri, IriChar c) : Matches rule_IRIREF.re ('<' :: (uri ++ ['>'])) :=
  matches_cons (by decide) (matches_seq.2 ⟨uri, ['>'], rfl, matches_star_cls.2 (fun c hc => iriChar_class (h c hc)),
    matches_cls.2 ⟨'>', rfl, by decide⟩⟩)

theorem pname_is : lexRules.all (fun r => (r.kind != K.PNAME_NS || r.re == rule_PNAME_NS.re) &&
    (r.kind != K.PNAME_LN || r.re == rule_PNAME_LN.re)) = true := by decide +kernel

theorem pname_ln : ∃ q, rule_PNAME_LN.re = .seq rule_PNAME_NS.re q := ⟨_, rfl⟩

theorem ns_split : colonSplit rule_PNAME_NS.re = some false := by decide +kernel

/-- The prefix of a name with its colon is a token by itself. -/
theorem ns_matches {r : LexRule} (hr : r ∈ lexRules) (hk : r.kind = K.PNAME_LN ∨ r.kind = K.PNAME_NS) {p rest : Text}
    (hm : Matches r.re (p ++ ':' :: rest)) (hp : ':' ∉ p) : Matches rule_PNAME_NS.re (p ++ [':']) := by
  have := List.all_eq_true.1 pname_is r hr
  simp only [Bool.and_eq_true, Bool.or_eq_true, bne_iff_ne, beq_iff_eq] at this
  have key : ∀ u v, p ++ ':' :: rest = u ++ v → Matches rule_PNAME_NS.re u → u = p ++ [':'] := by
    intro u v e hu
    obtain ⟨p', q', e1, h1, h2⟩ := colonSplit_sound ns_split hu
    rw [h2 rfl] at e1
    rw [e1, List.append_assoc] at e
    rw [prefix_unique hp h1 e, e1]
  rcases hk with hk | hk
  · obtain ⟨q, hq⟩ := pname_ln
    rw [this.2.resolve_left (fun h => h hk), hq, matches_seq] at hm
    obtain ⟨u, v, e, hu, -⟩ := hm
    rw [← key u v e hu]; exact hu
  · rw [this.1.resolve_left (fun h => h hk)] at hm
    rw [← key _ [] (by simp) hm]; exact hm

theorem longest_label {p rest : Text} (h : Matches rule_PNAME_NS.re (p ++ [':'])) :
    Longest (p ++ [':'] ++ ' ' :: rest) K.PNAME_NS (p ++ [':']) := by
  have hmem := ns_mem
  refine longest_safe hmem h rfl ?_
  rintro c y e r' hr' z
  cases e
  by_cases hw : r'.kind ∈ wideKinds
  · refine noRuleOf_sound wide_no_colon hr' hw ?_
    rw [List.append_assoc]
    exact matches_seq.2 ⟨p, _, rfl, anyText_matches p, matches_cons (by decide) (anyText_matches _)⟩
  · refine noRule_sound name_no_ws hr' hw ?_
    obtain ⟨c0, y0, e0, hc0⟩ := first_char first_name name_class hmem (by show K.PNAME_NS ∈ _; decide) h
    rw [e0]
    exact matches_cons hc0 (matches_seq.2 ⟨y0, _, rfl, anyText_matches _, matches_cons (by decide) (anyText_matches _)⟩)

/-- The tokens of `PREFIX p: <uri>`. -/
def declTokens (p uri : Text) : List (Kind × Text) :=
  [(K.PREFIX, ['P', 'R', 'E', 'F', 'I', 'X']), (K.WHITESPACE, [' ']), (K.PNAME_NS, p ++ [':']), (K.WHITESPACE, [' ']),
    (K.IRIREF, '<' :: (uri ++ ['>']))]

theorem lexes_decl {p uri t : Text} {l : List (Kind × Text)} (hp : Matches rule_PNAME_NS.re (p ++ [':']))
    (hu : ∀ c ∈ uri, IriChar c) (h : Lexes t l) :
    Lexes (flat (declTokens p uri) ++ t) (declTokens p uri ++ l) := by
  have hmem := ns_mem
  obtain ⟨c0, y0, e0, hc0⟩ := first_char first_name name_class hmem (by show K.PNAME_NS ∈ _; decide) hp
  have hns : ∀ rest, NoSpace (p ++ [':'] ++ rest) := by
    intro rest
    rw [e0]
    show wsClass.has c0 = false
    cases hb : wsClass.has c0 with
    | false => rfl
    | true =>
      rw [has_iff] at hb hc0
      simp only [wsClass, nameHead, List.mem_cons, List.not_mem_nil, or_false, exists_eq_or_imp, exists_eq_left] at hb hc0
      omega
  have s5 : Lexes (('<' :: (uri ++ ['>'])) ++ t) ((K.IRIREF, '<' :: (uri ++ ['>'])) :: l) := by
    refine Lexes.tok (after := t) ?_ h
    exact longest_before safe_iri (r := rule_IRIREF) iri_mem rfl (iri_matches hu) rfl rfl (fun c _ _ => any_has c)
  have s4 := Lexes.tok (longest_ws (s := [' ']) (C := ('<' :: (uri ++ ['>'])) ++ t) (by intro c hc; simp at hc; subst hc; decide) (by simp)
    (by show wsClass.has '<' = false; decide)) s5
  have s3 := Lexes.tok (longest_label hp) s4
  have s2 := Lexes.tok (longest_ws (s := [' ']) (C := p ++ [':'] ++ ([' '] ++ (('<' :: (uri ++ ['>'])) ++ t)))
    (by intro c hc; simp at hc; subst hc; decide) (by simp) (hns _)) s3
  have s1 := Lexes.tok (longest_before safe_prefix (r := rule_PREFIX) (k := K.PREFIX) (w := ['P', 'R', 'E', 'F', 'I', 'X'])
    (rest := [' '] ++ (p ++ [':'] ++ ([' '] ++ (('<' :: (uri ++ ['>'])) ++ t)))) prefix_mem rfl
    ((run_iff _ _).1 (by decide)) rfl rfl (by intro c y e; cases e; decide)) s2
  have : flat (declTokens p uri) ++ t = ['P', 'R', 'E', 'F', 'I', 'X'] ++ ([' '] ++ (p ++ [':'] ++ ([' '] ++ (('<' :: (uri ++ ['>'])) ++ t)))) := by
    simp [flat, declTokens]
  rw [this]
  exact s1

/-- A line break in front of a text joins its white space. -/
theorem lexes_line {t : Text} {l : List (Kind × Text)} (h : Lexes t l) (hE : ∀ y ∈ l, y.1 ≠ K.Error) :
    ∃ w l', Lexes ('\n' :: t) ((K.WHITESPACE, w) :: l') ∧ sigPairs l' = sigPairs l ∧ (∀ y ∈ l', y ∈ l) := by
  have hf := (lexes_flat h).1
  cases hl : l with
  | nil =>
    subst hl
    have ht : t = [] := by rw [← hf]; rfl
    subst ht
    exact ⟨['\n'], [], Lexes.tok (after := []) (longest_ws (s := ['\n']) (C := []) (by intro c hc; simp at hc; subst hc; decide) (by simp) trivial) h, rfl, by simp⟩
  | cons x l2 =>
    obtain ⟨k, w⟩ := x
    rw [hl] at h
    have hk : k ≠ K.Error := hE (k, w) (by rw [hl]; simp)
    have hlong := lexes_head h hk
    have htl := lexes_tail h
    have ht : t = w ++ flat l2 := by rw [← hf, hl]; rfl
    by_cases hw : k = K.WHITESPACE
    · subst hw
      obtain ⟨h1, h2, h3⟩ := noSpace_after hlong
      refine ⟨'\n' :: w, l2, ?_, ?_, fun y hy => by simp [hy]⟩
      · rw [ht]
        exact Lexes.tok (longest_ws (s := '\n' :: w) (by
          intro c hc
          rcases List.mem_cons.1 hc with rfl | hc
          · decide
          · exact h3 c hc) (by simp) h1) htl
      · simp [sigPairs]
    · refine ⟨['\n'], (k, w) :: l2, ?_, rfl, fun y hy => hy⟩
      refine Lexes.tok (after := t) (longest_ws (s := ['\n']) (by intro c hc; simp at hc; subst hc; decide) (by simp) ?_) h
      rw [ht]
      obtain ⟨r, hr, hrk, after, e, hm, -⟩ := hlong.rule
      cases hwe : w with
      | nil => exact absurd hwe ((lexes_flat h).2 (k, w) (by simp))
      | cons c y =>
        show wsClass.has c = false
        cases hb : wsClass.has c with
        | false => rfl
        | true =>
          exfalso
          rw [hwe] at hm
          have hws := ws_start hr hb hm
          apply hw
          rw [← hrk]
          have hall : lexRules.all (fun r => r.re != rule_WHITESPACE.re || r.kind == K.WHITESPACE) = true := by decide +kernel
          have := List.all_eq_true.1 hall r hr
          simp only [Bool.or_eq_true, bne_iff_ne, beq_iff_eq] at this
          rcases this with h' | h'
          · exact absurd hws h'
          · exact h'

/-! ## C53 -/

/-- **C53.** Accepting "Declare prefix" for a prefix that a valid query uses, with a namespace made of IRI characters: the
declaration becomes the first line and nothing else changes. The result is a valid query with the same significant tokens
behind the declaration; it uses the same prefixes and declares those declared before and the new one. -/
theorem c53_declared (errLen : Text → Nat) (text : Text) (g errs) (hp : parseSource errLen text = some (g, errs))
    (hq : g.kind = K.QueryUnit) (hd : Derives sparqlRules (.node g.kind) (kinds (lex errLen text)))
    (n : Red) (p : Text) (hu : Uses g n p) (find : Text → Option Text) (uri : Text) (hf : find p = some uri)
    (hc : ∀ c ∈ uri, IriChar c) :
    ∃ edit g', declarePrefix find (some p) = some (some edit) ∧
      applyTextEdits text [edit] = some (ensureNL (declText p uri ++ text)) ∧
      (∃ w u v, sigPairs (tokenPairs errLen (declText p uri ++ text)) =
        (K.PREFIX, w) :: (K.PNAME_NS, u) :: (K.IRIREF, v) :: sigPairs (tokenPairs errLen text) ∧
        u = p ++ [':'] ∧ v = '<' :: (uri ++ ['>'])) ∧
      Derives sparqlRules (.node K.QueryUnit) (kinds (lex errLen (declText p uri ++ text))) ∧
      parseSource errLen (declText p uri ++ text) = some (g', []) ∧ g'.kind = K.QueryUnit ∧
      (∀ q, (∃ m, Uses g' m q) ↔ ∃ m, Uses g m q) ∧
      (∀ q, (∃ y, Declares g' y q) ↔ q = p ∨ ∃ y, Declares g y q) := by
  have P := parsed_of hp
  have hC := complete_of hp hd
  have hleaves : g.leaves = tokenPairs errLen text := source_leaves hp
  have hL : Lexes text (tokenPairs errLen text) := c47_longest_match errLen text
  rw [hq] at hd
  have hE : ∀ z ∈ tokenPairs errLen text, z.1 ≠ K.Error := by
    intro z hz hzE
    have hk : K.Error ∈ kinds (lex errLen text) := by
      rw [kinds_sigPairs]
      refine List.mem_map.2 ⟨z, List.mem_filter.2 ⟨hz, ?_⟩, hzE⟩
      rw [hzE]; decide
    exact derives_no_error hd (by simp [symbols]) hk
  -- the name as a token
  have hns : Matches rule_PNAME_NS.re (p ++ [':']) ∧ ':' ∉ p := by
    obtain ⟨X, t, Y, e, hk, rest, ht, hpc⟩ := (uses_pairs P hC).1 ⟨n, hu⟩
    have hm : t ∈ tokenPairs errLen text := by
      have : t ∈ sigPairs g.leaves := by rw [e]; simp
      rw [hleaves] at this
      exact (List.mem_filter.1 this).1
    obtain ⟨r, hr, hrk, hrm⟩ := lexes_rule hL t hm (hE t hm)
    rw [ht] at hrm
    exact ⟨ns_matches hr (by rw [hrk]; rcases hk with h | h; exacts [Or.inl h, Or.inr h.1]) hrm hpc, hpc⟩
  obtain ⟨w, l', hl1, hl2, hl3⟩ := lexes_line hL hE
  have hnew := lexes_decl hns.1 hc hl1
  have htext : declText p uri ++ text = flat (declTokens p uri) ++ '\n' :: text := by simp [declText, flat, declTokens]
  rw [← htext] at hnew
  have hpairs : tokenPairs errLen (declText p uri ++ text) = declTokens p uri ++ (K.WHITESPACE, w) :: l' := by
    refine tokenPairs_of hnew ?_
    intro y hy
    rcases List.mem_append.1 hy with h | h
    · simp only [declTokens, List.mem_cons, List.not_mem_nil, or_false] at h
      rcases h with rfl | rfl | rfl | rfl | rfl <;> (dsimp only; decide)
    · rcases List.mem_cons.1 h with rfl | h
      · dsimp only; decide
      · exact hE y (hl3 y h)
  have hsig : sigPairs (tokenPairs errLen (declText p uri ++ text)) =
      (K.PREFIX, ['P', 'R', 'E', 'F', 'I', 'X']) :: (K.PNAME_NS, p ++ [':']) :: (K.IRIREF, '<' :: (uri ++ ['>'])) :: sigPairs (tokenPairs errLen text) := by
    rw [hpairs, ← hl2]
    simp only [sigPairs, declTokens, List.cons_append, List.nil_append, List.filter_cons]
    rfl
  have hval : Derives sparqlRules (.node K.QueryUnit) (kinds (lex errLen (declText p uri ++ text))) := by
    rw [kinds_sigPairs] at hd ⊢
    rw [hsig]
    exact query_cons hd
  obtain ⟨-, g', hp', hk'⟩ := c44_query _ _ (c47_lossless errLen (declText p uri ++ text)) hval
  have hp' : parseSource errLen (declText p uri ++ text) = some (g', []) := hp'
  have P' := parsed_of hp'
  have hC' := complete_of hp' (by rw [hk']; exact hval)
  have hl' : sigPairs g'.leaves = (K.PREFIX, ['P', 'R', 'E', 'F', 'I', 'X']) :: (K.PNAME_NS, p ++ [':']) :: (K.IRIREF, '<' :: (uri ++ ['>'])) ::
      sigPairs g.leaves := by rw [source_leaves hp', hleaves]; exact hsig
  have hhead : ∃ q B', sigPairs g.leaves = q :: B' ∧ q.1 ∈ [K.BASE, K.PREFIX, K.VERSION, K.SELECT, K.CONSTRUCT, K.DESCRIBE, K.ASK] := by
    have hd2 := hval
    rw [kinds_sigPairs, hsig] at hd2
    obtain ⟨c', e1, -, ⟨k, r, e2, hk⟩, -⟩ := query_cut (a := []) hd2
    simp only [List.map_cons, List.cons.injEq, true_and] at e1
    rw [e2] at e1
    obtain ⟨q, B', e3, e4, -⟩ := List.map_eq_cons_iff.1 e1
    exact ⟨q, B', by rw [hleaves]; exact e3, by rw [e4]; exact hk⟩
  refine ⟨⟨⟨⟨0, 0⟩, ⟨0, 0⟩⟩, declText p uri⟩, g', by simp [declarePrefix, hf], ?_, ⟨_, _, _, hsig, rfl, rfl⟩, hval, hp', hk', ?_, ?_⟩
  · exact apply_one (pre := []) (old := []) (post := text) (new := declText p uri)
  · intro q
    rw [uses_pairs P' hC', uses_pairs P hC, hl']
    exact (uses_cut (A := []) (by intro l q h; simp at h) hhead).symm
  · intro q
    rw [declares_pairs P' hC', declares_pairs P hC, hl']
    constructor
    · rintro ⟨X, w, t, Y, e, ht, hqc⟩
      match X, e with
      | [], e =>
        injection e with _ e
        injection e with e _
        rw [← e] at ht
        exact Or.inl (List.append_cancel_right ht).symm
      | [a], e =>
        injection e with _ e
        injection e with e _
        exact absurd (congrArg Prod.fst e) (by show K.PNAME_NS ≠ K.PREFIX; decide)
      | [a, b], e =>
        injection e with _ e
        injection e with _ e
        injection e with e _
        exact absurd (congrArg Prod.fst e) (by show K.IRIREF ≠ K.PREFIX; decide)
      | a :: b :: c :: X, e =>
        injection e with _ e
        injection e with _ e
        injection e with _ e
        exact Or.inr ⟨X, w, t, Y, e, ht, hqc⟩
    · rintro (rfl | ⟨X, w, t, Y, e, ht, hqc⟩)
      · exact ⟨[], _, _, _, rfl, rfl, hns.2⟩
      · exact ⟨_ :: _ :: _ :: X, w, t, Y, by rw [e]; rfl, ht, hqc⟩

/-- **C53.** Accepting the fix for a reported undeclared prefix: the prefix is not reported any more, and every prefix that
still is was used and undeclared before. -/
theorem c53_fixed (errLen : Text → Nat) (text : Text) (g errs) (hp : parseSource errLen text = some (g, errs))
    (hq : g.kind = K.QueryUnit) (hd : Derives sparqlRules (.node g.kind) (kinds (lex errLen text)))
    (ds : List Diag) (hds : added (undeclaredPrefix text g) = some ds) (d : Diag) (hmem : d ∈ ds)
    (find : Text → Option Text) (hc : ∀ p uri, find p = some uri → ∀ c ∈ uri, IriChar c) (edit : TextEdit)
    (hfix : declarePrefix find d.data = some (some edit)) :
    ∃ newText g' ds', applyTextEdits text [edit] = some (ensureNL newText) ∧ parseSource errLen newText = some (g', []) ∧
      added (undeclaredPrefix newText g') = some ds' ∧ (∀ d' ∈ ds', d'.data ≠ d.data) ∧
      ∀ d' ∈ ds', ∃ p n, d'.data = some p ∧ Uses g n p ∧ ∀ x, ¬ Declares g x p := by
  obtain ⟨ds0, h1, h2, -⟩ := c36_exact errLen text g errs hp hq
  rw [hds] at h1; cases h1
  obtain ⟨n, p, hu, hnd, -, -, -, -, hdata⟩ := (h2 d).1 hmem
  rw [hdata] at hfix
  cases hf : find p with
  | none => simp [declarePrefix, hf] at hfix
  | some uri =>
    obtain ⟨edit', g', h3, h4, -, h5, h6, h7, h8, h9⟩ := c53_declared errLen text g errs hp hq hd n p hu find uri hf (hc p uri hf)
    rw [h3] at hfix
    cases hfix
    obtain ⟨ds', a1, a2, -⟩ := c36_exact errLen _ g' [] h6 h7
    refine ⟨_, g', ds', h4, h6, a1, ?_, ?_⟩
    · intro d' hd' e
      obtain ⟨m, q, hum, hnq, -, -, -, -, hdq⟩ := (a2 d').1 hd'
      rw [e, hdata] at hdq
      cases hdq
      obtain ⟨y, hy⟩ := (h9 p).2 (Or.inl rfl)
      exact hnq y hy
    · intro d' hd'
      obtain ⟨m, q, hum, hnq, -, -, -, -, hdq⟩ := (a2 d').1 hd'
      obtain ⟨n', hn'⟩ := (h8 q).1 ⟨m, hum⟩
      refine ⟨q, n', hdq, hn', fun x hx => ?_⟩
      obtain ⟨y, hy⟩ := (h9 q).2 (Or.inr ⟨x, hx⟩)
      exact hnq y hy

/-! ## Examples -/

theorem pre_derives : Derives sparqlRules (.node preTree.kind) (kinds (lex (fun _ => 1) preText)) :=
  (c42_accept_iff .query _ (by decide +kernel) (by decide +kernel)).mp
    ⟨_, (Option.some_get (x := parseTokens .query (kinds (lex (fun _ => 1) preText))) (by decide +kernel)).symm, by
      have : ((parseTokens .query (kinds (lex (fun _ => 1) preText))).get (by decide +kernel)).all
        (fun e => match e with | .error _ => false | _ => true) = true := by decide +kernel
      intro x hx
      have := List.all_eq_true.mp this _ hx
      simp at this, by decide +kernel⟩

/-- Example: in `PREFIX a: <u>⏎PREFIX b: <v>⏎PREFIX a: <w>⏎SELECT ?x {a:k c:l ?x}` the unused `b:` (line 1) and the second
declaration of `a:` (line 2) are removed with their line breaks; then `a:` means `<u>` instead of `<w>`. A request with a
range that ends before it starts panics. -/
theorem c52_cases : parseSource (fun _ => 1) preText = some (preTree, []) ∧ preTree.kind = K.QueryUnit ∧
    Derives sparqlRules (.node preTree.kind) (kinds (lex (fun _ => 1) preText)) ∧ NoLoneCR preText ∧
    removePrefix preText preTree ⟨⟨1, 0⟩, ⟨1, 13⟩⟩ = some ⟨⟨⟨1, 0⟩, ⟨2, 0⟩⟩, []⟩ ∧
    removePrefix preText preTree ⟨⟨2, 0⟩, ⟨2, 13⟩⟩ = some ⟨⟨⟨2, 0⟩, ⟨3, 0⟩⟩, []⟩ ∧
    removePrefix preText preTree ⟨⟨2, 0⟩, ⟨1, 13⟩⟩ = none := by
  refine ⟨preTree_parse, by decide +kernel, pre_derives, ?_, by decide +kernel, by decide +kernel, by decide +kernel⟩
  intro a b e
  exfalso
  have h1 : '\r' ∉ preText := by decide +kernel
  exact h1 (by rw [e]; simp)

/-- Example: the undeclared `c:` of the same document is declared as `<n/>`; there is no action for an unknown prefix. -/
theorem c53_cases : added (undeclaredPrefix preText preTree) = some [⟨⟨⟨3, 15⟩, ⟨3, 18⟩⟩, .error, .undeclaredPrefix, some ['c']⟩] ∧
    declarePrefix (fun _ => some ['n', '/']) (some ['c']) = some (some ⟨⟨⟨0, 0⟩, ⟨0, 0⟩⟩,
      ['P', 'R', 'E', 'F', 'I', 'X', ' ', 'c', ':', ' ', '<', 'n', '/', '>', '\n']⟩) ∧
    (∀ c ∈ ['n', '/'], IriChar c) ∧ declarePrefix (fun _ => none) (some ['c']) = some none ∧
    declarePrefix (fun _ => none) none = none := by
  refine ⟨by decide +kernel, by decide, ?_, rfl, rfl⟩
  intro c hc
  simp only [List.mem_cons, List.not_mem_nil, or_false] at hc
  rcases hc with rfl | rfl <;> (unfold IriChar; decide)

end Verif.Props
