import Verif.Format.Build
/-!
# What the lexer says about the tokens the formatter rewrites
-/
namespace Verif.Format
open Verif Verif.Grammar Verif.Lexer Verif.Features

/-! ## Regular expressions -/

/-- The least number of characters. -/
def minLen : Regex → Nat
  | .none => 0
  | .eps => 0
  | .cls _ => 1
  | .seq a b => minLen a + minLen b
  | .alt a b => min (minLen a) (minLen b)
  | .star _ => 0

theorem minLen_le {r : Regex} {w : Text} (h : Matches r w) : minLen r ≤ w.length := by
  induction h with
  | eps => simp [minLen]
  | cls _ => simp [minLen]
  | seq _ _ h1 h2 => rw [minLen, List.length_append]; omega
  | altL _ h => rw [minLen]; omega
  | altR _ h => rw [minLen]; omega
  | starNil => simp [minLen]
  | starCons _ _ _ _ => simp [minLen]

/-- The characters a match may begin with. -/
def firsts : Regex → Class
  | .none => []
  | .eps => []
  | .cls cl => cl
  | .seq a b => if a.nullable then firsts a ++ firsts b else firsts a
  | .alt a b => firsts a ++ firsts b
  | .star a => firsts a

theorem has_append {a b : Class} {c : Char} : Class.has (a ++ b) c = (a.has c || b.has c) := by
  unfold Class.has; rw [List.any_append]

theorem firsts_has {r : Regex} {w : Text} (h : Matches r w) : ∀ c v, w = c :: v → (firsts r).has c = true := by
  induction h with
  | eps => intro c v h; cases h
  | cls h => intro c v hw; cases hw; exact h
  | @seq a b u v ha hb h1 h2 =>
    intro c x hw
    rw [firsts]
    cases u with
    | nil =>
      rw [if_pos ((nullable_iff _).2 ha), has_append, h2 c x hw, Bool.or_true]
    | cons d u =>
      rw [List.cons_append] at hw
      cases hw
      split
      · rw [has_append, h1 c u rfl, Bool.true_or]
      · exact h1 c u rfl
  | altL _ h => intro c v hw; rw [firsts, has_append, h c v hw, Bool.true_or]
  | altR _ h => intro c v hw; rw [firsts, has_append, h c v hw, Bool.or_true]
  | starNil => intro c v h; cases h
  | @starCons a u v _ _ h1 h2 =>
    intro c x hw
    cases u with
    | nil => exact h2 c x hw
    | cons d u => rw [List.cons_append] at hw; cases hw; exact h1 c u rfl

theorem seqs_append : ∀ {A B : List Regex} {w : Text}, A ≠ [] → B ≠ [] → Matches (seqs (A ++ B)) w →
    ∃ u v, w = u ++ v ∧ Matches (seqs A) u ∧ Matches (seqs B) v := by
  intro A
  induction A with
  | nil => intro B w h; exact absurd rfl h
  | cons a A ih =>
    intro B w _ hB h
    cases A with
    | nil =>
      cases B with
      | nil => exact absurd rfl hB
      | cons b B => exact matches_seq.1 h
    | cons a' A =>
      obtain ⟨u, v, e, h1, h2⟩ := matches_seq.1 h
      obtain ⟨u', v', e', h3, h4⟩ := ih (by simp) hB h2
      exact ⟨u ++ u', v', by rw [e, e', List.append_assoc], .seq h1 h3, h4⟩

/-- The word a pattern matches in any letter case. -/
def folded : List Regex → Option Text
  | [] => some []
  | .cls [(a, a'), (b, b')] :: rs =>
    if a = a' ∧ b = b' ∧ b < 128 ∧ 65 ≤ a ∧ a ≤ 90 ∧ b = a + 32 then (folded rs).map (Char.ofNat b :: ·) else none
  | _ :: _ => none

/-- An ASCII letter in one of its two cases. -/
theorem letter_cases {a : Nat} {c : Char} (h1 : 65 ≤ a) (h2 : a ≤ 90) (h : Class.has [(a, a), (a + 32, a + 32)] c = true) :
    c.toLower = Char.ofNat (a + 32) ∧ c.toNat < 128 ∧ isSpace c = false := by
  have hc : c.toNat = a ∨ c.toNat = a + 32 := by
    simp only [Class.has, List.any_cons, List.any_nil, Bool.or_false, Bool.or_eq_true, Bool.and_eq_true, Nat.ble_eq] at h
    omega
  have key : ∀ n, n < 26 → (Char.ofNat (n + 65)).toLower = Char.ofNat (n + 97) ∧ (Char.ofNat (n + 97)).toLower = Char.ofNat (n + 97) ∧
      isSpace (Char.ofNat (n + 65)) = false ∧ isSpace (Char.ofNat (n + 97)) = false := by decide
  obtain ⟨n, rfl⟩ : ∃ n, a = n + 65 := ⟨a - 65, by omega⟩
  have hk := key n (by omega)
  rcases hc with hc | hc
  · have : c = Char.ofNat (n + 65) := by rw [← hc, Char.ofNat_toNat]
    exact ⟨by rw [this]; exact hk.1, by omega, by rw [this]; exact hk.2.2.1⟩
  · have : c = Char.ofNat (n + 97) := by rw [show n + 97 = n + 65 + 32 from rfl, ← hc, Char.ofNat_toNat]
    exact ⟨by rw [this]; exact hk.2.1, by omega, by rw [this]; exact hk.2.2.2⟩

theorem ascii_u8 {c : Char} (h : c.toNat < 128) : u8 c = 1 := by
  unfold u8
  have h3 : c.val.toNat = c.toNat := rfl
  have : c.val ≤ 0x7f := by
    rw [UInt32.le_iff_toNat_le, h3]
    have : (0x7f : UInt32).toNat = 127 := rfl
    omega
  unfold Char.utf8Size
  exact if_pos this

/-- The letters of a word. -/
def Letters (w : Text) : Prop := ∀ c ∈ w, c.toNat < 128 ∧ isSpace c = false

theorem letters_blen {w : Text} (h : Letters w) : blen w = w.length := by
  induction w with
  | nil => rfl
  | cons c w ih =>
    have := ih (fun d hd => h d (List.mem_cons_of_mem _ hd))
    have h2 := ascii_u8 (h c List.mem_cons_self).1
    simp only [blen, List.length_cons]
    omega

theorem folded_word : ∀ {rs : List Regex} {x w : Text}, folded rs = some x → Matches (seqs rs) w →
    w.map Char.toLower = x ∧ Letters w := by
  intro rs
  induction rs with
  | nil =>
    intro x w h hm
    cases h
    have := matches_eps.1 hm
    subst this
    exact ⟨rfl, by intro c hc; cases hc⟩
  | cons r rs ih =>
    intro x w h hm
    unfold folded at h
    split at h
    · rename_i heq; cases heq
    · rename_i a a' b b' rs' heq
      injection heq with e1 e2
      subst e1 e2
      split at h
      · rename_i hc
        obtain ⟨rfl, rfl, hb, ha1, ha2, rfl⟩ := hc
        obtain ⟨y, hy, rfl⟩ := Option.map_eq_some_iff.1 h
        have hw : ∃ u v, w = u ++ v ∧ Matches (.cls [(a, a), (a + 32, a + 32)]) u ∧ Matches (seqs rs) v := by
          cases rs with
          | nil => exact ⟨w, [], by simp, hm, .eps⟩
          | cons q qs => exact matches_seq.1 hm
        obtain ⟨u, v, rfl, h1, h2⟩ := hw
        obtain ⟨c, rfl, hc⟩ := matches_cls.1 h1
        have hl := letter_cases ha1 ha2 hc
        have hi := ih hy h2
        refine ⟨by simp [hl.1, hi.1], ?_⟩
        intro d hd
        rcases List.mem_cons.1 hd with rfl | hd
        · exact hl.2
        · exact hi.2 d hd
      · cases h
    · cases h

/-! ## The rules of some kinds -/

/-- A leaf of a kind with only one rule. -/
theorem lexed_rule {p : Kind × Text} {R : LexRule} (h : ∃ r ∈ lexRules, r.kind = p.1 ∧ Matches r.re p.2)
    (hk : p.1 = R.kind) (hR : lexRules.all (fun r => r.kind != R.kind || r.re == R.re) = true) : Matches R.re p.2 := by
  obtain ⟨r, hr, h1, h2⟩ := h
  have := List.all_eq_true.1 hR r hr
  simp only [Bool.or_eq_true, bne_iff_ne, beq_iff_eq] at this
  rcases this with this | this
  · exact absurd (h1.trans hk) this
  · rw [← this]; exact h2

/-- A test all rules of some kinds pass. -/
theorem lexed_all {p : Kind × Text} {ks : List Kind} {q : Regex → Bool}
    (h : ∃ r ∈ lexRules, r.kind = p.1 ∧ Matches r.re p.2) (hk : p.1 ∈ ks)
    (hR : lexRules.all (fun r => !ks.contains r.kind || q r.re) = true) : ∃ re, q re = true ∧ Matches re p.2 := by
  obtain ⟨r, hr, h1, h2⟩ := h
  have := List.all_eq_true.1 hR r hr
  simp only [Bool.or_eq_true, Bool.not_eq_true', List.contains_eq_mem, decide_eq_false_iff_not] at this
  rcases this with this | this
  · exact absurd (h1 ▸ hk) this
  · exact ⟨r.re, this, h2⟩

/-- The ranges of a class are ASCII and contain no white space. -/
def plainClass (cl : Class) : Bool := cl.all (fun p => decide (0x21 ≤ p.1) && decide (p.2 ≤ 0x7e))

theorem plain_has {cl : Class} {c : Char} (h : plainClass cl = true) (hc : cl.has c = true) : c.toNat < 128 ∧ isSpace c = false := by
  unfold Class.has at hc
  obtain ⟨p, hp, h1⟩ := List.any_eq_true.1 hc
  have := List.all_eq_true.1 h p hp
  simp only [Bool.and_eq_true, decide_eq_true_eq, Nat.ble_eq] at this h1
  refine ⟨by omega, ?_⟩
  cases hs : isSpace c with
  | false => rfl
  | true =>
    unfold isSpace at hs
    simp only [Lexer.space, Class.has, List.any_cons, List.any_nil, Bool.or_false, Bool.or_eq_true, Bool.and_eq_true,
      Nat.ble_eq] at hs
    omega

abbrev HasRule (p : Kind × Text) : Prop := ∃ r ∈ lexRules, r.kind = p.1 ∧ Matches r.re p.2

/-- Keywords begin with an ASCII letter. -/
theorem keyword_first {p : Kind × Text} (h : HasRule p) (hk : p.1 ∈ keywords) :
    ∃ c cs, p.2 = c :: cs ∧ c.toNat < 128 ∧ isSpace c = false := by
  obtain ⟨re, h1, h2⟩ := lexed_all (q := fun re => decide (1 ≤ minLen re) && plainClass (firsts re)) h hk (by decide +kernel)
  simp only [Bool.and_eq_true, decide_eq_true_eq] at h1
  have := minLen_le h2
  cases hp : p.2 with
  | nil => rw [hp] at this; simp at this; omega
  | cons c cs => exact ⟨c, cs, rfl, plain_has h1.2 (firsts_has h2 c cs hp)⟩

/-- Signed numbers: a sign and something behind it. -/
theorem signed_text {p : Kind × Text} (h : HasRule p) (hk : p.1 ∈ signed) :
    ∃ c d cs, p.2 = c :: d :: cs ∧ c.toNat < 128 := by
  obtain ⟨re, h1, h2⟩ := lexed_all (q := fun re => decide (2 ≤ minLen re) && plainClass (firsts re)) h hk (by decide +kernel)
  simp only [Bool.and_eq_true, decide_eq_true_eq] at h1
  have := minLen_le h2
  match hp : p.2 with
  | [] => rw [hp] at this; simp at this; omega
  | [c] => rw [hp] at this; simp at this; omega
  | c :: d :: cs => exact ⟨c, d, cs, rfl, (plain_has h1.2 (firsts_has h2 c _ hp)).1⟩

theorem comment_text {p : Kind × Text} (h : HasRule p) (hk : p.1 = K.Comment) : ∃ t, p.2 = '#' :: t := by
  have := lexed_rule (R := rule_Comment) h hk (by decide +kernel)
  obtain ⟨u, v, e, h1, -⟩ := matches_seq.1 this
  obtain ⟨c, rfl, hc⟩ := matches_cls.1 h1
  refine ⟨v, ?_⟩
  rw [e]
  have : c = '#' := by
    simp only [Class.has, List.any_cons, List.any_nil, Bool.or_false, Bool.and_eq_true, Nat.ble_eq] at hc
    have : c.toNat = 0x23 := by omega
    rw [← Char.ofNat_toNat c, this]
  rw [this]; rfl

theorem white_text {p : Kind × Text} (h : HasRule p) (hk : p.1 = K.WHITESPACE) : Spaces p.2 :=
  (ws_matches.1 (lexed_rule (R := rule_WHITESPACE) h hk (by decide +kernel))).2

theorem comma_text {p : Kind × Text} (h : HasRule p) (hk : p.1 = K.Comma) : p.2 = [','] := by
  have := lexed_rule (R := rule_Comma) h hk (by decide +kernel)
  obtain ⟨c, e, hc⟩ := matches_cls.1 this
  have : c = ',' := by
    simp only [Class.has, List.any_cons, List.any_nil, Bool.or_false, Bool.and_eq_true, Nat.ble_eq] at hc
    have : c.toNat = 0x2C := by omega
    rw [← Char.ofNat_toNat c, this]
  rw [e, this]

theorem a_text {p : Kind × Text} (h : HasRule p) (hk : p.1 = K.a) : p.2 = ['a'] := by
  have := lexed_rule (R := rule_a) h hk (by decide +kernel)
  obtain ⟨c, e, hc⟩ := matches_cls.1 this
  have : c = 'a' := by
    simp only [Class.has, List.any_cons, List.any_nil, Bool.or_false, Bool.and_eq_true, Nat.ble_eq] at hc
    have : c.toNat = 0x61 := by omega
    rw [← Char.ofNat_toNat c, this]
  rw [e, this]

theorem in_text {p : Kind × Text} (h : HasRule p) (hk : p.1 = K.IN) : p.2.map Char.toLower = ['i', 'n'] :=
  (folded_word (rs := [.cls [(0x49, 0x49), (0x69, 0x69)], .cls [(0x4E, 0x4E), (0x6E, 0x6E)]]) (by decide)
    (lexed_rule (R := rule_IN) h hk (by decide +kernel))).1

def deleteRes : List Regex := [.cls [(0x44, 0x44), (0x64, 0x64)], .cls [(0x45, 0x45), (0x65, 0x65)], .cls [(0x4C, 0x4C), (0x6C, 0x6C)], .cls [(0x45, 0x45), (0x65, 0x65)], .cls [(0x54, 0x54), (0x74, 0x74)], .cls [(0x45, 0x45), (0x65, 0x65)]]
def insertRes : List Regex := [.cls [(0x49, 0x49), (0x69, 0x69)], .cls [(0x4E, 0x4E), (0x6E, 0x6E)], .cls [(0x53, 0x53), (0x73, 0x73)], .cls [(0x45, 0x45), (0x65, 0x65)], .cls [(0x52, 0x52), (0x72, 0x72)], .cls [(0x54, 0x54), (0x74, 0x74)]]
def dataRes : List Regex := [.cls [(0x44, 0x44), (0x64, 0x64)], .cls [(0x41, 0x41), (0x61, 0x61)], .cls [(0x54, 0x54), (0x74, 0x74)], .cls [(0x41, 0x41), (0x61, 0x61)]]
def whereRes : List Regex := [.cls [(0x57, 0x57), (0x77, 0x77)], .cls [(0x48, 0x48), (0x68, 0x68)], .cls [(0x45, 0x45), (0x65, 0x65)], .cls [(0x52, 0x52), (0x72, 0x72)], .cls [(0x45, 0x45), (0x65, 0x65)]]

theorem delete_text {p : Kind × Text} (h : HasRule p) (hk : p.1 = K.DELETE) :
    p.2.map Char.toLower = ['d', 'e', 'l', 'e', 't', 'e'] ∧ Letters p.2 :=
  folded_word (rs := deleteRes) (by decide) (lexed_rule (R := rule_DELETE) h hk (by decide +kernel))

/-- Two words with white space between them. -/
structure TwoWords (t : Text) (first second : Text) : Prop where
  split : ∃ a m b, t = a ++ (m ++ b) ∧ m ≠ [] ∧ a.map Char.toLower = first ∧ b.map Char.toLower = second ∧ Letters a ∧ Letters b

theorem two_words {A B : List Regex} {m : Regex} {x y t : Text} (hA : A ≠ []) (hB : B ≠ []) (hx : folded A = some x)
    (hy : folded B = some y) (hm : 1 ≤ minLen m) (h : Matches (seqs (A ++ (m :: B))) t) : TwoWords t x y := by
  obtain ⟨a, v, e, h1, h2⟩ := seqs_append hA (by simp) h
  have h2 : Matches (seqs ([m] ++ B)) v := h2
  obtain ⟨u, b, e2, h3, h4⟩ := seqs_append (by simp) hB h2
  have h3 : Matches m u := h3
  have hl := minLen_le h3
  have ha := folded_word hx h1
  have hb := folded_word hy h4
  refine ⟨a, u, b, by rw [e, e2], ?_, ha.1, hb.1, ha.2, hb.2⟩
  intro hu
  rw [hu] at hl
  simp at hl; omega

theorem deleteWhere_text {p : Kind × Text} (h : HasRule p) (hk : p.1 = K.DELETE_WHERE) :
    TwoWords p.2 ['d', 'e', 'l', 'e', 't', 'e'] ['w', 'h', 'e', 'r', 'e'] :=
  two_words (A := deleteRes) (B := whereRes) (m := plus (.cls space)) (by decide) (by decide) (by decide) (by decide) (by decide)
    (lexed_rule (R := rule_DELETE_WHERE) h hk (by decide +kernel))

theorem deleteData_text {p : Kind × Text} (h : HasRule p) (hk : p.1 = K.DELETE_DATA) :
    TwoWords p.2 ['d', 'e', 'l', 'e', 't', 'e'] ['d', 'a', 't', 'a'] :=
  two_words (A := deleteRes) (B := dataRes) (m := plus (.cls space)) (by decide) (by decide) (by decide) (by decide) (by decide)
    (lexed_rule (R := rule_DELETE_DATA) h hk (by decide +kernel))

theorem insertData_text {p : Kind × Text} (h : HasRule p) (hk : p.1 = K.INSERT_DATA) :
    TwoWords p.2 ['i', 'n', 's', 'e', 'r', 't'] ['d', 'a', 't', 'a'] :=
  two_words (A := insertRes) (B := dataRes) (m := .cls [(0x20, 0x20)]) (by decide) (by decide) (by decide) (by decide) (by decide)
    (lexed_rule (R := rule_INSERT_DATA) h hk (by decide +kernel))

/-! ## Pieces -/

/-- The three pieces of a token of two words. -/
theorem pieces_two {k : Kind} {n : Nat} {t x y : Text} (hn : secondWord k = some n) (hx : x.length = 6) (hy : y.length = n)
    (h : TwoWords t x y) : ∃ a m b, t = a ++ (m ++ b) ∧ m ≠ [] ∧ a.map Char.toLower = x ∧ b.map Char.toLower = y ∧ Letters a ∧
      Letters b ∧ pieces σ (k, t) = [(k, a), (K.WHITESPACE, m), (k, b)] ∧ blen a = 6 ∧ blen b = n := by
  obtain ⟨a, m, b, e, h1, h2, h3, h4, h5⟩ := h.split
  have la : a.length = 6 := by rw [← hx, ← h2, List.length_map]
  have lb : b.length = n := by rw [← hy, ← h3, List.length_map]
  refine ⟨a, m, b, e, h1, h2, h3, h4, h5, ?_, by rw [letters_blen h4, la], by rw [letters_blen h5, lb]⟩
  unfold pieces
  simp only [hn]
  have e1 : t.take 6 = a := by rw [e, ← la, List.take_left']; rfl
  have hl : t.length - n = (a ++ m).length := by rw [e]; simp; omega
  have e2 : t.take (t.length - n) = a ++ m := by
    rw [hl, e, ← List.append_assoc, List.take_left']; rfl
  have e3 : t.drop (t.length - n) = b := by
    rw [hl, e, ← List.append_assoc, List.drop_left']; rfl
  rw [e1, e2, e3, ← la, List.drop_left']
  rfl

theorem secondWord_cases {k : Kind} {n : Nat} (h : secondWord k = some n) :
    (k = K.DELETE_WHERE ∧ n = 5) ∨ (k = K.DELETE_DATA ∧ n = 4) ∨ (k = K.INSERT_DATA ∧ n = 4) := by
  unfold secondWord at h
  split at h
  · next hk => cases h; exact .inl ⟨hk, rfl⟩
  · split at h
    · next hk => cases h; rcases hk with hk | hk <;> simp [hk]
    · cases h

/-- The texts of tokens of two words. -/
theorem second_text {p : Kind × Text} (h : HasRule p) {n : Nat} (hn : secondWord p.1 = some n) :
    ∃ x y, x.length = 6 ∧ y.length = n ∧ TwoWords p.2 x y := by
  rcases secondWord_cases hn with ⟨hk, rfl⟩ | ⟨hk, rfl⟩ | ⟨hk, rfl⟩
  · exact ⟨_, _, rfl, rfl, deleteWhere_text h hk⟩
  · exact ⟨_, _, rfl, rfl, deleteData_text h hk⟩
  · exact ⟨_, _, rfl, rfl, insertData_text h hk⟩

/-- What is used about the pieces of a token. -/
structure PieceFacts (p : Kind × Text) (l : Pieces) : Prop where
  flat : flat l = p.2
  nonempty : l ≠ [] ∧ ∀ x ∈ l, x.2 ≠ []
  first : ∀ x, l.head? = some x → x.1 = p.1
  last : ∀ x, l.getLast? = some x → x.1 = p.1
  comment : ∀ x ∈ l, x.1 = K.Comment → l = [p] ∧ x = p

theorem pieces_one {p : Kind × Text} (h1 : secondWord p.1 = none) (h2 : p.1 ∉ signed) : pieces σ p = [p] := by
  unfold pieces
  rw [h1]
  exact if_neg (fun h => h2 h.2)

theorem pieces_whole {p : Kind × Text} (h1 : secondWord p.1 = none) : pieces false p = [p] := by
  unfold pieces
  rw [h1]
  exact if_neg (fun h => nomatch h.1)

theorem pieces_signed {p : Kind × Text} (h : HasRule p) (hk : p.1 ∈ signed) :
    ∃ c d cs, p.2 = c :: d :: cs ∧ c.toNat < 128 ∧ pieces true p = [(p.1, [c]), (p.1, d :: cs)] := by
  obtain ⟨c, d, cs, e, hc⟩ := signed_text h hk
  refine ⟨c, d, cs, e, hc, ?_⟩
  have hn : secondWord p.1 = none := by
    have : ∀ k ∈ signed, secondWord k = none := by decide
    exact this _ hk
  unfold pieces
  rw [hn]
  simp only [true_and, if_pos hk, e]
  rfl

theorem pieces_facts {p : Kind × Text} (h : p.1 ≠ K.Error → HasRule p) (hne : p.2 ≠ []) : PieceFacts p (pieces σ p) := by
  cases hn : secondWord p.1 with
  | some n =>
    have hE : p.1 ≠ K.Error := by
      intro hE; rw [hE] at hn; exact absurd hn (by rw [show secondWord K.Error = none from by decide]; simp)
    obtain ⟨x, y, hx, hy, ht⟩ := second_text (h hE) hn
    obtain ⟨k, t⟩ := p
    obtain ⟨a, m, b, e, hm, h2, h3, -, -, hp, ha, hb⟩ := pieces_two hn hx hy ht
    have hnpos : 0 < n := by rcases secondWord_cases hn with h | h | h <;> omega
    have hcom : k ≠ K.Comment := by
      intro hc; rw [hc] at hn; exact absurd hn (by rw [show secondWord K.Comment = none from by decide]; simp)
    rw [hp]
    refine ⟨?_, ⟨by simp, ?_⟩, ?_, ?_, ?_⟩
    · rw [e]; simp [Lexer.flat]
    · intro z hz
      simp only [List.mem_cons, List.not_mem_nil, or_false] at hz
      rcases hz with rfl | rfl | rfl
      · intro h0; simp only at h0; rw [h0] at ha; simp [blen] at ha
      · exact hm
      · intro h0; simp only at h0; rw [h0] at hb; simp [blen] at hb; omega
    · intro z hz; simp at hz; rw [← hz]
    · intro z hz; simp at hz; rw [← hz]
    · intro z hz hzc
      simp only [List.mem_cons, List.not_mem_nil, or_false] at hz
      rcases hz with rfl | rfl | rfl
      · exact absurd hzc hcom
      · exact absurd hzc (show K.WHITESPACE ≠ K.Comment from by decide)
      · exact absurd hzc hcom
  | none =>
    by_cases hs : σ = true ∧ p.1 ∈ signed
    · have hE : p.1 ≠ K.Error := by
        intro hE; rw [hE] at hs; exact absurd hs.2 (by decide)
      obtain ⟨c, d, cs, e, -, hp⟩ := pieces_signed (h hE) hs.2
      have hcom : p.1 ≠ K.Comment := by
        intro hc; rw [hc] at hs; exact absurd hs.2 (by decide)
      rw [hs.1, hp]
      refine ⟨by rw [e]; simp [Lexer.flat], ⟨by simp, ?_⟩, ?_, ?_, ?_⟩
      · intro z hz
        simp only [List.mem_cons, List.not_mem_nil, or_false] at hz
        rcases hz with rfl | rfl <;> simp
      · intro z hz; simp at hz; rw [← hz]
      · intro z hz; simp at hz; rw [← hz]
      · intro z hz hzc
        simp only [List.mem_cons, List.not_mem_nil, or_false] at hz
        rcases hz with rfl | rfl <;> exact absurd hzc hcom
    · have hone : pieces σ p = [p] := by unfold pieces; rw [hn]; exact if_neg hs
      rw [hone]
      refine ⟨by simp [Lexer.flat], ⟨by simp, ?_⟩, ?_, ?_, ?_⟩
      · intro z hz; simp at hz; rw [hz]; exact hne
      · intro z hz; simp at hz; rw [← hz]
      · intro z hz; simp at hz; rw [← hz]
      · intro z hz _; simp at hz; exact ⟨rfl, hz⟩

end Verif.Format
