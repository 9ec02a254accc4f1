import Verif.Format.Safe
/-!
# Reading a layout

A layout whose tokens are separated where they have to be is read as these tokens again.
-/
namespace Verif.Format
open Verif Verif.Grammar Verif.Lexer Verif.Features Verif.Props

theorem chunk {α : Type} {l : List α} {x : α} {i : Nat} (h : x ∈ l.drop i) : x ∈ (l.drop i).take 10 ∨ x ∈ l.drop (i + 10) := by
  rw [← List.take_append_drop 10 (l.drop i), List.drop_drop] at h
  exact List.mem_append.1 h

theorem safe_all {r : LexRule} (hr : r ∈ lexRules) : safeRow r = true := by
  have key : ∀ i, safeRows i 10 = true → r ∈ (lexRules.drop i).take 10 → safeRow r = true := fun i h hm => List.all_eq_true.1 h r hm
  have h : r ∈ lexRules.drop 0 := hr
  rcases chunk h with h | h
  · exact key _ safe0 h
  rcases chunk h with h | h
  · exact key _ safe10 h
  rcases chunk h with h | h
  · exact key _ safe20 h
  rcases chunk h with h | h
  · exact key _ safe30 h
  rcases chunk h with h | h
  · exact key _ safe40 h
  rcases chunk h with h | h
  · exact key _ safe50 h
  rcases chunk h with h | h
  · exact key _ safe60 h
  rcases chunk h with h | h
  · exact key _ safe70 h
  rcases chunk h with h | h
  · exact key _ safe80 h
  rcases chunk h with h | h
  · exact key _ safe90 h
  rcases chunk h with h | h
  · exact key _ safe100 h
  rcases chunk h with h | h
  · exact key _ safe110 h
  rcases chunk h with h | h
  · exact key _ safe120 h
  rcases chunk h with h | h
  · exact key _ safe130 h
  rcases chunk h with h | h
  · exact key _ safe140 h
  rcases chunk h with h | h
  · exact key _ safe150 h
  rcases chunk h with h | h
  · exact key _ safe160 h
  rcases chunk h with h | h
  · exact key _ safe170 h
  rcases chunk h with h | h
  · exact key _ safe180 h
  rw [List.drop_eq_nil_of_le (by rw [lexRules_length]; omega)] at h
  cases h

theorem sub_has {a b : Class} (h : subClass a b = true) {c : Char} (hc : a.has c = true) : b.has c = true := by
  obtain ⟨p, hp, h1, h2⟩ := has_iff.1 hc
  obtain ⟨q, hq, h3⟩ := List.any_eq_true.1 (List.all_eq_true.1 h p hp)
  simp only [Bool.and_eq_true, Nat.ble_eq] at h3
  exact has_iff.2 ⟨q, hq, by omega, by omega⟩

theorem within_has {cl : Class} {r : Regex} {w : Text} (hm : Matches r w) (h : within cl r = true) : ∀ c ∈ w, cl.has c = true := by
  induction hm with
  | eps => intro c hc; cases hc
  | cls hc => intro c hc'; rw [List.mem_singleton.1 hc']; exact sub_has h hc
  | seq _ _ h1 h2 =>
    simp only [within, Bool.and_eq_true] at h
    intro c hc
    rcases List.mem_append.1 hc with hc | hc
    · exact h1 h.1 c hc
    · exact h2 h.2 c hc
  | altL _ h1 => simp only [within, Bool.and_eq_true] at h; exact h1 h.1
  | altR _ h1 => simp only [within, Bool.and_eq_true] at h; exact h1 h.2
  | starNil => intro c hc; cases hc
  | starCons _ _ h1 h2 =>
    intro c hc
    rcases List.mem_append.1 hc with hc | hc
    · exact h1 h c hc
    · exact h2 h c hc

theorem rule_cons {r : LexRule} (hr : r ∈ lexRules) {w : Text} (hm : Matches r.re w) : ∃ c v, w = c :: v := by
  cases w with
  | nil =>
    have := List.all_eq_true.1 rules_not_nullable r hr
    rw [(nullable_iff r.re).2 hm] at this
    cases this
  | cons c v => exact ⟨c, v, rfl⟩

/-- **No rule extends a token by a safe character.** -/
theorem safe_sound {r : LexRule} (hr : r ∈ lexRules) {w : Text} (hm : Matches r.re w) {c : Char} (hc : (safeOf r.kind).has c = true)
    {r' : LexRule} (hr' : r' ∈ lexRules) (z : Text) : ¬ Matches r'.re (w ++ c :: z) := by
  have h := safe_all hr
  unfold safeRow at h
  simp only [Bool.and_eq_true] at h
  have h := h.1
  have hq : Matches (seqs [r.re, .cls (safeOf r.kind), anyText]) (w ++ c :: z) :=
    matches_seq.2 ⟨w, c :: z, rfl, hm, matches_cons hc (anyText_matches z)⟩
  obtain ⟨d, v, rfl⟩ := rule_cons hr hm
  have coarse : ∀ (hd cl s : Class) (ks : List Kind), noRule (seqs [.cls hd, .star (.cls cl), .cls s, anyText]) ks = true →
      subClass (firsts r.re) hd = true → within cl r.re = true → s.has c = true → r'.kind ∉ ks → ¬ Matches r'.re (d :: v ++ c :: z) := by
    intro hd cl s ks h0 h1 h2 h3 h4
    refine noRule_sound h0 hr' h4 ?_
    exact matches_cons (sub_has h1 (firsts_has hm d v rfl)) (matches_seq.2 ⟨v, c :: z, rfl,
      matches_star_cls.2 (fun x hx => within_has hm h2 x (List.mem_cons_of_mem _ hx)), matches_cons h3 (anyText_matches z)⟩)
  split at h
  · rename_i hw
    simp only [Bool.and_eq_true] at h
    by_cases ho : r'.kind ∈ oddKinds
    · have := List.all_eq_true.1 h.2 r' hr'
      rw [List.contains_iff_mem.2 ho] at this
      exact apart_disjoint (by simpa using this) _ hq
    · exact coarse _ _ _ _ safe_names h.1.2 h.1.1 (by rw [← hw.1]; exact hc) ho
  · split at h
    · rename_i hn
      simp only [Bool.and_eq_true] at h
      have hs : safeOf r.kind = safeOf K.INTEGER := by
        have : ∀ k ∈ numberKinds, safeOf k = safeOf K.INTEGER := by decide
        exact this _ hn
      exact coarse _ _ _ _ safe_numbers h.2 h.1 (by rw [← hs]; exact hc) (by simp)
    · exact apart_disjoint (List.all_eq_true.1 h r' hr') _ hq

/-- A token followed by nothing or by a safe character. -/
theorem longest_at {r : LexRule} (hr : r ∈ lexRules) {w rest : Text} (hm : Matches r.re w)
    (hc : ∀ c y, rest = c :: y → (safeOf r.kind).has c = true) : Longest (w ++ rest) r.kind w := by
  refine ⟨⟨r, hr, rfl, rest, rfl, hm, fun hb => ?_⟩, ?_⟩
  · have h := safe_all hr
    unfold safeRow at h
    simp only [Bool.and_eq_true, hb, Bool.not_true, Bool.false_or, beq_iff_eq] at h
    cases rest with
    | nil => rfl
    | cons c y =>
      have := hc c y rfl
      rw [h.2] at this
      obtain ⟨p, hp, h1, h2⟩ := has_iff.1 this
      show (!wordChar.has c) = true
      rw [Bool.not_eq_true']
      cases hw : wordChar.has c with
      | false => rfl
      | true =>
        exfalso
        obtain ⟨q, hq, h3, h4⟩ := has_iff.1 hw
        simp only [wordSafe, wordChar, List.mem_cons, List.not_mem_nil, or_false] at hp hq
        rcases hp with rfl | rfl | rfl | rfl | rfl | rfl | rfl | rfl <;> rcases hq with rfl | rfl | rfl | rfl <;> simp only at h1 h2 h3 h4 <;> omega
  · rintro r' hr' w' ⟨after, e, hm', -⟩
    rcases List.append_eq_append_iff.1 e with ⟨a, e1, e2⟩ | ⟨a, e1, e2⟩
    · cases a with
      | nil => rw [e1]; simp
      | cons c a =>
        exfalso
        rw [e1] at hm'
        exact safe_sound hr hm (hc c (a ++ after) e2) hr' a hm'
    · have := congrArg List.length e1
      simp only [List.length_append] at this
      omega

/-! ## Letter case -/

/-- A class that does not distinguish upper and lower case. -/
def foldClass (cl : Class) : Bool :=
  cl.all (fun p => Nat.blt p.2 65 || Nat.blt 122 p.1 || (Nat.blt 90 p.1 && Nat.blt p.2 97)) ||
    (match cl with
     | [(a, a'), (b, b')] => a == a' && b == b' && b == a + 32 && Nat.ble 65 a && Nat.ble a 90
     | _ => false)

def foldRegex : Regex → Bool
  | .none => true
  | .eps => true
  | .cls cl => foldClass cl
  | .seq a b => foldRegex a && foldRegex b
  | .alt a b => foldRegex a && foldRegex b
  | .star a => foldRegex a

/-- Two characters that differ in case only are equal or letters. -/
theorem toLower_eq {c d : Char} (h : c.toLower = d.toLower) :
    c = d ∨ ∃ a, 65 ≤ a ∧ a ≤ 90 ∧ (c.toNat = a ∨ c.toNat = a + 32) ∧ (d.toNat = a ∨ d.toNat = a + 32) := by
  have low : ∀ e : Char, (65 ≤ e.toNat ∧ e.toNat ≤ 90 ∧ e.toLower.toNat = e.toNat + 32) ∨ (¬ (65 ≤ e.toNat ∧ e.toNat ≤ 90) ∧ e.toLower = e) := by
    intro e
    by_cases he : 65 ≤ e.toNat ∧ e.toNat ≤ 90
    · refine Or.inl ⟨he.1, he.2, ?_⟩
      have key : ∀ n, n < 26 → (Char.ofNat (n + 65)).toLower.toNat = n + 65 + 32 := by decide
      have h1 := key (e.toNat - 65) (by omega)
      have h2 : e.toNat - 65 + 65 = e.toNat := by omega
      rw [h2, Char.ofNat_toNat] at h1
      exact h1
    · refine Or.inr ⟨he, ?_⟩
      unfold Char.toLower
      rw [dif_neg]
      intro h
      apply he
      have h1 : (65 : UInt32) ≤ e.val := h.1
      have h2 : e.val ≤ 90 := h.2
      rw [UInt32.le_iff_toNat_le] at h1 h2
      exact ⟨h1, h2⟩
  rcases low c with ⟨h1, h2, h3⟩ | ⟨h1, h2⟩ <;> rcases low d with ⟨h4, h5, h6⟩ | ⟨h4, h5⟩
  · left
    rw [h] at h3
    have : c.toNat = d.toNat := by omega
    rw [← Char.ofNat_toNat c, this, Char.ofNat_toNat]
  · right
    rw [h, h5] at h3
    exact ⟨c.toNat, h1, h2, Or.inl rfl, Or.inr h3⟩
  · right
    rw [← h, h2] at h6
    exact ⟨d.toNat, h4, h5, Or.inr h6, Or.inl rfl⟩
  · left; rw [h2, h5] at h; exact h

theorem fold_has {cl : Class} (hf : foldClass cl = true) {c d : Char} (h : c.toLower = d.toLower) (hc : cl.has c = true) : cl.has d = true := by
  rcases toLower_eq h with rfl | ⟨a, h1, h2, h3, h4⟩
  · exact hc
  obtain ⟨p, hp, h5, h6⟩ := has_iff.1 hc
  unfold foldClass at hf
  rw [Bool.or_eq_true] at hf
  rcases hf with hf | hf
  · exfalso
    have := List.all_eq_true.1 hf p hp
    simp only [Bool.or_eq_true, Bool.and_eq_true, Nat.blt_eq] at this
    omega
  · split at hf
    · rename_i x x' y y'
      simp only [Bool.and_eq_true, beq_iff_eq, Nat.ble_eq] at hf
      obtain ⟨⟨⟨⟨rfl, rfl⟩, rfl⟩, h7⟩, h8⟩ := hf
      simp only [List.mem_cons, List.not_mem_nil, or_false] at hp
      have ha : a = x := by rcases hp with rfl | rfl <;> simp only at h5 h6 <;> omega
      subst ha
      rcases h4 with h4 | h4
      · exact has_iff.2 ⟨(a, a), by simp, by simp only; omega, by simp only; omega⟩
      · exact has_iff.2 ⟨(a + 32, a + 32), by simp, by simp only; omega, by simp only; omega⟩
    · cases hf

theorem fold_matches {r : Regex} {w : Text} (hm : Matches r w) : ∀ {v : Text}, foldRegex r = true → v.map Char.toLower = w.map Char.toLower →
    Matches r v := by
  induction hm with
  | eps => intro v _ h; simp only [List.map_nil, List.map_eq_nil_iff] at h; rw [h]; exact .eps
  | @cls cl c hc =>
    intro v hf h
    simp only [List.map_cons, List.map_nil] at h
    obtain ⟨d, y, rfl, e1, e2⟩ := List.map_eq_cons_iff.1 h
    rw [List.map_eq_nil_iff] at e2
    subst e2
    exact .cls (fold_has hf e1.symm hc)
  | @seq a b u1 u2 _ _ h1 h2 =>
    intro v hf h
    simp only [foldRegex, Bool.and_eq_true] at hf
    rw [List.map_append] at h
    obtain ⟨v1, v2, rfl, e1, e2⟩ := List.map_eq_append_iff.1 h
    exact .seq (h1 hf.1 e1) (h2 hf.2 e2)
  | altL _ h1 => intro v hf h; simp only [foldRegex, Bool.and_eq_true] at hf; exact .altL (h1 hf.1 h)
  | altR _ h1 => intro v hf h; simp only [foldRegex, Bool.and_eq_true] at hf; exact .altR (h1 hf.2 h)
  | starNil => intro v _ h; simp only [List.map_nil, List.map_eq_nil_iff] at h; rw [h]; exact .starNil
  | @starCons a u1 u2 _ _ h1 h2 =>
    intro v hf h
    rw [List.map_append] at h
    obtain ⟨v1, v2, rfl, e1, e2⟩ := List.map_eq_append_iff.1 h
    exact .starCons (h1 hf e1) (h2 hf e2)

theorem case_rules : lexRules.all (fun r => !caseKinds.contains r.kind || foldRegex r.re) = true := by decide +kernel
theorem anon_rules : lexRules.all (fun r => r.kind != K.ANON || r.re.run ['[', ']']) = true := by decide +kernel

/-- A restyled token is a token of the same kind. -/
theorem restyled_rule {p : Kind × Text} (h : HasRule p) {t : Text} (ht : Restyled p t) : HasRule (p.1, t) := by
  obtain ⟨r, hr, hk, hm⟩ := h
  refine ⟨r, hr, hk, ?_⟩
  rcases ht with rfl | ⟨hc, ht⟩ | ⟨ha, rfl⟩
  · exact hm
  · have := List.all_eq_true.1 case_rules r hr
    rw [hk, List.contains_iff_mem.2 hc] at this
    exact fold_matches hm (by simpa using this) ht
  · have := List.all_eq_true.1 anon_rules r hr
    simp only [hk, ha, bne_self_eq_false, Bool.false_or] at this
    exact (run_iff _ _).1 this

/-! ## Layouts -/

/-- The two kinds of tokens may be written next to each other. -/
def pairOk (k k' : Kind) : Bool := lexRules.all (fun r => r.kind != k' || subClass (firsts r.re) (safeOf k))

/-- Tokens that do not occur in queries and have to be treated differently. -/
def updateKinds : List Kind := [K.INSERT, K.DELETE, K.INSERT_DATA, K.DELETE_DATA, K.DELETE_WHERE]

/-- Brackets that would become one token. -/
def closes2 (k k' : Kind) : Prop := (k = K.LParen ∧ (k' = K.RParen ∨ k' = K.RParenDoubleMore)) ∨ (k = K.LBrack ∧ k' = K.RBrack)

/-- The list of tokens and marks (elements of kind `WHITESPACE`) has a mark wherever tokens must not touch. -/
structure Separate (l : List (Kind × Text)) : Prop where
  rule : ∀ p ∈ l, p.1 ≠ K.WHITESPACE → HasRule p
  query : ∀ p ∈ l, p.1 ∉ updateKinds
  glue : ∀ l1 x y l2, l = l1 ++ x :: y :: l2 → x.1 ≠ K.WHITESPACE → y.1 ≠ K.WHITESPACE → x.1 = K.Comment ∨ pairOk x.1 y.1 = true
  brackets : ∀ l1 x y l2, solid l = l1 ++ x :: y :: l2 → ¬ closes2 x.1 y.1

theorem Separate.tail {x : Kind × Text} {l : List (Kind × Text)} (h : Separate (x :: l)) : Separate l := by
  refine ⟨fun p hp => h.rule p (List.mem_cons_of_mem _ hp), fun p hp => h.query p (List.mem_cons_of_mem _ hp), ?_, ?_⟩
  · rintro l1 a b l2 rfl ha hb
    exact h.glue (x :: l1) a b l2 rfl ha hb
  · intro l1 a b l2 e
    by_cases hx : x.1 = K.WHITESPACE
    · refine h.brackets l1 a b l2 ?_
      unfold solid at e ⊢
      rw [List.filter_cons_of_neg (by simp [hx]), e]
    · refine h.brackets (x :: l1) a b l2 ?_
      unfold solid at e ⊢
      rw [List.filter_cons_of_pos (by simp [hx]), e]
      rfl

theorem has_rule_cons {p : Kind × Text} (h : HasRule p) : ∃ c v, p.2 = c :: v ∧ ∀ k, pairOk k p.1 = true → (safeOf k).has c = true := by
  obtain ⟨r, hr, hk, hm⟩ := h
  obtain ⟨c, v, e⟩ := rule_cons hr hm
  refine ⟨c, v, e, fun k hp => ?_⟩
  have := List.all_eq_true.1 hp r hr
  rw [hk] at this
  simp only [bne_self_eq_false, Bool.false_or] at this
  exact sub_has this (firsts_has hm c v e)

/-- What a layout begins with: white space, and then the first token. -/
theorem Lay.front {b : Bool} {l : List (Kind × Text)} {t : Text} (h : Lay Restyled b l t) (hr : ∀ p ∈ l, p.1 ≠ K.WHITESPACE → HasRule p) :
    ∃ w u, t = w ++ u ∧ Spaces w ∧ ((solid l = [] ∧ u = []) ∨ ∃ p l2 v y, solid l = p :: l2 ∧ HasRule (p.1, v) ∧ u = v ++ y ∧ 
      (w = [] → b = false → ∃ l', l = p :: l')) := by
  induction h with
  | done => exact ⟨[], [], rfl, spaces_nil, Or.inl ⟨rfl, rfl⟩⟩
  | @sp b c l r hc _ ih =>
    obtain ⟨w, u, e, hw, h⟩ := ih hr
    refine ⟨c :: w, u, by rw [e]; rfl, fun d hd => (List.mem_cons.1 hd).elim (fun e => e ▸ hc) (hw d), ?_⟩
    rcases h with h | ⟨p, l2, v, y, h1, h2, h3, -⟩
    · exact Or.inl h
    · exact Or.inr ⟨p, l2, v, y, h1, h2, h3, fun h => by cases h⟩
  | @mark m l r hm _ ih =>
    obtain ⟨w, u, e, hw, h⟩ := ih (fun p hp => hr p (List.mem_cons_of_mem _ hp))
    have hs : solid (m :: l) = solid l := by unfold solid; rw [List.filter_cons_of_neg (by simp [hm])]
    rw [hs]
    refine ⟨w, u, e, hw, ?_⟩
    rcases h with h | ⟨p, l2, v, y, h1, h2, h3, -⟩
    · exact Or.inl h
    · exact Or.inr ⟨p, l2, v, y, h1, h2, h3, fun _ h => by cases h⟩
  | @token b p t l r hk hw ht _ _ =>
    refine ⟨[], t ++ r, rfl, spaces_nil, Or.inr ⟨p, solid l, t, r, ?_, restyled_rule (hr p List.mem_cons_self hw) ht, rfl, fun _ _ => ⟨l, rfl⟩⟩⟩
    unfold solid
    rw [List.filter_cons_of_pos (by simp [hw])]
  | @comment b t l r _ _ =>
    refine ⟨[], ('#' :: t) ++ '\n' :: r, rfl, spaces_nil, Or.inr ⟨(K.Comment, '#' :: t), solid l, '#' :: t, '\n' :: r, rfl,
      hr _ List.mem_cons_self (by show K.Comment ≠ K.WHITESPACE; decide), rfl, fun _ _ => ⟨l, rfl⟩⟩⟩

/-! ### Brackets -/

/-- Anything but white space (in the sense of `[\s]`) and `]`. -/
def notClosing : Class :=
  [(0, 0x8), (0xE, 0x1F), (0x21, 0x5C), (0x5E, 0x84), (0x86, 0x9F), (0xA1, 0x167F), (0x1681, 0x1FFF), (0x200B, 0x2027), (0x202A, 0x202E),
   (0x2030, 0x205E), (0x2060, 0x2FFF), (0x3001, 0x10FFFF)]
def notBracket : Class := [(0, 0x5C), (0x5E, 0x10FFFF)]
def notColon : Class := [(0, 0x39), (0x3B, 0x10FFFF)]

theorem paren_ws : noRule (seqs [.cls [(0x28, 0x28)], .star (.cls wsClass), .cls (safeOf K.LParen), anyText]) [] = true := by decide +kernel
theorem paren_end : noRule (seqs [.cls [(0x28, 0x28)], .cls wsClass, .star (.cls wsClass)]) [] = true := by decide +kernel
theorem brack_ws : noRule (seqs [.cls [(0x5B, 0x5B)], .star (.cls wsClass), .cls notClosing, anyText]) [] = true := by decide +kernel
theorem brack_end : noRule (seqs [.cls [(0x5B, 0x5B)], .cls wsClass, .star (.cls wsClass)]) [] = true := by decide +kernel
theorem brack_name : noRule (seqs [.cls [(0x5B, 0x5B)], .star (.cls wsClass), .cls [(0x80, 0x10FFFF)], .star (.cls notBracket)]) [] = true := by decide +kernel
theorem brack_colon : noRule (seqs [.cls [(0x5B, 0x5B)], .star (.cls notBracket), .cls [(0x3A, 0x3A)], anyText]) [] = true := by
  decide +kernel
theorem pname_colon : noRuleOf (.star (.cls notColon)) [K.PNAME_NS, K.PNAME_LN] = true := by decide +kernel
theorem pname_bracket : lexRules.all (fun r => !([K.PNAME_NS, K.PNAME_LN].contains r.kind) || (within notBracket r.re &&
    subClass (firsts r.re) nameHead)) = true := by decide +kernel
theorem paren_first : lexRules.all (fun r => [K.WHITESPACE, K.RParen, K.RParenDoubleMore].contains r.kind || subClass (firsts r.re) (safeOf K.LParen)) = true := by
  decide +kernel
theorem brack_first : lexRules.all (fun r => [K.WHITESPACE, K.RBrack, K.PNAME_NS, K.PNAME_LN].contains r.kind ||
    subClass (firsts r.re) notClosing) = true := by decide +kernel
theorem ws_safe : lexRules.all (fun r => [K.WHITESPACE, K.Comment, K.LParen, K.LBrack].contains r.kind || updateKinds.contains r.kind ||
    subClass wsClass (safeOf r.kind)) = true := by decide +kernel
theorem paren_rules : lexRules.all (fun r => (r.kind != K.LParen || r.re == .cls [(0x28, 0x28)]) &&
    (r.kind != K.LBrack || r.re == .cls [(0x5B, 0x5B)])) = true := by decide +kernel

/-- A bracket, white space, and then something that does not close it. -/
theorem longest_open {o : Char} {k : Kind} {w u : Text} (hr : ∃ r ∈ lexRules, r.kind = k ∧ Matches r.re [o] ∧ r.boundary = false) (hw : Spaces w)
    (h1 : ∀ r ∈ lexRules, ∀ v, v ≠ [] → Spaces v → ¬ Matches r.re (o :: v))
    (h2 : ∀ r ∈ lexRules, ∀ a b, a ≠ [] → u = a ++ b → ¬ Matches r.re (o :: (w ++ a))) : Longest (o :: (w ++ u)) k [o] := by
  obtain ⟨r, hr, hk, hm, hb⟩ := hr
  refine ⟨⟨r, hr, hk, w ++ u, rfl, hm, fun h => by rw [hb] at h; cases h⟩, ?_⟩
  rintro r' hr' w' ⟨after, e, hm', -⟩
  match w', e, hm' with
  | [], _, _ => simp
  | [_], _, _ => simp
  | d :: d' :: w', e, hm' =>
    exfalso
    simp only [List.cons_append, List.cons.injEq] at e
    obtain ⟨rfl, e⟩ := e
    have e : w ++ u = (d' :: w') ++ after := e
    rcases List.append_eq_append_iff.1 e with ⟨a, e1, e2⟩ | ⟨a, e1, e2⟩
    · rw [e1] at hm'
      by_cases ha : a = []
      · subst ha
        rw [List.append_nil] at e1 hm'
        exact h1 r' hr' w (by rw [← e1]; simp) hw hm'
      · exact h2 r' hr' a after ha e2 hm'
    · exact h1 r' hr' (d' :: w') (by simp) (fun c hc => hw c (by rw [e1]; exact List.mem_append_left _ hc)) hm'

theorem colon_split {cl : Class} {v : Text} (h : ¬ ∀ c ∈ v, notColon.has c = true) (hc : ∀ c ∈ v, cl.has c = true) :
    ∃ a b, v = a ++ ':' :: b ∧ ∀ c ∈ a, cl.has c = true := by
  simp only [not_forall] at h
  obtain ⟨c, hcv, hn⟩ := h
  have : c = ':' := by
    by_cases hc : c.toNat = 0x3A
    · rw [← Char.ofNat_toNat c, hc]
    · exfalso
      apply hn
      have := char_le c
      by_cases hl : c.toNat ≤ 0x39
      · exact has_iff.2 ⟨(0, 0x39), by simp [notColon], by simp only; omega, by simp only; omega⟩
      · exact has_iff.2 ⟨(0x3B, 0x10FFFF), by simp [notColon], by simp only; omega, by simp only; omega⟩
  subst this
  obtain ⟨a, b, rfl⟩ := List.append_of_mem hcv
  exact ⟨a, b, rfl, fun d hd => hc d (List.mem_append_left _ hd)⟩

theorem open_text {t : Text} (h : HasRule (K.LParen, t)) :
    t = ['('] ∧ ∃ r ∈ lexRules, r.kind = K.LParen ∧ Matches r.re ['('] ∧ r.boundary = false := by
  obtain ⟨r, hr, hk, hm⟩ := h
  have hk : r.kind = K.LParen := hk
  have h1 := List.all_eq_true.1 paren_rules r hr
  have h2 := List.all_eq_true.1 pro_rules r hr
  simp only [Bool.and_eq_true, hk] at h1 h2
  have hre : r.re = .cls [(0x28, 0x28)] := by simpa using h1.1
  have hb : r.boundary = false := by
    have h3 := h2.2
    simp only [Bool.or_eq_true, Bool.not_eq_true', beq_iff_eq] at h3
    exact h3.resolve_right (by decide)
  rw [hre] at hm
  obtain ⟨c, e, hc⟩ := matches_cls.1 hm
  obtain ⟨p, hp, h3, h4⟩ := has_iff.1 hc
  rw [List.mem_singleton] at hp
  subst hp
  have : c = '(' := by
    have : c.toNat = 0x28 := by simp only at h3 h4; omega
    rw [← Char.ofNat_toNat c, this]
  exact ⟨by rw [← this]; exact e, r, hr, hk, by rw [hre]; exact .cls (by decide), hb⟩

theorem brack_text {t : Text} (h : HasRule (K.LBrack, t)) :
    t = ['['] ∧ ∃ r ∈ lexRules, r.kind = K.LBrack ∧ Matches r.re ['['] ∧ r.boundary = false := by
  obtain ⟨r, hr, hk, hm⟩ := h
  have hk : r.kind = K.LBrack := hk
  have h1 := List.all_eq_true.1 paren_rules r hr
  have h2 := List.all_eq_true.1 pro_rules r hr
  simp only [Bool.and_eq_true, hk] at h1 h2
  have hre : r.re = .cls [(0x5B, 0x5B)] := by simpa using h1.2
  have hb : r.boundary = false := by
    have h3 := h2.2
    simp only [Bool.or_eq_true, Bool.not_eq_true', beq_iff_eq] at h3
    exact h3.resolve_right (by decide)
  rw [hre] at hm
  obtain ⟨c, e, hc⟩ := matches_cls.1 hm
  obtain ⟨p, hp, h3, h4⟩ := has_iff.1 hc
  rw [List.mem_singleton] at hp
  subst hp
  have : c = '[' := by
    have : c.toNat = 0x5B := by simp only at h3 h4; omega
    rw [← Char.ofNat_toNat c, this]
  exact ⟨by rw [← this]; exact e, r, hr, hk, by rw [hre]; exact .cls (by decide), hb⟩

theorem longest_paren {w u : Text} (hr : ∃ r ∈ lexRules, r.kind = K.LParen ∧ Matches r.re ['('] ∧ r.boundary = false) (hw : Spaces w)
    (h : u = [] ∨ ∃ k v y, HasRule (k, v) ∧ u = v ++ y ∧ k ≠ K.WHITESPACE ∧ k ≠ K.RParen ∧ k ≠ K.RParenDoubleMore) : Longest ('(' :: (w ++ u)) K.LParen ['('] := by
  refine longest_open hr hw ?_ ?_
  · intro r hr v hne hs
    refine noRule_sound paren_end hr (by simp) ?_
    cases v with
    | nil => exact absurd rfl hne
    | cons c v =>
      exact matches_cons (by decide) (matches_cons (hs c List.mem_cons_self) (matches_star_cls.2 (fun d hd => hs d (List.mem_cons_of_mem _ hd))))
  · intro r hr a b ha e
    rcases h with h | ⟨k, v, y, hv, hu, hk, hk1, hk2⟩
    · rw [h] at e; exact absurd (List.append_eq_nil_iff.1 e.symm).1 ha
    obtain ⟨r0, hr0, hk0, hm0⟩ := hv
    obtain ⟨c, v', e0⟩ := rule_cons hr0 hm0
    have e0 : v = c :: v' := e0
    have := List.all_eq_true.1 paren_first r0 hr0
    have hk0 : r0.kind = k := hk0
    simp only [hk0, Bool.or_eq_true, List.contains_iff_mem, List.mem_cons, List.not_mem_nil, or_false] at this
    have hf := this.resolve_left (fun h => h.elim hk (fun h => h.elim hk1 hk2))
    have hc := sub_has hf (firsts_has hm0 c v' e0)
    cases a with
    | nil => exact absurd rfl ha
    | cons d a =>
      rw [hu, e0] at e
      simp only [List.cons_append, List.cons.injEq] at e
      obtain ⟨rfl, -⟩ := e
      refine noRule_sound paren_ws hr (by simp) ?_
      exact matches_cons (by decide) (matches_seq.2 ⟨w, c :: a, rfl, matches_star_cls.2 hw, matches_cons hc (anyText_matches a)⟩)

theorem ws_notBracket {w : Text} (hw : Spaces w) : ∀ c ∈ w, notBracket.has c = true := by
  intro c hc
  have h : subClass wsClass notBracket = true := by decide
  exact sub_has h (hw c hc)

theorem longest_brack {w u : Text} (hr : ∃ r ∈ lexRules, r.kind = K.LBrack ∧ Matches r.re ['['] ∧ r.boundary = false) (hw : Spaces w)
    (h : u = [] ∨ ∃ k v y, HasRule (k, v) ∧ u = v ++ y ∧ k ≠ K.WHITESPACE ∧ k ≠ K.RBrack) : Longest ('[' :: (w ++ u)) K.LBrack ['['] := by
  refine longest_open hr hw ?_ ?_
  · intro r hr v hne hs
    refine noRule_sound brack_end hr (by simp) ?_
    cases v with
    | nil => exact absurd rfl hne
    | cons c v =>
      exact matches_cons (by decide) (matches_cons (hs c List.mem_cons_self) (matches_star_cls.2 (fun d hd => hs d (List.mem_cons_of_mem _ hd))))
  · intro r hr a b ha e
    rcases h with h | ⟨k, v, y, hv, hu, hk, hk1⟩
    · rw [h] at e; exact absurd (List.append_eq_nil_iff.1 e.symm).1 ha
    obtain ⟨r0, hr0, hk0, hm0⟩ := hv
    obtain ⟨c, v', e0⟩ := rule_cons hr0 hm0
    have e0 : v = c :: v' := e0
    have hk0 : r0.kind = k := hk0
    cases a with
    | nil => exact absurd rfl ha
    | cons d a =>
    have ec : c :: v' ++ y = d :: a ++ b := by rw [← e0, ← hu, e]
    have hd : c = d := by simp only [List.cons_append, List.cons.injEq] at ec; exact ec.1
    subst hd
    have easy : notClosing.has c = true → ¬ Matches r.re ('[' :: (w ++ c :: a)) := by
      intro hc
      refine noRule_sound brack_ws hr (by simp) ?_
      exact matches_cons (by decide) (matches_seq.2 ⟨w, c :: a, rfl, matches_star_cls.2 hw, matches_cons hc (anyText_matches a)⟩)
    by_cases hp : k = K.PNAME_NS ∨ k = K.PNAME_LN
    · have hpm : r0.kind ∈ [K.PNAME_NS, K.PNAME_LN] := by rw [hk0]; simpa using hp
      have hb := List.all_eq_true.1 pname_bracket r0 hr0
      rw [List.contains_iff_mem.2 hpm] at hb
      simp only [Bool.not_true, Bool.false_or, Bool.and_eq_true] at hb
      have hin := within_has hm0 hb.1
      have hcol : ¬ ∀ x ∈ v, notColon.has x = true := fun h => noRuleOf_sound pname_colon hr0 hpm (matches_star_cls.2 h) hm0
      obtain ⟨v1, v2, ev, hv1⟩ := colon_split hcol hin
      by_cases h80 : c.toNat < 0x80
      · refine easy ?_
        have h1 := sub_has hb.2 (firsts_has hm0 c v' e0)
        obtain ⟨p, hp, h2, h3⟩ := has_iff.1 h1
        simp only [nameHead, List.mem_cons, List.not_mem_nil, or_false] at hp
        have : 0x3A ≤ c.toNat ∧ c.toNat ≠ 0x5D := by
          rcases hp with rfl | rfl | rfl | rfl <;> simp only at h2 h3 <;> omega
        by_cases hl : c.toNat ≤ 0x5C
        · exact has_iff.2 ⟨(0x21, 0x5C), by simp [notClosing], by simp only; omega, by simp only; omega⟩
        · exact has_iff.2 ⟨(0x5E, 0x84), by simp [notClosing], by simp only; omega, by simp only; omega⟩
      · rw [← e0] at ec
        rcases List.append_eq_append_iff.1 ec with ⟨x, e1, e2⟩ | ⟨x, e1, e2⟩
        · rw [e1, ev]
          refine noRule_sound brack_colon hr (by simp) ?_
          refine matches_cons (by decide) (matches_seq.2 ⟨w ++ v1, ':' :: (v2 ++ x), by simp, matches_star_cls.2 ?_,
            matches_cons (by decide) (anyText_matches _)⟩)
          intro z hz
          rcases List.mem_append.1 hz with hz | hz
          · exact ws_notBracket hw z hz
          · exact hv1 z hz
        · refine noRule_sound brack_name hr (by simp) ?_
          refine matches_cons (by decide) (matches_seq.2 ⟨w, c :: a, rfl, matches_star_cls.2 hw, matches_cons ?_ (matches_star_cls.2 ?_)⟩)
          · have := char_le c
            exact has_iff.2 ⟨(0x80, 0x10FFFF), by simp, by simp only; omega, by simp only; omega⟩
          · intro z hz
            exact hin z (by rw [show (k, v).2 = v from rfl, e1]; exact List.mem_append_left _ (List.mem_cons_of_mem _ hz))
    · have := List.all_eq_true.1 brack_first r0 hr0
      simp only [hk0, Bool.or_eq_true, List.contains_iff_mem, List.mem_cons, List.not_mem_nil, or_false] at this
      have hf := this.resolve_left (fun h => h.elim hk (fun h => h.elim hk1 hp))
      exact easy (sub_has hf (firsts_has hm0 c v' e0))

/-- A token in a layout is read as this token. -/
theorem longest_token {p : Kind × Text} {t r : Text} {l : List (Kind × Text)} (hk : p.1 ≠ K.Comment) (hw : p.1 ≠ K.WHITESPACE)
    (ht : Restyled p t) (hl : Lay Restyled false l r) (hS : Separate (p :: l)) : Longest (t ++ r) p.1 t := by
  have hp := restyled_rule (hS.rule p List.mem_cons_self hw) ht
  obtain ⟨w, u, rfl, hs, hf⟩ := hl.front hS.tail.rule
  have hne : ∀ q l2, solid l = q :: l2 → q.1 ≠ K.WHITESPACE ∧ ¬ closes2 p.1 q.1 := by
    intro q l2 e
    have hq : q ∈ solid l := by rw [e]; exact List.mem_cons_self
    refine ⟨by simpa using (List.mem_filter.1 hq).2, hS.brackets [] p q l2 ?_⟩
    unfold solid at e ⊢
    rw [List.filter_cons_of_pos (by simp [hw]), e]
    rfl
  have glued : w = [] → ∀ c y, w ++ u = c :: y → (safeOf p.1).has c = true := by
    rintro rfl c y e
    rw [List.nil_append] at e
    rcases hf with ⟨-, rfl⟩ | ⟨q, l2, v, y', h1, h2, h3, h4⟩
    · cases e
    · obtain ⟨l', rfl⟩ := h4 rfl rfl
      obtain ⟨d, v', e', hd⟩ := has_rule_cons h2
      have e' : v = d :: v' := e'
      rw [h3, e'] at e
      simp only [List.cons_append, List.cons.injEq] at e
      rw [← e.1]
      exact hd _ ((hS.glue [] p q l' rfl hw (hne q l2 h1).1).resolve_left hk)
  obtain ⟨r0, hr0, hk0, hm0⟩ := hp
  have hk0 : r0.kind = p.1 := hk0
  by_cases hb : p.1 = K.LParen
  · by_cases hw0 : w = []
    · have := longest_at hr0 hm0 (rest := w ++ u) (by rw [hk0]; exact glued hw0)
      rw [hk0] at this
      exact this
    · obtain ⟨e, hr⟩ := open_text (t := t) ⟨r0, hr0, hk0.trans hb, hm0⟩
      rw [e, hb]
      refine longest_paren (w := w) (u := u) hr hs ?_
      rcases hf with ⟨-, h⟩ | ⟨q, l2, v, y', h1, h2, h3, -⟩
      · exact Or.inl h
      · have := hne q l2 h1
        exact Or.inr ⟨q.1, v, y', h2, h3, this.1, fun h => this.2 (Or.inl ⟨hb, Or.inl h⟩), fun h => this.2 (Or.inl ⟨hb, Or.inr h⟩)⟩
  by_cases hb' : p.1 = K.LBrack
  · by_cases hw0 : w = []
    · have := longest_at hr0 hm0 (rest := w ++ u) (by rw [hk0]; exact glued hw0)
      rw [hk0] at this
      exact this
    · obtain ⟨e, hr⟩ := brack_text (t := t) ⟨r0, hr0, hk0.trans hb', hm0⟩
      rw [e, hb']
      refine longest_brack (w := w) (u := u) hr hs ?_
      rcases hf with ⟨-, h⟩ | ⟨q, l2, v, y', h1, h2, h3, -⟩
      · exact Or.inl h
      · have := hne q l2 h1
        exact Or.inr ⟨q.1, v, y', h2, h3, this.1, fun h => this.2 (Or.inr ⟨hb', h⟩)⟩
  have := longest_at hr0 hm0 (rest := w ++ u) (by
    rw [hk0]
    intro c y e
    by_cases hw0 : w = []
    · exact glued hw0 c y e
    · have hc : wsClass.has c = true := by
        cases w with
        | nil => exact absurd rfl hw0
        | cons d w =>
          simp only [List.cons_append, List.cons.injEq] at e
          rw [← e.1]; exact hs d List.mem_cons_self
      have h1 := List.all_eq_true.1 ws_safe r0 hr0
      simp only [hk0, Bool.or_eq_true, List.contains_iff_mem, List.mem_cons, List.not_mem_nil, or_false] at h1
      rcases h1 with (h1 | h1) | h1
      · exact absurd h1 (fun h => h.elim hw (fun h => h.elim hk (fun h => h.elim hb hb')))
      · exact absurd h1 (hS.query p List.mem_cons_self)
      · exact sub_has h1 hc)
  rw [hk0] at this
  exact this

/-- White space in front of a text. -/
theorem lexes_sp {c : Char} (hc : wsClass.has c = true) {r : Text} {toks : List (Kind × Text)} (h : Lexes r toks) :
    ∃ toks', Lexes (c :: r) toks' ∧ solid toks' = solid toks := by
  have hsp : ∀ r : Text, ∃ w C, r = w ++ C ∧ Spaces w ∧ NoSpace C := by
    intro r
    induction r with
    | nil => exact ⟨[], [], rfl, spaces_nil, trivial⟩
    | cons d r ih =>
      cases hd : wsClass.has d with
      | true => obtain ⟨w, C, rfl, h1, h2⟩ := ih; exact ⟨d :: w, C, rfl, spaces_cons hd h1, h2⟩
      | false => exact ⟨[], d :: r, rfl, spaces_nil, hd⟩
  obtain ⟨w, C, rfl, hw, hC⟩ := hsp r
  obtain ⟨l', h1, h2⟩ := lexes_ws hw hC h
  have hs : solid toks = solid l' := by
    rcases h2 with ⟨-, rfl⟩ | rfl
    · rfl
    · rfl
  exact ⟨(K.WHITESPACE, c :: w) :: l', Lexes.tok (after := C) (longest_ws (spaces_cons hc hw) (by simp) hC) h1, by rw [hs]; rfl⟩

/-- `q` is the token `p`, perhaps restyled. -/
def SameToken (p q : Kind × Text) : Prop := q.1 = p.1 ∧ Restyled p q.2

/-- **A layout with marks wherever tokens must not touch is read as these tokens.** -/
theorem lay_lexes {b : Bool} {l : List (Kind × Text)} {t : Text} (h : Lay Restyled b l t) (hS : Separate l) :
    ∃ toks, Lexes t toks ∧ List.Forall₂ SameToken (solid l) (solid toks) := by
  induction h with
  | done => exact ⟨[], .nil, .nil⟩
  | sp hc _ ih =>
    obtain ⟨toks, h1, h2⟩ := ih hS
    obtain ⟨toks', h3, h4⟩ := lexes_sp hc h1
    exact ⟨toks', h3, by rw [h4]; exact h2⟩
  | @mark m l r hm _ ih =>
    obtain ⟨toks, h1, h2⟩ := ih hS.tail
    refine ⟨toks, h1, ?_⟩
    have hs : solid (m :: l) = solid l := by unfold solid; rw [List.filter_cons_of_neg (by simp [hm])]
    rw [hs]; exact h2
  | @token b p t l r hk hw ht hl ih =>
    obtain ⟨toks, h1, h2⟩ := ih hS.tail
    refine ⟨(p.1, t) :: toks, .tok (longest_token hk hw ht hl hS) h1, ?_⟩
    unfold solid at h2 ⊢
    rw [List.filter_cons_of_pos (by simp [hw]), List.filter_cons_of_pos (by simp [hw])]
    exact .cons ⟨rfl, ht⟩ h2
  | @comment b t l r hl ih =>
    obtain ⟨toks, h1, h2⟩ := ih hS.tail
    obtain ⟨r0, hr0, hk0, hm0⟩ := hS.rule (K.Comment, '#' :: t) List.mem_cons_self (by show K.Comment ≠ K.WHITESPACE; decide)
    have hm0 : Matches r0.re ('#' :: t) := hm0
    rw [(comment_is hr0 hk0).1, comment_matches] at hm0
    refine ⟨(K.Comment, '#' :: t) :: toks, .tok (longest_comment.2 ⟨hm0, ?_⟩) h1, .cons ⟨rfl, Or.inl rfl⟩ h2⟩
    intro c y e
    simp only [List.cons.injEq] at e
    rw [← e.1]; decide

end Verif.Format
