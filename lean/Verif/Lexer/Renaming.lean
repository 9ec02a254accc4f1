import Verif.Lexer.Swap
import Verif.Props.Lexer
import Mathlib.Data.List.Forall2
/-!
# Renaming variables in a text does not move the borders of tokens
-/
namespace Verif.Lexer
open Verif Verif.Grammar Verif.Features Verif.Props

/-! ## Variable names and the lexer rules `VAR1`, `VAR2` -/

/-- The classes have the same members. -/
def sameClass (a b : Class) : Bool :=
  (0 :: (a ++ b).flatMap (fun r => [r.1, r.2 + 1])).all (fun n => a.hasN n == b.hasN n)

theorem sameClass_has {a b : Class} (h : sameClass a b = true) (c : Char) : a.has c = b.has c := by
  obtain ⟨m, hm, hs⟩ := exists_rep ((a ++ b).flatMap (fun r => [r.1, r.2 + 1])) c.toNat
  have h1 : a.hasN m = a.hasN c.toNat := hasN_same (fun x hx => hs x (by
    rw [List.flatMap_append, List.mem_append]; exact Or.inl hx))
  have h2 : b.hasN m = b.hasN c.toNat := hasN_same (fun x hx => hs x (by
    rw [List.flatMap_append, List.mem_append]; exact Or.inr hx))
  have := eq_of_beq (List.all_eq_true.1 h m hm)
  show a.hasN c.toNat = b.hasN c.toNat
  rw [← h1, ← h2, this]

/-- Second and third class of a rule of the form sigil, class, star of a class. -/
def varClasses : Regex → Option (Class × Class × Class)
  | .seq (.cls a) (.seq (.cls b) (.star (.cls c))) => some (a, b, c)
  | _ => none

theorem varRule_iff {re : Regex} {a b c : Class} (h : varClasses re = some (a, b, c)) (w : Text) :
    Matches re w ↔ ∃ s d m, w = s :: d :: m ∧ a.has s = true ∧ b.has d = true ∧ ∀ x ∈ m, c.has x = true := by
  unfold varClasses at h
  split at h
  · next a' b' c' =>
    cases h
    constructor
    · intro hm
      obtain ⟨u, v, rfl, h1, h2⟩ := matches_seq.1 hm
      obtain ⟨u2, v2, rfl, h3, h4⟩ := matches_seq.1 h2
      obtain ⟨s, rfl, hs⟩ := matches_cls.1 h1
      obtain ⟨d, rfl, hd⟩ := matches_cls.1 h3
      exact ⟨s, d, v2, rfl, hs, hd, matches_star_cls.1 h4⟩
    · rintro ⟨s, d, m, rfl, hs, hd, hm⟩
      exact Matches.seq (u := [s]) (.cls hs) (Matches.seq (u := [d]) (.cls hd) (matches_star_cls.2 hm))
  · cases h

/-- The rule for a sigil. -/
def varRule (s : Char) : LexRule := if s = '?' then rule_VAR1 else rule_VAR2

/-- The kind for a sigil. -/
def sigilKind (s : Char) : Kind := if s = '?' then K.VAR1 else K.VAR2

def varRuleOk (r : LexRule) (s : Nat) : Bool :=
  match varClasses r.re with
  | some (a, b, c) => sameClass a [(s, s)] && sameClass b varStartChar && sameClass c varChar
  | none => false

theorem var1_ok : varRuleOk rule_VAR1 0x3F = true := by decide +kernel
theorem var2_ok : varRuleOk rule_VAR2 0x24 = true := by decide +kernel

theorem varChar_has (c : Char) : varChar.has c = isVarNameChar c := by
  unfold varChar isVarNameChar isVarNameStartChar Class.has
  rw [List.any_append]

theorem valid_iff (n : Text) : isValidVariableName n = true ↔
    ∃ d m, n = d :: m ∧ varStartChar.has d = true ∧ ∀ x ∈ m, varChar.has x = true := by
  cases n with
  | nil => simp [isValidVariableName]
  | cons c cs =>
    simp only [isValidVariableName, Bool.and_eq_true, List.all_eq_true, isVarNameStartChar]
    constructor
    · rintro ⟨h1, h2⟩; exact ⟨c, cs, rfl, h1, fun x hx => by rw [varChar_has]; exact h2 x hx⟩
    · rintro ⟨d, m, h, h1, h2⟩
      cases h
      exact ⟨h1, fun x hx => by rw [← varChar_has]; exact h2 x hx⟩

theorem varRuleOk_iff {r : LexRule} {s : Char} (h : varRuleOk r s.toNat = true) (w : Text) :
    Matches r.re w ↔ ∃ n, w = s :: n ∧ isValidVariableName n = true := by
  unfold varRuleOk at h
  split at h
  · next a b c hc =>
    simp only [Bool.and_eq_true] at h
    obtain ⟨⟨h1, h2⟩, h3⟩ := h
    rw [varRule_iff hc]
    have hsig : ∀ x : Char, a.has x = true ↔ x = s := by
      intro x
      rw [sameClass_has h1]
      simp only [Class.has, List.any_cons, List.any_nil, Bool.or_false, Bool.and_eq_true, Nat.ble_eq]
      constructor
      · rintro ⟨h4, h5⟩
        have : x.toNat = s.toNat := Nat.le_antisymm h5 h4
        exact Char.ext (UInt32.toNat_inj.1 this)
      · rintro rfl; exact ⟨Nat.le_refl _, Nat.le_refl _⟩
    constructor
    · rintro ⟨s', d, m, rfl, h4, h5, h6⟩
      rw [hsig] at h4
      subst h4
      refine ⟨d :: m, rfl, ?_⟩
      rw [valid_iff]
      exact ⟨d, m, rfl, by rw [← sameClass_has h2]; exact h5, fun x hx => by rw [← sameClass_has h3]; exact h6 x hx⟩
    · rintro ⟨n, rfl, hn⟩
      obtain ⟨d, m, rfl, h5, h6⟩ := (valid_iff n).1 hn
      exact ⟨s, d, m, rfl, (hsig s).2 rfl, by rw [sameClass_has h2]; exact h5,
        fun x hx => by rw [sameClass_has h3]; exact h6 x hx⟩
  · cases h

theorem varRule_matches {s : Char} (hs : isSigil s) (w : Text) :
    Matches (varRule s).re w ↔ ∃ n, w = s :: n ∧ isValidVariableName n = true := by
  rcases hs with rfl | rfl
  · exact varRuleOk_iff (r := rule_VAR1) (s := '?') var1_ok w
  · exact varRuleOk_iff (r := rule_VAR2) (s := '$') var2_ok w

theorem lexRules_var1 : lexRules[74]? = some rule_VAR1 := by rfl
theorem lexRules_var2 : lexRules[75]? = some rule_VAR2 := by rfl

theorem varRule_mem {s : Char} (hs : isSigil s) : varRule s ∈ lexRules ∧ (varRule s).kind = sigilKind s ∧
    (varRule s).boundary = false := by
  rcases hs with rfl | rfl
  · exact ⟨List.mem_of_getElem? lexRules_var1, rfl, rfl⟩
  · exact ⟨List.mem_of_getElem? lexRules_var2, rfl, rfl⟩

/-- Which rules can start with a sigil: the variable rule, and one-character rules. -/
theorem rules_sigil_first : lexRules.all (fun r =>
    ((r.re.derivN 0x3F).isNone || r.re.derivN 0x3F == .eps || r.re == rule_VAR1.re) &&
    ((r.re.derivN 0x24).isNone || r.re.derivN 0x24 == .eps || r.re == rule_VAR2.re)) = true := by decide +kernel

theorem sigil_first {r : LexRule} (hr : r ∈ lexRules) {s : Char} (hs : isSigil s) {x : Text} (h : Matches r.re (s :: x)) :
    x = [] ∨ isValidVariableName x = true := by
  have h0 := List.all_eq_true.1 rules_sigil_first r hr
  simp only [Bool.and_eq_true, Bool.or_eq_true, beq_iff_eq] at h0
  have key : ∀ q v, r.re.deriv s = q → (q.isNone = true ∨ q = .eps ∨ r.re = (varRule s).re) → v = x →
      x = [] ∨ isValidVariableName x = true := by
    intro q v hq hc hv
    have hd := (deriv_iff r.re s x).2 h
    rw [hq] at hd
    rcases hc with hc | rfl | hc
    · rw [isNone_iff.1 hc] at hd; exact absurd hd matches_none
    · left; exact matches_eps.1 hd
    · rw [hc, varRule_matches hs] at h
      obtain ⟨n, e, hn⟩ := h
      cases e
      exact Or.inr hn
  rcases hs with rfl | rfl
  · refine key (r.re.derivN 0x3F) x (deriv_eq _ _) ?_ rfl
    have := h0.1
    show _ ∨ _ ∨ r.re = rule_VAR1.re
    tauto
  · refine key (r.re.derivN 0x24) x (deriv_eq _ _) ?_ rfl
    have := h0.2
    show _ ∨ _ ∨ r.re = rule_VAR2.re
    tauto

/-- The text does not go on with a character of a variable name. -/
def NoVarChar : Text → Prop
  | [] => True
  | c :: _ => varChar.has c = false

theorem valid_all {n : Text} (h : isValidVariableName n = true) : ∀ c ∈ n, varChar.has c = true := by
  obtain ⟨d, m, rfl, h1, h2⟩ := (valid_iff n).1 h
  intro c hc
  rcases List.mem_cons.1 hc with rfl | hc
  · unfold varChar Class.has at *
    rw [List.any_append, Bool.or_eq_true]
    exact Or.inl h1
  · exact h2 c hc

/-- A variable followed by something else is one token. -/
theorem longest_var {s : Char} (hs : isSigil s) {m rest : Text} (hm : isValidVariableName m = true)
    (hr : NoVarChar rest) : Longest (s :: m ++ rest) (sigilKind s) (s :: m) := by
  obtain ⟨h1, h2, h3⟩ := varRule_mem hs
  refine ⟨⟨varRule s, h1, h2, rest, rfl, (varRule_matches hs _).2 ⟨m, rfl, hm⟩, ?_⟩, ?_⟩
  · rw [h3]; simp
  · rintro r hr' w' ⟨after, e, hw, hbd⟩
    have hne := matchesAt_ne_nil hr' ⟨after, e, hw, hbd⟩
    cases w' with
    | nil => exact absurd rfl hne
    | cons c x =>
      simp only [List.cons_append, List.cons.injEq] at e
      obtain ⟨rfl, e⟩ := e
      rcases sigil_first hr' hs hw with rfl | hv
      · simp
      · simp only [List.length_cons]
        by_contra hlt
        have hlt : m.length < x.length := by omega
        rcases List.append_eq_append_iff.1 e with ⟨a, e1, e2⟩ | ⟨a, e1, e2⟩
        · cases a with
          | nil => rw [e1] at hlt; simp at hlt
          | cons d a =>
            have : d ∈ x := by rw [e1]; simp
            have hd := valid_all hv d this
            rw [e2] at hr
            simp only [List.cons_append, NoVarChar] at hr
            rw [hr] at hd; cases hd
        · rw [e1] at hlt; simp at hlt; omega

/-- A variable token is followed by something else. -/
theorem noVarChar_of_longest {s : Char} (hs : isSigil s) {n after : Text} {k : Kind}
    (hn : isValidVariableName n = true) (h : Longest (s :: n ++ after) k (s :: n)) : NoVarChar after := by
  cases after with
  | nil => trivial
  | cons c a =>
    show varChar.has c = false
    cases hc : varChar.has c with
    | false => rfl
    | true =>
      obtain ⟨h1, -, h3⟩ := varRule_mem hs
      have hv : isValidVariableName (n ++ [c]) = true := by
        obtain ⟨d, m, rfl, h4, h5⟩ := (valid_iff n).1 hn
        rw [valid_iff]
        refine ⟨d, m ++ [c], rfl, h4, ?_⟩
        intro x hx
        rcases List.mem_append.1 hx with hx | hx
        · exact h5 x hx
        · rw [List.mem_singleton.1 hx]; exact hc
      have := h.longest (varRule s) h1 (s :: (n ++ [c]))
        ⟨a, by simp, (varRule_matches hs _).2 ⟨_, rfl, hv⟩, by rw [h3]; simp⟩
      simp only [List.length_cons, List.length_append, List.length_nil] at this
      omega

/-! ## Renaming in a list of tokens -/

/-- Same token, or both are variables. -/
inductive Renamed : Kind × Text → Kind × Text → Prop
  | same (p) : Renamed p p
  | var {s n s' m} (hs : isSigil s) (hs' : isSigil s') (hn : isValidVariableName n = true)
      (hm : isValidVariableName m = true) : Renamed (sigilKind s, s :: n) (sigilKind s', s' :: m)

/-- The text of a list of tokens. -/
def flat (l : List (Kind × Text)) : Text := (l.map (·.2)).flatten

theorem sigil_not_word {s : Char} (hs : isSigil s) : wordChar.has s = false := by
  rcases hs with rfl | rfl <;> decide

theorem sigil_not_varChar {s : Char} (hs : isSigil s) : varChar.has s = false := by
  rcases hs with rfl | rfl <;> decide

theorem renamed_head {T T' : List (Kind × Text)} (h : List.Forall₂ Renamed T T') (hne : ∀ p ∈ T, p.2 ≠ []) :
    (flat T = [] ∧ flat T' = []) ∨
    ∃ c x c' x', flat T = c :: x ∧ flat T' = c' :: x' ∧ (c = c' ∨ isSigil c ∧ isSigil c') := by
  cases h with
  | nil => exact Or.inl ⟨rfl, rfl⟩
  | @cons p p' l l' hp hl =>
    right
    cases hp with
    | same =>
      have := hne p (by simp)
      obtain ⟨k, w⟩ := p
      cases w with
      | nil => exact absurd rfl this
      | cons c w => exact ⟨c, w ++ flat l, c, w ++ flat l', rfl, rfl, Or.inl rfl⟩
    | @var s n s' m hs hs' hn hm => exact ⟨s, n ++ flat l, s', m ++ flat l', rfl, rfl, Or.inr ⟨hs, hs'⟩⟩

theorem wordEnd_flat {T T' : List (Kind × Text)} (h : List.Forall₂ Renamed T T') (hne : ∀ p ∈ T, p.2 ≠ []) :
    wordEnd (flat T) = wordEnd (flat T') := by
  rcases renamed_head h hne with ⟨h1, h2⟩ | ⟨c, x, c', x', h1, h2, rfl | ⟨h3, h4⟩⟩
  · rw [h1, h2]
  · rw [h1, h2]; rfl
  · rw [h1, h2]
    simp only [wordEnd, sigil_not_word h3, sigil_not_word h4]

theorem noVarChar_flat {T T' : List (Kind × Text)} (h : List.Forall₂ Renamed T T') (hne : ∀ p ∈ T, p.2 ≠ [])
    (hv : NoVarChar (flat T)) : NoVarChar (flat T') := by
  rcases renamed_head h hne with ⟨h1, h2⟩ | ⟨c, x, c', x', h1, h2, rfl | ⟨h3, h4⟩⟩
  · rw [h2]; trivial
  · rw [h1] at hv; rw [h2]; exact hv
  · rw [h2]; exact sigil_not_varChar h4

/-- A match that extends into the renamed text has a counterpart in the original text. -/
theorem match_back {r : LexRule} (hr : r ∈ lexRules) {T T' : List (Kind × Text)} (h : List.Forall₂ Renamed T T')
    (hne : ∀ p ∈ T, p.2 ≠ []) : ∀ (u y' z' : Text), u ≠ [] → flat T' = y' ++ z' → Matches r.re (u ++ y') →
      (r.boundary = true → wordEnd z' = true) →
      ∃ y z, flat T = y ++ z ∧ Matches r.re (u ++ y) ∧ (r.boundary = true → wordEnd z = true) ∧ (y' ≠ [] → y ≠ []) := by
  have hsw := List.all_eq_true.1 rules_swap r hr
  simp only [Bool.and_eq_true, Bool.or_eq_true, Bool.not_eq_true'] at hsw
  obtain ⟨hsw, hnosig⟩ := hsw
  induction h with
  | nil =>
    intro u y' z' _ hf hm hb
    have hf : [] = y' ++ z' := hf
    rw [eq_comm, List.append_eq_nil_iff] at hf
    rw [hf.1] at hm ⊢
    rw [hf.2] at hb
    exact ⟨[], [], rfl, hm, hb, fun h => absurd rfl h⟩
  | @cons p p' T T' hp hT ih =>
    intro u y' z' hu hf hm hb
    have hneT : ∀ p ∈ T, p.2 ≠ [] := fun q hq => hne q (List.mem_cons_of_mem _ hq)
    have hf : p'.2 ++ flat T' = y' ++ z' := hf
    have hflat : flat (p :: T) = p.2 ++ flat T := rfl
    rcases List.append_eq_append_iff.1 hf with ⟨a, e1, e2⟩ | ⟨a, e1, e2⟩
    · -- `y' = p'.2 ++ a`
      subst e1
      have hu' : u ++ p'.2 ≠ [] := by simp [hu]
      obtain ⟨y, z, i1, i2, i3, -⟩ := ih hneT (u ++ p'.2) a z' hu' e2 (by simpa using hm) hb
      refine ⟨p.2 ++ y, z, by rw [hflat, i1]; simp, ?_, i3, ?_⟩
      · cases hp with
        | same => simpa using i2
        | @var s n s' m hs hs' hn hm' =>
          have i2' : Matches r.re (u ++ ((s' :: m) ++ y)) := by simpa using i2
          exact swapOk_var hsw hu hs' hs hm' hn i2'
      · intro _
        have := hne p (by simp)
        simp [this]
    · -- `p'.2 = y' ++ a`
      cases hp with
      | same =>
        refine ⟨y', a ++ flat T, ?_, hm, ?_, id⟩
        · rw [hflat, e1]; simp
        · intro hbd
          have := hb hbd
          rw [e2] at this
          cases a with
          | nil =>
            simp only [List.nil_append] at this ⊢
            rw [wordEnd_flat hT hneT]; exact this
          | cons c a => exact this
      | @var s n s' m hs hs' hn hm' =>
        simp only at e1 hflat
        cases y' with
        | nil =>
          refine ⟨[], s :: n ++ flat T, hflat, hm, ?_, fun h => absurd rfl h⟩
          intro _
          simp only [List.cons_append, wordEnd, sigil_not_word hs]; rfl
        | cons c x =>
          simp only [List.cons_append, List.cons.injEq] at e1
          obtain ⟨rfl, e1⟩ := e1
          have hnb : r.boundary = false := by
            rcases hnosig with h | h
            · exact h
            · exact absurd hs' (noSigil_matches h hm s' (by simp))
          cases x with
          | nil =>
            refine ⟨[s], n ++ flat T, by rw [hflat]; simp, swapOk_sigil hsw hu hs' hs hm, ?_, by simp⟩
            rw [hnb]; simp
          | cons d x =>
            have hx : isValidVariableName (d :: x) = true := by
              obtain ⟨d', m', e, h4, h5⟩ := (valid_iff m).1 hm'
              rw [e1] at e
              simp only [List.cons_append, List.cons.injEq] at e
              obtain ⟨rfl, e⟩ := e
              rw [valid_iff]
              exact ⟨d, x, rfl, h4, fun y hy => h5 y (by rw [← e]; simp [hy])⟩
            refine ⟨s :: n, flat T, hflat, ?_, by rw [hnb]; simp, by simp⟩
            have := swapOk_var hsw (z := []) hu hs' hs hx hn (by simpa using hm)
            simpa using this

theorem lexes_flat {t : Text} {l : List (Kind × Text)} (h : Lexes t l) : flat l = t ∧ ∀ p ∈ l, p.2 ≠ [] := by
  induction h with
  | nil => exact ⟨rfl, by simp⟩
  | @tok k w after l h hs ih =>
    refine ⟨by simp only [flat, List.map_cons, List.flatten_cons]; rw [← ih.1]; rfl, ?_⟩
    intro p hp
    rcases List.mem_cons.1 hp with rfl | hp
    · obtain ⟨r, hr, -, hm⟩ := h.rule
      exact matchesAt_ne_nil hr hm
    · exact ih.2 p hp
  | @err w after l h hw hs ih =>
    refine ⟨by simp only [flat, List.map_cons, List.flatten_cons]; rw [← ih.1]; rfl, ?_⟩
    intro p hp
    rcases List.mem_cons.1 hp with rfl | hp
    · exact hw
    · exact ih.2 p hp

theorem matchesAt_boundary {r : LexRule} {w after x : Text} (h : MatchesAt r (w ++ after) x)
    (hx : x.length = w.length) : x = w ∧ (r.boundary = true → wordEnd after = true) := by
  obtain ⟨a, e, -, hb⟩ := h
  obtain ⟨rfl, rfl⟩ := List.append_inj e hx.symm
  exact ⟨rfl, hb⟩

/-- A reading of a text, with variables renamed, is a reading of the renamed text. -/
theorem lexes_renamed {t : Text} {l : List (Kind × Text)} (h : Lexes t l) :
    ∀ l', List.Forall₂ Renamed l l' → Lexes (flat l') l' := by
  induction h with
  | nil => intro l' h; cases h; exact .nil
  | @tok k w after l h hs ih =>
    intro l' hl
    cases hl with
    | @cons _ p' _ l' hp hl =>
      have ihl := ih l' hl
      obtain ⟨hfl, hne⟩ := lexes_flat hs
      have hfl' : flat (p' :: l') = p'.2 ++ flat l' := rfl
      rw [hfl']
      cases hp with
      | same =>
        refine Lexes.tok (k := k) (w := w) ?_ ihl
        obtain ⟨r, hr, hk, hm⟩ := h.rule
        have hwne := matchesAt_ne_nil hr hm
        refine ⟨⟨r, hr, hk, flat l', rfl, ?_, ?_⟩, ?_⟩
        · obtain ⟨-, -, hm, -⟩ := hm; exact hm
        · intro hb
          rw [← wordEnd_flat hl hne, hfl]
          exact (matchesAt_boundary hm rfl).2 hb
        · rintro r' hr' x ⟨z', e, hmx, hb⟩
          by_contra hlt
          have hlt : w.length < x.length := by omega
          rcases List.append_eq_append_iff.1 e with ⟨y', e1, e2⟩ | ⟨a, e1, e2⟩
          · subst e1
            have hy' : y' ≠ [] := by rintro rfl; simp at hlt
            obtain ⟨y, z, b1, b2, b3, b4⟩ := match_back hr' hl hne w y' z' hwne e2 hmx hb
            have := h.longest r' hr' (w ++ y) ⟨z, by rw [← hfl, b1]; simp, b2, b3⟩
            have hpos := List.length_pos_iff.2 (b4 hy')
            simp only [List.length_append] at this
            omega
          · rw [e1] at hlt; simp at hlt; omega
      | @var s n s' m hs1 hs1' hn hm =>
        refine Lexes.tok ?_ ihl
        refine longest_var hs1' hm (noVarChar_flat hl hne ?_)
        rw [hfl]
        exact noVarChar_of_longest hs1 hn h
  | @err w after l h hw hs ih =>
    intro l' hl
    cases hl with
    | @cons _ p' _ l' hp hl =>
      have ihl := ih l' hl
      obtain ⟨hfl, hne⟩ := lexes_flat hs
      have hfl' : flat (p' :: l') = p'.2 ++ flat l' := rfl
      rw [hfl']
      have hp' : p' = (K.Error, w) := by
        generalize hq : (K.Error, w) = q at hp
        cases hp with
        | same => rfl
        | var hs1 _ _ _ =>
          exfalso
          have := congrArg Prod.fst hq
          simp only [sigilKind] at this
          split at this <;> exact absurd this (by decide)
      subst hp'
      refine Lexes.err ?_ hw ihl
      rintro r' hr' x ⟨z', e, hmx, hb⟩
      rcases List.append_eq_append_iff.1 e with ⟨y', e1, e2⟩ | ⟨a, e1, e2⟩
      · subst e1
        obtain ⟨y, z, b1, b2, b3, b4⟩ := match_back hr' hl hne w y' z' hw e2 hmx hb
        exact h r' hr' (w ++ y) ⟨z, by rw [← hfl, b1]; simp, b2, b3⟩
      · refine h r' hr' x ⟨a ++ after, by have e1 : w = x ++ a := e1; rw [e1]; simp, hmx, ?_⟩
        intro hbd
        have := hb hbd
        rw [e2] at this
        cases a with
        | nil =>
          simp only [List.nil_append] at this ⊢
          rw [← hfl, wordEnd_flat hl hne]; exact this
        | cons c a => exact this

end Verif.Lexer
