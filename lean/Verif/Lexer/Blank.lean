import Verif.Lexer.Renaming
/-!
# Exchanging blanks

Behind a line break, and behind a `;` or `.` token, blanks can be exchanged (and line breaks inserted) without changing any
other token.
-/
namespace Verif.Lexer
open Verif Verif.Grammar Verif.Features

/-- Blanks and tabs only. -/
def Blanks (b : Text) : Prop := ∀ c ∈ b, c = ' ' ∨ c = '\t'

/-- Blanks do not change the state. -/
def blankFix (q : Regex) : Bool := (q.derivN 0x20 == q) && (q.derivN 0x9 == q)

theorem blankFix_derivs {q : Regex} (h : blankFix q = true) {b : Text} (hb : Blanks b) : q.derivs b = q := by
  simp only [blankFix, Bool.and_eq_true, beq_iff_eq] at h
  induction b with
  | nil => rfl
  | cons c b ih =>
    have ihb := ih (fun x hx => hb x (List.mem_cons_of_mem _ hx))
    have hc : q.deriv c = q := by
      rw [deriv_eq]
      rcases hb c List.mem_cons_self with rfl | rfl
      · exact h.1
      · exact h.2
    simp only [Regex.derivs, hc, ihb]

/-- All states of a rule, the initial one included. -/
def allStates (r : Regex) : List Regex := r :: statesOf r

/-- A condition holds in every state of a rule (and in the dead state). -/
def everyState (p : Regex → Bool) (r : Regex) : Bool :=
  let S := allStates r
  closedSet S && S.all p

theorem everyState_sound {p : Regex → Bool} {r : Regex} (h : everyState p r = true) (hn : p .none = true) (u : Text) :
    p (r.derivs u) = true := by
  simp only [everyState, Bool.and_eq_true] at h
  rcases closed_derivs h.1 (q := r) List.mem_cons_self u with h4 | h4
  · exact List.all_eq_true.1 h.2 _ h4
  · rw [h4]; exact hn

/-- Behind a line break blanks do not matter. -/
def newlineState (q : Regex) : Bool := let d := q.derivN 0xA; d.isNone || blankFix d

/-- Behind the character `n` line breaks and blanks are impossible or do not matter. -/
def termState (n : Nat) (q : Regex) : Bool :=
  let e := q.derivN n
  let d := e.derivN 0xA
  d.isNone || (d == e && blankFix e)

/-- The character does not occur. -/
def neverState (n : Nat) (q : Regex) : Bool := (q.derivN n).isNone

theorem rules_newline : lexRules.all (fun r => everyState newlineState r.re && (!r.boundary || everyState (neverState 0xA) r.re)) = true := by
  decide +kernel

theorem rules_semicolon : lexRules.all (fun r => everyState (termState 0x3B) r.re && (!r.boundary || everyState (neverState 0x3B) r.re)) = true := by
  decide +kernel

theorem rules_dot : lexRules.all (fun r => everyState (termState 0x2E) r.re && (!r.boundary || everyState (neverState 0x2E) r.re)) = true := by
  decide +kernel

/-- No rule matches a text that starts with a terminator and a line break. -/
theorem rules_term_start : lexRules.all (fun r => ((r.re.derivN 0x3B).derivN 0xA).isNone && ((r.re.derivN 0x2E).derivN 0xA).isNone) = true := by
  decide +kernel

/-- The blank class. -/
def wsClass : Class := [(0x9, 0xA), (0xC, 0xD), (0x20, 0x20)]

/-- Only the rule of white space matches a text that starts with white space. -/
theorem rules_ws_start : lexRules.all (fun r => r.re == rule_WHITESPACE.re || (repsIn wsClass r.re).all (fun n => (r.re.derivN n).isNone)) = true := by
  decide +kernel

/-! ## Filling a gap -/

/-- The text `f` behind `c` can be replaced by `f'`: what matches across the new text matched across the old one. -/
structure Fill (c : Char) (f f' : Text) : Prop where
  ends : ∀ r ∈ lexRules, ∀ u p s, f' = p ++ s → Matches r.re (u ++ c :: p) → Matches r.re (u ++ [c])
  over : ∀ r ∈ lexRules, ∀ u y, Matches r.re (u ++ c :: (f' ++ y)) → Matches r.re (u ++ c :: (f ++ y))
  bound : ∀ r ∈ lexRules, r.boundary = true → ∀ u y, ¬ Matches r.re (u ++ c :: y)

theorem derivs_snoc (r : Regex) (u : Text) (c : Char) : r.derivs (u ++ [c]) = (r.derivs u).derivN c.toNat := by
  rw [derivs_append]
  simp only [Regex.derivs]
  exact deriv_eq _ _

theorem split_at (u : Text) (c : Char) (y : Text) : u ++ c :: y = (u ++ [c]) ++ y := by simp

theorem never_sound {r : Regex} {c : Char} (h : everyState (neverState c.toNat) r = true) (u y : Text) :
    ¬ Matches r (u ++ c :: y) := by
  intro hm
  have := everyState_sound h rfl u
  unfold neverState at this
  rw [isNone_iff] at this
  rw [split_at, ← derivs_iff, derivs_snoc, this] at hm
  exact matches_none hm

theorem fill_newline {b b' : Text} (hb : Blanks b) (hb' : Blanks b') : Fill '\n' b b' := by
  have key : ∀ r ∈ lexRules, ∀ u, (r.re.derivs (u ++ ['\n'])).isNone = true ∨ blankFix (r.re.derivs (u ++ ['\n'])) = true := by
    intro r hr u
    have h := List.all_eq_true.1 rules_newline r hr
    simp only [Bool.and_eq_true] at h
    have := everyState_sound h.1 (by decide) u
    unfold newlineState at this
    simp only [Bool.or_eq_true] at this
    rw [derivs_snoc]
    exact this
  refine ⟨?_, ?_, ?_⟩
  · intro r hr u p s hps hm
    rw [split_at, ← derivs_iff] at hm
    rcases key r hr u with h | h
    · rw [isNone_iff] at h; rw [h] at hm; exact absurd hm matches_none
    · have hp : Blanks p := fun c hc => hb' c (by rw [hps]; simp [hc])
      rw [← List.append_nil p, ← derivs_iff, blankFix_derivs h hp, derivs_iff, List.append_nil] at hm
      exact hm
  · intro r hr u y hm
    rw [split_at, ← derivs_iff] at hm ⊢
    rcases key r hr u with h | h
    · rw [isNone_iff] at h; rw [h] at hm; exact absurd hm matches_none
    · rw [← derivs_iff, blankFix_derivs h hb'] at hm
      rw [← derivs_iff, blankFix_derivs h hb]
      exact hm
  · intro r hr hbd u y
    have h := List.all_eq_true.1 rules_newline r hr
    simp only [Bool.and_eq_true, Bool.or_eq_true, Bool.not_eq_true'] at h
    rcases h.2 with h | h
    · rw [h] at hbd; cases hbd
    · exact never_sound (c := '\n') h u y

/-- A terminator of triples. -/
def isTerm (c : Char) : Prop := c = ';' ∨ c = '.'

theorem rules_term {c : Char} (hc : isTerm c) {r : LexRule} (hr : r ∈ lexRules) :
    everyState (termState c.toNat) r.re = true ∧ (r.boundary = true → everyState (neverState c.toNat) r.re = true) := by
  rcases hc with rfl | rfl
  · have h := List.all_eq_true.1 rules_semicolon r hr
    simp only [Bool.and_eq_true, Bool.or_eq_true, Bool.not_eq_true'] at h
    refine ⟨h.1, fun hb => ?_⟩
    rcases h.2 with h | h
    · rw [h] at hb; cases hb
    · exact h
  · have h := List.all_eq_true.1 rules_dot r hr
    simp only [Bool.and_eq_true, Bool.or_eq_true, Bool.not_eq_true'] at h
    refine ⟨h.1, fun hb => ?_⟩
    rcases h.2 with h | h
    · rw [h] at hb; cases hb
    · exact h

theorem fill_term {c : Char} (hc : isTerm c) {b b' : Text} (hb : Blanks b) (hb' : Blanks b') : Fill c b ('\n' :: b') := by
  have hnone : termState c.toNat .none = true := by
    rcases hc with rfl | rfl <;> decide
  have key : ∀ r ∈ lexRules, ∀ u, ((r.re.derivs (u ++ [c])).deriv '\n').isNone = true ∨
      ((r.re.derivs (u ++ [c])).deriv '\n' = r.re.derivs (u ++ [c]) ∧ blankFix (r.re.derivs (u ++ [c])) = true) := by
    intro r hr u
    have := everyState_sound (rules_term hc hr).1 hnone u
    unfold termState at this
    simp only [Bool.or_eq_true, Bool.and_eq_true, beq_iff_eq] at this
    rw [derivs_snoc, deriv_eq]
    exact this
  refine ⟨?_, ?_, ?_⟩
  · intro r hr u p s hps hm
    cases p with
    | nil => exact hm
    | cons d p =>
      simp only [List.cons_append, List.cons.injEq] at hps
      obtain ⟨rfl, rfl⟩ := hps
      rw [split_at, ← derivs_iff, ← deriv_iff] at hm
      rcases key r hr u with h | ⟨h, h2⟩
      · rw [isNone_iff] at h; rw [h] at hm; exact absurd hm matches_none
      · have hp : Blanks p := fun c hc => hb' c (by simp [hc])
        rw [h, ← List.append_nil p, ← derivs_iff, blankFix_derivs h2 hp, derivs_iff, List.append_nil] at hm
        exact hm
  · intro r hr u y hm
    rw [split_at, ← derivs_iff] at hm ⊢
    rw [List.cons_append, ← deriv_iff] at hm
    rcases key r hr u with h | ⟨h, h2⟩
    · rw [isNone_iff] at h; rw [h] at hm; exact absurd hm matches_none
    · rw [h, ← derivs_iff, blankFix_derivs h2 hb'] at hm
      rw [← derivs_iff, blankFix_derivs h2 hb]
      exact hm
  · intro r hr hbd u y
    exact never_sound ((rules_term hc hr).2 hbd) u y

/-- Where a match in the new text comes from. -/
theorem fill_back {c : Char} {f f' : Text} (F : Fill c f f') {r : LexRule} (hr : r ∈ lexRules) {u C w : Text}
    (h : MatchesAt r (u ++ c :: (f' ++ C)) w) :
    (w.length ≤ u.length ∧ MatchesAt r (u ++ c :: (f ++ C)) w) ∨
    (∃ p s, f' = p ++ s ∧ w = u ++ c :: p ∧ MatchesAt r (u ++ c :: (f ++ C)) (u ++ [c])) ∨
    (∃ y, w = u ++ c :: (f' ++ y) ∧ MatchesAt r (u ++ c :: (f ++ C)) (u ++ c :: (f ++ y))) := by
  obtain ⟨after, e, hm, hb⟩ := h
  rcases List.append_eq_append_iff.1 e with ⟨a, e1, e2⟩ | ⟨a, e1, e2⟩
  · -- `w = u ++ a`
    subst e1
    cases a with
    | nil =>
      left
      simp only [List.append_nil] at hm ⊢
      refine ⟨Nat.le_refl _, c :: (f ++ C), rfl, hm, ?_⟩
      intro hbd
      have := hb hbd
      simp only [List.nil_append] at e2
      rw [← e2] at this
      exact this
    | cons d a =>
      simp only [List.cons_append, List.cons.injEq] at e2
      obtain ⟨rfl, e2⟩ := e2
      have hbf : r.boundary = true → False := fun hbd => F.bound r hr hbd u a hm
      rcases List.append_eq_append_iff.1 e2 with ⟨y, e3, e4⟩ | ⟨y, e3, e4⟩
      · right; right
        subst e3
        exact ⟨y, rfl, after, by rw [e4]; simp, F.over r hr u y hm, fun hbd => absurd hbd hbf⟩
      · right; left
        exact ⟨a, y, e3, rfl, f ++ C, by simp, F.ends r hr u a y e3 hm, fun hbd => absurd hbd hbf⟩
  · left
    refine ⟨by rw [e1]; simp, a ++ c :: (f ++ C), by rw [e1]; simp, hm, ?_⟩
    intro hbd
    have := hb hbd
    rw [e2] at this
    cases a with
    | nil => exact this
    | cons => exact this

/-- The tokens in front of the gap stay as they are. -/
theorem lexes_fill {c : Char} {f f' : Text} (F : Fill c f f') (A : List (Kind × Text)) {B B' : List (Kind × Text)} {u C : Text}
    (hB : Lexes (u ++ c :: (f ++ C)) B) (hA : Lexes (flat A ++ (u ++ c :: (f ++ C))) (A ++ B))
    (hB' : Lexes (u ++ c :: (f' ++ C)) B') : Lexes (flat A ++ (u ++ c :: (f' ++ C))) (A ++ B') := by
  induction A with
  | nil => exact hB'
  | cons p A ih =>
    have hfl : ∀ X : Text, flat (p :: A) ++ X = p.2 ++ (flat A ++ X) := by
      intro X
      simp [flat]
    rw [hfl] at hA ⊢
    generalize hx : p.2 ++ (flat A ++ (u ++ c :: (f ++ C))) = x at hA
    generalize hl : (p :: A) ++ B = l at hA
    cases hA with
    | nil => cases hl
    | @tok k w after l h hs =>
      simp only [List.cons_append, List.cons.injEq] at hl
      obtain ⟨rfl, rfl⟩ := hl
      have hx := List.append_cancel_left hx
      subst hx
      refine Lexes.tok ?_ (ih hs)
      obtain ⟨r, hr, hk, hm⟩ := h.rule
      refine ⟨⟨r, hr, hk, ?_⟩, ?_⟩
      · obtain ⟨-, hbd⟩ := matchesAt_boundary hm rfl
        obtain ⟨-, -, hmm, -⟩ := hm
        refine ⟨_, rfl, hmm, fun hb => ?_⟩
        have := hbd hb
        generalize flat A = z at this
        cases z with
        | cons => exact this
        | nil => cases u with
          | cons => exact this
          | nil => exact this
      · intro r' hr' w' hw'
        have e1 : w ++ (flat A ++ (u ++ c :: (f' ++ C))) = (w ++ flat A ++ u) ++ c :: (f' ++ C) := by simp
        have e2 : w ++ (flat A ++ (u ++ c :: (f ++ C))) = (w ++ flat A ++ u) ++ c :: (f ++ C) := by simp
        rw [e1] at hw'
        have hlong := h.longest r' hr'
        rw [e2] at hlong
        rcases fill_back F hr' hw' with ⟨-, h1⟩ | ⟨p, s, -, -, h1⟩ | ⟨y, -, h1⟩
        · exact hlong _ h1
        · have := hlong _ h1
          simp only [List.length_append, List.length_cons, List.length_nil] at this
          omega
        · have := hlong _ h1
          simp only [List.length_append, List.length_cons] at this
          omega
    | @err w after l h hw hs =>
      simp only [List.cons_append, List.cons.injEq] at hl
      obtain ⟨rfl, rfl⟩ := hl
      have hx := List.append_cancel_left hx
      subst hx
      refine Lexes.err ?_ hw (ih hs)
      intro r' hr' w' hw'
      have e1 : w ++ (flat A ++ (u ++ c :: (f' ++ C))) = (w ++ flat A ++ u) ++ c :: (f' ++ C) := by simp
      have e2 : w ++ (flat A ++ (u ++ c :: (f ++ C))) = (w ++ flat A ++ u) ++ c :: (f ++ C) := by simp
      have e1 : w ++ (flat A ++ (u ++ c :: (f' ++ C))) = (w ++ flat A ++ u) ++ c :: (f' ++ C) := by simp
      rw [e1] at hw'
      have hno := h r' hr'
      rw [e2] at hno
      rcases fill_back F hr' hw' with ⟨-, h1⟩ | ⟨p, s, -, -, h1⟩ | ⟨y, -, h1⟩
      · exact hno _ h1
      · exact hno _ h1
      · exact hno _ h1

/-- A token with a line break contains the blanks behind it. -/
theorem blanks_inside {k : Kind} {u v rest b C : Text} (h : Longest (u ++ '\n' :: v ++ rest) k (u ++ '\n' :: v)) (hb : Blanks b)
    (e : v ++ rest = b ++ C) : ∃ v', v = b ++ v' ∧ C = v' ++ rest := by
  rcases List.append_eq_append_iff.1 e with ⟨a, e1, e2⟩ | ⟨a, e1, e2⟩
  · -- `b = v ++ a`
    obtain ⟨r, hr, -, hm⟩ := h.rule
    obtain ⟨-, -, hm, -⟩ := hm
    subst e1
    have hv : Blanks v := fun c hc => hb c (by simp [hc])
    have := (fill_newline (b := v ++ a) (b' := v) hb hv).over r hr u [] (by simpa using hm)
    have hb0 : r.boundary = true → wordEnd C = true := fun hbd =>
      absurd hm ((fill_newline hb hv).bound r hr hbd u v)
    have hle := h.longest r hr _ ⟨C, by rw [e2]; simp, this, hb0⟩
    simp only [List.length_append, List.length_cons, List.length_nil] at hle
    have ha : a = [] := List.eq_nil_of_length_eq_zero (by omega)
    subst ha
    exact ⟨[], by simp, by simpa using e2.symm⟩
  · exact ⟨a, e1, e2⟩

/-- The token with the gap. -/
theorem longest_newline {k : Kind} {u b b' v rest : Text} (hb : Blanks b) (hb' : Blanks b')
    (h : Longest (u ++ '\n' :: (b ++ v) ++ rest) k (u ++ '\n' :: (b ++ v))) :
    Longest (u ++ '\n' :: (b' ++ v) ++ rest) k (u ++ '\n' :: (b' ++ v)) := by
  have F := fill_newline hb hb'
  have F' := fill_newline hb' hb
  obtain ⟨r, hr, hk, hm⟩ := h.rule
  obtain ⟨-, -, hm, -⟩ := hm
  refine ⟨⟨r, hr, hk, rest, rfl, F'.over r hr u v hm, fun hbd => absurd hm (F.bound r hr hbd u _)⟩, ?_⟩
  intro r' hr' w' hw'
  have e1 : u ++ '\n' :: (b' ++ v) ++ rest = u ++ '\n' :: (b' ++ (v ++ rest)) := by simp
  have e2 : u ++ '\n' :: (b ++ v) ++ rest = u ++ '\n' :: (b ++ (v ++ rest)) := by simp
  rw [e1] at hw'
  have hlong := h.longest r' hr'
  rw [e2] at hlong
  rcases fill_back F hr' hw' with ⟨h1, -⟩ | ⟨p, s, hps, rfl, h1⟩ | ⟨y, rfl, h1⟩
  · simp only [List.length_append, List.length_cons]; omega
  · rw [hps]; simp only [List.length_append, List.length_cons]; omega
  · have := hlong _ h1
    simp only [List.length_append, List.length_cons] at this ⊢
    omega

/-! ## White space -/

/-- White space only. -/
def Spaces (s : Text) : Prop := ∀ c ∈ s, wsClass.has c = true

/-- The text does not start with white space. -/
def NoSpace : Text → Prop
  | [] => True
  | c :: _ => wsClass.has c = false

theorem blanks_spaces {b : Text} (h : Blanks b) : Spaces b := by
  intro c hc
  rcases h c hc with rfl | rfl <;> decide

theorem ws_matches {w : Text} : Matches rule_WHITESPACE.re w ↔ w ≠ [] ∧ Spaces w := by
  show Matches (.seq (.cls wsClass) (.star (.cls wsClass))) w ↔ _
  rw [matches_seq]
  constructor
  · rintro ⟨u, v, rfl, h1, h2⟩
    rw [matches_cls] at h1
    rw [matches_star_cls] at h2
    obtain ⟨c, rfl, hc⟩ := h1
    refine ⟨by simp, ?_⟩
    intro d hd
    simp only [List.singleton_append, List.mem_cons] at hd
    rcases hd with rfl | hd
    · exact hc
    · exact h2 d hd
  · rintro ⟨h1, h2⟩
    cases w with
    | nil => exact absurd rfl h1
    | cons c w =>
      exact ⟨[c], w, rfl, matches_cls.2 ⟨c, rfl, h2 c List.mem_cons_self⟩,
        matches_star_cls.2 (fun d hd => h2 d (List.mem_cons_of_mem _ hd))⟩

theorem ws_start {r : LexRule} (hr : r ∈ lexRules) {c : Char} (hc : wsClass.has c = true) {w : Text}
    (h : Matches r.re (c :: w)) : r.re = rule_WHITESPACE.re := by
  have := List.all_eq_true.1 rules_ws_start r hr
  simp only [Bool.or_eq_true, beq_iff_eq] at this
  rcases this with this | this
  · exact this
  · exfalso
    obtain ⟨n, hn, hd⟩ := repsIn_spec (q := r.re) hc
    have h1 := List.all_eq_true.1 this n hn
    rw [hd, isNone_iff] at h1
    rw [← deriv_iff, h1] at h
    exact matches_none h

theorem ws_rule_mem : rule_WHITESPACE ∈ lexRules := List.mem_cons_self

theorem longest_ws {s C : Text} (hs : Spaces s) (hne : s ≠ []) (hC : NoSpace C) : Longest (s ++ C) K.WHITESPACE s := by
  refine ⟨⟨rule_WHITESPACE, ws_rule_mem, rfl, C, rfl, ws_matches.2 ⟨hne, hs⟩, fun h => by cases h⟩, ?_⟩
  rintro r hr w ⟨after, e, hm, -⟩
  cases w with
  | nil => simp
  | cons c w =>
    have hc : wsClass.has c = true := by
      cases s with
      | nil => exact absurd rfl hne
      | cons d s =>
        simp only [List.cons_append, List.cons.injEq] at e
        rw [← e.1]
        exact hs d List.mem_cons_self
    rw [ws_start hr hc hm, ws_matches] at hm
    rcases List.append_eq_append_iff.1 e with ⟨a, e1, e2⟩ | ⟨a, e1, e2⟩
    · cases a with
      | nil => rw [e1]; simp
      | cons d a =>
        exfalso
        rw [e2] at hC
        have : wsClass.has d = false := hC
        have h2 := hm.2 d (by rw [e1]; simp)
        rw [h2] at this; cases this
    · have := congrArg List.length e1
      simp only [List.length_append] at this
      omega

/-- A terminator followed by a line break. -/
theorem longest_term {c : Char} (hc : isTerm c) {k : Kind} {b b' C : Text} (hb : Blanks b) (hb' : Blanks b')
    (h : Longest (c :: (b ++ C)) k [c]) : Longest (c :: ('\n' :: b' ++ C)) k [c] := by
  have F := fill_term hc hb hb'
  obtain ⟨r, hr, hk, hm⟩ := h.rule
  obtain ⟨-, -, hm, -⟩ := hm
  refine ⟨⟨r, hr, hk, '\n' :: b' ++ C, rfl, hm, fun hbd => absurd hm (F.bound r hr hbd [] [])⟩, ?_⟩
  intro r' hr' w' hw'
  obtain ⟨after, e, hm', -⟩ := hw'
  match w', e, hm' with
  | [], _, _ => simp
  | [_], _, _ => simp
  | d :: d' :: w', e, hm' =>
    exfalso
    simp only [List.cons_append, List.cons.injEq] at e
    obtain ⟨rfl, rfl, -⟩ := e
    rw [← deriv_iff, ← deriv_iff, deriv_eq, deriv_eq] at hm'
    have := List.all_eq_true.1 rules_term_start r' hr'
    simp only [Bool.and_eq_true, isNone_iff] at this
    have h0 : (r'.re.derivN c.toNat).derivN ('\n').toNat = .none := by
      rcases hc with rfl | rfl
      · exact this.1
      · exact this.2
    rw [h0] at hm'
    exact matches_none hm'

end Verif.Lexer
