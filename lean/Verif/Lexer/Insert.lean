import Verif.Format.Relex
/-!
# Inserting text behind a token

When text that starts with a blank is inserted behind a token, the tokens in front of it stay as they are. This is not obvious: a
`""` followed by `"` in front of the gap could turn into the beginning of a long string if the new text provided its end.
-/
namespace Verif.Lexer
open Verif Verif.Grammar Verif.Props Verif.Format

def longRules : List LexRule := [rule_STRING_LITERAL_LONG1, rule_STRING_LITERAL_LONG2]

/-- The state inside of a long string. -/
def inside (r : LexRule) : Regex :=
  if r.kind = K.STRING_LITERAL_LONG1 then r.re.derivs ['\'', '\'', '\''] else r.re.derivs ['"', '"', '"']

/-- Not a quote. -/
def plainClass : Class := [(0, 0x21), (0x23, 0x26), (0x28, 0x10FFFF)]

/-! ## Every word of `a` has a prefix in `b` -/

def simPairs (a b : Regex) : List (Regex × Regex) :=
  (((0 :: (a.bounds ++ b.bounds)).map (fun n => (a.derivN n, b.derivN n))).filter (fun p => !p.1.isNone))

def simClose : Nat → List (Regex × Regex) → List (Regex × Regex)
  | 0, S => S
  | n + 1, S => simClose n (S ++ ((S.flatMap (fun p => if p.2.nullable then [] else simPairs p.1 p.2)).filter (fun p => !S.contains p)).eraseDups)

def simClosed (S : List (Regex × Regex)) : Bool :=
  S.all (fun p => p.2.nullable || (!p.1.nullable && (simPairs p.1 p.2).all (fun q => S.contains q)))

theorem sim_sound {S : List (Regex × Regex)} (h : simClosed S = true) : ∀ {y : Text} {a b : Regex}, (a, b) ∈ S → Matches a y →
    ∃ y1 y2, y = y1 ++ y2 ∧ Matches b y1 := by
  intro y
  induction y with
  | nil =>
    intro a b hab hm
    have := List.all_eq_true.1 h _ hab
    simp only [Bool.or_eq_true, Bool.and_eq_true, Bool.not_eq_true'] at this
    rcases this with h1 | ⟨h1, -⟩
    · exact ⟨[], [], rfl, (nullable_iff b).1 h1⟩
    · rw [(nullable_iff a).2 hm] at h1; cases h1
  | cons c y ih =>
    intro a b hab hm
    have := List.all_eq_true.1 h _ hab
    simp only [Bool.or_eq_true, Bool.and_eq_true, Bool.not_eq_true'] at this
    rcases this with h1 | ⟨-, h1⟩
    · exact ⟨[], c :: y, rfl, (nullable_iff b).1 h1⟩
    · rw [← deriv_iff] at hm
      obtain ⟨m, hm', hs⟩ := exists_rep (a.bounds ++ b.bounds) c.toNat
      have ha : a.derivN m = a.deriv c := by
        rw [deriv_eq]; exact derivN_same (fun x hx => hs x (by simp [hx]))
      have hb : b.derivN m = b.deriv c := by
        rw [deriv_eq]; exact derivN_same (fun x hx => hs x (by simp [hx]))
      have hin : (a.deriv c, b.deriv c) ∈ simPairs a b := by
        refine List.mem_filter.2 ⟨List.mem_map.2 ⟨m, hm', by rw [ha, hb]⟩, ?_⟩
        cases hn : (a.deriv c).isNone with
        | false => rfl
        | true => rw [isNone_iff] at hn; rw [hn] at hm; exact absurd hm matches_none
      have := List.all_eq_true.1 h1 _ hin
      obtain ⟨y1, y2, e, h2⟩ := ih (List.contains_iff_mem.1 this) hm
      exact ⟨c :: y1, y2, by rw [e]; rfl, (deriv_iff ..).1 h2⟩

/-- In a state in which a blank can be read, any character but a quote leads to the inside of the string, and what ends the string from
there ends it anyway. -/
def longState (r : LexRule) (q : Regex) : Bool :=
  let I := inside r
  (repsIn plainClass q).all (fun n => (q.derivN n).isNone || q.derivN n == I) &&
    ((q.derivN 0x20).isNone || ((repsIn plainClass q).all (fun n => q.derivN n == I) &&
      (let S := simClose 6 [(I, q)]; simClosed S && S.contains (I, q))))

theorem long_states : longRules.all (fun r => everyState (longState r) r.re) = true := by decide +kernel
theorem long_inside : longRules.all (fun r => !(inside r).isNone && !(inside r).nullable && (inside r).derivN 0x20 == inside r && longState r (inside r)) = true := by
  decide +kernel

/-- Text that does not end a long string. -/
def Calm (t : Text) : Prop :=
  ∀ r ∈ longRules, (inside r).derivs t = inside r ∧ ∀ a b, t = a ++ b → ¬ Matches (inside r) a

theorem inside_spec {r : LexRule} (hr : r ∈ longRules) : ¬ Matches (inside r) [] ∧ (inside r).deriv ' ' = inside r ∧ longState r (inside r) = true ∧
    inside r ≠ .none := by
  have h := List.all_eq_true.1 long_inside r hr
  simp only [Bool.and_eq_true, Bool.not_eq_true', beq_iff_eq] at h
  refine ⟨fun hm => ?_, ?_, h.2, fun e => ?_⟩
  · rw [(nullable_iff _).2 hm] at h; cases h.1.1.2
  · rw [deriv_eq]; exact h.1.2
  · rw [e] at h; cases h.1.1.1

theorem calm_nil : Calm [] := by
  intro r hr
  refine ⟨rfl, fun a b e => ?_⟩
  have : a = [] := by cases a with | nil => rfl | cons => cases e
  rw [this]; exact (inside_spec hr).1

theorem calm_append {a b : Text} (ha : Calm a) (hb : Calm b) : Calm (a ++ b) := by
  intro r hr
  refine ⟨by rw [derivs_append, (ha r hr).1, (hb r hr).1], fun x y e hm => ?_⟩
  rcases List.append_eq_append_iff.1 e with ⟨z, e1, e2⟩ | ⟨z, e1, e2⟩
  · rw [e1, ← derivs_iff, (ha r hr).1] at hm
    exact (hb r hr).2 z y e2 hm
  · exact (ha r hr).2 x z e1 hm

theorem long_state {r : LexRule} (hr : r ∈ longRules) (u : Text) : longState r (r.re.derivs u) = true := by
  have h := List.all_eq_true.1 long_states r hr
  refine everyState_sound h ?_ u
  have : ∀ r ∈ longRules, longState r .none = true := by decide +kernel
  exact this r hr

theorem state_plain {r : LexRule} {q : Regex} (h : longState r q = true) {c : Char} (hc : plainClass.has c = true) :
    q.deriv c = .none ∨ q.deriv c = inside r := by
  unfold longState at h
  simp only [Bool.and_eq_true] at h
  obtain ⟨n, hn, e⟩ := repsIn_spec (q := q) hc
  have := List.all_eq_true.1 h.1 n hn
  simp only [Bool.or_eq_true, beq_iff_eq, isNone_iff] at this
  rw [e] at this
  exact this

theorem state_alive {r : LexRule} {q : Regex} (h : longState r q = true) (ha : q.deriv ' ' ≠ .none) :
    (∀ c, plainClass.has c = true → q.deriv c = inside r) ∧ ∀ y, Matches (inside r) y → ∃ y1 y2, y = y1 ++ y2 ∧ Matches q y1 := by
  unfold longState at h
  simp only [Bool.and_eq_true, Bool.or_eq_true] at h
  rcases h.2 with h1 | ⟨h1, h2, h3⟩
  · rw [isNone_iff] at h1
    exact absurd (by rw [deriv_eq]; exact h1) ha
  · refine ⟨fun c hc => ?_, fun y hy => sim_sound h2 (List.contains_iff_mem.1 h3) hy⟩
    obtain ⟨n, hn, e⟩ := repsIn_spec (q := q) hc
    have := List.all_eq_true.1 h1 n hn
    rw [beq_iff_eq, e] at this
    exact this

theorem calm_plain {t : Text} (h : ∀ c ∈ t, plainClass.has c = true) : Calm t := by
  induction t with
  | nil => exact calm_nil
  | cons c t ih =>
    refine calm_append (a := [c]) (b := t) ?_ (ih (fun x hx => h x (List.mem_cons_of_mem _ hx)))
    intro r hr
    obtain ⟨h1, h2, h3, h4⟩ := inside_spec hr
    have hd : (inside r).deriv c = inside r := (state_alive h3 (by rw [h2]; exact h4)).1 c (h c List.mem_cons_self)
    refine ⟨hd, fun a b e hm => ?_⟩
    cases a with
    | nil => exact h1 hm
    | cons x a =>
      simp only [List.cons_append, List.cons.injEq] at e
      obtain ⟨rfl, e⟩ := e
      have : a = [] := by cases a with | nil => rfl | cons => cases e
      rw [this, ← deriv_iff, hd] at hm
      exact h1 hm

def calmB (t : Text) : Bool :=
  longRules.all (fun r => (inside r).derivs t == inside r && (List.range (t.length + 1)).all (fun i => !((inside r).derivs (t.take i)).nullable))

theorem calm_of {t : Text} (h : calmB t = true) : Calm t := by
  intro r hr
  have := List.all_eq_true.1 h r hr
  simp only [Bool.and_eq_true, beq_iff_eq] at this
  refine ⟨this.1, fun a b e hm => ?_⟩
  have h2 := List.all_eq_true.1 this.2 a.length (List.mem_range.2 (by rw [e]; simp; omega))
  rw [e, List.take_left, Bool.not_eq_true'] at h2
  rw [← List.append_nil a, ← derivs_iff] at hm
  rw [(nullable_iff _).2 hm] at h2
  cases h2

/-- What a long string makes of the new text. -/
theorem long_insert {r : LexRule} (hr : r ∈ longRules) {U i d : Text} (hi : Calm (' ' :: i)) (hd : ∀ c ∈ d, plainClass.has c = true) :
    (∀ a b, ' ' :: i = a ++ b → a ≠ [] → ¬ Matches r.re (U ++ a)) ∧
    ∀ y, Matches r.re (U ++ (' ' :: i ++ y)) → ∃ y1 y2, y = y1 ++ y2 ∧ Matches r.re (U ++ (d ++ y1)) := by
  have hst := long_state hr U
  obtain ⟨h1, h2, h3, h4⟩ := inside_spec hr
  have hsp : (r.re.derivs U).deriv ' ' = .none ∨ (r.re.derivs U).deriv ' ' = inside r := state_plain hst (by decide)
  refine ⟨fun a b e ha hm => ?_, fun y hm => ?_⟩
  · cases a with
    | nil => exact ha rfl
    | cons x a =>
      simp only [List.cons_append, List.cons.injEq] at e
      obtain ⟨rfl, e⟩ := e
      rw [← derivs_iff, ← deriv_iff] at hm
      rcases hsp with h | h
      · rw [h] at hm; exact matches_none hm
      · rw [h, ← h2, deriv_iff] at hm
        exact (hi r hr).2 (' ' :: a) b (by rw [e]; rfl) hm
  · rw [← derivs_iff, List.cons_append, ← deriv_iff] at hm
    rcases hsp with h | h
    · rw [h] at hm; exact absurd hm matches_none
    · have hal := state_alive hst (by rw [h]; exact h4)
      rw [h, ← h2, deriv_iff, ← List.cons_append, ← derivs_iff, (hi r hr).1] at hm
      cases d with
      | nil =>
        obtain ⟨y1, y2, e, h5⟩ := hal.2 y hm
        exact ⟨y1, y2, e, by rw [List.nil_append, ← derivs_iff]; exact h5⟩
      | cons c d =>
        refine ⟨y, [], by simp, ?_⟩
        rw [← derivs_iff, List.cons_append, ← deriv_iff, hal.1 c (hd c List.mem_cons_self), ← derivs_iff,
          ((calm_plain (fun x hx => hd x (List.mem_cons_of_mem _ hx))) r hr).1]
        exact hm

/-! ## The tokens in front of the gap -/

def noBlank : Class := [(0, 0x1F), (0x21, 0x10FFFF)]
def stringKinds : List Kind := [K.STRING_LITERAL1, K.STRING_LITERAL2, K.STRING_LITERAL_LONG1, K.STRING_LITERAL_LONG2]

/-- Rules that read blanks, strings and comments aside. -/
def blankKinds : List Kind := [K.WHITESPACE, K.INSERT_DATA, K.DELETE_DATA, K.DELETE_WHERE, K.NIL, K.ANON]

theorem rules_blank : lexRules.all (fun r => within noBlank r.re || blankKinds.contains r.kind || r.kind == K.Comment || stringKinds.contains r.kind) = true := by
  decide +kernel

theorem space_only : noRule (.star (.cls space)) [K.WHITESPACE] = true := by decide +kernel

/-- A significant token is not made of white space. -/
theorem not_space {r : LexRule} (hr : r ∈ lexRules) (hk : r.kind ≠ K.WHITESPACE) {w : Text} (hm : Matches r.re w) :
    ∃ c ∈ w, space.has c = false := by
  apply Classical.byContradiction
  intro h
  refine noRule_sound space_only hr (by simpa using hk) (matches_star_cls.2 (fun c hc => ?_)) hm
  cases hs : space.has c with
  | true => rfl
  | false => exact absurd ⟨c, hc, hs⟩ h

theorem ws_space {c : Char} (h : wsClass.has c = true) : space.has c = true := by
  refine sub_has (a := wsClass) ?_ h
  decide

theorem matches_clss {X : Regex} {Y : List Regex} : ∀ {cs : List Class} {w : Text}, Matches (seqs (cs.map .cls ++ X :: Y)) w →
    ∃ a b, w = a ++ b ∧ List.Forall₂ (fun cl c => Class.has cl c = true) cs a ∧ Matches (seqs (X :: Y)) b := by
  intro cs
  induction cs with
  | nil => intro w h; exact ⟨[], w, rfl, .nil, h⟩
  | cons cl cs ih =>
    intro w h
    have h : Matches (.seq (.cls cl) (seqs (cs.map .cls ++ X :: Y))) w := by
      cases cs with
      | nil => exact h
      | cons => exact h
    obtain ⟨u, v, rfl, h1, h2⟩ := matches_seq.1 h
    obtain ⟨c, rfl, hc⟩ := matches_cls.1 h1
    obtain ⟨a, b, rfl, h3, h4⟩ := ih h2
    exact ⟨c :: a, b, rfl, .cons hc h3, h4⟩

theorem clss_matches : ∀ {cs : List Class} {a : Text}, List.Forall₂ (fun cl c => Class.has cl c = true) cs a → Matches (seqs (cs.map .cls)) a := by
  intro cs
  induction cs with
  | nil => intro a h; cases h; exact .eps
  | cons cl cs ih =>
    intro a h
    cases h with
    | @cons _ c _ a hc h =>
      have := ih h
      cases cs with
      | nil => cases h; exact matches_cls.2 ⟨c, rfl, hc⟩
      | cons d cs => exact matches_cons hc this

theorem forall₂_of_right {α β : Type} {R : α → β → Prop} {l : List α} {m : List β} (h : List.Forall₂ R l m) {b : β} (hb : b ∈ m) :
    ∃ a ∈ l, R a b := by
  induction h with
  | nil => cases hb
  | cons hab _ ih =>
    rcases List.mem_cons.1 hb with rfl | hb
    · exact ⟨_, List.mem_cons_self, hab⟩
    · obtain ⟨a, ha, h⟩ := ih hb
      exact ⟨a, List.mem_cons_of_mem _ ha, h⟩

/-- The letters of `INSERT` and `DELETE`. -/
def insertLetters : List Class := [[(0x49, 0x49), (0x69, 0x69)], [(0x4E, 0x4E), (0x6E, 0x6E)], [(0x53, 0x53), (0x73, 0x73)], [(0x45, 0x45), (0x65, 0x65)],
  [(0x52, 0x52), (0x72, 0x72)], [(0x54, 0x54), (0x74, 0x74)]]
def deleteLetters : List Class := [[(0x44, 0x44), (0x64, 0x64)], [(0x45, 0x45), (0x65, 0x65)], [(0x4C, 0x4C), (0x6C, 0x6C)], [(0x45, 0x45), (0x65, 0x65)],
  [(0x54, 0x54), (0x74, 0x74)], [(0x45, 0x45), (0x65, 0x65)]]

theorem insert_rule : lexRules.any (fun r => r.re == seqs (insertLetters.map .cls) && !r.boundary) = true := by decide +kernel
theorem delete_rule : lexRules.any (fun r => r.re == seqs (deleteLetters.map .cls) && !r.boundary) = true := by decide +kernel

def dataTail : List Regex := [.cls [(0x44, 0x44), (0x64, 0x64)], .cls [(0x41, 0x41), (0x61, 0x61)], .cls [(0x54, 0x54), (0x74, 0x74)], .cls [(0x41, 0x41), (0x61, 0x61)]]
def whereTail : List Regex := [.cls [(0x57, 0x57), (0x77, 0x77)], .cls [(0x48, 0x48), (0x68, 0x68)], .cls [(0x45, 0x45), (0x65, 0x65)], .cls [(0x52, 0x52), (0x72, 0x72)],
  .cls [(0x45, 0x45), (0x65, 0x65)]]

/-- What the rules that read blanks look like. -/
theorem blank_shapes : lexRules.all (fun r => !blankKinds.contains r.kind || r.re == rule_WHITESPACE.re ||
    r.re == seqs ([[(0x28, 0x28)]].map .cls ++ .star (.cls wsClass) :: [.cls [(0x29, 0x29)]]) ||
    r.re == seqs ([[(0x5B, 0x5B)]].map .cls ++ .star (.cls space) :: [.cls [(0x5D, 0x5D)]]) ||
    r.re == seqs (insertLetters.map .cls ++ .cls [(0x20, 0x20)] :: dataTail) ||
    r.re == seqs (deleteLetters.map .cls ++ plus (.cls space) :: dataTail) ||
    r.re == seqs (deleteLetters.map .cls ++ plus (.cls space) :: whereTail)) = true := by decide +kernel

theorem tail_noBlank : (within noBlank (seqs dataTail) && within noBlank (seqs whereTail)) = true := by decide +kernel

theorem quote_first : noRule (seqs [.cls quoteClass, anyText]) stringKinds = true := by decide +kernel
theorem string_first : noRuleOf (seqs [.cls plainClass, anyText]) stringKinds = true := by decide +kernel

/-- A string can be continued by the rule of long strings only. -/
theorem cross_string : lexRules.all (fun r => !stringKinds.contains r.kind || lexRules.all (fun q => !stringKinds.contains q.kind ||
    apart 60 [] (seqs [q.re, .cls anyChar, anyText]) r.re || (longRules.any (fun l => r.re == l.re) && !r.boundary))) = true := by decide +kernel

/-- The rules that read across the end of the text in front of the gap. -/
theorem cross {p : Kind × Text} {A2 : List (Kind × Text)} {X : Text} (hp : Longest (p.2 ++ (flat A2 ++ X)) p.1 p.2)
    {A0 : List (Kind × Text)} {q : Kind × Text} (hA : A2 = A0 ++ [q]) (hq : ∃ r ∈ lexRules, r.kind = q.1 ∧ Matches r.re q.2)
    (hs : triviaKind q.1 = false) (hne : ∀ t ∈ A2, t.2 ≠ []) {r : LexRule} (hr : r ∈ lexRules) {z : Text} (hm : Matches r.re (p.2 ++ flat A2 ++ ' ' :: z)) :
    (∃ l ∈ longRules, r.re = l.re) ∧ r.boundary = false := by
  obtain ⟨rp, hrp, hkp, after, e, hmp, -⟩ := hp.rule
  obtain ⟨c, v, hcv⟩ := rule_cons hrp hmp
  obtain ⟨rq, hrq, hkq, hmq⟩ := hq
  have hqk : rq.kind ≠ K.WHITESPACE ∧ rq.kind ≠ K.Comment := by
    rw [hkq]
    constructor
    · intro h; rw [h] at hs; cases hs
    · intro h; rw [h] at hs; cases hs
  have hb := List.all_eq_true.1 rules_blank r hr
  simp only [Bool.or_eq_true, beq_iff_eq] at hb
  rcases hb with ((hb | hb) | hb) | hb
  · have := within_has hm hb ' ' (by simp)
    exact absurd this (by decide)
  · exfalso
    obtain ⟨x, hx, hxs⟩ := not_space hrq hqk.1 hmq
    have e2 : p.2 ++ flat A2 ++ ' ' :: z = c :: ((v ++ flat A0) ++ (q.2 ++ (' ' :: z))) := by
      rw [hA, hcv, flat_append]; simp [flat]
    -- `q` is within a run of white space
    have inner : ∀ s t : Text, (v ++ flat A0) ++ (q.2 ++ (' ' :: z)) = s ++ t → (∀ d ∈ s, space.has d = true) → ' ' ∉ t → False := by
      intro s t e3 h1 h2
      rcases List.append_eq_append_iff.1 e3 with ⟨a, e4, e5⟩ | ⟨a, e4, e5⟩
      · rcases List.append_eq_append_iff.1 e5 with ⟨b, e6, e7⟩ | ⟨b, e6, e7⟩
        · have := h1 x (by rw [e4, e6]; simp [hx])
          rw [this] at hxs; cases hxs
        · exact h2 (by rw [e7]; simp)
      · exact h2 (by rw [e5]; simp)
    -- the same for a keyword of six letters
    have six : ∀ (cs : List Class) (s t a : Text), (lexRules.any (fun r => r.re == seqs (cs.map .cls) && !r.boundary) = true) →
        cs.all (fun cl => subClass cl noBlank) = true →
        List.Forall₂ (fun cl c => Class.has cl c = true) cs a → p.2 ++ flat A2 ++ ' ' :: z = a ++ (s ++ t) → (∀ d ∈ s, space.has d = true) →
        ' ' ∉ t → False := by
      intro cs s t a hrule hcs ha e3 h1 h2
      obtain ⟨r0, hr0, h0⟩ := List.any_eq_true.1 hrule
      simp only [Bool.and_eq_true, beq_iff_eq, Bool.not_eq_true'] at h0
      have hab : ' ' ∉ a := by
        intro hin
        obtain ⟨cl, hcl, h⟩ := forall₂_of_right ha hin
        have := sub_has (List.all_eq_true.1 hcs cl hcl) h
        exact absurd this (by decide)
      obtain ⟨u', e4, e5⟩ : ∃ u', p.2 ++ flat A2 = a ++ u' ∧ u' ++ ' ' :: z = s ++ t := by
        rcases List.append_eq_append_iff.1 e3 with ⟨b, e4, e5⟩ | ⟨b, e4, e5⟩
        · cases b with
          | nil => exact ⟨[], by rw [e4]; simp, by simpa using e5⟩
          | cons d b =>
            simp only [List.cons_append, List.cons.injEq] at e5
            exact absurd (by rw [e4, ← e5.1]; simp) hab
        · exact ⟨b, e4, e5.symm⟩
      have hlen := hp.longest r0 hr0 a ⟨u' ++ X, by rw [← List.append_assoc, e4]; simp, by rw [h0.1]; exact clss_matches ha,
        fun h => by rw [h0.2] at h; cases h⟩
      have hus : ∀ d ∈ u', space.has d = true := by
        intro d hd
        rcases List.append_eq_append_iff.1 e5 with ⟨b, e6, -⟩ | ⟨b, e6, e7⟩
        · exact h1 d (by rw [e6]; simp [hd])
        · cases b with
          | nil => exact h1 d (by rw [e6] at hd; simpa using hd)
          | cons y b => exact absurd (by rw [e7]; simp) h2
      rcases List.append_eq_append_iff.1 e4 with ⟨b, e6, e7⟩ | ⟨b, e6, e7⟩
      · have hb0 : b = [] := by
          rw [e6, List.length_append] at hlen
          exact List.eq_nil_of_length_eq_zero (by omega)
        rw [hb0, List.nil_append, hA, flat_append] at e7
        have := hus x (by rw [← e7]; simp [flat, hx])
        rw [this] at hxs; cases hxs
      · rw [hA, flat_append] at e7
        have := hus x (by rw [e7]; simp [flat, hx])
        rw [this] at hxs; cases hxs
    have notail : ∀ {T : List Regex} {t : Text}, within noBlank (seqs T) = true → Matches (seqs T) t → ' ' ∉ t := by
      intro T t h h1 hin
      exact absurd (within_has h1 h ' ' hin) (by decide)
    have htail := tail_noBlank
    simp only [Bool.and_eq_true] at htail
    have h := List.all_eq_true.1 blank_shapes r hr
    simp only [hb, Bool.not_true, Bool.false_or, Bool.or_eq_true, beq_iff_eq] at h
    rcases h with ((((h | h) | h) | h) | h) | h
    · rw [h, ws_matches] at hm
      have := ws_space (hm.2 x (by rw [e2]; simp [hx]))
      rw [this] at hxs; cases hxs
    · rw [h] at hm
      obtain ⟨a, b, e3, h1, h2⟩ := matches_clss hm
      obtain ⟨s, t, rfl, h3, h4⟩ := matches_seq.1 h2
      cases h1 with
      | cons _ h1 =>
        cases h1
        rw [e2] at e3
        simp only [List.cons_append, List.cons.injEq, List.nil_append] at e3
        refine inner s t e3.2 (fun d hd => ws_space (matches_star_cls.1 h3 d hd)) ?_
        exact notail (T := [.cls [(0x29, 0x29)]]) (by decide) h4
    · rw [h] at hm
      obtain ⟨a, b, e3, h1, h2⟩ := matches_clss hm
      obtain ⟨s, t, rfl, h3, h4⟩ := matches_seq.1 h2
      cases h1 with
      | cons _ h1 =>
        cases h1
        rw [e2] at e3
        simp only [List.cons_append, List.cons.injEq, List.nil_append] at e3
        refine inner s t e3.2 (fun d hd => matches_star_cls.1 h3 d hd) ?_
        exact notail (T := [.cls [(0x5D, 0x5D)]]) (by decide) h4
    · rw [h] at hm
      obtain ⟨a, b, e3, h1, h2⟩ := matches_clss hm
      obtain ⟨s, t, rfl, h3, h4⟩ := matches_seq.1 h2
      obtain ⟨d, rfl, hd⟩ := matches_cls.1 h3
      refine six _ [d] t a insert_rule (by decide) h1 e3 ?_ (notail htail.1 h4)
      intro d' hd'
      rw [List.mem_singleton.1 hd']
      exact sub_has (by decide) hd
    · rw [h] at hm
      obtain ⟨a, b, e3, h1, h2⟩ := matches_clss hm
      obtain ⟨s, t, rfl, h3, h4⟩ := matches_seq.1 h2
      exact six _ s t a delete_rule (by decide) h1 e3 (fun d hd => within_has h3 (by decide) d hd) (notail htail.1 h4)
    · rw [h] at hm
      obtain ⟨a, b, e3, h1, h2⟩ := matches_clss hm
      obtain ⟨s, t, rfl, h3, h4⟩ := matches_seq.1 h2
      exact six _ s t a delete_rule (by decide) h1 e3 (fun d hd => within_has h3 (by decide) d hd) (notail htail.2 h4)
  · exfalso
    obtain ⟨hre, -⟩ := comment_is hr hb
    rw [hre, comment_matches] at hm
    obtain ⟨y, e1, h1⟩ := hm
    have hc : c = '#' := by
      rw [hcv] at e1
      simp only [List.cons_append, List.cons.injEq] at e1
      exact e1.1
    subst hc
    have hk := comment_start hrp (hcv ▸ hmp)
    rw [hkp] at hk
    have hp' := hp
    rw [hk] at hp'
    have hl := (longest_comment.1 hp').2
    obtain ⟨x, w, exw⟩ : ∃ x w, flat A2 = x :: w := by
      cases hf : flat A2 with
      | cons x w => exact ⟨x, w, rfl⟩
      | nil =>
        rw [hA, flat_append] at hf
        have := (List.append_eq_nil_iff.1 hf).2
        exact absurd (by simpa [flat] using this) (hne q (by rw [hA]; simp))
    have h2 := hl x (w ++ X) (by rw [exw]; rfl)
    have h3 := h1 x (by
      rw [hcv, exw] at e1
      simp only [List.cons_append, List.cons.injEq, true_and] at e1
      rw [← e1]; simp)
    rw [h2] at h3; cases h3
  · have hquote : quoteClass.has c = true := by
      rcases string_class c with h | h
      · exfalso
        refine noRuleOf_sound string_first hr (List.contains_iff_mem.1 hb) (w := p.2 ++ flat A2 ++ ' ' :: z) ?_ hm
        rw [hcv]
        exact matches_cons h (anyText_matches _)
      · exact h
    have hks : rp.kind ∈ stringKinds := by
      apply Classical.byContradiction
      intro h
      refine noRule_sound quote_first hrp h (w := p.2) ?_ hmp
      rw [hcv]
      exact matches_cons hquote (anyText_matches _)
    have h := List.all_eq_true.1 cross_string r hr
    simp only [hb, Bool.not_true, Bool.false_or] at h
    have h := List.all_eq_true.1 h rp hrp
    simp only [List.contains_iff_mem.2 hks, Bool.not_true, Bool.false_or, Bool.or_eq_true] at h
    rcases h with h | h
    · exfalso
      obtain ⟨x, y, exy⟩ : ∃ x y, flat A2 ++ ' ' :: z = x :: y := by
        cases flat A2 with
        | nil => exact ⟨_, _, rfl⟩
        | cons x y => exact ⟨_, _, rfl⟩
      rw [List.append_assoc, exy] at hm
      exact apart_disjoint h _ (matches_seq.2 ⟨_, _, rfl, hmp, matches_cons (any_has x) (anyText_matches _)⟩) hm
    · simp only [Bool.and_eq_true, Bool.not_eq_true'] at h
      obtain ⟨l, hl, h1⟩ := List.any_eq_true.1 h.1
      exact ⟨⟨l, hl, by simpa using h1⟩, h.2⟩

theorem bound_rules : lexRules.all (fun r => !r.boundary || (within wordChar r.re &&
    lexRules.all (fun q => q.boundary || apart 60 [] (seqs [q.re, .cls anyChar, anyText]) r.re))) = true := by decide +kernel

/-- No rule that ends at the end of a word reads a token and more. -/
theorem bound_cross {p : Kind × Text} {x : Char} {y X : Text} (hp : Longest (p.2 ++ (x :: y ++ X)) p.1 p.2) {r : LexRule} (hr : r ∈ lexRules)
    (hb : r.boundary = true) : ¬ Matches r.re (p.2 ++ x :: y) := by
  intro hm
  have h := List.all_eq_true.1 bound_rules r hr
  simp only [hb, Bool.not_true, Bool.false_or, Bool.and_eq_true] at h
  obtain ⟨rp, hrp, hkp, after, e, hmp, hbp⟩ := hp.rule
  have h2 := List.all_eq_true.1 h.2 rp hrp
  simp only [Bool.or_eq_true] at h2
  rcases h2 with h2 | h2
  · have h3 := hbp h2
    rw [← List.append_cancel_left e] at h3
    have h4 := within_has hm h.1 x (by simp)
    have h3 : (!wordChar.has x) = true := h3
    rw [h4] at h3; cases h3
  · exact apart_disjoint h2 _ (matches_seq.2 ⟨_, _, rfl, hmp, matches_cons (any_has x) (anyText_matches _)⟩) hm

/-- **Text that starts with a blank behind a significant token.** The tokens in front of the gap stay. The text `d` behind the token
goes. -/
theorem lexes_insert {A B I : List (Kind × Text)} {d i C : Text} (h : Lexes (flat A ++ (d ++ C)) (A ++ B)) (hE : ∀ p ∈ A, p.1 ≠ K.Error)
    (hne : ∀ p ∈ A, p.2 ≠ []) {A0 : List (Kind × Text)} {q : Kind × Text} (hA : A = A0 ++ [q]) (hs : triviaKind q.1 = false)
    (hsafe : (safeOf q.1).has ' ' = true) (hd : ∀ c ∈ d, plainClass.has c = true) (hi : Calm (' ' :: i)) (hI : Lexes (' ' :: i ++ C) I) :
    Lexes (flat A ++ (' ' :: i ++ C)) (A ++ I) := by
  induction A generalizing A0 with
  | nil => cases A0 <;> cases hA
  | cons p A ih =>
    obtain ⟨k, w⟩ := p
    have hfl : ∀ X : Text, flat ((k, w) :: A) ++ X = w ++ (flat A ++ X) := by
      intro X
      simp [flat]
    rw [hfl] at h ⊢
    generalize hx : w ++ (flat A ++ (d ++ C)) = x at h
    generalize hl : ((k, w) :: A) ++ B = l at h
    cases h with
    | nil => cases hl
    | @err w' after l' h' hw hs' =>
      simp only [List.cons_append, List.cons.injEq, Prod.mk.injEq] at hl
      exact absurd hl.1.1 (hE (k, w) List.mem_cons_self)
    | @tok k' w' after l' h' hs' =>
      simp only [List.cons_append, List.cons.injEq, Prod.mk.injEq] at hl
      obtain ⟨⟨rfl, rfl⟩, rfl⟩ := hl
      have hx := List.append_cancel_left hx
      subst hx
      cases A0 with
      | nil =>
        simp only [List.nil_append, List.cons.injEq] at hA
        obtain ⟨rfl, rfl⟩ := hA
        refine Lexes.tok ?_ (by simpa [flat] using hI)
        obtain ⟨r, hr, hk, -, -, hm, -⟩ := h'.rule
        rw [← hk]
        refine longest_at hr hm ?_
        intro c y e
        have e : ' ' :: (i ++ C) = c :: y := e
        simp only [List.cons.injEq] at e
        rw [← e.1, hk]; exact hsafe
      | cons p0 A0 =>
        simp only [List.cons_append, List.cons.injEq] at hA
        obtain ⟨rfl, hA⟩ := hA
        refine Lexes.tok ?_ (ih hs' (fun p hp => hE p (List.mem_cons_of_mem _ hp)) (fun p hp => hne p (List.mem_cons_of_mem _ hp)) hA)
        have hneA : ∀ t ∈ A, t.2 ≠ [] := fun t ht => hne t (List.mem_cons_of_mem _ ht)
        obtain ⟨x, y, exy⟩ : ∃ x y, flat A = x :: y := by
          cases hf : flat A with
          | cons x y => exact ⟨x, y, rfl⟩
          | nil =>
            rw [hA, flat_append] at hf
            have := (List.append_eq_nil_iff.1 hf).2
            exact absurd (by simpa [flat] using this) (hneA q (by rw [hA]; simp))
        have hq : ∃ r ∈ lexRules, r.kind = q.1 ∧ Matches r.re q.2 := by
          have := lexes_rule hs' (p := q) (by rw [hA]; simp) (hE q (List.mem_cons_of_mem _ (by rw [hA]; simp)))
          exact this
        obtain ⟨r, hr, hk, after, e, hm, hb⟩ := h'.rule
        have e := List.append_cancel_left e
        refine ⟨⟨r, hr, hk, _, rfl, hm, fun hbd => ?_⟩, ?_⟩
        · have := hb hbd
          rw [← e, exy] at this
          rw [exy]; exact this
        · rintro r' hr' u ⟨after', e', hm', hb'⟩
          -- within the old text
          have old : ∀ v, u = w ++ flat A ++ v → v ≠ [] → False := by
            intro v hv hv0
            have e2 : v ++ after' = ' ' :: i ++ C := by
              rw [hv] at e'
              simp only [List.append_assoc] at e'
              exact (List.append_cancel_left (List.append_cancel_left e')).symm
            obtain ⟨v', rfl⟩ : ∃ v', v = ' ' :: v' := by
              cases v with
              | nil => exact absurd rfl hv0
              | cons c v => simp only [List.cons_append, List.cons.injEq] at e2; exact ⟨v, by rw [e2.1]⟩
            rw [hv] at hm'
            obtain ⟨⟨l, hl, hre⟩, hnb⟩ := cross (p := (k, w)) (X := d ++ C) h' hA hq hs hneA hr' hm'
            rw [hre] at hm'
            obtain ⟨k1, k2⟩ := long_insert hl (U := w ++ flat A) hi hd
            rcases List.append_eq_append_iff.1 e2 with ⟨b, e3, e4⟩ | ⟨b, e3, e4⟩
            · exact k1 _ b e3 (by simp) hm'
            · rw [e3] at hm'
              obtain ⟨y1, y2, e5, h6⟩ := k2 b hm'
              have := h'.longest r' hr' (w ++ flat A ++ (d ++ y1)) ⟨y2 ++ after', by rw [e4, e5]; simp, by rw [hre]; exact h6,
                fun h => by rw [hnb] at h; cases h⟩
              rw [exy] at this
              simp only [List.length_append, List.length_cons] at this
              omega
          have e' : (w ++ flat A) ++ (' ' :: i ++ C) = u ++ after' := by rw [← e']; simp
          rcases List.append_eq_append_iff.1 e' with ⟨v, e1, e2⟩ | ⟨v, e1, e2⟩
          · cases v with
            | cons c v => exact (old (c :: v) e1 (by simp)).elim
            | nil =>
              exfalso
              rw [List.append_nil] at e1
              subst e1
              cases hbd : r'.boundary with
              | true =>
                rw [exy] at hm'
                exact bound_cross (p := (k, w)) (x := x) (y := y) (X := d ++ C) (by rw [← exy]; exact h') hr' hbd hm'
              | false =>
                have := h'.longest r' hr' _ ⟨d ++ C, by simp, hm', fun h => by rw [hbd] at h; cases h⟩
                rw [exy] at this
                simp only [List.length_append, List.length_cons] at this
                omega
          · cases v with
            | nil =>
              exfalso
              rw [List.append_nil] at e1
              subst e1
              cases hbd : r'.boundary with
              | true =>
                rw [exy] at hm'
                exact bound_cross (p := (k, w)) (x := x) (y := y) (X := d ++ C) (by rw [← exy]; exact h') hr' hbd hm'
              | false =>
                have := h'.longest r' hr' _ ⟨d ++ C, by simp, hm', fun h => by rw [hbd] at h; cases h⟩
                rw [exy] at this
                simp only [List.length_append, List.length_cons] at this
                omega
            | cons c v =>
              refine h'.longest r' hr' u ⟨(c :: v) ++ (d ++ C), by rw [← List.append_assoc, e1]; simp, hm', fun h => ?_⟩
              have := hb' h
              rw [e2] at this
              exact this

end Verif.Lexer
