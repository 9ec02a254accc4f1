import Verif.NTriples.Model
import Verif.TextLemmas
/-!
# C31: N-Triples
-/
namespace Verif.Props
open Verif Verif.Lexer Verif.NT

/-- Tokens that are not comments. -/
def noComments (ts : List (Option NTok)) : List (Option NTok) := ts.filter (fun o => !(o.map (·.kind) == some .comment))

theorem loop_noComments (ts : List (Option NTok)) : ∀ st, loop ts st = loop (noComments ts) st := by
  induction ts with
  | nil => intro st; rfl
  | cons o ts ih =>
    intro st
    cases o with
    | none => rfl
    | some t =>
      by_cases h : t.kind = .comment
      · have : noComments (some t :: ts) = noComments ts := by simp [noComments, h]
        rw [this, ← ih]
        simp [loop, h]
      · have : noComments (some t :: ts) = some t :: noComments ts :=
          List.filter_cons_of_pos (by cases hk : t.kind <;> simp_all <;> decide)
        rw [this]
        simp only [loop, if_neg h]
        cases step st t with
        | none => rfl
        | some st' => exact ih st'

theorem noComments_kind {ts : List (Option NTok)} {t : NTok} (h : some t ∈ noComments ts) : t.kind ≠ .comment := by
  intro hk
  simp [noComments, hk] at h

/-- Reading whole statements. -/
theorem loop_stmts : ∀ (xs : List Stmt) (st : St), st.counter = 0 → (∀ x ∈ xs, x.Ok) →
    loop ((xs.flatMap Stmt.tokens).map some) st = some (st.triples ++ xs.map Stmt.triple, st.errors ++ xs.flatMap Stmt.errs) := by
  intro xs
  induction xs with
  | nil =>
    intro st hc _
    simp [loop, hc]
  | cons x xs ih =>
    intro st hc hx
    obtain ⟨hs, hp, ho, hd⟩ := hx x (by simp)
    have hx' : ∀ y ∈ xs, y.Ok := fun y hy => hx y (List.mem_cons_of_mem _ hy)
    obtain ⟨c, sub, pre, tr, er⟩ := st
    have hc : c = 0 := hc
    subst hc
    have h := ih ⟨0, x.s.text, x.p.text, tr ++ [x.triple], er ++ x.errs⟩ rfl hx'
    simp only [List.append_assoc] at h
    rcases hs with hs | hs | hs <;> rcases hp with hp | hp | hp <;> rcases ho with ho | ho | ho <;>
      simpa [loop, Stmt.tokens, step, hs, hp, ho, hd, Stmt.errs, Stmt.triple] using h

theorem loop_zero_inv : ∀ (n : Nat) (ts : List (Option NTok)) (st : St) (r), ts.length ≤ n → st.counter = 0 →
    (∀ t, some t ∈ ts → t.kind ≠ .comment) → loop ts st = some r →
    ∃ xs : List Stmt, (∀ x ∈ xs, x.Ok) ∧ ts = (xs.flatMap Stmt.tokens).map some := by
  have term1 : ∀ (st st' : St) (t : NTok), st.counter ≤ 2 → step st t = some st' → t.isTerm ∧ st'.counter = st.counter + 1 := by
    intro st st' t hc h
    obtain ⟨c, sub, pre, tr, er⟩ := st
    simp only at hc
    unfold NTok.isTerm
    have : c = 0 ∨ c = 1 ∨ c = 2 := by omega
    rcases this with rfl | rfl | rfl <;> cases hk : t.kind <;> simp [step, hk] at h <;> subst h <;> simp
  have dot1 : ∀ (st st' : St) (t : NTok), st.counter = 3 → step st t = some st' → t.kind = .dot ∧ st'.counter = 0 := by
    intro st st' t hc h
    obtain ⟨c, sub, pre, tr, er⟩ := st
    simp only at hc
    subst hc
    cases hk : t.kind <;> simp [step, hk] at h <;> subst h <;> simp
  have cons1 : ∀ (ts : List (Option NTok)) (st : St) (r), (∀ t, some t ∈ ts → t.kind ≠ .comment) → loop ts st = some r →
      ts ≠ [] → ∃ t ts' st', ts = some t :: ts' ∧ step st t = some st' ∧ loop ts' st' = some r := by
    intro ts st r hc h hne
    cases ts with
    | nil => exact absurd rfl hne
    | cons o ts =>
      cases o with
      | none => simp [loop] at h
      | some t =>
        simp only [loop, if_neg (hc t (by simp))] at h
        cases hs : step st t with
        | none => rw [hs] at h; cases h
        | some st' => rw [hs] at h; exact ⟨t, ts, st', rfl, hs, h⟩
  have nonempty : ∀ (ts : List (Option NTok)) (st : St) (r), loop ts st = some r → st.counter ≠ 0 → ts ≠ [] := by
    rintro ts st r h hc rfl
    simp [loop, hc] at h
  intro n
  induction n with
  | zero =>
    intro ts st r hl hc _ h
    have : ts = [] := by simpa using hl
    subst this
    exact ⟨[], by simp, rfl⟩
  | succ n ih =>
    intro ts st r hl hc hk h
    by_cases hne : ts = []
    · subst hne; exact ⟨[], by simp, rfl⟩
    obtain ⟨t1, ts1, st1, rfl, e1, h1⟩ := cons1 ts st r hk h hne
    obtain ⟨g1, c1⟩ := term1 st st1 t1 (by omega) e1
    rw [hc] at c1
    have hk1 : ∀ t, some t ∈ ts1 → t.kind ≠ .comment := fun t ht => hk t (List.mem_cons_of_mem _ ht)
    obtain ⟨t2, ts2, st2, rfl, e2, h2⟩ := cons1 ts1 st1 r hk1 h1 (nonempty _ _ _ h1 (by omega))
    obtain ⟨g2, c2⟩ := term1 st1 st2 t2 (by omega) e2
    have hk2 : ∀ t, some t ∈ ts2 → t.kind ≠ .comment := fun t ht => hk1 t (List.mem_cons_of_mem _ ht)
    obtain ⟨t3, ts3, st3, rfl, e3, h3⟩ := cons1 ts2 st2 r hk2 h2 (nonempty _ _ _ h2 (by omega))
    obtain ⟨g3, c3⟩ := term1 st2 st3 t3 (by omega) e3
    have hk3 : ∀ t, some t ∈ ts3 → t.kind ≠ .comment := fun t ht => hk2 t (List.mem_cons_of_mem _ ht)
    obtain ⟨t4, ts4, st4, rfl, e4, h4⟩ := cons1 ts3 st3 r hk3 h3 (nonempty _ _ _ h3 (by omega))
    obtain ⟨g4, c4⟩ := dot1 st3 st4 t4 (by omega) e4
    have hk4 : ∀ t, some t ∈ ts4 → t.kind ≠ .comment := fun t ht => hk3 t (List.mem_cons_of_mem _ ht)
    obtain ⟨xs, hx, rfl⟩ := ih ts4 st4 r (by simp only [List.length_cons] at hl; omega) c4 hk4 h4
    refine ⟨⟨t1, t2, t3, t4⟩ :: xs, ?_, by simp [Stmt.tokens]⟩
    intro x hx'
    rcases List.mem_cons.1 hx' with rfl | hx'
    · exact ⟨g1, g2, g3, g4⟩
    · exact hx x hx'

/-- **C31.** A token stream is accepted iff, comments removed, it is a sequence of statements `s p o .`; the triples are
these statements in order, the complaints those about literal subjects and predicates that are not IRIs. -/
theorem c31_exact (ts : List (Option NTok)) (triples : List Triple) (errors : List PErr) :
    parseTokens ts = some (triples, errors) ↔
      ∃ xs : List Stmt, (∀ x ∈ xs, x.Ok) ∧ noComments ts = (xs.flatMap Stmt.tokens).map some ∧
        triples = xs.map Stmt.triple ∧ errors = xs.flatMap Stmt.errs := by
  unfold parseTokens
  rw [loop_noComments]
  constructor
  · intro h
    obtain ⟨xs, hx, e⟩ := loop_zero_inv _ _ _ _ (Nat.le_refl _) rfl (fun t ht => noComments_kind ht) h
    refine ⟨xs, hx, e, ?_⟩
    have h' := loop_stmts xs ⟨0, [], [], [], []⟩ rfl hx
    rw [e, h'] at h
    simp only [List.nil_append, Option.some.injEq, Prod.mk.injEq] at h
    exact ⟨h.1.symm, h.2.symm⟩
  · rintro ⟨xs, hx, e, rfl, rfl⟩
    have h' := loop_stmts xs ⟨0, [], [], [], []⟩ rfl hx
    rw [e, h']
    simp

/-- Example: `_:a <p> _:b .` with a comment in between. -/
example : parseTokens [some ⟨.blank, ['_', ':', 'a'], 0, 3⟩, some ⟨.comment, ['#'], 4, 5⟩, some ⟨.blank, ['<', '>'], 6, 8⟩,
    some ⟨.literal, ['1'], 9, 10⟩, some ⟨.dot, ['.'], 11, 12⟩] =
    some ([⟨['_', ':', 'a'], ['<', '>'], ['1']⟩], [⟨6, 8, .blankPredicate⟩]) := by decide

/-! ## Texts -/

/-- What can follow a token in a written document: a separator or a carriage return, or a dot and then one of these. -/
def sepRe : Regex := .cls [(0x20, 0x20), (0x09, 0x0A), (0x0C, 0x0D), (0x23, 0x23)]
def anyRe : Regex := .star (.cls [(0, 0x10FFFF)])
def behindRe : Regex := .alt (.seq sepRe anyRe) (.seq dotRe (opt (.seq sepRe anyRe)))

/-- Behind each token kind no rule matches any further. -/
theorem nt_maximal : (ntRules.filter (fun r => Nat.ble 2 r.kind)).all (fun r =>
    ntRules.all (fun r' => apart 100 [] (.seq r.re behindRe) r'.re && (r.kind == r'.kind || apart 100 [] r.re r'.re))) = true := by
  decide +kernel

theorem nt_not_nullable : ntRules.all (fun r => !r.re.nullable && !r.boundary) = true := by decide +kernel

theorem nt_pos {rest : Text} {n : Nat} {k : Nat} (h : bestOf ntRules rest = some (n, k)) : 1 ≤ n := by
  obtain ⟨⟨r, hr, -, hm⟩, -, -⟩ := bestOf_some h
  rcases Nat.eq_zero_or_pos n with rfl | h
  · exfalso
    obtain ⟨_, _, hm, _⟩ := hm
    have := List.all_eq_true.1 nt_not_nullable r hr
    rw [List.take_zero] at hm
    rw [(nullable_iff _).2 hm] at this
    cases this
  · exact h

theorem nt_matchesAt {r : LexRule} (hr : r ∈ ntRules) {w rest : Text} (h : Matches r.re w) : MatchesAt r (w ++ rest) w := by
  refine ⟨rest, rfl, h, fun hb => ?_⟩
  have := List.all_eq_true.1 nt_not_nullable r hr
  rw [hb] at this
  simp at this

/-- If every nonempty beginning of what follows is excluded, the token is read. -/
theorem bestOf_eq {r : LexRule} (hr : r ∈ ntRules) {w rest : Text} (hm : Matches r.re w)
    (hmax : ∀ r' ∈ ntRules, ∀ u v, u ≠ [] → rest = u ++ v → ¬ Matches r'.re (w ++ u))
    (hkind : ∀ r' ∈ ntRules, Matches r'.re w → r'.kind = r.kind) :
    bestOf ntRules (w ++ rest) = some (w.length, r.kind) := by
  cases hb : bestOf ntRules (w ++ rest) with
  | none => exact absurd (nt_matchesAt hr hm) (bestOf_none hb r hr w)
  | some p =>
    obtain ⟨n, k⟩ := p
    obtain ⟨⟨r', hr', hk, hm'⟩, hn, hl⟩ := bestOf_some hb
    have h1 := hl r hr w (nt_matchesAt hr hm)
    obtain ⟨_, _, hm', _⟩ := hm'
    have e : (w ++ rest).take n = w ++ rest.take (n - w.length) := by
      rw [List.take_append, List.take_of_length_le h1]
    rw [e] at hm'
    have h0 : rest.take (n - w.length) = [] := by
      by_contra hne
      exact hmax r' hr' _ _ hne (List.take_append_drop _ _).symm hm'
    rw [h0, List.append_nil] at hm'
    have hn' : n = w.length := by
      rcases List.take_eq_nil_iff.1 h0 with h | h
      · omega
      · subst h; simp at hn; omega
    rw [← hk, hkind r' hr' hm', hn']

/-- What follows begins as in a written document. -/
def Behind (rest : Text) : Prop := ∀ u v, u ≠ [] → rest = u ++ v → Matches behindRe u

theorem bestOf_tok {r : LexRule} (hr : r ∈ ntRules) (hk : 2 ≤ r.kind) {w rest : Text} (hm : Matches r.re w) (hb : Behind rest) :
    bestOf ntRules (w ++ rest) = some (w.length, r.kind) := by
  have hc := List.all_eq_true.1 nt_maximal r (List.mem_filter.2 ⟨hr, by simpa using hk⟩)
  rw [List.all_eq_true] at hc
  refine bestOf_eq hr hm ?_ ?_
  · intro r' hr' u v hu hv hm'
    have := hc r' hr'
    rw [Bool.and_eq_true] at this
    exact apart_disjoint this.1 _ (.seq hm (hb u v hu hv)) hm'
  · intro r' hr' hm'
    have := hc r' hr'
    rw [Bool.and_eq_true, Bool.or_eq_true] at this
    rcases this.2 with h | h
    · exact (by simpa using h : r.kind = r'.kind).symm
    · exact absurd hm' (apart_disjoint h _ hm)

theorem lexGo_fuel (f : Nat) : ∀ (f' off : Nat) (rest : Text), rest.length ≤ f → rest.length ≤ f' →
    lexGo f off rest = lexGo f' off rest := by
  induction f with
  | zero =>
    intro f' off rest h _
    have : rest = [] := by simpa using h
    subst this
    cases f' <;> rfl
  | succ f ih =>
    intro f' off rest h h'
    cases rest with
    | nil => cases f' <;> rfl
    | cons c cs =>
      cases f' with
      | zero => simp at h'
      | succ f' =>
        simp only [NT.lexGo]
        cases hb : bestOf ntRules (c :: cs) with
        | none => rfl
        | some p =>
          obtain ⟨n, k⟩ := p
          have hn := nt_pos hb
          simp only [List.length_cons] at h h'
          have := ih f' (off + blen ((c :: cs).take n)) ((c :: cs).drop n) (by simp; omega) (by simp; omega)
          simp only [this]

/-- The tokens of a text that begins at offset `off`. -/
def lexAt (off : Nat) (text : Text) : List (Option NTok) := NT.lexGo text.length off text

theorem lexAt_nil (off : Nat) : lexAt off [] = [] := rfl

theorem lexAt_step {off : Nat} {w rest : Text} {k : Nat} (hw : w ≠ []) (h : bestOf ntRules (w ++ rest) = some (w.length, k)) :
    lexAt off (w ++ rest) = (match tkOf k with
      | none => []
      | some tk => [some ⟨tk, w, off, off + blen w⟩]) ++ lexAt (off + blen w) rest := by
  obtain ⟨c, cs, rfl⟩ := List.exists_cons_of_ne_nil hw
  unfold lexAt
  simp only [List.cons_append, List.length_cons, NT.lexGo]
  rw [List.cons_append] at h
  have e1 : (c :: (cs ++ rest)).take (c :: cs).length = c :: cs := by simp
  have e2 : (c :: (cs ++ rest)).drop (c :: cs).length = rest := by simp
  rw [h]
  dsimp only
  rw [e1, e2, lexGo_fuel (cs ++ rest).length rest.length _ rest (by simp) (Nat.le_refl _)]
  cases tkOf k <;> rfl

theorem lexAt_tok {r : LexRule} (hr : r ∈ ntRules) (hk : 2 ≤ r.kind) {tk : TK} (ht : tkOf r.kind = some tk) {off : Nat}
    {w rest : Text} (hm : Matches r.re w) (hb : Behind rest) :
    lexAt off (w ++ rest) = some ⟨tk, w, off, off + blen w⟩ :: lexAt (off + blen w) rest := by
  have hw : w ≠ [] := by
    rintro rfl
    have := List.all_eq_true.1 nt_not_nullable r hr
    rw [(nullable_iff _).2 hm] at this
    cases this
  rw [lexAt_step hw (bestOf_tok hr hk hm hb), ht]
  rfl

/-! ### Gaps -/

def wsCls : Class := [(0x20, 0x20), (0x09, 0x0A), (0x0C, 0x0C)]

theorem ws_iff (c : Char) : wsCls.has c = true ↔ IsWs c := by
  unfold IsWs wsCls Class.has
  simp only [List.any_cons, List.any_nil, Bool.or_false, Bool.or_eq_true, Bool.and_eq_true, Nat.ble_eq, Char.ext_iff,
    ← UInt32.toNat_inj]
  have h1 : (' ' : Char).val.toNat = 0x20 := rfl
  have h2 : ('\t' : Char).val.toNat = 0x09 := rfl
  have h3 : ('\n' : Char).val.toNat = 0x0A := rfl
  have h4 : (Char.ofNat 0x0C).val.toNat = 0x0C := rfl
  rw [h1, h2, h3, h4]
  show (_ ≤ c.val.toNat ∧ c.val.toNat ≤ _) ∨ _ ↔ _
  unfold Char.toNat
  omega

theorem nt_sep : ntRules.all (fun r => (r.kind == 0 || apart 100 [] (.seq (.cls wsCls) anyRe) r.re) &&
    apart 100 [] (.seq commentRe (.seq (.cls [(0x0A, 0x0A)]) anyRe)) r.re && (r.kind == 1 || apart 100 [] commentRe r.re)) = true := by
  decide +kernel

theorem any_all (w : Text) : Matches anyRe w :=
  matches_star_cls.2 (fun c _ => by
    have h : c.toNat ≤ 0x10FFFF := by
      have := c.valid
      unfold UInt32.isValidChar Nat.isValidChar at this
      unfold Char.toNat
      omega
    simp [Class.has, h])

/-- A line comment is one token. -/
theorem lexAt_comment {off : Nat} {body rest : Text} (hb : '\n' ∉ body) :
    lexAt off ('#' :: body ++ '\n' :: rest) =
      some ⟨.comment, '#' :: body, off, off + blen ('#' :: body)⟩ :: lexAt (off + blen ('#' :: body)) ('\n' :: rest) := by
  have hm : Matches commentRe ('#' :: body) := by
    show Matches (.seq _ _) (['#'] ++ body)
    refine .seq (.cls (by decide)) (matches_star_cls.2 (fun c hc => ?_))
    have h1 : c.toNat ≤ 0x10FFFF := by
      have := c.valid
      unfold UInt32.isValidChar Nat.isValidChar at this
      unfold Char.toNat
      omega
    have h2 : c.toNat ≠ 0x0A := by
      intro h
      refine hb ?_
      have : c = '\n' := by
        rw [Char.ext_iff, ← UInt32.toNat_inj]
        exact h
      rw [← this]; exact hc
    simp only [Class.has, List.any_cons, List.any_nil, Bool.or_false, Bool.or_eq_true, Bool.and_eq_true, Nat.ble_eq]
    omega
  have hr : (⟨1, commentRe, false⟩ : LexRule) ∈ ntRules := by simp [ntRules]
  have hbest := bestOf_eq (rest := '\n' :: rest) hr hm
    (fun r' hr' u v hu hv hm' => by
      have := List.all_eq_true.1 nt_sep r' hr'
      rw [Bool.and_eq_true, Bool.and_eq_true] at this
      obtain ⟨c, u', rfl⟩ := List.exists_cons_of_ne_nil hu
      have hc : c = '\n' := by simp at hv; exact hv.1.symm
      subst hc
      exact apart_disjoint this.1.2 _ (.seq hm (show Matches _ (['\n'] ++ u') from .seq (.cls (by decide)) (any_all u'))) hm')
    (fun r' hr' hm' => by
      have := List.all_eq_true.1 nt_sep r' hr'
      rw [Bool.and_eq_true, Bool.or_eq_true] at this
      rcases this.2 with h | h
      · simpa using h
      · exact absurd hm' (apart_disjoint h _ hm))
  rw [lexAt_step (by simp) hbest]
  rfl

theorem gap_drop (n : Nat) : ∀ {g : Text}, Gap g → n ≤ g.length → (∀ c ∈ g.take n, IsWs c) → Gap (g.drop n) := by
  induction n with
  | zero => intro g h _ _; simpa using h
  | succ n ih =>
    intro g h hn hw
    cases h with
    | nil => exact .nil
    | ws hc hg => exact ih hg (by simpa using hn) (fun c hc => hw c (by simp [hc]))
    | comment =>
      have := hw '#' (by simp)
      unfold IsWs at this
      exact absurd this (by decide)

/-- The next character is not white space. -/
def NotWs (rest : Text) : Prop := ∀ c cs, rest = c :: cs → ¬ IsWs c

theorem lexAt_gap (n : Nat) : ∀ (g : Text), g.length ≤ n → Gap g → ∀ (off : Nat) (rest : Text), NotWs rest →
    noComments (lexAt off (g ++ rest)) = noComments (lexAt (off + blen g) rest) := by
  induction n with
  | zero =>
    intro g hg _ off rest _
    have : g = [] := by simpa using hg
    subst this
    simp [blen]
  | succ n ih =>
    intro g hl hg off rest hr
    cases hg with
    | nil => simp [blen]
    | @comment body g hb hg =>
      rw [List.append_assoc, show '\n' :: g ++ rest = '\n' :: (g ++ rest) from rfl, lexAt_comment hb]
      have : noComments (some ⟨.comment, '#' :: body, off, off + blen ('#' :: body)⟩ ::
          lexAt (off + blen ('#' :: body)) ('\n' :: (g ++ rest))) = noComments (lexAt (off + blen ('#' :: body)) ('\n' :: (g ++ rest))) := by
        simp [noComments]
      rw [this, ← List.cons_append, ih ('\n' :: g) (by simp at hl ⊢; omega) (.ws (by simp [IsWs]) hg) _ rest hr]
      simp [blen_append, Nat.add_assoc]
    | @ws c g hc hg =>
      have hcw := (ws_iff c).2 hc
      cases hb : bestOf ntRules (c :: g ++ rest) with
      | none =>
        refine absurd (nt_matchesAt (r := ⟨0, skipRe, false⟩) (rest := g ++ rest) (by simp [ntRules]) (w := [c]) ?_)
          (bestOf_none hb _ (by simp [ntRules]) [c])
        show Matches (.seq _ _) ([c] ++ [])
        exact .seq (.cls hcw) .starNil
      | some p =>
        obtain ⟨m, k⟩ := p
        have hpos := nt_pos hb
        obtain ⟨⟨r, hrr, hk, hm⟩, hlen, -⟩ := bestOf_some hb
        obtain ⟨_, _, hm, _⟩ := hm
        obtain ⟨m, rfl⟩ : ∃ m', m = m' + 1 := ⟨m - 1, by omega⟩
        have hk0 : r.kind = 0 := by
          have := List.all_eq_true.1 nt_sep r hrr
          rw [Bool.and_eq_true, Bool.and_eq_true, Bool.or_eq_true] at this
          rcases this.1.1 with h | h
          · simpa using h
          · exact absurd hm (apart_disjoint h _ (show Matches _ ([c] ++ (g ++ rest).take m) from .seq (.cls hcw) (any_all _)))
        have hre : r = ⟨0, skipRe, false⟩ := by
          simp only [ntRules, List.mem_cons, List.not_mem_nil, or_false] at hrr
          rcases hrr with rfl | rfl | rfl | rfl | rfl | rfl | rfl | rfl <;> first | rfl | simp at hk0
        subst hre
        have hall : ∀ x ∈ (c :: g ++ rest).take (m + 1), IsWs x := by
          obtain ⟨u, v, e, h1, h2⟩ := matches_seq.1 (show Matches (.seq (.cls wsCls) (.star (.cls wsCls))) _ from hm)
          intro x hx
          rw [e] at hx
          rcases List.mem_append.1 hx with hx | hx
          · obtain ⟨y, rfl, hy⟩ := matches_cls.1 h1
            simp only [List.mem_singleton] at hx
            subst hx
            exact (ws_iff _).1 hy
          · exact (ws_iff _).1 (matches_star_cls.1 h2 x hx)
        have hle : m + 1 ≤ (c :: g).length := by
          by_contra hgt
          replace hgt : (c :: g).length < m + 1 := by omega
          cases rest with
          | nil => simp at hlen hgt; omega
          | cons d ds =>
            refine hr d ds rfl (hall d ?_)
            rw [List.take_append, List.take_of_length_le (by omega)]
            refine List.mem_append_right _ ?_
            obtain ⟨j, hj⟩ : ∃ j, m + 1 - (c :: g).length = j + 1 := ⟨m + 1 - (c :: g).length - 1, by omega⟩
            rw [hj]
            simp
        have htake : (c :: g ++ rest).take (m + 1) = (c :: g).take (m + 1) := by
          rw [List.take_append_of_le_length hle]
        rw [htake] at hall
        have hgap := gap_drop (m + 1) (.ws hc hg) hle hall
        have e : c :: g ++ rest = (c :: g).take (m + 1) ++ ((c :: g).drop (m + 1) ++ rest) := by
          rw [← List.append_assoc, List.take_append_drop]
        rw [e] at hb ⊢
        have hl1 : ((c :: g).take (m + 1)).length = m + 1 := by
          rw [List.length_take]; omega
        rw [lexAt_step (k := k) (by simp) (by rw [hl1]; exact hb)]
        have hk' : tkOf k = none := by rw [← hk]; rfl
        rw [hk']
        dsimp only
        rw [List.nil_append, ih _ (by simp at hl ⊢; omega) hgap _ rest hr, Nat.add_assoc, ← blen_append, List.take_append_drop]

/-! ### Documents -/

def sepCls : Class := [(0x20, 0x20), (0x09, 0x0A), (0x0C, 0x0D), (0x23, 0x23)]

/-- Nothing follows, or a separator does. -/
def SepHead (rest : Text) : Prop := ∀ c cs, rest = c :: cs → sepCls.has c = true

theorem behind_sep {rest : Text} (h : SepHead rest) : Behind rest := by
  intro u v hu hv
  obtain ⟨c, u', rfl⟩ := List.exists_cons_of_ne_nil hu
  exact .altL (show Matches _ ([c] ++ u') from .seq (.cls (h c (u' ++ v) hv)) (any_all u'))

theorem behind_dot {rest : Text} (h : SepHead rest) : Behind ('.' :: rest) := by
  intro u v hu hv
  obtain ⟨c, u', rfl⟩ := List.exists_cons_of_ne_nil hu
  have hc : c = '.' := by simp at hv; exact hv.1.symm
  subst hc
  have hr : rest = u' ++ v := by simpa using hv
  refine .altR (show Matches (.seq _ _) (['.'] ++ u') from .seq (.cls (by decide)) ?_)
  cases u' with
  | nil => exact .altR .eps
  | cons d u'' => exact .altL (show Matches _ ([d] ++ u'') from .seq (.cls (h d (u'' ++ v) hr)) (any_all u''))

theorem sepHead_gap {g rest : Text} (hg : Gap g) (hn : g ≠ []) : SepHead (g ++ rest) := by
  intro c cs e
  cases hg with
  | nil => exact absurd rfl hn
  | ws hc _ =>
    simp only [List.cons_append, List.cons.injEq] at e
    rw [← e.1]
    rcases hc with rfl | rfl | rfl | rfl <;> decide
  | comment _ _ =>
    simp only [List.cons_append, List.cons.injEq] at e
    rw [← e.1]
    decide

theorem sepHead_nil : SepHead [] := by intro c cs e; cases e

/-- A rule of a term. -/
theorem term_rule {w : Text} (h : IsIri w ∨ IsBlank w ∨ IsLiteral w) :
    ∃ r ∈ ntRules, 2 ≤ r.kind ∧ Matches r.re w ∧ ∃ tk, tkOf r.kind = some tk ∧
      (tk = .iri ∧ IsIri w ∨ tk = .blank ∧ IsBlank w ∨ tk = .literal ∧ IsLiteral w) := by
  rcases h with h | h | h
  · exact ⟨⟨3, iriRe, false⟩, by simp [ntRules], by decide, h, .iri, rfl, Or.inl ⟨rfl, h⟩⟩
  · exact ⟨⟨4, blankRe, false⟩, by simp [ntRules], by decide, h, .blank, rfl, Or.inr (Or.inl ⟨rfl, h⟩)⟩
  · have h' := h
    rcases h with h | h | h
    · exact ⟨⟨5, stringRe, false⟩, by simp [ntRules], by decide, h, .literal, rfl, Or.inr (Or.inr ⟨rfl, h'⟩)⟩
    · exact ⟨⟨5, decimalRe, false⟩, by simp [ntRules], by decide, h, .literal, rfl, Or.inr (Or.inr ⟨rfl, h'⟩)⟩
    · exact ⟨⟨5, integerRe, false⟩, by simp [ntRules], by decide, h, .literal, rfl, Or.inr (Or.inr ⟨rfl, h'⟩)⟩

theorem notWs_rule {r : LexRule} (hr : r ∈ ntRules) (hk : 2 ≤ r.kind) {w rest : Text} (hm : Matches r.re w) : NotWs (w ++ rest) := by
  intro c cs e hc
  cases w with
  | nil =>
    have := List.all_eq_true.1 nt_not_nullable r hr
    rw [(nullable_iff _).2 hm] at this
    cases this
  | cons d w =>
    have hd : d = c := by simp at e; exact e.1
    subst hd
    have := List.all_eq_true.1 nt_sep r hr
    rw [Bool.and_eq_true, Bool.and_eq_true, Bool.or_eq_true] at this
    rcases this.1.1 with h | h
    · have h0 : r.kind = 0 := by simpa using h
      rw [h0] at hk
      exact absurd hk (by decide)
    · exact apart_disjoint h _ (show Matches _ ([d] ++ w) from .seq (.cls ((ws_iff d).2 hc)) (any_all w)) hm

theorem notWs_term {w rest : Text} (h : IsIri w ∨ IsBlank w ∨ IsLiteral w) : NotWs (w ++ rest) := by
  obtain ⟨r, hr, hk, hm, -⟩ := term_rule h
  exact notWs_rule hr hk hm

theorem notWs_dot {rest : Text} : NotWs ('.' :: rest) := by
  intro c cs e hc
  simp only [List.cons.injEq] at e
  rw [← e.1] at hc
  unfold IsWs at hc
  exact absurd hc (by decide)

theorem noComments_cons {t : NTok} {ts : List (Option NTok)} (h : t.kind ≠ .comment) :
    noComments (some t :: ts) = some t :: noComments ts :=
  List.filter_cons_of_pos (by cases hk : t.kind <;> simp_all)

/-- A term and the gap behind it. -/
theorem lexAt_term {w g rest : Text} (h : IsIri w ∨ IsBlank w ∨ IsLiteral w) (hb : Behind (g ++ rest)) (hg : Gap g) (hr : NotWs rest)
    (off : Nat) : ∃ t : NTok, t.text = w ∧ (t.kind = .iri ∧ IsIri w ∨ t.kind = .blank ∧ IsBlank w ∨ t.kind = .literal ∧ IsLiteral w) ∧
      t.start = off ∧ t.stop = off + blen w ∧
      noComments (lexAt off (w ++ (g ++ rest))) = some t :: noComments (lexAt (off + blen w + blen g) rest) := by
  obtain ⟨r, hr', hk, hm, tk, htk, hc⟩ := term_rule h
  refine ⟨⟨tk, w, off, off + blen w⟩, rfl, hc, rfl, rfl, ?_⟩
  rw [lexAt_tok hr' hk htk hm hb, noComments_cons (by rcases hc with ⟨rfl, -⟩ | ⟨rfl, -⟩ | ⟨rfl, -⟩ <;> simp),
    lexAt_gap _ g (Nat.le_refl _) hg _ rest hr]

theorem lexAt_dot {rest : Text} (h : SepHead rest) (off : Nat) :
    lexAt off ('.' :: rest) = some ⟨.dot, ['.'], off, off + 1⟩ :: lexAt (off + 1) rest := by
  have := lexAt_tok (r := ⟨2, dotRe, false⟩) (by simp [ntRules]) (by decide) (tk := .dot) rfl (off := off) (w := ['.']) (rest := rest)
    (.cls (by decide)) (behind_sep h)
  exact this

/-- A kind names a form of term. -/
theorem iri_not_other {w : Text} (h : IsIri w) : ¬ IsBlank w ∧ ¬ IsLiteral w := by
  have hc := List.all_eq_true.1 nt_maximal ⟨3, iriRe, false⟩ (List.mem_filter.2 ⟨by simp [ntRules], by decide⟩)
  rw [List.all_eq_true] at hc
  have go : ∀ r' ∈ ntRules, r'.kind ≠ 3 → ¬ Matches r'.re w := by
    intro r' hr' hk
    have := hc r' hr'
    rw [Bool.and_eq_true, Bool.or_eq_true] at this
    rcases this.2 with h' | h'
    · exact absurd (by simpa using h' : (3 : Nat) = r'.kind).symm hk
    · exact apart_disjoint h' _ h
  refine ⟨go ⟨4, blankRe, false⟩ (by simp [ntRules]) (by decide), ?_⟩
  rintro (h' | h' | h')
  · exact go ⟨5, stringRe, false⟩ (by simp [ntRules]) (by decide) h'
  · exact go ⟨5, decimalRe, false⟩ (by simp [ntRules]) (by decide) h'
  · exact go ⟨5, integerRe, false⟩ (by simp [ntRules]) (by decide) h'

theorem blank_not_literal {w : Text} (h : IsBlank w) : ¬ IsLiteral w := by
  have hc := List.all_eq_true.1 nt_maximal ⟨4, blankRe, false⟩ (List.mem_filter.2 ⟨by simp [ntRules], by decide⟩)
  rw [List.all_eq_true] at hc
  have go : ∀ r' ∈ ntRules, r'.kind ≠ 4 → ¬ Matches r'.re w := by
    intro r' hr' hk
    have := hc r' hr'
    rw [Bool.and_eq_true, Bool.or_eq_true] at this
    rcases this.2 with h' | h'
    · exact absurd (by simpa using h' : (4 : Nat) = r'.kind).symm hk
    · exact apart_disjoint h' _ h
  rintro (h' | h' | h')
  · exact go ⟨5, stringRe, false⟩ (by simp [ntRules]) (by decide) h'
  · exact go ⟨5, decimalRe, false⟩ (by simp [ntRules]) (by decide) h'
  · exact go ⟨5, integerRe, false⟩ (by simp [ntRules]) (by decide) h'

/-- One written statement up to and including its dot. -/
theorem lexAt_stmt {t : Triple} (ht : IsTriple t) {g1 g2 g3 rest : Text} (h1 : Gap g1) (n1 : g1 ≠ []) (h2 : Gap g2) (n2 : g2 ≠ [])
    (h3 : Gap g3) (hr : SepHead rest) (off : Nat) :
    ∃ x : Stmt, x.Ok ∧ x.triple = t ∧ x.errs = [] ∧
      noComments (lexAt off (t.s ++ (g1 ++ (t.p ++ (g2 ++ (t.o ++ (g3 ++ '.' :: rest))))))) =
        x.tokens.map some ++ noComments (lexAt (off + blen (t.s ++ g1 ++ t.p ++ g2 ++ t.o ++ g3 ++ ['.'])) rest) := by
  obtain ⟨hs, hp, ho⟩ := ht
  have hs' : IsIri t.s ∨ IsBlank t.s ∨ IsLiteral t.s := by rcases hs with h | h <;> simp [h]
  have hbd : Behind (g3 ++ '.' :: rest) := by
    by_cases hg : g3 = []
    · subst hg; exact behind_dot hr
    · exact behind_sep (sepHead_gap h3 hg)
  obtain ⟨a, ea, ka, -, -, la⟩ := lexAt_term hs' (behind_sep (sepHead_gap h1 n1)) h1
    (notWs_term (rest := g2 ++ (t.o ++ (g3 ++ '.' :: rest))) (Or.inl hp)) off
  obtain ⟨b, eb, kb, -, -, lb⟩ := lexAt_term (Or.inl hp) (behind_sep (sepHead_gap h2 n2)) h2
    (notWs_term (rest := g3 ++ '.' :: rest) ho) (off + blen t.s + blen g1)
  obtain ⟨c, ec, kc, -, -, lc⟩ := lexAt_term ho hbd h3 notWs_dot (off + blen t.s + blen g1 + blen t.p + blen g2)
  have ka' : a.kind = .iri ∨ a.kind = .blank := by
    rcases ka with k | k | k
    · exact Or.inl k.1
    · exact Or.inr k.1
    · rcases hs with h | h
      · exact absurd k.2 (iri_not_other h).2
      · exact absurd k.2 (blank_not_literal h)
  have kb' : b.kind = .iri := by
    rcases kb with k | k | k
    · exact k.1
    · exact absurd k.2 (iri_not_other hp).1
    · exact absurd k.2 (iri_not_other hp).2
  refine ⟨⟨a, b, c, ⟨.dot, ['.'], off + blen t.s + blen g1 + blen t.p + blen g2 + blen t.o + blen g3,
    off + blen t.s + blen g1 + blen t.p + blen g2 + blen t.o + blen g3 + 1⟩⟩, ⟨?_, ?_, ?_, rfl⟩, ?_, ?_, ?_⟩
  · rcases ka' with k | k <;> simp [NTok.isTerm, k]
  · simp [NTok.isTerm, kb']
  · rcases kc with k | k | k <;> simp [NTok.isTerm, k.1]
  · simp [Stmt.triple, ea, eb, ec]
  · rcases ka' with k | k <;> simp [Stmt.errs, k, kb']
  · rw [la, lb, lc, lexAt_dot hr, noComments_cons (by simp)]
    have : blen ['.'] = 1 := rfl
    simp only [Stmt.tokens, blen_append, this, ← Nat.add_assoc]
    rfl

theorem writes_notWs {ts : List Triple} {text : Text} (h : Writes ts text) : NotWs text := by
  cases h with
  | nil => intro c cs e; cases e
  | last ht => 
    simp only [List.append_assoc]
    exact notWs_term (by rcases ht.1 with h | h <;> simp [h])
  | cons ht =>
    simp only [List.append_assoc]
    exact notWs_term (by rcases ht.1 with h | h <;> simp [h])

theorem lexAt_writes {ts : List Triple} {text : Text} (h : Writes ts text) : ∀ off, ∃ xs : List Stmt,
    (∀ x ∈ xs, x.Ok) ∧ noComments (lexAt off text) = (xs.flatMap Stmt.tokens).map some ∧ xs.map Stmt.triple = ts ∧
      xs.flatMap Stmt.errs = [] := by
  induction h with
  | nil => intro off; exact ⟨[], by simp, rfl, rfl, rfl⟩
  | @last t g1 g2 g3 ht h1 n1 h2 n2 h3 =>
    intro off
    obtain ⟨x, hx, e1, e2, l⟩ := lexAt_stmt ht h1 n1 h2 n2 h3 sepHead_nil off
    refine ⟨[x], by simpa using hx, ?_, by simp [e1], by simp [e2]⟩
    simp only [List.append_assoc] at l ⊢
    rw [l]
    simp [lexAt_nil, noComments]
  | @cons t g1 g2 g3 g4 ts text ht h1 n1 h2 n2 h3 h4 n4 hs ih =>
    intro off
    obtain ⟨x, hx, e1, e2, l⟩ := lexAt_stmt ht h1 n1 h2 n2 h3 (sepHead_gap (rest := text) h4 n4) off
    rw [lexAt_gap _ g4 (Nat.le_refl _) h4 _ text (writes_notWs hs)] at l
    obtain ⟨xs, hxs, el, et, ee⟩ := ih (off + blen (t.s ++ g1 ++ t.p ++ g2 ++ t.o ++ g3 ++ ['.']) + blen g4)
    refine ⟨x :: xs, ?_, ?_, by simp [e1, et], by simp [e2, ee]⟩
    · intro y hy
      rcases List.mem_cons.1 hy with rfl | hy
      · exact hx
      · exact hxs y hy
    · rw [el] at l
      have e : t.s ++ g1 ++ t.p ++ g2 ++ t.o ++ g3 ++ ['.'] ++ g4 ++ text =
          t.s ++ (g1 ++ (t.p ++ (g2 ++ (t.o ++ (g3 ++ '.' :: (g4 ++ text)))))) := by simp
      rw [e, l]
      simp

/-- **C31.** Whatever the layout - gaps of white space and comments, an optional gap before the dot, gaps at both ends - a
written list of triples is read back, in order, with nothing added and no complaint. -/
theorem c31_written {ts : List Triple} {g text : Text} (hg : Gap g) (h : Writes ts text) : NT.parse (g ++ text) = some (ts, []) := by
  unfold NT.parse
  refine (c31_exact _ _ _).2 ?_
  obtain ⟨xs, h1, h2, h3, h4⟩ := lexAt_writes h (0 + blen g)
  refine ⟨xs, h1, ?_, h3.symm, h4.symm⟩
  rw [← h2]
  exact lexAt_gap _ g (Nat.le_refl _) hg 0 text (writes_notWs h)

/-- **C31.** The canonical lines of any list of triples are read back as that list. -/
theorem c31_roundtrip (ts : List Triple) (h : ∀ t ∈ ts, IsTriple t) : NT.parse (ts.flatMap NT.render) = some (ts, []) := by
  have hg : ∀ c, IsWs c → Gap [c] := fun c hc => .ws hc .nil
  have w : Writes ts (ts.flatMap NT.render) := by
    induction ts with
    | nil => exact .nil
    | cons t ts ih =>
      have := Writes.cons (g1 := [' ']) (g2 := [' ']) (g3 := [' ']) (g4 := ['\n']) (h t (by simp)) (hg _ (by simp [IsWs])) (by simp)
        (hg _ (by simp [IsWs])) (by simp) (hg _ (by simp [IsWs])) (hg _ (by simp [IsWs])) (by simp)
        (ih (fun x hx => h x (List.mem_cons_of_mem _ hx)))
      simpa [NT.render] using this
  exact c31_written .nil w

theorem loop_no_error : ∀ (ts : List (Option NTok)) (st : St) r, loop ts st = some r → none ∉ ts := by
  intro ts
  induction ts with
  | nil => intro st r _; simp
  | cons o ts ih =>
    intro st r h
    cases o with
    | none => simp [loop] at h
    | some t =>
      simp only [loop] at h
      split at h
      · have := ih _ _ h; simp [this]
      · cases hs : step st t with
        | none => rw [hs] at h; cases h
        | some st' => rw [hs] at h; have := ih _ _ h; simp [this]

theorem lexAt_cr (off : Nat) (rest : Text) : lexAt off ('\r' :: rest) = [none] := by
  have h : bestOf ntRules ('\r' :: rest) = none := by
    cases hb : bestOf ntRules ('\r' :: rest) with
    | none => rfl
    | some p =>
      obtain ⟨n, k⟩ := p
      have hp := nt_pos hb
      obtain ⟨⟨r, hr, -, hm⟩, -, -⟩ := bestOf_some hb
      obtain ⟨_, _, hm, _⟩ := hm
      obtain ⟨n, rfl⟩ : ∃ m, n = m + 1 := ⟨n - 1, by omega⟩
      have hc : ntRules.all (fun r => apart 100 [] (.seq (.cls [(0x0D, 0x0D)]) anyRe) r.re) = true := by decide +kernel
      exact absurd hm (apart_disjoint (List.all_eq_true.1 hc r hr) _
        (show Matches _ (['\r'] ++ rest.take n) from .seq (.cls (by decide)) (any_all _)))
  unfold lexAt
  simp only [List.length_cons, NT.lexGo, h]

/-- **C31, the catch.** Carriage returns are no white space: a document with Windows line ends is rejected as a whole. -/
theorem c31_crlf {t : Triple} (ht : IsTriple t) {g1 g2 g3 rest : Text} (h1 : Gap g1) (n1 : g1 ≠ []) (h2 : Gap g2) (n2 : g2 ≠ [])
    (h3 : Gap g3) : NT.parse (t.s ++ g1 ++ t.p ++ g2 ++ t.o ++ g3 ++ ['.', '\r', '\n'] ++ rest) = none := by
  cases hp : NT.parse (t.s ++ g1 ++ t.p ++ g2 ++ t.o ++ g3 ++ ['.', '\r', '\n'] ++ rest) with
  | none => rfl
  | some r =>
    exfalso
    have hsep : SepHead ('\r' :: '\n' :: rest) := by
      intro c cs e
      simp only [List.cons.injEq] at e
      rw [← e.1]; decide
    obtain ⟨x, -, -, -, l⟩ := lexAt_stmt ht h1 n1 h2 n2 h3 hsep 0
    rw [lexAt_cr] at l
    have hn := loop_no_error _ _ _ hp
    have e : t.s ++ g1 ++ t.p ++ g2 ++ t.o ++ g3 ++ ['.', '\r', '\n'] ++ rest =
        t.s ++ (g1 ++ (t.p ++ (g2 ++ (t.o ++ (g3 ++ '.' :: '\r' :: '\n' :: rest))))) := by simp
    rw [e] at hn
    refine hn ?_
    have : (none : Option NTok) ∈ noComments (lexAt 0 (t.s ++ (g1 ++ (t.p ++ (g2 ++ (t.o ++ (g3 ++ '.' :: '\r' :: '\n' :: rest))))))) := by
      rw [l]
      simp [noComments]
    exact (List.mem_filter.1 this).1

/-- The hypotheses can be met: `<a> <b> "c"@en` is a triple. -/
theorem c31_example : IsTriple ⟨['<', 'a', '>'], ['<', 'b', '>'], ['"', 'c', '"', '@', 'e', 'n']⟩ :=
  ⟨Or.inl ((run_iff _ _).1 (by decide +kernel)), (run_iff _ _).1 (by decide +kernel),
    Or.inr (Or.inr (Or.inl ((run_iff _ _).1 (by decide +kernel))))⟩

end Verif.Props
