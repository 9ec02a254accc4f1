import Verif.Grammar.Loose
import Verif.Grammar.Sound
import Verif.Grammar.TreeLemmas
/-!
# Every run of the parser emits a forest that follows the grammar
-/
namespace Verif.Grammar
open Forest

theorem Word.exists (r : Rule) : ∃ w, Word r w := by
  induction r with
  | node k => exact ⟨_, .node k⟩
  | tok k => exact ⟨_, .tok k⟩
  | seq a b ha hb => obtain ⟨u, hu⟩ := ha; obtain ⟨v, hv⟩ := hb; exact ⟨_, .seq hu hv⟩
  | alt a b ha hb => obtain ⟨u, hu⟩ := ha; exact ⟨_, .altL hu⟩
  | opt r _ => exact ⟨_, .optNone r⟩
  | rep r _ => exact ⟨_, .repNil r⟩

theorem Loose.nil (r : Rule) : Loose r [] := by
  obtain ⟨w, hw⟩ := Word.exists r
  exact ⟨w, hw, List.nil_sublist _⟩

theorem Loose.seq {a b : Rule} {u v : List Sym} (ha : Loose a u) (hb : Loose b v) : Loose (.seq a b) (u ++ v) := by
  obtain ⟨p, hp, hp'⟩ := ha
  obtain ⟨q, hq, hq'⟩ := hb
  exact ⟨_, .seq hp hq, hp'.append hq'⟩

theorem Loose.rep {r : Rule} {u v : List Sym} (ha : Loose r u) (hb : Loose (.rep r) v) : Loose (.rep r) (u ++ v) := by
  obtain ⟨p, hp, hp'⟩ := ha
  obtain ⟨q, hq, hq'⟩ := hb
  exact ⟨_, .repCons hp hq, hp'.append hq'⟩

theorem Loose.map {r r' : Rule} {u : List Sym} (h : Loose r u) (h' : ∀ w, Word r w → Word r' w) : Loose r' u := by
  obtain ⟨p, hp, hp'⟩ := h
  exact ⟨p, h' p hp, hp'⟩

namespace Forest

/-- The symbols at the top of a forest over the given tokens. -/
def syms : Forest → List Kind → List Sym
  | nil, _ => []
  | tok r, w => (w.head?.map Sym.tok).toList ++ r.syms w.tail
  | err _ r, w => r.syms w
  | node k c r, w => (if k = K.Error ∨ c.toks = 0 then [] else [Sym.node k]) ++ r.syms (w.drop c.toks)

def onlyToks : Forest → Bool
  | nil => true
  | tok r => r.onlyToks
  | err _ r => r.onlyToks
  | node _ c r => c.toks == 0 && r.onlyToks

/-- Every node of the forest follows the grammar. -/
def Conf (R : Kind → Option Rule) : Forest → List Kind → Prop
  | nil, _ => True
  | tok r, w => r.Conf R w.tail
  | err _ r, w => r.Conf R w
  | node k c r, w =>
    (if k = K.Error then c.onlyToks = true else c.toks = 0 ∨ ∃ rule, R k = some rule ∧ Loose rule (c.syms w)) ∧
      c.Conf R w ∧ r.Conf R (w.drop c.toks)

theorem syms_append (F G : Forest) : ∀ w, (F.append G).syms w = F.syms w ++ G.syms (w.drop F.toks) := by
  induction F with
  | nil => intro w; simp [append, syms, toks]
  | tok r ih => intro w; simp [append, syms, toks, ih, List.drop_tail]
  | err e r ih => intro w; simp [append, syms, toks, ih]
  | node k c r _ ih => intro w; simp [append, syms, toks, ih]

theorem conf_append {R} (F G : Forest) : ∀ w, (F.append G).Conf R w ↔ F.Conf R w ∧ G.Conf R (w.drop F.toks) := by
  induction F with
  | nil => intro w; simp [append, Conf, toks]
  | tok r ih => intro w; simp [append, Conf, toks, ih, List.drop_tail]
  | err e r ih => intro w; simp [append, Conf, toks, ih]
  | node k c r _ ih => intro w; simp [append, Conf, toks, ih, and_assoc]

theorem syms_tokens (n : Nat) (w : List Kind) : (tokens n).syms w = (w.take n).map Sym.tok := by
  induction n generalizing w with
  | zero => simp [tokens, syms]
  | succ n ih => cases w <;> simp [tokens, syms, ih]

theorem conf_tokens {R} (n : Nat) (w : List Kind) : (tokens n).Conf R w := by
  induction n generalizing w with
  | zero => trivial
  | succ n ih => exact ih _

theorem onlyToks_tokens (n : Nat) : (tokens n).onlyToks = true := by
  induction n with
  | zero => rfl
  | succ n ih => exact ih

theorem syms_empty {F : Forest} (h : F.toks = 0) : ∀ w, F.syms w = [] := by
  induction F with
  | nil => intro w; rfl
  | tok r ih => simp [toks] at h
  | err e r ih => intro w; exact ih h w
  | node k c r _ ih =>
    intro w
    simp only [toks, Nat.add_eq_zero_iff] at h
    simp [syms, h.1, ih h.2]

theorem conf_empty {R} {F : Forest} (h : F.toks = 0) : ∀ w, F.Conf R w := by
  induction F with
  | nil => intro w; trivial
  | tok r ih => simp [toks] at h
  | err e r ih => intro w; exact ih h w
  | node k c r ihc ih =>
    intro w
    simp only [toks, Nat.add_eq_zero_iff] at h
    refine ⟨?_, ihc h.1 w, ih h.2 _⟩
    split
    · have : ∀ c : Forest, c.toks = 0 → c.onlyToks = true := by
        intro c
        induction c with
        | nil => intro _; rfl
        | tok r ih => intro h; simp [toks] at h
        | err e r ih => exact ih
        | node k c r _ ih =>
          intro h
          simp only [toks, Nat.add_eq_zero_iff] at h
          simp [onlyToks, h.1, ih h.2]
      exact this c h.1
    · exact Or.inl h.1

/-! ### Cleaning -/

theorem onlyToks_append (F G : Forest) : (F.append G).onlyToks = (F.onlyToks && G.onlyToks) := by
  induction F with
  | nil => simp [append, onlyToks]
  | tok r ih => simp [append, onlyToks, ih]
  | err e r ih => simp [append, onlyToks, ih]
  | node k c r _ ih => simp [append, onlyToks, ih, Bool.and_assoc]

theorem onlyToks_prune {F : Forest} (h : F.onlyToks = true) : F.prune.onlyToks = true := by
  induction F with
  | nil => rfl
  | tok r ih => exact ih h
  | err e r ih => exact ih h
  | node k c r ihc ih =>
    simp only [onlyToks, Bool.and_eq_true, beq_iff_eq] at h
    simp only [prune, h.1, if_true, onlyToks_append, ih h.2, Bool.and_true]
    apply ihc
    have : ∀ c : Forest, c.toks = 0 → c.onlyToks = true := by
      intro c
      induction c with
      | nil => intro _; rfl
      | tok r ih => intro h; simp [toks] at h
      | err e r ih => exact ih
      | node k c r _ ih =>
        intro h
        simp only [toks, Nat.add_eq_zero_iff] at h
        simp [onlyToks, h.1, ih h.2]
    exact this c h.1

theorem onlyToks_dropErr {F : Forest} (h : F.onlyToks = true) : F.dropErr.onlyToks = true ∧ F.dropErr.toks = F.toks := by
  have ht : ∀ F : Forest, F.dropErr.toks = F.toks := by
    intro F
    induction F with
    | nil => rfl
    | tok r ih => simp [dropErr, toks, ih]
    | err e r ih => simp [dropErr, toks, ih]
    | node k c r ihc ih => simp [dropErr, toks, ihc, ih]
  refine ⟨?_, ht F⟩
  induction F with
  | nil => rfl
  | tok r ih => exact ih h
  | err e r ih => exact ih h
  | node k c r _ ih =>
    simp only [onlyToks, Bool.and_eq_true, beq_iff_eq] at h
    simp [dropErr, onlyToks, ht, h.1, ih h.2]

theorem toks_dropErr (F : Forest) : F.dropErr.toks = F.toks := by
  induction F with
  | nil => rfl
  | tok r ih => simp [dropErr, toks, ih]
  | err e r ih => simp [dropErr, toks, ih]
  | node k c r ihc ih => simp [dropErr, toks, ihc, ih]

theorem syms_dropErr (F : Forest) : ∀ w, F.dropErr.syms w = F.syms w := by
  induction F with
  | nil => intro w; rfl
  | tok r ih => intro w; simp [dropErr, syms, ih]
  | err e r ih => intro w; simp [dropErr, syms, ih]
  | node k c r _ ih => intro w; simp [dropErr, syms, ih, toks_dropErr]

theorem conf_dropErr {R} {F : Forest} : ∀ w, F.Conf R w → F.dropErr.Conf R w := by
  induction F with
  | nil => intro w h; exact h
  | tok r ih => intro w h; exact ih _ h
  | err e r ih => intro w h; exact ih _ h
  | node k c r ihc ih =>
    rintro w ⟨h1, h2, h3⟩
    refine ⟨?_, ihc _ h2, by rw [toks_dropErr]; exact ih _ h3⟩
    split
    · next hk => rw [if_pos hk] at h1; exact (onlyToks_dropErr h1).1
    · next hk => rw [if_neg hk] at h1; rw [toks_dropErr, syms_dropErr]; exact h1

theorem syms_prune (F : Forest) : ∀ w, F.prune.syms w = F.syms w := by
  induction F with
  | nil => intro w; rfl
  | tok r ih => intro w; simp [prune, syms, ih]
  | err e r ih => intro w; simp [prune, syms, ih]
  | node k c r ihc ih =>
    intro w
    by_cases h : c.toks = 0
    · have h' : c.prune.toks = 0 := by rw [toks_prune, h]
      simp [prune, syms, h, syms_append, syms_empty h', h', ih]
    · simp [prune, syms, h, ih, toks_prune]

theorem conf_prune {R} {F : Forest} : ∀ w, F.Conf R w → F.prune.Conf R w := by
  induction F with
  | nil => intro w h; exact h
  | tok r ih => intro w h; exact ih _ h
  | err e r ih => intro w h; exact ih _ h
  | node k c r ihc ih =>
    rintro w ⟨h1, h2, h3⟩
    by_cases h : c.toks = 0
    · simp only [prune, h, if_true]
      rw [conf_append, toks_prune]
      exact ⟨ihc _ h2, ih _ h3⟩
    · simp only [prune, h, if_false]
      refine ⟨?_, ihc _ h2, by rw [toks_prune]; exact ih _ h3⟩
      split
      · next hk => rw [if_pos hk] at h1; exact onlyToks_prune h1
      · next hk => rw [if_neg hk] at h1; rw [toks_prune, syms_prune]; exact h1

end Forest

/-! ## Runs -/

theorem Step.toks_eq {s s' : PState} {F w} (h : Step s s' F w) : s'.toks = s.toks.drop F.toks := by
  rw [h.2.1, h.2.2]; simp

theorem errorUntil_next' {s s' : PState} {e rec : List Kind} (h : s.errorUntil e rec = .next s') :
    ∃ F w, Step s s' (.err e F) w ∧ (F = .nil ∨ ∃ n, F = .node K.Error (Forest.tokens n) .nil) := by
  unfold PState.errorUntil at h
  simp only at h
  have h0 := push_error_step s e
  split at h
  · simp at h
  · next c s1 hn =>
    have h1 := nth_step hn
    split at h
    · simp at h; subst h
      exact ⟨.nil, [], by simpa [append] using h0.trans h1, Or.inl rfl⟩
    · split at h
      · simp at h
      · next r f n hs =>
        simp at h; subst h
        obtain ⟨w, hw, -⟩ := skip_step hs
        have := h0.trans (h1.trans (bracket_step K.Error K.Error hw))
        exact ⟨_, _, by simpa [append] using this, Or.inr ⟨n, rfl⟩⟩

def LooseN (R : Kind → Option Rule) (r : Rule) (s s' : PState) : Prop :=
  ∃ F w, Step s s' F w ∧ Loose r (F.syms s.toks) ∧ F.Conf R s.toks

def LooseR (R : Kind → Option Rule) (mark : Nat) (root : Kind) (r : Rule) (s s' : PState) : Prop :=
  ∃ F w, RetStep mark root s s' F w ∧ Loose r (F.syms s.toks) ∧ F.Conf R s.toks

variable {R : Kind → Option Rule}

/-- A step that emits no symbol. -/
theorem LooseN.pre {r : Rule} {s t u : PState} {F w} (h : Step s t F w) (hs : F.syms s.toks = [])
    (hc : F.Conf R s.toks) (k : LooseN R r t u) : LooseN R r s u := by
  obtain ⟨F', w', h1, h2, h3⟩ := k
  rw [h.toks_eq] at h2 h3
  exact ⟨_, _, h.trans h1, by rw [syms_append, hs]; exact h2, by rw [conf_append]; exact ⟨hc, h3⟩⟩

theorem LooseR.pre {mark root} {r : Rule} {s t u : PState} {F w} (h : Step s t F w) (hs : F.syms s.toks = [])
    (hc : F.Conf R s.toks) (k : LooseR R mark root r t u) : LooseR R mark root r s u := by
  obtain ⟨F', w', h1, h2, h3⟩ := k
  rw [h.toks_eq] at h2 h3
  exact ⟨_, _, h1.pre h, by rw [syms_append, hs]; exact h2, by rw [conf_append]; exact ⟨hc, h3⟩⟩

theorem LooseN.empty (r : Rule) {s t : PState} {F w} (h : Step s t F w) (hs : F.syms s.toks = [])
    (hc : F.Conf R s.toks) : LooseN R r s t := ⟨F, w, h, by rw [hs]; exact Loose.nil r, hc⟩

theorem LooseN.map {r r' : Rule} {s t : PState} (h : LooseN R r s t) (h' : ∀ w, Word r w → Word r' w) :
    LooseN R r' s t := by
  obtain ⟨F, w, a, b, c⟩ := h; exact ⟨F, w, a, b.map h', c⟩

theorem LooseR.map {mark root} {r r' : Rule} {s t : PState} (h : LooseR R mark root r s t)
    (h' : ∀ w, Word r w → Word r' w) : LooseR R mark root r' s t := by
  obtain ⟨F, w, a, b, c⟩ := h; exact ⟨F, w, a, b.map h', c⟩

theorem LooseN.join {c x y : Rule} {s t u : PState}
    (hd : ∀ p q, Loose x p → Loose y q → Loose c (p ++ q))
    (h : LooseN R x s t) (k : LooseN R y t u) : LooseN R c s u := by
  obtain ⟨F, w, a1, a2, a3⟩ := h
  obtain ⟨F', w', b1, b2, b3⟩ := k
  rw [a1.toks_eq] at b2 b3
  exact ⟨_, _, a1.trans b1, by rw [syms_append]; exact hd _ _ a2 b2, by rw [conf_append]; exact ⟨a3, b3⟩⟩

theorem LooseR.join {mark root} {c x y : Rule} {s t u : PState}
    (hd : ∀ p q, Loose x p → Loose y q → Loose c (p ++ q))
    (h : LooseN R x s t) (k : LooseR R mark root y t u) : LooseR R mark root c s u := by
  obtain ⟨F, w, a1, a2, a3⟩ := h
  obtain ⟨F', w', b1, b2, b3⟩ := k
  rw [a1.toks_eq] at b2 b3
  exact ⟨_, _, b1.pre a1, by rw [syms_append]; exact hd _ _ a2 b2, by rw [conf_append]; exact ⟨a3, b3⟩⟩

theorem exec_loose {T : LL} {C : Cert} {P : Prod} {G : Grammar} (h : SoundOk T C P G R) (n : Nat) :
    ∀ (mark : Nat) (root : Kind) (r : Rule) (st : Stmt) (s : PState), closedR R r = true →
    (matchR T G r st = true →
      (∀ s', exec G n mark root st s = .next s' → LooseN R r s s') ∧
      (∀ s', exec G n mark root st s = .ret s' → LooseR R mark root r s s')) ∧
    (matchA T G r st = true →
      (∀ s', exec G n mark root st s = .next s' → LooseN R r s s') ∧
      (∀ s', exec G n mark root st s = .ret s' → LooseR R mark root r s s')) := by
  induction n with
  | zero =>
    intro mark root r st s _
    constructor <;> intro _ <;> constructor <;> intro s' hx <;> simp [exec] at hx
  | succ n ih =>
    intro mark root r st s hcl
    constructor
    · intro hm
      cases st with
      | skip => cases r <;> simp [matchR] at hm
      | sync ks => cases r <;> simp [matchR] at hm
      | arm ks b rest => cases r <;> simp [matchR] at hm
      | altEnd e => cases r <;> simp [matchR] at hm
      | seq a b =>
        by_cases hsync : ∃ ks, a = .sync ks
        · obtain ⟨ks, rfl⟩ := hsync
          simp only [matchR, Bool.and_eq_true, Bool.not_eq_true'] at hm
          simp only [exec]
          cases hx : exec G n mark root (.sync ks) s with
          | next s1 =>
            simp only
            have hst : ∃ F w, Step s s1 F w ∧ F.syms s.toks = [] ∧ F.Conf R s.toks := by
              cases n with
              | zero => simp [exec] at hx
              | succ n =>
                simp only [exec] at hx
                cases hn : s.nth with
                | none => rw [hn] at hx; simp at hx
                | some p =>
                  obtain ⟨c, s0⟩ := p
                  rw [hn] at hx
                  simp only at hx
                  split at hx
                  · simp at hx; subst hx; exact ⟨_, _, nth_step hn, rfl, trivial⟩
                  · obtain ⟨F, w, hF, hF'⟩ := errorUntil_next' hx
                    refine ⟨_, _, by simpa [append] using (nth_step hn).trans hF, ?_, ?_⟩
                    · rcases hF' with rfl | ⟨n, rfl⟩ <;> simp [syms]
                    · rcases hF' with rfl | ⟨n, rfl⟩ <;> simp [Conf, conf_tokens, onlyToks_tokens]
            obtain ⟨F, w, hst, hs1, hs2⟩ := hst
            have := (ih mark root r b s1 hcl).1 hm.2
            exact ⟨fun s' hs' => (this.1 s' hs').pre hst hs1 hs2, fun s' hs' => (this.2 s' hs').pre hst hs1 hs2⟩
          | ret s1 =>
            exfalso
            cases n with
            | zero => simp [exec] at hx
            | succ n =>
              simp only [exec] at hx
              cases hn : s.nth with
              | none => rw [hn] at hx; simp at hx
              | some p =>
                rw [hn] at hx
                simp only at hx
                split at hx
                · simp at hx
                · exact absurd hx errorUntil_not_ret
          | _ => simp
        · have hm' := matchR_seq_inv hsync hm
          obtain ⟨x, y, rfl, hm1, hm2⟩ := hm'
          simp only [closedR, Bool.and_eq_true] at hcl
          have ha := (ih mark root x a s hcl.1).1 hm1
          simp only [exec]
          cases hx : exec G n mark root a s with
          | next s1 =>
            simp only
            have h1 := ha.1 s1 hx
            have hb := (ih mark root y b s1 hcl.2).1 hm2
            exact ⟨fun s' hs' => h1.join (fun p q => Loose.seq) (hb.1 s' hs'),
              fun s' hs' => LooseR.join (fun p q => Loose.seq) h1 (hb.2 s' hs')⟩
          | ret s1 =>
            simp only
            refine ⟨by simp, fun s' hs' => ?_⟩
            simp at hs'; subst hs'
            obtain ⟨F, w, a1, a2, a3⟩ := ha.2 s1 hx
            refine ⟨F, w, a1, ?_, a3⟩
            have := Loose.seq a2 (Loose.nil y)
            simpa using this
          | _ => simp
      | expect k =>
        simp only [exec]
        refine ⟨fun s' hs' => ?_, fun s' hs' => absurd hs' expect_not_ret⟩
        cases r with
        | tok k' =>
          simp only [matchR, beq_iff_eq] at hm
          subst hm
          rcases expect_next hs' with ⟨h1, -, hc⟩ | ⟨h1, h2⟩
          · refine ⟨_, _, h1, ?_, trivial⟩
            refine ⟨_, .tok k', ?_⟩
            have := h1.2.1
            rw [this]
            simp [syms]
          · exact LooseN.empty _ h1 rfl trivial
        | _ => simp [matchR] at hm
      | call k =>
        cases r with
        | node k' =>
          simp only [matchR, Bool.and_eq_true, beq_iff_eq] at hm
          obtain ⟨rfl, hm⟩ := hm
          simp only [closedR] at hcl
          obtain ⟨r, hr⟩ := Option.isSome_iff_exists.mp hcl
          obtain ⟨f, hf, t1, t2, t3, t4, t5, -⟩ := h.ll.tab hr
          have hpr := h.prod k' r hr
          simp only [prodOk, Bool.and_eq_true] at hpr
          rw [hf] at hm
          simp only [Bool.and_eq_true, beq_iff_eq] at hm
          obtain ⟨⟨hm1, hm2⟩, hm3⟩ := hm
          have hkE := h.noError k' r hr
          have key : ∀ t : PState, ∀ o,
              o = (match exec G n t.events.length f.kind f.body (t.push (.openNode K.Error)) with
                | .next s' => match (if f.swallow then s'.swallow else .next s') with
                  | .next s' => Out.next (s'.close t.events.length f.kind)
                  | o => o
                | .ret s' => .next s'
                | o => o) →
              (∀ s', o = .next s' → LooseN R (.node k') t s') ∧ (∀ s', o ≠ .ret s') := by
            intro t o ho
            have hbody := (ih t.events.length f.kind r f.body (t.push (.openNode K.Error)) hpr.2).1 t3
            have fin : ∀ (F : Forest) (s' : PState) (tail : Forest) (w : List Kind), tail.toks = 0 →
                Loose r (F.syms t.toks) → F.Conf R t.toks → Step t s' (.node k' F tail) w → LooseN R (.node k') t s' := by
              intro F s' tail w htl hl hc hst
              refine ⟨_, _, hst, ?_, ?_⟩
              · simp only [syms, syms_empty htl, List.append_nil]
                split
                · exact Loose.nil _
                · exact ⟨_, .node k', List.Sublist.refl _⟩
              · refine ⟨?_, hc, conf_empty htl _⟩
                rw [if_neg hkE]
                exact Or.inr ⟨r, hr, hl⟩
            cases hb : exec G n t.events.length f.kind f.body (t.push (.openNode K.Error)) with
            | next s1 =>
              rw [hb] at ho
              simp [hm1] at ho
              subst ho
              refine ⟨?_, by simp⟩
              intro s' hs'
              simp at hs'; subst hs'
              obtain ⟨F, w, q1, q2, q3⟩ := hbody.1 s1 hb
              have hst := bracket_step k' K.Error q1
              rw [hm2]
              exact fin F _ .nil w rfl q2 q3 hst
            | ret s1 =>
              rw [hb] at ho
              simp at ho
              subst ho
              refine ⟨?_, by simp⟩
              intro s' hs'
              simp at hs'; subst hs'
              obtain ⟨F, w, ⟨q1, q2, q3, q4⟩, q5, q6⟩ := hbody.2 s1 hb
              have he := q1 t.events K.Error .nil (by simp [PState.push, ser]) rfl
              have hst : Step t s1 (.node f.kind F (.node K.Error .nil .nil)) w :=
                ⟨by rw [he]; simp [append], by simpa [PState.push] using q2, by simpa [toks] using q3⟩
              rw [hm2] at hst
              exact fin F _ _ w rfl q5 q6 hst
            | stuck => rw [hb] at ho; subst ho; simp
            | crash => rw [hb] at ho; subst ho; simp
            | deep => rw [hb] at ho; subst ho; simp
          simp only [exec, hf]
          cases hg : f.guard with
          | none =>
            have hk := key s _ rfl
            exact ⟨fun s' hs' => hk.1 s' hs', fun s' hs' => absurd hs' (hk.2 s')⟩
          | some ks =>
            simp only
            cases hn : s.nth with
            | none => simp
            | some p =>
              obtain ⟨c, s1⟩ := p
              have hst := nth_step hn
              simp only
              split
              · have hk := key s1 _ rfl
                exact ⟨fun s' hs' => (hk.1 s' hs').pre hst rfl trivial, fun s' hs' => absurd hs' (hk.2 s')⟩
              · refine ⟨fun s' hs' => ?_, by simp⟩
                simp at hs'; subst hs'
                exact LooseN.empty _ hst rfl trivial
        | _ => simp [matchR] at hm
      | opt ks b =>
        cases r with
        | opt r =>
          simp only [matchR, Bool.and_eq_true, beq_iff_eq] at hm
          simp only [closedR] at hcl
          simp only [exec]
          cases hn : s.nth with
          | none => simp
          | some p =>
            obtain ⟨c, s1⟩ := p
            have hst := nth_step hn
            simp only
            split
            · have hb := (ih mark root r b s1 hcl).1 hm.2
              exact ⟨fun s' hs' => ((hb.1 s' hs').pre hst rfl trivial).map (fun w => .optSome),
                fun s' hs' => ((hb.2 s' hs').pre hst rfl trivial).map (fun w => .optSome)⟩
            · refine ⟨fun s' hs' => ?_, by simp⟩
              simp at hs'; subst hs'
              exact LooseN.empty _ hst rfl trivial
        | _ => simp [matchR] at hm
      | rep ks b =>
        cases r with
        | rep r =>
          have hm0 := hm
          have hcl0 := hcl
          simp only [matchR, Bool.and_eq_true, beq_iff_eq] at hm
          simp only [closedR] at hcl
          simp only [exec]
          have one : ∀ u, Loose r u → Loose (.rep r) u := by
            intro u hu
            have := hu.rep (Loose.nil (.rep r))
            simpa using this
          cases hn : s.nth with
          | none => simp
          | some p =>
            obtain ⟨c, s1⟩ := p
            have hst := nth_step hn
            simp only
            split
            · have hb := (ih mark root r b s1 hcl).1 hm.2
              cases hx : exec G n mark root b s1 with
              | next s2 =>
                simp only
                have h1 := (hb.1 s2 hx).pre hst rfl trivial
                split
                · refine ⟨fun s' hs' => ?_, by simp⟩
                  simp at hs'; subst hs'
                  obtain ⟨F, w, a, b, c⟩ := h1
                  exact ⟨F, w, a, one _ b, c⟩
                · have hr2 := (ih mark root (.rep r) (.rep ks b) s2 hcl0).1 hm0
                  exact ⟨fun s' hs' => h1.join (fun p q => Loose.rep) (hr2.1 s' hs'),
                    fun s' hs' => LooseR.join (fun p q => Loose.rep) h1 (hr2.2 s' hs')⟩
              | ret s2 =>
                simp only
                refine ⟨by simp, fun s' hs' => ?_⟩
                simp at hs'; subst hs'
                obtain ⟨F, w, a, b, c⟩ := (hb.2 s2 hx).pre hst rfl trivial
                exact ⟨F, w, a, one _ b, c⟩
              | _ => simp
            · refine ⟨fun s' hs' => ?_, by simp⟩
              simp at hs'; subst hs'
              exact LooseN.empty _ hst rfl trivial
        | _ => simp [matchR] at hm
      | alt arms =>
        cases r with
        | alt x y =>
          cases arms with
          | arm ks b rest =>
            have hmA := matchA_of_matchR hm
            simp only [exec]
            cases hn : s.nth with
            | none => simp
            | some p =>
              obtain ⟨c, s1⟩ := p
              have hst := nth_step hn
              have hb := (ih mark root (.alt x y) (.arm ks b rest) s1 hcl).2 hmA
              exact ⟨fun s' hs' => (hb.1 s' hs').pre hst rfl trivial, fun s' hs' => (hb.2 s' hs').pre hst rfl trivial⟩
          | _ => simp [matchR] at hm
        | _ => simp [matchR] at hm
    · intro hm
      cases st with
      | arm ks b rest =>
        by_cases hlast : ∃ e, rest = .altEnd e
        · obtain ⟨e, rfl⟩ := hlast
          simp only [matchA, Bool.and_eq_true, beq_iff_eq] at hm
          simp only [exec]
          split
          · exact (ih mark root r b s hcl).1 hm.1.2
          · cases n with
            | zero => simp [exec]
            | succ n =>
              simp only [exec]
              split
              · next hE =>
                refine ⟨by simp, fun s' hs' => ?_⟩
                simp at hs'; subst hs'
                exact ⟨.nil, [], altEnd_ret mark root hE, Loose.nil r, trivial⟩
              · cases e with
                | none =>
                  refine ⟨fun s' hs' => ?_, by simp⟩
                  simp at hs'; subst hs'
                  exact LooseN.empty _ (Step.refl s) rfl trivial
                | some ex =>
                  refine ⟨fun s' hs' => ?_, fun s' hs' => absurd hs' advanceWithError_not_ret⟩
                  rcases advanceWithError_next hs' with ⟨h1, -⟩ | ⟨t, h1, -⟩
                  · exact LooseN.empty _ h1 rfl trivial
                  · exact LooseN.empty _ h1 (by simp [syms]) (by simp [Conf, onlyToks])
        · have hm' := matchA_inv hlast hm
          obtain ⟨x, y, rfl, hm1, hm2⟩ := hm'
          simp only [closedR, Bool.and_eq_true] at hcl
          simp only [exec]
          split
          · have hb := (ih mark root x b s hcl.1).1 hm1
            exact ⟨fun s' hs' => (hb.1 s' hs').map (fun w => .altL), fun s' hs' => (hb.2 s' hs').map (fun w => .altL)⟩
          · have hb := (ih mark root y rest s hcl.2).2 hm2
            exact ⟨fun s' hs' => (hb.1 s' hs').map (fun w => .altR), fun s' hs' => (hb.2 s' hs').map (fun w => .altR)⟩
      | _ => cases r <;> simp [matchA] at hm

end Verif.Grammar
