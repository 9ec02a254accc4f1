import Verif.Grammar.Complete
/-!
# Soundness of the parser for an LL(1) grammar

A run that reports nothing consumed a sentence of the grammar — or, if it only left empty error nodes behind, a
prefix of one.
-/
namespace Verif.Grammar
open Forest

namespace Forest

/-- No node of kind `Error`. -/
def noErrKind : Forest → Bool
  | nil => true
  | tok r => r.noErrKind
  | err _ r => r.noErrKind
  | node k c r => k != K.Error && c.noErrKind && r.noErrKind

theorem noErrKind_append (f g : Forest) : (f.append g).noErrKind = (f.noErrKind && g.noErrKind) := by
  induction f with
  | nil => simp [append, noErrKind]
  | tok r ih => simp [append, noErrKind, ih]
  | err e r ih => simp [append, noErrKind, ih]
  | node k c r _ ih => simp [append, noErrKind, ih, Bool.and_assoc]

/-- Nothing reported and no token inside an error node. -/
def clean (f : Forest) : Bool := f.noErr && f.noErrNode
/-- Nothing reported and no error node. -/
def strict (f : Forest) : Bool := f.noErr && f.noErrKind

theorem clean_append (f g : Forest) : (f.append g).clean = (f.clean && g.clean) := by
  simp only [clean, noErr_append, noErrNode_append]
  cases f.noErr <;> cases g.noErr <;> cases f.noErrNode <;> cases g.noErrNode <;> rfl

theorem strict_append (f g : Forest) : (f.append g).strict = (f.strict && g.strict) := by
  simp only [strict, noErr_append, noErrKind_append]
  cases f.noErr <;> cases g.noErr <;> cases f.noErrKind <;> cases g.noErrKind <;> rfl

end Forest

variable {T : LL} {G : Grammar} {R : Kind → Option Rule}

/-! ## Nullable rules derive the empty word, every rule derives some word -/

/-- Certificates: heights of derivations of the empty word and of some word. -/
structure Prod where
  dn : Kind → Nat
  dp : Kind → Nat

def nullR (T : LL) (P : Prod) (b : Nat) : Rule → Bool
  | .node k => T.null k && Nat.blt (P.dn k) b
  | .tok _ => false
  | .seq x y => nullR T P b x && nullR T P b y
  | .alt x y => nullR T P b x || nullR T P b y
  | .opt _ => true
  | .rep _ => true

def prodR (P : Prod) (b : Nat) : Rule → Bool
  | .node k => Nat.blt (P.dp k) b
  | .tok _ => true
  | .seq x y => prodR P b x && prodR P b y
  | .alt x y => prodR P b x || prodR P b y
  | .opt _ => true
  | .rep _ => true

/-- All node kinds of the rule have a rule. -/
def closedR (R : Kind → Option Rule) : Rule → Bool
  | .node k => (R k).isSome
  | .tok _ => true
  | .seq x y => closedR R x && closedR R y
  | .alt x y => closedR R x && closedR R y
  | .opt r => closedR R r
  | .rep r => closedR R r

def prodOk (T : LL) (P : Prod) (R : Kind → Option Rule) (k : Kind) (r : Rule) : Bool :=
  (!(T.null k) || nullR T P (P.dn k) r) && prodR P (P.dp k) r && closedR R r

theorem null_dtree_aux (P : Prod) (hP : ∀ k r, R k = some r → prodOk T P R k r = true)
    (b : Nat) : ∀ r, nullR T P b r = true → closedR R r = true → DTree R r [] .nil := by
  induction b using Nat.strongRecOn with
  | _ b ih =>
    intro r
    induction r with
    | node k =>
      intro h hc
      simp only [nullR, Bool.and_eq_true, Nat.blt_eq] at h
      simp only [closedR] at hc
      obtain ⟨r, hr⟩ := Option.isSome_iff_exists.mp hc
      have h1 := hP k r hr
      simp only [prodOk, Bool.and_eq_true, Bool.or_eq_true, Bool.not_eq_true'] at h1
      have h2 : nullR T P (P.dn k) r = true := by
        rcases h1.1.1 with h3 | h3
        · rw [h.1] at h3; simp at h3
        · exact h3
      have := ih (P.dn k) h.2 r h2 h1.2
      have := DTree.node k r [] .nil hr this
      simpa using this
    | tok k => intro h; simp [nullR] at h
    | seq x y ihx ihy =>
      intro h hc
      simp only [nullR, Bool.and_eq_true] at h
      simp only [closedR, Bool.and_eq_true] at hc
      have := DTree.seq x y [] [] _ _ (ihx h.1 hc.1) (ihy h.2 hc.2)
      simpa [append] using this
    | alt x y ihx ihy =>
      intro h hc
      simp only [nullR, Bool.or_eq_true] at h
      simp only [closedR, Bool.and_eq_true] at hc
      rcases h with h | h
      · exact .altL x y _ _ (ihx h hc.1)
      · exact .altR x y _ _ (ihy h hc.2)
    | opt r _ => intro _ _; exact .optNone r
    | rep r _ => intro _ _; exact .repNil r

theorem null_dtree (P : Prod) (hP : ∀ k r, R k = some r → prodOk T P R k r = true) :
    ∀ r, r.null T = true → closedR R r = true → DTree R r [] .nil := by
  intro r
  induction r with
  | node k =>
    intro h hc
    simp only [Rule.null] at h
    exact null_dtree_aux P hP (P.dn k + 1) (.node k) (by simp [nullR, h]) hc
  | tok k => intro h; simp [Rule.null] at h
  | seq x y ihx ihy =>
    intro h hc
    simp only [Rule.null, Bool.and_eq_true] at h
    simp only [closedR, Bool.and_eq_true] at hc
    have := DTree.seq x y [] [] _ _ (ihx h.1 hc.1) (ihy h.2 hc.2)
    simpa [append] using this
  | alt x y ihx ihy =>
    intro h hc
    simp only [Rule.null, Bool.or_eq_true] at h
    simp only [closedR, Bool.and_eq_true] at hc
    rcases h with h | h
    · exact .altL x y _ _ (ihx h hc.1)
    · exact .altR x y _ _ (ihy h hc.2)
  | opt r _ => intro _ _; exact .optNone r
  | rep r _ => intro _ _; exact .repNil r

theorem prod_aux (P : Prod) (hP : ∀ k r, R k = some r → prodOk T P R k r = true)
    (b : Nat) : ∀ r, prodR P b r = true → closedR R r = true → ∃ w, Derives R r w := by
  induction b using Nat.strongRecOn with
  | _ b ih =>
    intro r
    induction r with
    | node k =>
      intro h hc
      simp only [prodR, Nat.blt_eq] at h
      simp only [closedR] at hc
      obtain ⟨r, hr⟩ := Option.isSome_iff_exists.mp hc
      have h1 := hP k r hr
      simp only [prodOk, Bool.and_eq_true] at h1
      obtain ⟨w, hw⟩ := ih (P.dp k) h r h1.1.2 h1.2
      exact ⟨w, .node k r w hr hw⟩
    | tok k => intro _ _; exact ⟨_, .tok k⟩
    | seq x y ihx ihy =>
      intro h hc
      simp only [prodR, Bool.and_eq_true] at h
      simp only [closedR, Bool.and_eq_true] at hc
      obtain ⟨u, hu⟩ := ihx h.1 hc.1
      obtain ⟨v, hv⟩ := ihy h.2 hc.2
      exact ⟨_, .seq x y u v hu hv⟩
    | alt x y ihx ihy =>
      intro h hc
      simp only [prodR, Bool.or_eq_true] at h
      simp only [closedR, Bool.and_eq_true] at hc
      rcases h with h | h
      · obtain ⟨u, hu⟩ := ihx h hc.1; exact ⟨_, .altL x y _ hu⟩
      · obtain ⟨u, hu⟩ := ihy h hc.2; exact ⟨_, .altR x y _ hu⟩
    | opt r _ => intro _ _; exact ⟨_, .optNone r⟩
    | rep r _ => intro _ _; exact ⟨_, .repNil r⟩

theorem prod_all (P : Prod) (hP : ∀ k r, R k = some r → prodOk T P R k r = true) :
    ∀ r, closedR R r = true → ∃ w, Derives R r w := by
  intro r
  induction r with
  | node k => intro hc; exact prod_aux P hP (P.dp k + 1) (.node k) (by simp [prodR]) hc
  | tok k => intro _; exact ⟨_, .tok k⟩
  | seq x y ihx ihy =>
    intro hc
    simp only [closedR, Bool.and_eq_true] at hc
    obtain ⟨u, hu⟩ := ihx hc.1
    obtain ⟨v, hv⟩ := ihy hc.2
    exact ⟨_, .seq x y u v hu hv⟩
  | alt x y ihx ihy =>
    intro hc
    simp only [closedR, Bool.and_eq_true] at hc
    obtain ⟨u, hu⟩ := ihx hc.1; exact ⟨_, .altL x y _ hu⟩
  | opt r _ => intro _; exact ⟨_, .optNone r⟩
  | rep r _ => intro _; exact ⟨_, .repNil r⟩

/-! ## Soundness -/

def NoEof (s : PState) : Prop := K.Eof ∉ s.toks

theorem NoEof.cur {s : PState} (h : NoEof s) (hc : cur s.toks = K.Eof) : s.toks = [] := by
  unfold NoEof at h
  cases ht : s.toks with
  | nil => rfl
  | cons x xs =>
    rw [ht] at hc h
    simp [Verif.Grammar.cur] at hc
    exact absurd (by simp [hc]) h

theorem Step.noEof {s s' : PState} {F w} (h : Step s s' F w) (hs : NoEof s) : NoEof s' := by
  intro hm; exact hs (by rw [h.2.1]; simp [hm])

def SoundN (R : Kind → Option Rule) (r : Rule) (s s' : PState) : Prop :=
  ∃ F w, Step s s' F w ∧ (F.clean = true → ∃ v, Derives R r (w ++ v) ∧ (v ≠ [] → s'.toks = [])) ∧
    (F.strict = true → DTree R r w F)

def SoundR (R : Kind → Option Rule) (mark : Nat) (root : Kind) (r : Rule) (s s' : PState) : Prop :=
  ∃ F w, RetStep mark root s s' F w ∧ s'.toks = [] ∧ (F.clean = true → ∃ v, Derives R r (w ++ v))

theorem SoundN.pre {r : Rule} {s t u : PState} (h : Step s t .nil []) (k : SoundN R r t u) : SoundN R r s u := by
  obtain ⟨F, w, h1, h2, h3⟩ := k
  exact ⟨F, w, by simpa [append] using h.trans h1, h2, h3⟩

theorem SoundR.pre {mark root} {r : Rule} {s t u : PState} (h : Step s t .nil []) (k : SoundR R mark root r t u) :
    SoundR R mark root r s u := by
  obtain ⟨F, w, h1, h2, h3⟩ := k
  exact ⟨F, w, by simpa [append] using h1.pre h, h2, h3⟩

theorem SoundN.err {r : Rule} {s t : PState} {e F w} (h : Step s t (.err e F) w) : SoundN R r s t :=
  ⟨_, w, h, by simp [clean, noErr], by simp [strict, noErr]⟩

theorem SoundN.empty {r : Rule} {s t : PState} (h : Step s t .nil []) (d : DTree R r [] .nil) : SoundN R r s t :=
  ⟨_, [], h, fun _ => ⟨[], d.derives, by simp⟩, fun _ => d⟩

theorem SoundN.map {r r' : Rule} {s t : PState} (h : SoundN R r s t) (h1 : ∀ w, Derives R r w → Derives R r' w)
    (h2 : ∀ w F, DTree R r w F → DTree R r' w F) : SoundN R r' s t := by
  obtain ⟨F, w, a, b, c⟩ := h
  refine ⟨F, w, a, ?_, fun hs => h2 _ _ (c hs)⟩
  intro hc; obtain ⟨v, hv, hv'⟩ := b hc; exact ⟨v, h1 _ hv, hv'⟩

theorem SoundR.map {mark root} {r r' : Rule} {s t : PState} (h : SoundR R mark root r s t)
    (h1 : ∀ w, Derives R r w → Derives R r' w) : SoundR R mark root r' s t := by
  obtain ⟨F, w, a, b, c⟩ := h
  refine ⟨F, w, a, b, ?_⟩
  intro hc; obtain ⟨v, hv⟩ := c hc; exact ⟨v, h1 _ hv⟩

theorem Step.nil_toks {s s' : PState} {F w} (h : Step s s' F w) (h0 : s.toks = []) : w = [] ∧ s'.toks = [] := by
  have := h.2.1
  rw [h0] at this
  simpa using this.symm

theorem SoundN.seq {c : Rule} {x y : Rule} {s t u : PState} (hN : NoEof s)
    (hd : ∀ p q, Derives R x p → Derives R y q → Derives R c (p ++ q))
    (ht : ∀ p q F F', DTree R x p F → DTree R y q F' → DTree R c (p ++ q) (F.append F'))
    (h : SoundN R x s t) (k : SoundN R y t u) : SoundN R c s u := by
  obtain ⟨F, w, a1, a2, a3⟩ := h
  obtain ⟨F', w', b1, b2, b3⟩ := k
  refine ⟨_, _, a1.trans b1, ?_, ?_⟩
  · intro hc
    rw [clean_append, Bool.and_eq_true] at hc
    obtain ⟨v, hv, hv'⟩ := a2 hc.1
    obtain ⟨v2, hv2, hv2'⟩ := b2 hc.2
    by_cases h0 : v = []
    · subst h0
      refine ⟨v2, ?_, hv2'⟩
      have := hd _ _ hv hv2
      simpa using this
    · obtain ⟨rfl, hu⟩ := b1.nil_toks (hv' h0)
      refine ⟨v ++ v2, ?_, fun _ => hu⟩
      have := hd _ _ hv hv2
      simpa using this
  · intro hs
    rw [strict_append, Bool.and_eq_true] at hs
    exact ht _ _ _ _ (a3 hs.1) (b3 hs.2)

theorem SoundR.seqR {c : Rule} {mark root} {x y : Rule} {s t u : PState}
    (hd : ∀ p q, Derives R x p → Derives R y q → Derives R c (p ++ q))
    (h : SoundN R x s t) (k : SoundR R mark root y t u) : SoundR R mark root c s u := by
  obtain ⟨F, w, a1, a2, a3⟩ := h
  obtain ⟨F', w', b1, b2, b3⟩ := k
  refine ⟨_, _, b1.pre a1, b2, ?_⟩
  intro hc
  rw [clean_append, Bool.and_eq_true] at hc
  obtain ⟨v, hv, hv'⟩ := a2 hc.1
  obtain ⟨v2, hv2⟩ := b3 hc.2
  by_cases h0 : v = []
  · subst h0
    refine ⟨v2, ?_⟩
    have := hd _ _ hv hv2
    simpa using this
  · have hb := b1.2.1
    rw [hv' h0] at hb
    simp at hb
    obtain ⟨hw, -⟩ := hb
    subst hw
    refine ⟨v ++ v2, ?_⟩
    have := hd _ _ hv hv2
    simpa using this

theorem SoundR.seqL {mark root} {x y : Rule} {s t : PState} (h : SoundR R mark root x s t)
    (hy : ∃ q, Derives R y q) : SoundR R mark root (.seq x y) s t := by
  obtain ⟨F, w, a1, a2, a3⟩ := h
  obtain ⟨q, hq⟩ := hy
  refine ⟨F, w, a1, a2, ?_⟩
  intro hc
  obtain ⟨v, hv⟩ := a3 hc
  refine ⟨v ++ q, ?_⟩
  have := Derives.seq x y _ _ hv hq
  simpa using this

/-- Assumptions on the tables. -/
structure SoundOk (T : LL) (C : Cert) (P : Prod) (G : Grammar) (R : Kind → Option Rule) : Prop where
  ll : LLOk T G R
  post : ∀ k f, G k = some f → postOk C k f = true
  prod : ∀ k r, R k = some r → prodOk T P R k r = true
  consume : ∀ k, (C.post k).disj (T.first k) = true
  noError : ∀ k r, R k = some r → k ≠ K.Error

theorem matchR_seq_inv {r : Rule} {a b : Stmt} (ha : ¬ ∃ ks, a = .sync ks) (hm : matchR T G r (.seq a b) = true) :
    ∃ x y, r = .seq x y ∧ matchR T G x a = true ∧ matchR T G y b = true := by
  cases a with
  | sync ks => exact absurd ⟨ks, rfl⟩ ha
  | _ =>
    cases r with
    | seq x y => exact ⟨x, y, rfl, by simpa [matchR] using hm⟩
    | _ => simp [matchR] at hm

theorem matchA_inv {r : Rule} {ks : List Kind} {b rest : Stmt} (ha : ¬ ∃ e, rest = .altEnd e)
    (hm : matchA T G r (.arm ks b rest) = true) :
    ∃ x y, r = .alt x y ∧ matchR T G x b = true ∧ matchA T G y rest = true := by
  cases rest with
  | altEnd e => exact absurd ⟨e, rfl⟩ ha
  | _ =>
    cases r with
    | alt x y =>
      refine ⟨x, y, rfl, ?_⟩
      rw [matchA] at hm
      · simp only [Bool.and_eq_true] at hm; exact ⟨hm.1.2, hm.2⟩
      · simp
    | _ => simp [matchA] at hm

theorem matchA_of_matchR {x y : Rule} {ks : List Kind} {b rest : Stmt}
    (hm : matchR T G (.alt x y) (.alt (.arm ks b rest)) = true) : matchA T G (.alt x y) (.arm ks b rest) = true := by
  cases rest with
  | altEnd e => simp [matchR, matchA] at hm
  | _ =>
    rw [matchA]
    · rw [matchR] at hm; exact hm
    · simp

theorem exec_sound {C : Cert} {P : Prod} (h : SoundOk T C P G R) (n : Nat) :
    ∀ (mark : Nat) (root : Kind) (r : Rule) (st : Stmt) (s : PState), NoEof s → ToksOk s → closedR R r = true →
    (((matchR T G r st = true ∧ ∃ Fo, ruleOk T r Fo = true)) →
      (∀ s', exec G n mark root st s = .next s' → SoundN R r s s') ∧
      (∀ s', exec G n mark root st s = .ret s' → SoundR R mark root r s s')) ∧
    (((matchA T G r st = true ∧ ∃ Fo, ruleOk T r Fo = true)) →
      (∀ s', exec G n mark root st s = .next s' → SoundN R r s s') ∧
      (∀ s', exec G n mark root st s = .ret s' → SoundR R mark root r s s')) := by
  induction n with
  | zero =>
    intro mark root r st s _ _ _
    constructor <;> intro _ <;> constructor <;> intro s' hx <;> simp [exec] at hx
  | succ n ih =>
    intro mark root r st s hN hK hcl
    constructor
    · rintro ⟨hm, Fo, hok⟩
      cases st with
      | skip => cases r <;> simp [matchR] at hm
      | sync ks => cases r <;> simp [matchR] at hm
      | arm ks b rest => cases r <;> simp [matchR] at hm
      | altEnd e => cases r <;> simp [matchR] at hm
      | seq a b =>
        by_cases hsync : ∃ ks, a = .sync ks
        · obtain ⟨ks, rfl⟩ := hsync
          simp only [matchR, Bool.and_eq_true, Bool.not_eq_true'] at hm
          simp only [exec]
          cases hx : exec G n mark root (.sync ks) s with
          | next s1 =>
            simp only
            have hst : Step s s1 .nil [] ∨ ∃ e F w, Step s s1 (.err e F) w := by
              cases n with
              | zero => simp [exec] at hx
              | succ n =>
                simp only [exec] at hx
                cases hn : s.nth with
                | none => rw [hn] at hx; simp at hx
                | some p =>
                  obtain ⟨c, s0⟩ := p
                  rw [hn] at hx
                  simp only at hx
                  split at hx
                  · simp at hx; subst hx; exact Or.inl (nth_step hn)
                  · obtain ⟨F, w, hF⟩ := errorUntil_next hx
                    exact Or.inr ⟨_, _, _, by simpa [append] using (nth_step hn).trans hF⟩
            rcases hst with hst | ⟨e, F, w, hst⟩
            · have := (ih mark root r b s1 (hst.noEof hN) (hst.toksOk hK) hcl).1 ⟨hm.2, Fo, hok⟩
              exact ⟨fun s' hs' => (this.1 s' hs').pre hst, fun s' hs' => (this.2 s' hs').pre hst⟩
            · have hb := exec_struct G n mark root b s1
              constructor
              · intro s' hs'
                obtain ⟨F2, w2, hF2⟩ := hb.1 s' hs'
                have := hst.trans hF2
                simp only [append] at this
                exact SoundN.err this
              · intro s' hs'
                have hq := (ih mark root r b s1 (hst.noEof hN) (hst.toksOk hK) hcl).1 ⟨hm.2, Fo, hok⟩
                obtain ⟨F2, w2, q1, q2, q3⟩ := hq.2 s' hs'
                exact ⟨_, _, q1.pre hst, q2, by simp [append, clean, noErr]⟩
          | ret s1 =>
            exfalso
            cases n with
            | zero => simp [exec] at hx
            | succ n =>
              simp only [exec] at hx
              cases hn : s.nth with
              | none => rw [hn] at hx; simp at hx
              | some p =>
                rw [hn] at hx
                simp only at hx
                split at hx
                · simp at hx
                · exact absurd hx errorUntil_not_ret
          | _ => simp
        · have hm' := matchR_seq_inv hsync hm
          obtain ⟨x, y, rfl, hm1, hm2⟩ := hm'
          simp only [ruleOk, Bool.and_eq_true] at hok
          simp only [closedR, Bool.and_eq_true] at hcl
          have ha := (ih mark root x a s hN hK hcl.1).1 ⟨hm1, _, hok.2⟩
          simp only [exec]
          cases hx : exec G n mark root a s with
          | next s1 =>
            simp only
            have h1 := ha.1 s1 hx
            obtain ⟨F, w, hF, -⟩ := id h1
            have hb := (ih mark root y b s1 (hF.noEof hN) (hF.toksOk hK) hcl.2).1 ⟨hm2, _, hok.1⟩
            exact ⟨fun s' hs' => h1.seq hN (fun p q => Derives.seq x y p q) (fun p q F F' => DTree.seq x y p q F F') (hb.1 s' hs'),
              fun s' hs' => SoundR.seqR (fun p q => Derives.seq x y p q) h1 (hb.2 s' hs')⟩
          | ret s1 =>
            simp only
            refine ⟨by simp, fun s' hs' => ?_⟩
            simp at hs'; subst hs'
            exact (ha.2 s1 hx).seqL (prod_all P h.prod y hcl.2)
          | _ => simp
      | expect k =>
        simp only [exec]
        refine ⟨fun s' hs' => ?_, fun s' hs' => absurd hs' expect_not_ret⟩
        cases r with
        | tok k' =>
          simp only [matchR, beq_iff_eq] at hm
          subst hm
          rcases expect_next hs' with ⟨h1, -⟩ | ⟨h1, h2⟩
          · exact ⟨_, _, h1, fun _ => ⟨[], .tok k', by simp⟩, fun _ => .tok k'⟩
          · exact SoundN.err h1
        | _ => simp [matchR] at hm
      | call k =>
        cases r with
        | node k' =>
          simp only [matchR, Bool.and_eq_true, beq_iff_eq] at hm
          obtain ⟨rfl, hm⟩ := hm
          simp only [closedR] at hcl
          obtain ⟨r, hr⟩ := Option.isSome_iff_exists.mp hcl
          obtain ⟨f, hf, t1, t2, t3, t4, t5, -⟩ := h.ll.tab hr
          have hpr := h.prod k' r hr
          simp only [prodOk, Bool.and_eq_true] at hpr
          rw [hf] at hm
          simp only [Bool.and_eq_true, beq_iff_eq] at hm
          obtain ⟨⟨hm1, hm2⟩, hm3⟩ := hm
          have hkE := h.noError k' r hr
          have hkE' : (k' != K.Error) = true := by simpa using hkE
          -- a run of the body, given that it consumes something if the node is nullable
          have key : ∀ t : PState, NoEof t → ToksOk t → ∀ o,
              o = (match exec G n t.events.length f.kind f.body (t.push (.openNode K.Error)) with
                | .next s' => match (if f.swallow then s'.swallow else .next s') with
                  | .next s' => Out.next (s'.close t.events.length f.kind)
                  | o => o
                | .ret s' => .next s'
                | o => o) →
              (∀ s', o = .next s' → (s'.toks.length = t.toks.length → T.null k' = true → False) → SoundN R (.node k') t s') ∧
                (∀ s', o ≠ .ret s') := by
            intro t htN htK o ho
            have hbody := (ih t.events.length f.kind r f.body (t.push (.openNode K.Error)) htN htK hpr.2).1 ⟨t3, _, t4⟩
            cases hb : exec G n t.events.length f.kind f.body (t.push (.openNode K.Error)) with
            | next s1 =>
              rw [hb] at ho
              simp [hm1] at ho
              subst ho
              refine ⟨?_, by simp⟩
              intro s' hs' hcons
              simp at hs'; subst hs'
              obtain ⟨F, w, q1, q2, q3⟩ := hbody.1 s1 hb
              have hst := bracket_step k' K.Error q1
              rw [hm2] at hcons ⊢
              refine ⟨_, w, hst, ?_, ?_⟩
              · intro hc
                have : F.clean = true := by
                  simp only [clean, noErr, noErrNode, Bool.and_true, Bool.and_eq_true] at hc
                  simp [clean, hc.1, hc.2.2]
                obtain ⟨v, hv, hv'⟩ := q2 this
                exact ⟨v, .node k' r _ hr hv, by simpa [PState.close] using hv'⟩
              · intro hs
                have hs : F.strict = true := by
                  simp only [strict, noErr, noErrKind, Bool.and_true, Bool.and_eq_true] at hs
                  simp [strict, hs.1, hs.2.2]
                have hd := q3 hs
                have hw : w ≠ [] := by
                  intro h0
                  have hnull := null_sound h.ll hd h0
                  apply hcons _ (t1 hnull)
                  have := hst.2.1
                  rw [h0] at this
                  rw [this]; rfl
                have := DTree.node k' r w F hr hd
                rwa [if_neg hw] at this
            | ret s1 =>
              rw [hb] at ho
              simp at ho
              subst ho
              refine ⟨?_, by simp⟩
              intro s' hs' hcons
              simp at hs'; subst hs'
              obtain ⟨F, w, ⟨q1, q2, q3, q4⟩, q5, q6⟩ := hbody.2 s1 hb
              have he := q1 t.events K.Error .nil (by simp [PState.push, ser]) rfl
              have hst : Step t s1 (.node f.kind F (.node K.Error .nil .nil)) w :=
                ⟨by rw [he]; simp [append], by simpa [PState.push] using q2, by simpa [toks] using q3⟩
              rw [hm2] at hst
              refine ⟨_, w, hst, ?_, by simp [strict, noErrKind]⟩
              intro hc
              have : F.clean = true := by
                simp only [clean, noErr, noErrNode, toks, Bool.and_true, Bool.and_eq_true] at hc
                simp [clean, hc.1, hc.2.1.2]
              obtain ⟨v, hv⟩ := q6 this
              exact ⟨v, .node k' r _ hr hv, fun _ => q5⟩
            | stuck => rw [hb] at ho; subst ho; simp
            | crash => rw [hb] at ho; subst ho; simp
            | deep => rw [hb] at ho; subst ho; simp
          simp only [exec, hf]
          cases hg : f.guard with
          | none =>
            rw [hg] at hm3
            simp only [Bool.not_eq_true'] at hm3
            have hk := key s hN hK _ rfl
            exact ⟨fun s' hs' => hk.1 s' hs' (fun _ hn => by rw [hn] at hm3; simp at hm3),
              fun s' hs' => absurd hs' (hk.2 s')⟩
          | some ks =>
            rw [hg] at hm3
            simp only [Bool.and_eq_true, beq_iff_eq] at hm3
            obtain ⟨⟨hm3, hm4⟩, hm5⟩ := hm3
            simp only
            cases hn : s.nth with
            | none => simp
            | some p =>
              obtain ⟨c, s1⟩ := p
              obtain ⟨hc, ht, -⟩ := nth_eq hn
              have hst := nth_step hn
              simp only
              split
              · next hcm =>
                have hk := key s1 (hst.noEof hN) (hst.toksOk hK) _ rfl
                refine ⟨fun s' hs' => ?_, fun s' hs' => absurd hs' (hk.2 s')⟩
                refine (hk.1 s' hs' ?_).pre hst
                intro hlen _
                -- entered at a FIRST token: consumes
                have hex : exec G (n+1) mark root (.call k') s = .next s' := by
                  simp only [exec, hf, hg, hn, hcm, if_true]; exact hs'
                have hfst : (T.first k').testBit (cur s.toks) = true := by
                  rw [← hm4, testBit_mask, ← hc]; simpa using hcm
                have hprog := exec_prog G C h.post (n+1) mark root (.call k') s s' allKinds hK
                  (allKinds_testBit (cur_lt hK)) hex
                rcases hprog with hp | ⟨-, hp⟩
                · rw [ht] at hlen; omega
                · simp only [left, Nat.testBit_and, Bool.and_eq_true] at hp
                  have := Mask.disj_testBit (h.consume k') hfst
                  rw [this] at hp; simp at hp
              · next hcm =>
                refine ⟨fun s' hs' => ?_, by simp⟩
                simp at hs'; subst hs'
                exact SoundN.empty hst (null_dtree P h.prod (.node k') hm3 (by simpa [closedR] using hcl))
        | _ => simp [matchR] at hm
      | opt ks b =>
        cases r with
        | opt r =>
          simp only [matchR, Bool.and_eq_true, beq_iff_eq] at hm
          simp only [ruleOk, Bool.and_eq_true] at hok
          simp only [closedR] at hcl
          simp only [exec]
          cases hn : s.nth with
          | none => simp
          | some p =>
            obtain ⟨c, s1⟩ := p
            have hst := nth_step hn
            simp only
            split
            · have hb := (ih mark root r b s1 (hst.noEof hN) (hst.toksOk hK) hcl).1 ⟨hm.2, _, hok.2⟩
              exact ⟨fun s' hs' => ((hb.1 s' hs').pre hst).map (fun w => .optSome r w) (fun w F => .optSome r w F),
                fun s' hs' => ((hb.2 s' hs').pre hst).map (fun w => .optSome r w)⟩
            · refine ⟨fun s' hs' => ?_, by simp⟩
              simp at hs'; subst hs'
              exact SoundN.empty hst (.optNone r)
        | _ => simp [matchR] at hm
      | rep ks b =>
        cases r with
        | rep r =>
          have hm0 := hm
          have hok0 := hok
          have hcl0 := hcl
          simp only [matchR, Bool.and_eq_true, beq_iff_eq] at hm
          simp only [ruleOk, Bool.and_eq_true, Bool.not_eq_true'] at hok
          simp only [closedR] at hcl
          simp only [exec]
          cases hn : s.nth with
          | none => simp
          | some p =>
            obtain ⟨c, s1⟩ := p
            have hst := nth_step hn
            simp only
            split
            · have hb := (ih mark root r b s1 (hst.noEof hN) (hst.toksOk hK) hcl).1 ⟨hm.2, _, hok.2⟩
              cases hx : exec G n mark root b s1 with
              | next s2 =>
                simp only
                have h1 := (hb.1 s2 hx).pre hst
                obtain ⟨F, w, hF, -⟩ := id h1
                split
                · refine ⟨fun s' hs' => ?_, by simp⟩
                  simp at hs'; subst hs'
                  obtain ⟨F, w, a, b, c⟩ := h1
                  refine ⟨F, w, a, ?_, ?_⟩
                  · intro hc
                    obtain ⟨v, hv, hv'⟩ := b hc
                    refine ⟨v, ?_, hv'⟩
                    have := Derives.repCons r _ _ hv (.repNil r)
                    simpa using this
                  · intro hs
                    have := DTree.repCons r _ _ _ _ (c hs) (.repNil r)
                    rw [append_nil] at this
                    simpa using this
                · have hr2 := (ih mark root (.rep r) (.rep ks b) s2 (hF.noEof hN) (hF.toksOk hK) hcl0).1 ⟨hm0, _, hok0⟩
                  exact ⟨fun s' hs' => h1.seq hN (fun p q => Derives.repCons r p q)
                      (fun p q F F' => DTree.repCons r p q F F') (hr2.1 s' hs'),
                    fun s' hs' => SoundR.seqR (fun p q => Derives.repCons r p q) h1 (hr2.2 s' hs')⟩
              | ret s2 =>
                simp only
                refine ⟨by simp, fun s' hs' => ?_⟩
                simp at hs'; subst hs'
                refine ((hb.2 s2 hx).pre hst).map (fun w hw => ?_)
                have := Derives.repCons r _ _ hw (.repNil r)
                simpa using this
              | _ => simp
            · refine ⟨fun s' hs' => ?_, by simp⟩
              simp at hs'; subst hs'
              exact SoundN.empty hst (.repNil r)
        | _ => simp [matchR] at hm
      | alt arms =>
        cases r with
        | alt x y =>
          cases arms with
          | arm ks b rest =>
            have hmA := matchA_of_matchR hm
            simp only [exec]
            cases hn : s.nth with
            | none => simp
            | some p =>
              obtain ⟨c, s1⟩ := p
              have hst := nth_step hn
              have hb := (ih mark root (.alt x y) (.arm ks b rest) s1 (hst.noEof hN) (hst.toksOk hK) hcl).2 ⟨hmA, _, hok⟩
              exact ⟨fun s' hs' => (hb.1 s' hs').pre hst, fun s' hs' => (hb.2 s' hs').pre hst⟩
          | _ => simp [matchR] at hm
        | _ => simp [matchR] at hm
    · rintro ⟨hm, Fo, hok⟩
      cases st with
      | arm ks b rest =>
        by_cases hlast : ∃ e, rest = .altEnd e
        · obtain ⟨e, rfl⟩ := hlast
          simp only [matchA, Bool.and_eq_true, beq_iff_eq] at hm
          simp only [exec]
          split
          · exact (ih mark root r b s hN hK hcl).1 ⟨hm.1.2, _, hok⟩
          · cases n with
            | zero => simp [exec]
            | succ n =>
              simp only [exec]
              split
              · next hE =>
                refine ⟨by simp, fun s' hs' => ?_⟩
                simp at hs'; subst hs'
                refine ⟨.nil, [], altEnd_ret mark root hE, ?_, ?_⟩
                · simpa [PState.close, PState.push] using hN.cur hE
                · intro _
                  obtain ⟨q, hq⟩ := prod_all P h.prod r hcl
                  exact ⟨q, by simpa using hq⟩
              · cases e with
                | none =>
                  refine ⟨fun s' hs' => ?_, by simp⟩
                  simp at hs'; subst hs'
                  exact SoundN.empty (Step.refl s) (null_dtree P h.prod r (by rw [hm.2]; rfl) hcl)
                | some ex =>
                  refine ⟨fun s' hs' => ?_, fun s' hs' => absurd hs' advanceWithError_not_ret⟩
                  rcases advanceWithError_next hs' with ⟨h1, -⟩ | ⟨t, h1, -⟩ <;> exact SoundN.err h1
        · have hm' := matchA_inv hlast hm
          obtain ⟨x, y, rfl, hm1, hm2⟩ := hm'
          simp only [ruleOk, Bool.and_eq_true] at hok
          simp only [closedR, Bool.and_eq_true] at hcl
          simp only [exec]
          split
          · have hb := (ih mark root x b s hN hK hcl.1).1 ⟨hm1, _, hok.1.1.2⟩
            exact ⟨fun s' hs' => (hb.1 s' hs').map (fun w => .altL x y w) (fun w F => .altL x y w F),
              fun s' hs' => (hb.2 s' hs').map (fun w => .altL x y w)⟩
          · have hb := (ih mark root y rest s hN hK hcl.2).2 ⟨hm2, _, hok.1.2⟩
            exact ⟨fun s' hs' => (hb.1 s' hs').map (fun w => .altR x y w) (fun w F => .altR x y w F),
              fun s' hs' => (hb.2 s' hs').map (fun w => .altR x y w)⟩
      | _ => cases r <;> simp [matchA] at hm

end Verif.Grammar
