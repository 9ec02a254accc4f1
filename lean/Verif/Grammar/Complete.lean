import Verif.Grammar.LL
/-!
# Completeness of the parser for an LL(1) grammar
-/
namespace Verif.Grammar
open Forest

variable {T : LL} {G : Grammar} {R : Kind → Option Rule}

/-- What is checked of each function and its rule. -/
def llFn (T : LL) (G : Grammar) (k : Kind) (f : FnDef) (r : Rule) : Bool :=
  (!(r.null T) || T.null k) && (r.firstM T).sub (T.first k) && matchR T G r f.body && ruleOk T r (T.follow k) &&
  f.body.fits T &&
  Nat.ble ((match f.guard with | none => 0 | some _ => 1) + f.body.ecost T) (T.ec k) &&
  Nat.ble (f.body.xcost T) (T.xc k)

/-- The functions `G` implement the rules `R` in LL(1) fashion. -/
structure LLOk (T : LL) (G : Grammar) (R : Kind → Option Rule) : Prop where
  fn : ∀ k r, R k = some r → ∃ f, G k = some f ∧ llFn T G k f r = true

theorem LLOk.tab (h : LLOk T G R) {k r} (hr : R k = some r) :
    ∃ f, G k = some f ∧ (r.null T = true → T.null k = true) ∧ (r.firstM T).sub (T.first k) = true ∧
      matchR T G r f.body = true ∧ ruleOk T r (T.follow k) = true ∧ f.body.fits T = true ∧
      (match f.guard with | none => 0 | some _ => 1) + f.body.ecost T ≤ T.ec k ∧ f.body.xcost T ≤ T.xc k := by
  obtain ⟨f, hf, h1⟩ := h.fn k r hr
  simp only [llFn, Bool.and_eq_true, Bool.or_eq_true, Bool.not_eq_true', Nat.ble_eq] at h1
  obtain ⟨⟨⟨⟨⟨⟨a1, a2⟩, a3⟩, a4⟩, a5⟩, a6⟩, a7⟩ := h1
  refine ⟨f, hf, ?_, a2, a3, a4, a5, a6, a7⟩
  intro hn; rcases a1 with a1 | a1
  · rw [a1] at hn; simp at hn
  · exact a1

theorem null_sound (h : LLOk T G R) {r w F} (d : DTree R r w F) (hw : w = []) : r.null T = true := by
  induction d with
  | tok k => simp at hw
  | node k r w F hr d ih =>
    obtain ⟨f, -, h1, -⟩ := h.tab hr
    exact h1 (ih hw)
  | seq a b u v F G da db iha ihb =>
    simp at hw
    simp [Rule.null, iha hw.1, ihb hw.2]
  | altL a b w F d ih => simp [Rule.null, ih hw]
  | altR a b w F d ih => simp [Rule.null, ih hw]
  | optNone r => rfl
  | optSome r w F d ih => rfl
  | repNil r => rfl
  | repCons r u v F G d ds ih ihs => rfl

theorem first_sound (h : LLOk T G R) {r w F} (d : DTree R r w F) (hw : w ≠ []) :
    (r.firstM T).testBit (cur w) = true := by
  induction d with
  | tok k => simp [Rule.firstM, testBit_mask, cur]
  | node k r w F hr d ih =>
    obtain ⟨f, -, -, h1, -⟩ := h.tab hr
    exact Mask.sub_testBit h1 (ih hw)
  | seq a b u v F G da db iha ihb =>
    simp only [Rule.firstM, Nat.testBit_or]
    cases u with
    | nil =>
      have := null_sound h da rfl
      simp only [this, if_true, List.nil_append]
      rw [ihb (by simpa using hw)]; simp
    | cons x u =>
      have := iha (by simp)
      simp only [List.cons_append, cur] at this ⊢
      rw [this]; simp
  | altL a b w F d ih => simp [Rule.firstM, ih hw]
  | altR a b w F d ih => simp [Rule.firstM, ih hw]
  | optNone r => simp at hw
  | optSome r w F d ih => exact ih hw
  | repNil r => simp at hw
  | repCons r u v F G d ds ih ihs =>
    cases u with
    | nil => exact ihs (by simpa using hw)
    | cons x u =>
      have := ih (by simp)
      simp only [List.cons_append, cur, Rule.firstM] at this ⊢
      exact this

theorem snull_of_match_aux (st : Stmt) :
    (∀ r, matchR T G r st = true → r.null T = true → st.snull T = true) ∧
    (∀ r, matchA T G r st = true → r.null T = true → st.snull T = true) := by
  induction st with
  | skip => constructor <;> intro r h <;> cases r <;> simp [matchR, matchA] at h
  | seq a b iha ihb =>
    constructor
    · intro r h hn
      cases a with
      | sync ks =>
        simp only [matchR, Bool.and_eq_true, Bool.not_eq_true'] at h
        rw [h.1.1] at hn; simp at hn
      | _ =>
        cases r with
        | seq ra rb =>
          simp only [matchR, Bool.and_eq_true] at h
          simp only [Rule.null, Bool.and_eq_true] at hn
          rw [Stmt.snull, Bool.and_eq_true]
          exact ⟨iha.1 _ h.1 hn.1, ihb.1 _ h.2 hn.2⟩
        | _ => simp [matchR] at h
    · intro r h; cases r <;> simp [matchA] at h
  | expect k =>
    constructor
    · intro r h hn
      cases r <;> simp [matchR, Rule.null] at h hn
    · intro r h; cases r <;> simp [matchA] at h
  | call k =>
    constructor
    · intro r h hn
      cases r with
      | node k' =>
        simp only [matchR, Bool.and_eq_true, beq_iff_eq] at h
        simp only [Rule.null] at hn
        rw [h.1] at hn
        exact hn
      | _ => simp [matchR] at h
    · intro r h; cases r <;> simp [matchA] at h
  | sync ks => constructor <;> intro r h <;> cases r <;> simp [matchR, matchA] at h
  | opt ks b ih =>
    constructor
    · intro r h hn; rfl
    · intro r h; cases r <;> simp [matchA] at h
  | rep ks b ih =>
    constructor
    · intro r h hn; rfl
    · intro r h; cases r <;> simp [matchA] at h
  | alt arms ih =>
    constructor
    · intro r h hn
      cases r with
      | alt a b =>
        cases arms with
        | arm ks x rest =>
          apply ih.2 (.alt a b) _ hn
          simp only [matchR] at h
          cases rest with
          | altEnd e => simp [matchA] at h
          | _ => simp only [matchA]; exact h
        | _ => simp [matchR] at h
      | _ => simp [matchR] at h
    · intro r h; cases r <;> simp [matchA] at h
  | arm ks b rest ihb ihr =>
    constructor
    · intro r h; cases r <;> simp [matchR] at h
    · intro r h hn
      rw [Stmt.snull, Bool.or_eq_true]
      cases rest with
      | altEnd e =>
        simp only [matchA, Bool.and_eq_true] at h
        exact Or.inl (ihb.1 _ h.1.2 hn)
      | _ =>
        cases r with
        | alt x y =>
          simp only [matchA, Bool.and_eq_true] at h
          simp only [Rule.null, Bool.or_eq_true] at hn
          rcases hn with hn | hn
          · exact Or.inl (ihb.1 _ h.1.2 hn)
          · exact Or.inr (ihr.2 _ h.2 hn)
        | _ => simp [matchA] at h
  | altEnd e => constructor <;> intro r h <;> cases r <;> simp [matchR, matchA] at h

theorem snull_of_match {r : Rule} {st : Stmt} (h : matchR T G r st = true) (hn : r.null T = true) :
    st.snull T = true := (snull_of_match_aux st).1 r h hn

/-- The parse of the tokens `w` (followed by `v`) by `st` succeeds with forest `F`, keeping the budget promise. -/
def Good (T : LL) (G : Grammar) (st : Stmt) (w : List Kind) (F : Forest) (s : PState) (v : List Kind) : Prop :=
  ∀ mark root, ∃ n s', exec G n mark root st s = .next s' ∧ s'.toks = v ∧ Step s s' F w ∧
    (w = [] → s.fuel ≤ s'.fuel + st.zc) ∧ (w ≠ [] → maxFuel ≤ s'.fuel + st.xcost T)

/-- All parses of `w` as `r` by `st` succeed. -/
def ClaimS (T : LL) (G : Grammar) (r : Rule) (w : List Kind) (F : Forest) (st : Stmt) : Prop :=
  ∀ Fo, matchR T G r st = true → ruleOk T r Fo = true → st.fits T = true → ∀ s v, s.toks = w ++ v →
    Fo.testBit (cur v) = true → (w = [] → st.zc ≤ s.fuel) → (w ≠ [] → st.ecost T ≤ s.fuel) → Good T G st w F s v

def ClaimA (T : LL) (G : Grammar) (r : Rule) (w : List Kind) (F : Forest) (st : Stmt) : Prop :=
  ∀ Fo, matchA T G r st = true → ruleOk T r Fo = true → st.fits T = true →
    (r.null T = true → (r.firstM T).disj Fo = true ∧ Fo.testBit K.Eof = false) → ∀ s v, s.toks = w ++ v →
    Fo.testBit (cur v) = true → (w ≠ [] → st.ecost T ≤ s.fuel) → Good T G st w F s v

def Stmt.core : Stmt → Bool
  | .seq (.sync _) _ => false
  | _ => true

theorem cur_append {w v : List Kind} (h : w ≠ []) : cur (w ++ v) = cur w := by
  cases w with
  | nil => exact absurd rfl h
  | cons => rfl

theorem nth_some {s : PState} (h : 1 ≤ s.fuel) :
    ∃ s1, s.nth = some (cur s.toks, s1) ∧ s1.toks = s.toks ∧ s.fuel = s1.fuel + 1 := by
  unfold PState.nth
  cases hf : s.fuel with
  | zero => omega
  | succ f => exact ⟨_, rfl, rfl, rfl⟩

theorem next_ne_deep {s : PState} : Out.next s ≠ .deep := by simp

/-- Leading synchronisation points change nothing on valid input. -/
theorem lift_claim (h : LLOk T G R) {r w F} (d : DTree R r w F)
    (hc : ∀ st, st.core = true → ClaimS T G r w F st) : ∀ st, ClaimS T G r w F st := by
  intro st
  induction st with
  | seq a b iha ihb =>
    cases a with
    | sync ks =>
      intro Fo hm hok hfit s v hs hv hz he
      simp only [matchR, Bool.and_eq_true, Bool.not_eq_true'] at hm
      obtain ⟨⟨hm1, hm2⟩, hm3⟩ := hm
      have hw : w ≠ [] := by
        intro h0
        have := null_sound h d h0
        rw [this] at hm1; simp at hm1
      have he := he hw
      simp only [Stmt.ecost, Stmt.snull, if_true, Stmt.zc] at he
      obtain ⟨s1, hn, ht, hfu⟩ := nth_some (s := s) (by omega)
      have hcur : cur s.toks ∈ ks := by
        have h1 := first_sound h d hw
        have := Mask.sub_testBit hm2 h1
        rw [testBit_mask] at this
        rw [hs, cur_append hw]; simpa using this
      simp only [Stmt.fits, Bool.and_eq_true] at hfit
      have hg := ihb Fo hm3 hok hfit.1.1.2 s1 v (by rw [ht]; exact hs) hv (fun h0 => absurd h0 hw) (fun _ => by omega)
      intro mark root
      obtain ⟨n, s', e1, e2, e3, e4, e5⟩ := hg mark root
      refine ⟨n + 2, s', ?_, e2, ?_, fun h0 => absurd h0 hw, ?_⟩
      · have := exec_mono_le G (Nat.le_succ n) mark root b s1 (by rw [e1]; exact next_ne_deep)
        have hsync : exec G (n+1) mark root (.sync ks) s = .next s1 := by
          simp only [exec, hn, hcur, true_or, if_true]
        rw [exec.eq_3, hsync]
        simp only
        rw [this, e1]
      · have := (nth_step hn).trans e3
        simpa [append] using this
      · intro _
        have := e5 hw
        simp only [Stmt.xcost]
        omega
    | _ => exact hc _ rfl
  | _ => exact hc _ rfl

theorem Good.arm_alt {ks x rest w F s v} (hin : cur s.toks ∈ ks) (hg : Good T G x w F s v) (hw : w ≠ []) :
    Good T G (.arm ks x rest) w F s v := by
  intro mark root
  obtain ⟨n, s', e1, e2, e3, e4, e5⟩ := hg mark root
  refine ⟨n + 1, s', ?_, e2, e3, fun h0 => absurd h0 hw, ?_⟩
  · simp only [exec, hin, if_true]; exact e1
  · intro _
    have := e5 hw
    simp only [Stmt.xcost]
    omega

/-- `matchA` of a claim whose alternatives are a single last one. -/
theorem claimA_last (h : LLOk T G R) {r w F} (d : DTree R r w F)
    (hc : ∀ st, ClaimS T G r w F st) (ks : List Kind) (x : Stmt) (e : Option (List Kind)) :
    ClaimA T G r w F (.arm ks x (.altEnd e)) := by
  intro Fo hm hok hfit hnull s v hs hv he
  simp only [matchA, Bool.and_eq_true, beq_iff_eq] at hm
  obtain ⟨⟨hm1, hm2⟩, hm3⟩ := hm
  simp only [Stmt.fits, Bool.and_eq_true] at hfit
  by_cases hw : w = []
  · have hn := null_sound h d hw
    obtain ⟨hd, hE⟩ := hnull hn
    have hF := d.nil_of_empty hw
    have he : e = none := by
      rw [hn] at hm3
      simpa using hm3.symm
    subst hw; subst hF; subst e
    simp only [List.nil_append] at hs
    have hnot : ¬ cur s.toks ∈ ks := by
      have := Mask.disj_testBit hd hv
      rw [← hm1, testBit_mask] at this
      rw [hs]; simpa using this
    have hne : ¬ cur s.toks = K.Eof := by
      intro h0; rw [hs] at h0; rw [h0, hE] at hv; simp at hv
    intro mark root
    refine ⟨2, s, ?_, hs, Step.refl s, fun _ => by omega, fun h0 => absurd rfl h0⟩
    simp only [exec, hnot, if_false, hne]
  · have hin : cur s.toks ∈ ks := by
      have := first_sound h d hw
      rw [← hm1, testBit_mask] at this
      rw [hs, cur_append hw]; simpa using this
    refine Good.arm_alt hin ?_ hw
    refine hc x Fo hm2 hok hfit.1 s v hs hv (fun h0 => absurd h0 hw) (fun _ => ?_)
    have := he hw
    simp only [Stmt.ecost] at this
    omega

/-- All parses of `w` by the arms of an alternative succeed. -/
def ClaimN (T : LL) (G : Grammar) (r : Rule) (w : List Kind) (F : Forest) : Prop :=
  ∀ a b ks x rest Fo, r = .alt a b → mask ks = a.firstM T → matchR T G a x = true → matchA T G b rest = true →
    ruleOk T r Fo = true → x.fits T = true → rest.fits T = true → ∀ s v, s.toks = w ++ v →
    Fo.testBit (cur v) = true → (w ≠ [] → (Stmt.arm ks x rest).ecost T ≤ s.fuel) →
    Good T G (.arm ks x rest) w F s v

theorem claimA_full (h : LLOk T G R) {r w F} (d : DTree R r w F) (hS : ∀ st, ClaimS T G r w F st)
    (hN : ClaimN T G r w F) : ∀ st, ClaimA T G r w F st := by
  intro st
  cases st with
  | arm ks x rest =>
    cases rest with
    | altEnd e => exact claimA_last h d hS ks x e
    | _ =>
      intro Fo hm hok hfit hnull s v hs hv he
      cases r with
      | alt a b =>
        rw [matchA] at hm
        · simp only [Bool.and_eq_true, beq_iff_eq] at hm
          rw [Stmt.fits, Bool.and_eq_true] at hfit
          exact hN a b ks x _ Fo rfl hm.1.1 hm.1.2 hm.2 hok hfit.1 hfit.2 s v hs hv he
        · simp
      | _ => simp [matchA] at hm
  | _ => intro Fo hm; cases r <;> simp [matchA] at hm

theorem zc_of_matchA {r : Rule} {st : Stmt} (h : matchA T G r st = true) : st.zc = 0 := by
  cases st with
  | arm => rfl
  | _ => cases r <;> simp [matchA] at h

/-- From arms to the whole `match`. -/
theorem claimS_alt {a b w F} (hN : ClaimN T G (.alt a b) w F) :
    ∀ st, st.core = true → ClaimS T G (.alt a b) w F st := by
  intro st hcore Fo hm hok hfit s v hs hv hz he
  cases st with
  | alt arms =>
    cases arms with
    | arm ks x rest =>
      simp only [matchR, Bool.and_eq_true, beq_iff_eq] at hm
      rw [Stmt.fits, Stmt.fits, Bool.and_eq_true] at hfit
      have h1 : 1 ≤ s.fuel := by
        by_cases hw : w = []
        · exact hz hw
        · have := he hw; rw [Stmt.ecost] at this; omega
      obtain ⟨s1, hn, ht, hfu⟩ := nth_some h1
      have key := hN a b ks x rest Fo rfl hm.1.1 hm.1.2 hm.2 hok hfit.1 hfit.2 s1 v (by rw [ht]; exact hs) hv
        (fun hw => by have := he hw; rw [Stmt.ecost] at this; omega)
      intro mark root
      obtain ⟨n, s', e1, e2, e3, e4, e5⟩ := key mark root
      refine ⟨n + 1, s', ?_, e2, ?_, ?_, ?_⟩
      · rw [exec.eq_9, hn]; exact e1
      · have := (nth_step hn).trans e3
        simpa [append] using this
      · intro hw; have := e4 hw; simp only [Stmt.zc] at this ⊢; omega
      · intro hw; have := e5 hw; rw [Stmt.xcost]; exact this
    | _ => simp [matchR] at hm
  | seq x y => cases x <;> simp [matchR, Stmt.core] at hm hcore
  | _ => simp [matchR] at hm

theorem complete_aux (h : LLOk T G R) {r w F} (d : DTree R r w F) :
    (∀ st, st.core = true → ClaimS T G r w F st) ∧ ClaimN T G r w F := by
  induction d with
  | tok k =>
    constructor
    · intro st hcore Fo hm hok hfit s v hs hv hz he
      cases st with
      | expect k' =>
        simp only [matchR, beq_iff_eq] at hm
        subst hm
        have he := he (by simp)
        simp only [Stmt.ecost] at he
        obtain ⟨s1, hn, ht, hfu⟩ := nth_some he
        intro mark root
        have ha : s1.advance = .next { toks := v, fuel := maxFuel, events := s1.events ++ [.advance] } := by
          unfold PState.advance
          rw [ht, hs]; rfl
        have hx : exec G 1 mark root (.expect k) s = .next { toks := v, fuel := maxFuel, events := s1.events ++ [.advance] } := by
          simp only [exec, PState.expect, hn]
          have : cur s.toks = k := by rw [hs]; rfl
          simp only [this, if_true]
          exact ha
        refine ⟨1, _, hx, rfl, ?_, by simp, fun _ => by simp⟩
        simp only [exec] at hx
        rcases expect_next hx with ⟨h1, -⟩ | ⟨h1, h2⟩
        · exact h1
        · exact absurd (by rw [hs]; rfl) h2
      | seq a b => cases a <;> simp [matchR, Stmt.core] at hm hcore
      | _ => simp [matchR] at hm
    · intro a b ks x rest Fo h0; simp at h0
  | node k r w F hr d ih =>
    have ihS := lift_claim h d ih.1
    constructor
    · intro st hcore Fo hm hok hfit s v hs hv hz he
      cases st with
      | call k' =>
        simp only [matchR, Bool.and_eq_true, beq_iff_eq] at hm
        obtain ⟨hm1, hm2⟩ := hm
        subst hm1
        obtain ⟨f, hf, t1, t2, t3, t4, t5, t6, t7⟩ := h.tab hr
        rw [hf] at hm2
        simp only [Bool.and_eq_true, beq_iff_eq] at hm2
        obtain ⟨⟨hm2, hm2'⟩, hm3⟩ := hm2
        simp only [ruleOk] at hok
        have hv' := Mask.sub_testBit hok hv
        have hwE : w ≠ [] → T.ec k ≤ s.fuel := fun hw => by have := he hw; simpa [Stmt.ecost] using this
        have body : ∀ t : PState, t.toks = s.toks → w ≠ [] → f.body.ecost T ≤ t.fuel →
            ∃ n s', (match exec G n t.events.length f.kind f.body (t.push (.openNode K.Error)) with
              | .next s' => match (if f.swallow then s'.swallow else .next s') with
                | .next s' => Out.next (s'.close t.events.length f.kind)
                | o => o
              | .ret s' => .next s'
              | o => o) = .next s' ∧ s'.toks = v ∧ Step t s' (.node k F .nil) w ∧
              (maxFuel ≤ s'.fuel + T.xc k) := by
          intro t ht hw hfu
          have := ihS f.body (T.follow k) t3 t4 t5 (t.push (.openNode K.Error)) v
            (by simp only [PState.push]; rw [ht]; exact hs) hv' (fun h0 => absurd h0 hw) (fun _ => by simpa [PState.push] using hfu)
            t.events.length f.kind
          obtain ⟨n, s', e1, e2, e3, e4, e5⟩ := this
          refine ⟨n, s'.close t.events.length f.kind, ?_, ?_, ?_, ?_⟩
          · rw [e1]; simp [hm2]
          · simpa [PState.close] using e2
          · have := bracket_step k K.Error e3
            rw [hm2']; exact this
          · have := e5 hw
            simp only [PState.close]; omega
        cases hg : f.guard with
        | none =>
          rw [hg] at hm3 t6
          simp only [Bool.not_eq_true'] at hm3
          have hw : w ≠ [] := by
            intro h0
            have := t1 (null_sound h d h0)
            rw [this] at hm3; simp at hm3
          obtain ⟨n, s', e1, e2, e3, e4⟩ := body s rfl hw (by have := hwE hw; omega)
          intro mark root
          refine ⟨n + 1, s', ?_, e2, ?_, fun h0 => absurd h0 hw, fun _ => by simpa [Stmt.xcost] using e4⟩
          · simp only [exec, hf, hg]; exact e1
          · rw [if_neg hw]; exact e3
        | some ks =>
          rw [hg] at hm3 t6
          simp only at t6
          simp only [Bool.and_eq_true, beq_iff_eq] at hm3
          obtain ⟨⟨hm3, hm4⟩, hm5⟩ := hm3
          by_cases hw : w = []
          · have hz := hz hw
            simp only [Stmt.zc] at hz
            obtain ⟨s1, hn, ht, hfu⟩ := nth_some (s := s) hz
            subst hw
            simp only [List.nil_append] at hs
            have hnot : ¬ cur s.toks ∈ ks := by
              have := Mask.disj_testBit hm5 hv'
              rw [← hm4, testBit_mask] at this
              rw [hs]; simpa using this
            intro mark root
            refine ⟨1, s1, ?_, by rw [ht]; exact hs, by simpa using nth_step hn, fun _ => by simp only [Stmt.zc]; omega,
              fun h0 => absurd rfl h0⟩
            simp only [exec, hf, hg, hn, hnot, if_false]
          · have hwe := hwE hw
            obtain ⟨s1, hn, ht, hfu⟩ := nth_some (s := s) (by omega)
            have hin : cur s.toks ∈ ks := by
              have := Mask.sub_testBit t2 (first_sound h d hw)
              rw [← hm4, testBit_mask] at this
              rw [hs, cur_append hw]; simpa using this
            obtain ⟨n, s', e1, e2, e3, e4⟩ := body s1 ht hw (by omega)
            intro mark root
            refine ⟨n + 1, s', ?_, e2, ?_, fun h0 => absurd h0 hw, fun _ => by simpa [Stmt.xcost] using e4⟩
            · simp only [exec, hf, hg, hn, hin, if_true]; exact e1
            · rw [if_neg hw]
              have := (nth_step hn).trans e3
              simpa [append] using this
      | seq a b => cases a <;> simp [matchR, Stmt.core] at hm hcore
      | _ => simp [matchR] at hm
    · intro a b ks x rest Fo h0; simp at h0
  | seq a b u v F1 F2 da db iha ihb =>
    have iA := lift_claim h da iha.1
    have iB := lift_claim h db ihb.1
    constructor
    · intro st hcore Fo hm hok hfit s z hs hv hz he
      cases st with
      | seq x y =>
        have hm' : matchR T G a x = true ∧ matchR T G b y = true := by
          cases x <;> simp_all [matchR, Stmt.core]
        obtain ⟨hm1, hm2⟩ := hm'
        simp only [ruleOk, Bool.and_eq_true] at hok
        simp only [Stmt.fits, Bool.and_eq_true, Nat.ble_eq, Bool.or_eq_true, Bool.not_eq_true'] at hfit
        obtain ⟨⟨⟨hf1, hf2⟩, hf3⟩, hf4⟩ := hfit
        have hfo : (b.firstM T ||| (if b.null T then Fo else 0)).testBit (cur (v ++ z)) = true := by
          rw [Nat.testBit_or]
          by_cases hw : v = []
          · rw [null_sound h db hw]; subst hw; simp [hv]
          · rw [cur_append hw, first_sound h db hw]; simp
        have hnx : u = [] → x.snull T = true := fun hu => snull_of_match hm1 (null_sound h da hu)
        have hny : v = [] → y.snull T = true := fun hu => snull_of_match hm2 (null_sound h db hu)
        simp only [Stmt.zc, Stmt.ecost] at hz he
        have gA := iA x _ hm1 hok.2 hf1 s (v ++ z) (by rw [hs]; simp) hfo
          (fun hu => by
            by_cases hw : v = []
            · have := hz (by simp [hu, hw]); omega
            · have := he (by simp [hw])
              rw [if_pos (hnx hu)] at this
              omega)
          (fun hu => by have := he (by simp [hu]); omega)
        intro mark root
        obtain ⟨n1, s1, e1, e2, e3, e4, e5⟩ := gA mark root
        have gB := iB y Fo hm2 hok.1 hf2 s1 z e2 hv
          (fun hw => by
            by_cases hu : u = []
            · have := hz (by simp [hu, hw]); have := e4 hu; omega
            · have := e5 hu
              have hb : x.xcost T + y.zc ≤ maxFuel := by
                rcases hf4 with h4 | h4
                · rw [hny hw] at h4; simp at h4
                · exact h4
              omega)
          (fun hw => by
            by_cases hu : u = []
            · have := he (by simp [hw])
              rw [if_pos (hnx hu)] at this
              have := e4 hu; omega
            · have := e5 hu; omega)
        obtain ⟨n2, s2, g1, g2, g3, g4, g5⟩ := gB mark root
        refine ⟨max n1 n2 + 1, s2, ?_, g2, e3.trans g3, ?_, ?_⟩
        · simp only [exec]
          rw [exec_mono_le G (Nat.le_max_left n1 n2) mark root x s (by rw [e1]; exact next_ne_deep), e1]
          simp only
          rw [exec_mono_le G (Nat.le_max_right n1 n2) mark root y s1 (by rw [g1]; exact next_ne_deep), g1]
        · intro h0
          simp at h0
          have := e4 h0.1
          have := g4 h0.2
          simp only [Stmt.zc]; omega
        · intro h0
          simp only [Stmt.xcost]
          by_cases hw : v = []
          · have hu : u ≠ [] := by intro hu; exact h0 (by simp [hu, hw])
            have := e5 hu
            have := g4 hw
            rw [if_pos (hny hw)]
            omega
          · have := g5 hw
            omega
      | _ => simp [matchR] at hm
    · intro a b ks x rest Fo h0; simp at h0
  | altL a b w F d ih =>
    have iS := lift_claim h d ih.1
    have hN : ClaimN T G (.alt a b) w F := by
      intro a' b' ks x rest Fo h0 hk hmx hmr hok hfx hfr s v hs hv he
      simp only [Rule.alt.injEq] at h0
      obtain ⟨rfl, rfl⟩ := h0
      simp only [ruleOk, Bool.and_eq_true, Bool.not_eq_true', Bool.or_eq_true] at hok
      obtain ⟨⟨⟨⟨ho1, ho2⟩, ho3⟩, ho4⟩, ho5⟩ := hok
      have hw : w ≠ [] := by
        intro h0
        have := null_sound h d h0
        rw [this] at ho1; simp at ho1
      have he := he hw
      rw [Stmt.ecost] at he
      have hin : cur s.toks ∈ ks := by
        have := first_sound h d hw
        rw [← hk, testBit_mask] at this
        rw [hs, cur_append hw]; simpa using this
      exact Good.arm_alt hin (iS x Fo hmx ho3 hfx s v hs hv (fun h0 => absurd h0 hw) (fun _ => by omega)) hw
    exact ⟨claimS_alt hN, hN⟩
  | altR a b w F d ih =>
    have iA := claimA_full h d (lift_claim h d ih.1) ih.2
    have hN : ClaimN T G (.alt a b) w F := by
      intro a' b' ks x rest Fo h0 hk hmx hmr hok hfx hfr s v hs hv he
      simp only [Rule.alt.injEq] at h0
      obtain ⟨rfl, rfl⟩ := h0
      simp only [ruleOk, Bool.and_eq_true, Bool.not_eq_true', Bool.or_eq_true] at hok
      obtain ⟨⟨⟨⟨ho1, ho2⟩, ho3⟩, ho4⟩, ho5⟩ := hok
      have hnb : b.null T = true → (a.firstM T ||| b.firstM T).disj Fo = true ∧ Fo.testBit K.Eof = false := by
        intro hb
        rcases ho5 with h5 | h5
        · rw [hb] at h5; simp at h5
        · exact h5
      have hor : ∀ c, Fo.testBit c = true → b.null T = true → (a.firstM T).testBit c = false ∧ (b.firstM T).testBit c = false := by
        intro c hc hb
        have := Mask.disj_testBit (hnb hb).1 hc
        rw [Nat.testBit_or] at this
        simpa using this
      have hnot : ¬ cur s.toks ∈ ks := by
        by_cases hw : w = []
        · have := (hor (cur v) hv (null_sound h d hw)).1
          rw [← hk, testBit_mask] at this
          rw [hs, hw]; simpa using this
        · have := Mask.disj_testBit ho2 (first_sound h d hw)
          rw [← hk, testBit_mask] at this
          rw [hs, cur_append hw]; simpa using this
      have hg := iA rest Fo hmr ho4 hfr (fun hb => ⟨by
          have := (hnb hb).1
          simp only [Mask.disj, beq_iff_eq] at this ⊢
          apply Nat.eq_of_testBit_eq
          intro i
          rw [Nat.testBit_and, Nat.zero_testBit]
          cases hi : Fo.testBit i with
          | false => simp
          | true => rw [(hor i hi hb).2]; rfl, (hnb hb).2⟩) s v hs hv
        (fun hw => by have := he hw; rw [Stmt.ecost] at this; omega)
      intro mark root
      obtain ⟨n, s', e1, e2, e3, e4, e5⟩ := hg mark root
      refine ⟨n + 1, s', ?_, e2, e3, ?_, ?_⟩
      · rw [exec.eq_10, if_neg hnot]; exact e1
      · intro hw; have := e4 hw; rw [zc_of_matchA hmr] at this; simp only [Stmt.zc]; exact this
      · intro hw; have := e5 hw; rw [Stmt.xcost]; omega
    exact ⟨claimS_alt hN, hN⟩
  | optNone r =>
    constructor
    · intro st hcore Fo hm hok hfit s v hs hv hz he
      cases st with
      | opt ks b =>
        simp only [matchR, Bool.and_eq_true, beq_iff_eq] at hm
        simp only [ruleOk, Bool.and_eq_true, Bool.not_eq_true'] at hok
        have hz := hz rfl
        simp only [Stmt.zc] at hz
        obtain ⟨s1, hn, ht, hfu⟩ := nth_some (s := s) hz
        simp only [List.nil_append] at hs
        have hnot : ¬ cur s.toks ∈ ks := by
          have := Mask.disj_testBit hok.1.2 hv
          rw [← hm.1, testBit_mask] at this
          rw [hs]; simpa using this
        intro mark root
        refine ⟨1, s1, ?_, by rw [ht]; exact hs, nth_step hn, fun _ => by simp only [Stmt.zc]; omega,
          fun h0 => absurd rfl h0⟩
        simp only [exec, hn, hnot, if_false]
      | seq x y => cases x <;> simp [matchR, Stmt.core] at hm hcore
      | _ => simp [matchR] at hm
    · intro a b ks x rest Fo h0; simp at h0
  | optSome r w F d ih =>
    have iS := lift_claim h d ih.1
    constructor
    · intro st hcore Fo hm hok hfit s v hs hv hz he
      cases st with
      | opt ks b =>
        simp only [matchR, Bool.and_eq_true, beq_iff_eq] at hm
        simp only [ruleOk, Bool.and_eq_true, Bool.not_eq_true'] at hok
        have hw : w ≠ [] := by
          intro h0
          have := null_sound h d h0
          rw [this] at hok; simp at hok
        have he := he hw
        simp only [Stmt.ecost] at he
        obtain ⟨s1, hn, ht, hfu⟩ := nth_some (s := s) (by omega)
        have hin : cur s.toks ∈ ks := by
          have := first_sound h d hw
          rw [← hm.1, testBit_mask] at this
          rw [hs, cur_append hw]; simpa using this
        rw [Stmt.fits] at hfit
        have hg := iS b Fo hm.2 hok.2 hfit s1 v (by rw [ht]; exact hs) hv (fun h0 => absurd h0 hw) (fun _ => by omega)
        intro mark root
        obtain ⟨n, s', e1, e2, e3, e4, e5⟩ := hg mark root
        refine ⟨n + 1, s', ?_, e2, ?_, fun h0 => absurd h0 hw, fun _ => by have := e5 hw; simpa [Stmt.xcost] using this⟩
        · rw [exec.eq_7, hn]; simp only [hin, if_true]; exact e1
        · have := (nth_step hn).trans e3
          simpa [append] using this
      | seq x y => cases x <;> simp [matchR, Stmt.core] at hm hcore
      | _ => simp [matchR] at hm
    · intro a b ks x rest Fo h0; simp at h0
  | repNil r =>
    constructor
    · intro st hcore Fo hm hok hfit s v hs hv hz he
      cases st with
      | rep ks b =>
        simp only [matchR, Bool.and_eq_true, beq_iff_eq] at hm
        simp only [ruleOk, Bool.and_eq_true, Bool.not_eq_true'] at hok
        have hz := hz rfl
        simp only [Stmt.zc] at hz
        obtain ⟨s1, hn, ht, hfu⟩ := nth_some (s := s) hz
        simp only [List.nil_append] at hs
        have hnot : ¬ cur s.toks ∈ ks := by
          have := Mask.disj_testBit hok.1.2 hv
          rw [← hm.1, testBit_mask] at this
          rw [hs]; simpa using this
        intro mark root
        refine ⟨1, s1, ?_, by rw [ht]; exact hs, nth_step hn, fun _ => by simp only [Stmt.zc]; omega,
          fun h0 => absurd rfl h0⟩
        simp only [exec, hn, hnot, if_false]
      | seq x y => cases x <;> simp [matchR, Stmt.core] at hm hcore
      | _ => simp [matchR] at hm
    · intro a b ks x rest Fo h0; simp at h0
  | repCons r u v F1 F2 d ds ih ihs =>
    have iS := lift_claim h d ih.1
    have iR := lift_claim h ds ihs.1
    constructor
    · intro st hcore Fo hm hok hfit s z hs hv hz he
      cases st with
      | rep ks b =>
        have hm0 := hm
        have hok0 := hok
        have hfit0 := hfit
        simp only [matchR, Bool.and_eq_true, beq_iff_eq] at hm
        simp only [ruleOk, Bool.and_eq_true, Bool.not_eq_true'] at hok
        rw [Stmt.fits, Bool.and_eq_true, Nat.ble_eq] at hfit
        have hu : u ≠ [] := by
          intro h0
          have := null_sound h d h0
          rw [this] at hok; simp at hok
        have huv : u ++ v ≠ [] := by simp [hu]
        have he := he huv
        simp only [Stmt.ecost] at he
        obtain ⟨s1, hn, ht, hfu⟩ := nth_some (s := s) (by omega)
        have hin : cur s.toks ∈ ks := by
          have := first_sound h d hu
          rw [← hm.1, testBit_mask] at this
          rw [hs, cur_append huv, cur_append hu]; simpa using this
        have hfo : (Fo ||| r.firstM T).testBit (cur (v ++ z)) = true := by
          rw [Nat.testBit_or]
          by_cases hw : v = []
          · subst hw; simp [hv]
          · have := first_sound h ds hw
            rw [Rule.firstM] at this
            rw [cur_append hw, this]; simp
        have hg := iS b _ hm.2 hok.2 hfit.1 s1 (v ++ z) (by rw [ht, hs]; simp) hfo
          (fun h0 => absurd h0 hu) (fun _ => by omega)
        intro mark root
        obtain ⟨n1, s2, e1, e2, e3, e4, e5⟩ := hg mark root
        have e5 := e5 hu
        have hg2 := iR (.rep ks b) Fo hm0 hok0 hfit0 s2 z e2 hv (fun _ => by simp only [Stmt.zc]; omega)
          (fun _ => by simp only [Stmt.ecost]; omega)
        obtain ⟨n2, s3, g1, g2, g3, g4, g5⟩ := hg2 mark root
        have hlen : ¬ s2.toks.length = s1.toks.length := by
          rw [e3.2.1]
          have : u.length ≠ 0 := by simpa using hu
          simp [hu]
        refine ⟨max n1 n2 + 1, s3, ?_, g2, ?_, fun h0 => absurd h0 huv, ?_⟩
        · rw [exec.eq_8, hn]
          simp only [hin, if_true]
          rw [exec_mono_le G (Nat.le_max_left n1 n2) mark root b s1 (by rw [e1]; exact next_ne_deep), e1]
          simp only [hlen, if_false]
          rw [exec_mono_le G (Nat.le_max_right n1 n2) mark root _ s2 (by rw [g1]; exact next_ne_deep), g1]
        · have := (nth_step hn).trans (e3.trans g3)
          simpa [append] using this
        · intro _
          simp only [Stmt.xcost]
          by_cases hw : v = []
          · have := g4 hw
            simp only [Stmt.zc] at this
            omega
          · have := g5 hw
            simp only [Stmt.xcost] at this
            omega
      | seq x y => cases x <;> simp [matchR, Stmt.core] at hm hcore
      | _ => simp [matchR] at hm
    · intro a b ks x rest Fo h0; simp at h0

/-- Every derivation is followed by the parser. -/
theorem complete (h : LLOk T G R) {r w F} (d : DTree R r w F) (st : Stmt) : ClaimS T G r w F st :=
  lift_claim h d (complete_aux h d).1 st

end Verif.Grammar
