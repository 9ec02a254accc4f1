import Verif.Grammar.Struct
/-!
# Termination of the parser, and absence of crashes other than "parser is stuck"

A static analysis of statements (over sets of kinds, as bit masks) together with certificates shows that no chain of
calls can avoid consuming a token forever. None of this is part of the code; the certificates are checked by the
kernel in `Verif.Grammar.Cert`.
-/
namespace Verif.Grammar
open Forest

/-! ## Running longer does not change a result -/

theorem exec_mono (G : Grammar) (n : Nat) : ∀ (mark : Nat) (root : Kind) (st : Stmt) (s : PState),
    exec G n mark root st s ≠ .deep → exec G (n + 1) mark root st s = exec G n mark root st s := by
  induction n with
  | zero => intro mark root st s h; simp [exec] at h
  | succ n ih =>
    intro mark root st s h
    cases st with
    | skip => rfl
    | seq a b =>
      rw [exec.eq_3] at h ⊢
      rw [exec.eq_3]
      have ha : exec G n mark root a s ≠ .deep := by
        intro hd; rw [hd] at h; simp at h
      rw [ih _ _ _ _ ha]
      cases hh : exec G n mark root a s with
      | next s1 =>
        simp only
        rw [hh] at h
        exact ih _ _ _ _ h
      | _ => rfl
    | expect k => rfl
    | call k =>
      simp only [exec] at h ⊢
      cases hG : G k with
      | none => rfl
      | some f =>
        rw [hG] at h
        simp only at h ⊢
        have enter : ∀ t : PState,
            (match exec G n t.events.length f.kind f.body (t.push (.openNode K.Error)) with
              | .next s' => match (if f.swallow then s'.swallow else .next s') with
                | .next s' => Out.next (s'.close t.events.length f.kind)
                | o => o
              | .ret s' => .next s'
              | o => o) ≠ .deep →
            exec G (n+1) t.events.length f.kind f.body (t.push (.openNode K.Error)) =
              exec G n t.events.length f.kind f.body (t.push (.openNode K.Error)) := by
          intro t ht
          apply ih
          intro hd; rw [hd] at ht; simp at ht
        cases hg : f.guard with
        | none =>
          rw [hg] at h
          simp only [exec] at enter h ⊢
          rw [enter _ h]
        | some ks =>
          rw [hg] at h
          simp only [exec] at enter h ⊢
          cases hn : s.nth with
          | none => rfl
          | some p =>
            obtain ⟨c, s1⟩ := p
            rw [hn] at h
            simp only at h ⊢
            split
            · next hc => rw [if_pos hc] at h; rw [enter _ h]
            · rfl
    | sync ks => rfl
    | opt ks b =>
      rw [exec.eq_7] at h ⊢
      rw [exec.eq_7]
      cases hn : s.nth with
      | none => rfl
      | some p =>
        obtain ⟨c, s1⟩ := p
        rw [hn] at h
        simp only at h ⊢
        split
        · next hc => rw [if_pos hc] at h; exact ih _ _ _ _ h
        · rfl
    | rep ks b =>
      rw [exec.eq_8] at h ⊢
      rw [exec.eq_8]
      cases hn : s.nth with
      | none => rfl
      | some p =>
        obtain ⟨c, s1⟩ := p
        rw [hn] at h
        simp only at h ⊢
        split
        · next hc =>
          rw [if_pos hc] at h
          have hb : exec G n mark root b s1 ≠ .deep := by
            intro hd; rw [hd] at h; simp at h
          rw [ih _ _ _ _ hb]
          cases hh : exec G n mark root b s1 with
          | next s2 =>
            rw [hh] at h
            simp only at h ⊢
            split
            · rfl
            · next hl => rw [if_neg hl] at h; exact ih _ _ _ _ h
          | _ => rfl
        · rfl
    | alt arms =>
      rw [exec.eq_9] at h ⊢
      rw [exec.eq_9]
      cases hn : s.nth with
      | none => rfl
      | some p =>
        obtain ⟨c, s1⟩ := p
        rw [hn] at h
        exact ih _ _ _ _ h
    | arm ks b rest =>
      rw [exec.eq_10] at h ⊢
      rw [exec.eq_10]
      split
      · next hc => rw [if_pos hc] at h; exact ih _ _ _ _ h
      · next hc => rw [if_neg hc] at h; exact ih _ _ _ _ h
    | altEnd e => rfl

theorem exec_mono_le (G : Grammar) {n m : Nat} (hnm : n ≤ m) (mark : Nat) (root : Kind) (st : Stmt) (s : PState)
    (h : exec G n mark root st s ≠ .deep) : exec G m mark root st s = exec G n mark root st s := by
  induction hnm with
  | refl => rfl
  | step hle ih =>
    rw [← ih]
    exact exec_mono G _ mark root st s (by rw [ih]; exact h)

/-! ## Sets of kinds as bit masks -/

/-- Set of kinds. -/
abbrev Mask := Nat

def mask : List Kind → Mask
  | [] => 0
  | k :: ks => (1 <<< k) ||| mask ks

def Mask.diff (S T : Mask) : Mask := S ^^^ (S &&& T)

theorem testBit_one_sub (c k : Nat) (h3 : c ≠ k) (h4 : k ≤ c) : Nat.testBit 1 (c - k) = false := by
  have : c - k ≠ 0 := by omega
  rw [Nat.testBit_one_eq_true_iff_self_eq_zero.not.mpr this |> Bool.eq_false_iff.mpr]

theorem testBit_mask (ks : List Kind) (c : Kind) : (mask ks).testBit c = decide (c ∈ ks) := by
  induction ks with
  | nil => simp [mask]
  | cons k ks ih =>
    simp only [mask, Nat.testBit_or, ih, List.mem_cons, Nat.testBit_shiftLeft]
    by_cases h : c = k
    · subst h; simp
    · by_cases h2 : c ≥ k
      · have h5 := testBit_one_sub c k h h2
        simp [h, h5]
      · simp [h, h2]

theorem testBit_diff (S T : Mask) (c : Kind) : (S.diff T).testBit c = (S.testBit c && !T.testBit c) := by
  simp only [Mask.diff, Nat.testBit_xor, Nat.testBit_and]
  cases S.testBit c <;> cases T.testBit c <;> rfl

/-- Certificate: for each function, the kinds at which it may finish without consuming a token (`post`), a set
`first`, and its rank when entered at a kind inside (`rin`) or outside (`rout`) `first`. -/
structure Cert where
  post : Kind → Mask
  first : Kind → Mask
  rin : Kind → Nat
  rout : Kind → Nat

/-- The kinds in `S` at which `st` may finish without having consumed a token. -/
def left (C : Cert) : Stmt → Mask → Mask
  | .skip, S => S
  | .seq a b, S => left C b (left C a S)
  | .expect k, S => S.diff (mask [k])
  | .call k, S => S &&& C.post k
  | .sync ks, S => S &&& (mask (K.Eof :: ks))
  | .opt ks b, S => S.diff (mask ks) ||| left C b (S &&& mask ks)
  | .rep ks b, S => S.diff (mask ks) ||| left C b (S &&& mask ks)
  | .alt arms, S => left C arms S
  | .arm ks b rest, S => left C b (S &&& mask ks) ||| left C rest (S.diff (mask ks))
  | .altEnd none, S => S
  | .altEnd (some _), S => S &&& mask recoveryTokens

/-- All kinds. -/
def allKinds : Mask := (1 <<< 344) - 1

def FnDef.entry (f : FnDef) : Mask :=
  match f.guard with
  | none => allKinds
  | some ks => mask ks

def Mask.sub (S T : Mask) : Bool := S.diff T == 0

theorem Mask.sub_testBit {S T : Mask} (h : S.sub T = true) {c : Kind} (hc : S.testBit c = true) :
    T.testBit c = true := by
  simp [Mask.sub] at h
  have := testBit_diff S T c
  rw [h, hc] at this
  simpa using this

/-- `post` is sound for `f`. -/
def postOk (C : Cert) (k : Kind) (f : FnDef) : Bool :=
  (left C f.body f.entry).sub (C.post k) &&
  (allKinds.diff f.entry).sub (C.post k) &&
  (C.post k).testBit K.Eof

def ToksOk (s : PState) : Prop := ∀ t ∈ s.toks, t < 344

theorem cur_lt {s : PState} (h : ToksOk s) : cur s.toks < 344 := by
  unfold cur
  split
  · decide
  · next k l hk => exact h k (by rw [hk]; simp)

set_option exponentiation.threshold 400 in
theorem allKinds_testBit {c : Kind} (h : c < 344) : allKinds.testBit c = true := by
  unfold allKinds
  rw [Nat.one_shiftLeft, Nat.testBit_two_pow_sub_one]
  simp [h]

theorem Step.toksOk {s s' : PState} {F w} (h : Step s s' F w) (hs : ToksOk s) : ToksOk s' := by
  intro t ht; exact hs t (by rw [h.2.1]; simp [ht])

theorem Step.len {s s' : PState} {F w} (h : Step s s' F w) : s'.toks.length ≤ s.toks.length := by
  rw [h.2.1]; simp

/-- Progress: consumed something or nothing changed and the kind is in the set. -/
def Prog (S : Mask) (s s' : PState) : Prop :=
  s'.toks.length < s.toks.length ∨ (s'.toks = s.toks ∧ S.testBit (cur s.toks) = true)

theorem Prog.mono {S T : Mask} {s s' : PState} (h : Prog S s s') (hST : S.testBit (cur s.toks) = true → T.testBit (cur s.toks) = true) :
    Prog T s s' := by
  rcases h with h | ⟨h1, h2⟩
  · exact Or.inl h
  · exact Or.inr ⟨h1, hST h2⟩

theorem errorUntil_prog {s s' : PState} {e rec : List Kind} (h : s.errorUntil e rec = .next s') :
    Prog (mask (K.Eof :: rec)) s s' := by
  unfold PState.errorUntil at h
  simp only at h
  split at h
  · simp at h
  · next c s1 hn =>
    obtain ⟨hc, ht, -⟩ := nth_eq hn
    simp only [PState.push] at hc ht
    split at h
    · next hr =>
      simp at h; subst h
      right
      refine ⟨ht, ?_⟩
      rw [testBit_mask]
      rcases hr with hr | hr
      · rw [hc] at hr; simp [hr]
      · rw [ht] at hr; simp [hr, cur]
    · next hr =>
      split at h
      · simp at h
      · next r f n hs =>
        simp at h; subst h
        obtain ⟨w, h1, h2, h3, -⟩ := skipUntil_spec hs
        simp only [PState.push] at h1
        left
        simp only [PState.close]
        rw [← ht, h1]
        cases w with
        | nil =>
          exfalso
          simp at h1
          rw [not_or] at hr
          rcases h3 with h3 | h3
          · exact hr.2 (by rw [h1, h3])
          · apply hr.1; rw [hc, ← ht, h1]; exact h3
        | cons => simp; omega

/-- `left` is sound. -/
theorem exec_prog (G : Grammar) (C : Cert) (hpost : ∀ k f, G k = some f → postOk C k f = true) (n : Nat) :
    ∀ (mark : Nat) (root : Kind) (st : Stmt) (s s' : PState) (S : Mask), ToksOk s →
    S.testBit (cur s.toks) = true → exec G n mark root st s = .next s' → Prog (left C st S) s s' := by
  induction n with
  | zero => intro mark root st s s' S _ _ h; simp [exec] at h
  | succ n ih =>
    intro mark root st s s' S hs hS h
    cases st with
    | skip =>
      simp only [exec, Out.next.injEq] at h; subst h
      exact Or.inr ⟨rfl, hS⟩
    | seq a b =>
      simp only [exec] at h
      cases ha : exec G n mark root a s with
      | next s1 =>
        rw [ha] at h
        simp only at h
        obtain ⟨F, w, hF⟩ := (exec_struct G n mark root a s).1 s1 ha
        obtain ⟨F', w', hF'⟩ := (exec_struct G n mark root b s1).1 s' h
        rcases ih mark root a s s1 S hs hS ha with h1 | ⟨h1, h2⟩
        · left; have := hF'.len; omega
        · have := ih mark root b s1 s' (left C a S) (hF.toksOk hs) (by rw [h1]; exact h2) h
          simp only [left]
          unfold Prog at this ⊢
          rw [h1] at this
          exact this
      | _ => rw [ha] at h; simp at h
    | expect k =>
      simp only [exec] at h
      rcases expect_next h with ⟨h1, -⟩ | ⟨h1, h2⟩
      · left; rw [h1.2.1]; simp
      · right
        refine ⟨by rw [h1.2.1]; rfl, ?_⟩
        simp only [left, testBit_diff, testBit_mask, hS]
        simp [h2]
    | call k =>
      simp only [exec] at h
      cases hG : G k with
      | none => rw [hG] at h; simp at h
      | some f =>
        rw [hG] at h
        simp only at h
        have hp := hpost k f hG
        simp only [postOk, Bool.and_eq_true] at hp
        obtain ⟨⟨hp1, hp2⟩, hp3⟩ := hp
        have key : ∀ t : PState, t.toks = s.toks → f.entry.testBit (cur s.toks) = true →
            (match exec G n t.events.length f.kind f.body (t.push (.openNode K.Error)) with
              | .next s' => match (if f.swallow then s'.swallow else .next s') with
                | .next s' => Out.next (s'.close t.events.length f.kind)
                | o => o
              | .ret s' => .next s'
              | o => o) = .next s' → Prog (left C (.call k) S) s s' := by
          intro t ht he hx
          cases hb : exec G n t.events.length f.kind f.body (t.push (.openNode K.Error)) with
          | next s1 =>
            rw [hb] at hx
            simp only at hx
            have hprog := ih _ _ _ (t.push (.openNode K.Error)) s1 f.entry
              (by intro x hx; exact hs x (by rw [← ht]; exact hx)) (by simp only [PState.push]; rw [ht]; exact he) hb
            have hprog : Prog (C.post k) s s1 := by
              unfold Prog at hprog ⊢
              simp only [PState.push, ht] at hprog
              rcases hprog with h1 | ⟨h1, h2⟩
              · exact Or.inl h1
              · exact Or.inr ⟨h1, Mask.sub_testBit hp1 h2⟩
            have fin : Prog (C.post k) s s' := by
              cases hsw : f.swallow with
              | false =>
                simp [hsw] at hx; subst hx
                exact hprog
              | true =>
                simp only [hsw, if_true] at hx
                cases hs2 : s1.swallow with
                | next s2 =>
                  rw [hs2] at hx
                  simp at hx; subst hx
                  obtain ⟨F2, w2, h2, -⟩ := swallow_next hs2
                  rcases hprog with h1 | ⟨h1, h3⟩
                  · left; simp only [PState.close]; have := h2.len; omega
                  · cases w2 with
                    | nil => right; refine ⟨?_, h3⟩; simp only [PState.close]; rw [← h1, h2.2.1]; rfl
                    | cons x w2 => left; simp only [PState.close]; rw [← h1, h2.2.1]; simp; omega
                | _ => rw [hs2] at hx; simp at hx
            exact fin.mono (by simp only [left, Nat.testBit_and, hS]; simp)
          | ret s1 =>
            rw [hb] at hx
            simp at hx; subst hx
            obtain ⟨F, w, -, h2, -, h4⟩ := (exec_struct G n _ _ _ _).2 s1 hb
            simp only [PState.push, ht] at h2
            cases w with
            | nil =>
              right
              simp at h2
              refine ⟨h2.symm, ?_⟩
              simp only [left, Nat.testBit_and, hS]
              rw [h2, h4]; simpa using hp3
            | cons x w => left; rw [h2]; simp; omega
          | _ => rw [hb] at hx; simp at hx
        cases hg : f.guard with
        | none =>
          rw [hg] at h
          exact key s rfl (by simp only [FnDef.entry, hg]; exact allKinds_testBit (cur_lt hs)) h
        | some ks =>
          rw [hg] at h
          simp only at h
          cases hn : s.nth with
          | none => rw [hn] at h; simp at h
          | some p =>
            obtain ⟨c, s1⟩ := p
            obtain ⟨hc, ht, -⟩ := nth_eq hn
            rw [hn] at h
            simp only at h
            split at h
            · next hcm =>
              exact key s1 ht (by simp only [FnDef.entry, hg, testBit_mask]; rw [← hc]; simpa using hcm) h
            · next hcm =>
              simp at h; subst h
              right
              refine ⟨ht, ?_⟩
              simp only [left, Nat.testBit_and, hS, Bool.true_and]
              apply Mask.sub_testBit hp2
              rw [testBit_diff, allKinds_testBit (cur_lt hs)]
              simp only [FnDef.entry, hg, testBit_mask]
              rw [← hc]; simp [hcm]
    | sync ks =>
      simp only [exec] at h
      cases hn : s.nth with
      | none => rw [hn] at h; simp at h
      | some p =>
        obtain ⟨c, s1⟩ := p
        obtain ⟨hc, ht, -⟩ := nth_eq hn
        rw [hn] at h
        simp only at h
        split at h
        · next hr =>
          simp at h; subst h
          right
          refine ⟨ht, ?_⟩
          simp only [left, Nat.testBit_and, hS, testBit_mask]
          rcases hr with hr | hr
          · rw [hc] at hr; simp [hr]
          · rw [ht] at hr; simp [hr, cur]
        · have := errorUntil_prog h
          unfold Prog at this ⊢
          rw [ht] at this
          simpa [left, Nat.testBit_and, hS] using this
    | opt ks b =>
      simp only [exec] at h
      cases hn : s.nth with
      | none => rw [hn] at h; simp at h
      | some p =>
        obtain ⟨c, s1⟩ := p
        obtain ⟨hc, ht, -⟩ := nth_eq hn
        rw [hn] at h
        simp only at h
        split at h
        · next hr =>
          have := ih mark root b s1 s' (S &&& mask ks) ((nth_step hn).toksOk hs)
            (by rw [ht, Nat.testBit_and, hS, testBit_mask, ← hc]; simpa using hr) h
          unfold Prog at this ⊢
          rw [ht] at this
          simp only [left, Nat.testBit_or]
          rcases this with h1 | ⟨h1, h2⟩
          · exact Or.inl h1
          · exact Or.inr ⟨h1, by rw [h2]; simp⟩
        · next hr =>
          simp at h; subst h
          right
          refine ⟨ht, ?_⟩
          simp only [left, Nat.testBit_or, testBit_diff, hS, testBit_mask]
          rw [← hc]; simp [hr]
    | rep ks b =>
      simp only [exec] at h
      cases hn : s.nth with
      | none => rw [hn] at h; simp at h
      | some p =>
        obtain ⟨c, s1⟩ := p
        obtain ⟨hc, ht, -⟩ := nth_eq hn
        rw [hn] at h
        simp only at h
        split at h
        · next hr =>
          cases hb : exec G n mark root b s1 with
          | next s2 =>
            rw [hb] at h
            simp only at h
            obtain ⟨F, w, hF⟩ := (exec_struct G n mark root b s1).1 s2 hb
            have hprog := ih mark root b s1 s2 (S &&& mask ks) ((nth_step hn).toksOk hs)
              (by rw [ht, Nat.testBit_and, hS, testBit_mask, ← hc]; simpa using hr) hb
            split at h
            · next hl =>
              simp at h; subst h
              unfold Prog at hprog ⊢
              rw [ht] at hprog hl
              simp only [left, Nat.testBit_or]
              rcases hprog with h1 | ⟨h1, h2⟩
              · omega
              · exact Or.inr ⟨h1, by rw [h2]; simp⟩
            · next hl =>
              obtain ⟨F', w', hF'⟩ := (exec_struct G n mark root (.rep ks b) s2).1 s' h
              left
              have a1 := hF.len
              have a2 := hF'.len
              rw [ht] at a1 hl
              omega
          | _ => rw [hb] at h; simp at h
        · next hr =>
          simp at h; subst h
          right
          refine ⟨ht, ?_⟩
          simp only [left, Nat.testBit_or, testBit_diff, hS, testBit_mask]
          rw [← hc]; simp [hr]
    | alt arms =>
      simp only [exec] at h
      cases hn : s.nth with
      | none => rw [hn] at h; simp at h
      | some p =>
        obtain ⟨c, s1⟩ := p
        obtain ⟨hc, ht, -⟩ := nth_eq hn
        rw [hn] at h
        simp only at h
        have := ih mark root arms s1 s' S ((nth_step hn).toksOk hs) (by rw [ht]; exact hS) h
        unfold Prog at this ⊢
        rw [ht] at this
        simpa only [left] using this
    | arm ks b rest =>
      simp only [exec] at h
      split at h
      · next hr =>
        have := ih mark root b s s' (S &&& mask ks) hs (by rw [Nat.testBit_and, hS, testBit_mask]; simpa using hr) h
        exact this.mono (by intro hx; simp only [left, Nat.testBit_or, hx]; simp)
      · next hr =>
        have := ih mark root rest s s' (S.diff (mask ks)) hs (by rw [testBit_diff, hS, testBit_mask]; simpa using hr) h
        exact this.mono (by intro hx; simp only [left, Nat.testBit_or, hx]; simp)
    | altEnd e =>
      simp only [exec] at h
      split at h
      · simp at h
      · cases e with
        | none =>
          simp at h; subst h
          exact Or.inr ⟨rfl, hS⟩
        | some ex =>
          simp only at h
          rcases advanceWithError_next h with ⟨h1, h2⟩ | ⟨t, h1, -⟩
          · right
            refine ⟨by rw [h1.2.1]; rfl, ?_⟩
            simp only [left, Nat.testBit_and, hS, testBit_mask]
            simpa using h2
          · left; rw [h1.2.1]; simp

/-! ## Bounded call chains -/

/-- Height of a statement. -/
def Stmt.height : Stmt → Nat
  | .skip => 1
  | .seq a b => max a.height b.height + 1
  | .expect _ => 1
  | .call _ => 1
  | .sync _ => 1
  | .opt _ b => b.height + 1
  | .rep _ b => b.height + 1
  | .alt a => a.height + 1
  | .arm _ b r => max b.height r.height + 1
  | .altEnd _ => 1

/-- Calls made at a kind of `S` before a token is consumed have rank below `r`. -/
def heads (G : Grammar) (C : Cert) (r : Nat) : Stmt → Mask → Bool
  | .skip, _ => true
  | .seq a b, S => heads G C r a S && heads G C r b (left C a S)
  | .expect _, _ => true
  | .call k, S =>
    match G k with
    | none => true
    | some f =>
      (((S &&& f.entry) &&& C.first k) == 0 || Nat.blt (C.rin k) r) &&
      (((S &&& f.entry).diff (C.first k)) == 0 || Nat.blt (C.rout k) r)
  | .sync _, _ => true
  | .opt ks b, S => heads G C r b (S &&& mask ks)
  | .rep ks b, S => heads G C r b (S &&& mask ks)
  | .alt arms, S => heads G C r arms S
  | .arm ks b rest, S => heads G C r b (S &&& mask ks) && heads G C r rest (S.diff (mask ks))
  | .altEnd _, _ => true

/-- All calls have rank below `r`. -/
def ranksOk (C : Cert) (r : Nat) : Stmt → Bool
  | .seq a b => ranksOk C r a && ranksOk C r b
  | .call k => Nat.blt (C.rin k) r && Nat.blt (C.rout k) r
  | .opt _ b => ranksOk C r b
  | .rep _ b => ranksOk C r b
  | .alt a => ranksOk C r a
  | .arm _ b x => ranksOk C r b && ranksOk C r x
  | _ => true

theorem heads_of_ranksOk (G : Grammar) (C : Cert) (r : Nat) (st : Stmt) (h : ranksOk C r st = true) :
    ∀ S, heads G C r st S = true := by
  induction st with
  | skip => intro S; rfl
  | seq a b iha ihb =>
    intro S
    simp only [ranksOk, Bool.and_eq_true] at h
    simp only [heads, Bool.and_eq_true]
    exact ⟨iha h.1 _, ihb h.2 _⟩
  | expect k => intro S; rfl
  | call k =>
    intro S
    simp only [ranksOk, Bool.and_eq_true] at h
    simp only [heads]
    split
    · rfl
    · simp only [h.1, h.2, Bool.or_true, Bool.and_true]
  | sync ks => intro S; rfl
  | opt ks b ih => intro S; simp only [ranksOk] at h; simp only [heads]; exact ih h _
  | rep ks b ih => intro S; simp only [ranksOk] at h; simp only [heads]; exact ih h _
  | alt a ih => intro S; simp only [ranksOk] at h; simp only [heads]; exact ih h _
  | arm ks b x ihb ihx =>
    intro S
    simp only [ranksOk, Bool.and_eq_true] at h
    simp only [heads, Bool.and_eq_true]
    exact ⟨ihb h.1 _, ihx h.2 _⟩
  | altEnd e => intro S; rfl

/-- What is checked of each function: `R` bounds the ranks, `H` the body height. -/
def fnOk (G : Grammar) (C : Cert) (R H : Nat) (k : Kind) (f : FnDef) : Bool :=
  postOk C k f &&
  ranksOk C R f.body &&
  Nat.ble f.body.height H &&
  heads G C (C.rin k) f.body (f.entry &&& C.first k) &&
  heads G C (C.rout k) f.body (f.entry.diff (C.first k))

theorem errorUntil_not_deep {s : PState} {e r : List Kind} : s.errorUntil e r ≠ .deep := by
  unfold PState.errorUntil
  simp only
  split
  · simp
  · split
    · simp
    · split <;> simp

theorem advance_not_deep {s : PState} : s.advance ≠ .deep := by
  unfold PState.advance; split <;> simp

theorem advanceWithError_not_deep {s : PState} {e : List Kind} : s.advanceWithError e ≠ .deep := by
  unfold PState.advanceWithError
  simp only
  split
  · simp
  · split
    · simp
    · split
      · simp
      · exact advance_not_deep

theorem expect_not_deep {s : PState} {k : Kind} : s.expect k ≠ .deep := by
  unfold PState.expect
  split
  · simp
  · split
    · exact advance_not_deep
    · simp

theorem swallow_not_deep {s : PState} : s.swallow ≠ .deep := by
  unfold PState.swallow
  split
  · simp
  · split
    · simp
    · simp only
      split <;> simp

/-- Recursion depth that suffices with `L` tokens left, head calls of rank below `r` and height `h`. -/
def need (R H L r h : Nat) : Nat := H * (L * (R + 1) + r) + h

theorem need_lt {R H L L' r r' h : Nat} (hl : L' < L) (hr : r' ≤ R) :
    need R H L' r' h + H ≤ need R H L r h := by
  unfold need
  have h1 : L' * (R+1) + r' + 1 ≤ L * (R+1) + r := by
    have : (L'+1) * (R+1) ≤ L * (R+1) := Nat.mul_le_mul_right _ hl
    rw [Nat.add_mul] at this
    omega
  have h2 := Nat.mul_le_mul_left H h1
  rw [Nat.mul_add H (L' * (R+1) + r') 1] at h2
  omega

theorem need_call {R H L r r' h hb : Nat} (hr : r' < r) (hh : hb ≤ H) :
    need R H L r' hb + h ≤ need R H L r h := by
  unfold need
  have h1 : L * (R+1) + r' + 1 ≤ L * (R+1) + r := by omega
  have h2 := Nat.mul_le_mul_left H h1
  rw [Nat.mul_add H (L * (R+1) + r') 1] at h2
  omega

theorem exec_not_deep (G : Grammar) (C : Cert) (R H : Nat) (hH : 1 ≤ H)
    (hG : ∀ k f, G k = some f → fnOk G C R H k f = true) (n : Nat) :
    ∀ (mark : Nat) (root : Kind) (st : Stmt) (s : PState) (S : Mask) (r : Nat), ToksOk s →
    S.testBit (cur s.toks) = true → heads G C r st S = true → ranksOk C R st = true →
    need R H s.toks.length r st.height ≤ n → exec G n mark root st s ≠ .deep := by
  have hpost : ∀ k f, G k = some f → postOk C k f = true := by
    intro k f hk
    have := hG k f hk
    simp only [fnOk, Bool.and_eq_true] at this
    exact this.1.1.1.1
  induction n with
  | zero =>
    intro mark root st s S r hs hS hh hr hn
    exfalso
    have : 1 ≤ st.height := by cases st <;> simp [Stmt.height]
    unfold need at hn
    omega
  | succ n ih =>
    intro mark root st s S r hs hS hh hr hn
    cases st with
    | skip => simp [exec]
    | seq a b =>
      simp only [exec]
      simp only [heads, Bool.and_eq_true] at hh
      simp only [ranksOk, Bool.and_eq_true] at hr
      have ha := ih mark root a s S r hs hS hh.1 hr.1 (by simp only [need, Stmt.height] at hn ⊢; omega)
      cases hx : exec G n mark root a s with
      | deep => exact absurd hx ha
      | next s1 =>
        simp only
        obtain ⟨F, w, hF⟩ := (exec_struct G n mark root a s).1 s1 hx
        rcases exec_prog G C hpost n mark root a s s1 S hs hS hx with h1 | ⟨h1, h2⟩
        · apply ih mark root b s1 allKinds R (hF.toksOk hs) (allKinds_testBit (cur_lt (hF.toksOk hs)))
            (heads_of_ranksOk G C R b hr.2 _) hr.2
          have := need_lt (R := R) (H := H) (r := r) (h := b.height) h1 (Nat.le_refl R)
          simp only [need, Stmt.height] at this hn ⊢
          omega
        · apply ih mark root b s1 (left C a S) r (hF.toksOk hs) (by rw [h1]; exact h2) hh.2 hr.2
          rw [h1]
          simp only [need, Stmt.height] at hn ⊢
          omega
      | _ => simp
    | expect k => simp only [exec]; exact expect_not_deep
    | call k =>
      simp only [exec]
      cases hk : G k with
      | none => simp
      | some f =>
        simp only
        have hf := hG k f hk
        simp only [fnOk, Bool.and_eq_true, Nat.ble_eq] at hf
        obtain ⟨⟨⟨⟨-, hf1⟩, hf2⟩, hf3⟩, hf4⟩ := hf
        simp only [heads, hk, Bool.and_eq_true, Bool.or_eq_true, beq_iff_eq, Nat.blt_eq] at hh
        obtain ⟨hh1, hh2⟩ := hh
        have body : ∀ t : PState, t.toks = s.toks → f.entry.testBit (cur s.toks) = true →
            exec G n t.events.length f.kind f.body (t.push (.openNode K.Error)) ≠ .deep := by
          intro t ht he
          have ht' : ToksOk (t.push (.openNode K.Error)) := by
            intro x hx; exact hs x (by rw [← ht]; exact hx)
          have hc' : cur (t.push (.openNode K.Error)).toks = cur s.toks := by simp [PState.push, ht]
          have hl' : (t.push (.openNode K.Error)).toks.length = s.toks.length := by simp [PState.push, ht]
          by_cases hfi : (C.first k).testBit (cur s.toks) = true
          · have hb : ((S &&& f.entry) &&& C.first k).testBit (cur s.toks) = true := by
              simp only [Nat.testBit_and, hS, he, hfi]; rfl
            have hlt : C.rin k < r := by
              rcases hh1 with h0 | h0
              · rw [h0] at hb; simp at hb
              · exact h0
            apply ih _ _ _ _ (f.entry &&& C.first k) (C.rin k) ht' _ hf3 hf1
            · rw [hl']
              have := need_call (R := R) (H := H) (L := s.toks.length) (h := 1) hlt hf2
              simp only [Stmt.height] at hn
              omega
            · rw [hc', Nat.testBit_and, he, hfi]; rfl
          · have hfi : (C.first k).testBit (cur s.toks) = false := by simpa using hfi
            have hb : ((S &&& f.entry).diff (C.first k)).testBit (cur s.toks) = true := by
              simp only [testBit_diff, Nat.testBit_and, hS, he, hfi]; rfl
            have hlt : C.rout k < r := by
              rcases hh2 with h0 | h0
              · rw [h0] at hb; simp at hb
              · exact h0
            apply ih _ _ _ _ (f.entry.diff (C.first k)) (C.rout k) ht' _ hf4 hf1
            · rw [hl']
              have := need_call (R := R) (H := H) (L := s.toks.length) (h := 1) hlt hf2
              simp only [Stmt.height] at hn
              omega
            · rw [hc', testBit_diff, he, hfi]; rfl
        have enter : ∀ t : PState, t.toks = s.toks → f.entry.testBit (cur s.toks) = true →
            (match exec G n t.events.length f.kind f.body (t.push (.openNode K.Error)) with
              | .next s' => match (if f.swallow then s'.swallow else .next s') with
                | .next s' => Out.next (s'.close t.events.length f.kind)
                | o => o
              | .ret s' => .next s'
              | o => o) ≠ .deep := by
          intro t ht he
          have := body t ht he
          cases hx : exec G n t.events.length f.kind f.body (t.push (.openNode K.Error)) with
          | deep => exact absurd hx this
          | next s1 =>
            simp only
            split
            · simp
            · split
              · exact swallow_not_deep
              · simp
          | _ => simp
        cases hg : f.guard with
        | none =>
          exact enter s rfl (by simp only [FnDef.entry, hg]; exact allKinds_testBit (cur_lt hs))
        | some ks =>
          simp only
          cases hn : s.nth with
          | none => simp
          | some p =>
            obtain ⟨c, s1⟩ := p
            obtain ⟨hc, ht, -⟩ := nth_eq hn
            simp only
            split
            · next hcm =>
              exact enter s1 ht (by simp only [FnDef.entry, hg, testBit_mask]; rw [← hc]; simpa using hcm)
            · simp
    | sync ks =>
      simp only [exec]
      split
      · simp
      · split
        · simp
        · exact errorUntil_not_deep
    | opt ks b =>
      simp only [exec]
      cases hx : s.nth with
      | none => simp
      | some p =>
        obtain ⟨c, s1⟩ := p
        obtain ⟨hc, ht, -⟩ := nth_eq hx
        simp only
        split
        · next hcm =>
          apply ih mark root b s1 (S &&& mask ks) r ((nth_step hx).toksOk hs) _ hh hr
          · rw [ht]; simp only [need, Stmt.height] at hn ⊢; omega
          · rw [ht, Nat.testBit_and, hS, testBit_mask, ← hc]; simpa using hcm
        · simp
    | rep ks b =>
      simp only [exec]
      cases hx : s.nth with
      | none => simp
      | some p =>
        obtain ⟨c, s1⟩ := p
        obtain ⟨hc, ht, -⟩ := nth_eq hx
        simp only
        split
        · next hcm =>
          have hb := ih mark root b s1 (S &&& mask ks) r ((nth_step hx).toksOk hs)
            (by rw [ht, Nat.testBit_and, hS, testBit_mask, ← hc]; simpa using hcm) hh hr
            (by rw [ht]; simp only [need, Stmt.height] at hn ⊢; omega)
          cases hy : exec G n mark root b s1 with
          | deep => exact absurd hy hb
          | next s2 =>
            simp only
            split
            · simp
            · next hl =>
              obtain ⟨F, w, hF⟩ := (exec_struct G n mark root b s1).1 s2 hy
              have hlt : s2.toks.length < s.toks.length := by
                have := hF.len; rw [ht] at this hl; omega
              have hs2 := hF.toksOk ((nth_step hx).toksOk hs)
              apply ih mark root (.rep ks b) s2 allKinds R hs2 (allKinds_testBit (cur_lt hs2))
                (heads_of_ranksOk G C R _ hr _) hr
              have := need_lt (R := R) (H := H) (r := r) (h := (Stmt.rep ks b).height) hlt (Nat.le_refl R)
              omega
          | _ => simp
        · simp
    | alt arms =>
      simp only [exec]
      cases hx : s.nth with
      | none => simp
      | some p =>
        obtain ⟨c, s1⟩ := p
        obtain ⟨hc, ht, -⟩ := nth_eq hx
        simp only
        apply ih mark root arms s1 S r ((nth_step hx).toksOk hs) (by rw [ht]; exact hS) hh hr
        rw [ht]; simp only [need, Stmt.height] at hn ⊢; omega
    | arm ks b rest =>
      simp only [exec]
      simp only [heads, Bool.and_eq_true] at hh
      simp only [ranksOk, Bool.and_eq_true] at hr
      split
      · next hcm =>
        apply ih mark root b s (S &&& mask ks) r hs _ hh.1 hr.1
        · simp only [need, Stmt.height] at hn ⊢; omega
        · rw [Nat.testBit_and, hS, testBit_mask]; simpa using hcm
      · next hcm =>
        apply ih mark root rest s (S.diff (mask ks)) r hs _ hh.2 hr.2
        · simp only [need, Stmt.height] at hn ⊢; omega
        · rw [testBit_diff, hS, testBit_mask]; simpa using hcm
    | altEnd e =>
      simp only [exec]
      split
      · simp
      · cases e with
        | none => simp
        | some ex => exact advanceWithError_not_deep

/-! ## No other panic -/

/-- Called functions exist and no `Eof` is expected. -/
def wfStmt (G : Grammar) : Stmt → Bool
  | .seq a b => wfStmt G a && wfStmt G b
  | .expect k => k != K.Eof
  | .call k => (G k).isSome
  | .opt _ b => wfStmt G b
  | .rep _ b => wfStmt G b
  | .alt a => wfStmt G a
  | .arm _ b x => wfStmt G b && wfStmt G x
  | _ => true

theorem advance_not_crash {s : PState} (h : s.toks ≠ []) : s.advance ≠ .crash := by
  unfold PState.advance; split
  · contradiction
  · simp

theorem exec_not_crash (G : Grammar) (hG : ∀ k f, G k = some f → wfStmt G f.body = true) (n : Nat) :
    ∀ (mark : Nat) (root : Kind) (st : Stmt) (s : PState), wfStmt G st = true →
    exec G n mark root st s ≠ .crash := by
  induction n with
  | zero => intro mark root st s _; simp [exec]
  | succ n ih =>
    intro mark root st s hw
    cases st with
    | skip => simp [exec]
    | seq a b =>
      simp only [exec]
      simp only [wfStmt, Bool.and_eq_true] at hw
      have ha := ih mark root a s hw.1
      cases hx : exec G n mark root a s with
      | crash => exact absurd hx ha
      | next s1 => exact ih mark root b s1 hw.2
      | _ => simp
    | expect k =>
      simp only [exec, PState.expect]
      cases hn : s.nth with
      | none => simp
      | some p =>
        obtain ⟨c, s1⟩ := p
        obtain ⟨hc, ht, -⟩ := nth_eq hn
        simp only
        split
        · next hck =>
          apply advance_not_crash
          intro h0
          rw [ht] at h0
          rw [h0] at hc
          simp only [cur] at hc
          simp only [wfStmt, bne_iff_ne] at hw
          exact hw (by rw [← hck, hc])
        · simp
    | call k =>
      simp only [exec]
      simp only [wfStmt] at hw
      cases hk : G k with
      | none => rw [hk] at hw; simp at hw
      | some f =>
        simp only
        have enter : ∀ t : PState,
            (match exec G n t.events.length f.kind f.body (t.push (.openNode K.Error)) with
              | .next s' => match (if f.swallow then s'.swallow else .next s') with
                | .next s' => Out.next (s'.close t.events.length f.kind)
                | o => o
              | .ret s' => .next s'
              | o => o) ≠ .crash := by
          intro t
          have := ih t.events.length f.kind f.body (t.push (.openNode K.Error)) (hG k f hk)
          cases hx : exec G n t.events.length f.kind f.body (t.push (.openNode K.Error)) with
          | crash => exact absurd hx this
          | next s1 =>
            simp only
            split
            · simp
            · split
              · unfold PState.swallow
                split
                · simp
                · split
                  · simp
                  · simp only
                    split <;> simp
              · simp
          | _ => simp
        cases f.guard with
        | none => exact enter s
        | some ks =>
          simp only
          split
          · simp
          · split
            · exact enter _
            · simp
    | sync ks =>
      simp only [exec]
      split
      · simp
      · split
        · simp
        · unfold PState.errorUntil
          simp only
          split
          · simp
          · split
            · simp
            · split <;> simp
    | opt ks b =>
      simp only [exec]
      split
      · simp
      · split
        · exact ih _ _ _ _ hw
        · simp
    | rep ks b =>
      simp only [exec]
      split
      · simp
      · next c s1 hn =>
        split
        · have hb := ih mark root b s1 hw
          cases hy : exec G n mark root b s1 with
          | crash => exact absurd hy hb
          | next s2 =>
            simp only
            split
            · simp
            · exact ih _ _ _ _ hw
          | _ => simp
        · simp
    | alt arms =>
      simp only [exec]
      split
      · simp
      · exact ih _ _ _ _ hw
    | arm ks b rest =>
      simp only [exec]
      simp only [wfStmt, Bool.and_eq_true] at hw
      split
      · exact ih _ _ _ _ hw.1
      · exact ih _ _ _ _ hw.2
    | altEnd e =>
      simp only [exec]
      split
      · simp
      · next hne =>
        cases e with
        | none => simp
        | some ex =>
          simp only [PState.advanceWithError]
          cases hn : (s.push (.error ex)).nth with
          | none => simp
          | some p =>
            obtain ⟨c, s1⟩ := p
            obtain ⟨hc, ht, -⟩ := nth_eq hn
            simp only
            split
            · simp
            · split
              · simp
              · apply advance_not_crash
                intro h0
                simp only [PState.push] at h0 ht
                rw [h0] at ht
                rw [← ht] at hne
                exact hne rfl

end Verif.Grammar
