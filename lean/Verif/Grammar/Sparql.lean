import Verif.Grammar.Cert
import Verif.Grammar.LLCert
import Verif.Grammar.ProdData
/-!
# The SPARQL parser: main lemmas
-/
namespace Verif.Grammar
open Forest

theorem sparql_prod_all : sparqlRulesTree.toList.all (fun p =>
    prodOk sparqlLL sparqlProd sparqlRules p.1 p.2 && p.1 != K.Error) = true := by decide +kernel

theorem sparql_consume_all : postTree.toList.all (fun p => p.2.disj (sparqlLL.first p.1)) = true := by decide +kernel

theorem sparql_consume (k : Kind) : (sparqlCert.post k).disj (sparqlLL.first k) = true := by
  cases h : postTree.find k with
  | none => simp [sparqlCert, h, Mask.disj]
  | some m =>
    have := (List.all_eq_true.mp sparql_consume_all) (k, m) (postTree.find_mem k m h)
    simpa [sparqlCert, h] using this

theorem sparql_sound : SoundOk sparqlLL sparqlCert sparqlProd sparql sparqlRules where
  ll := sparql_ll
  post k f h := by
    have := sparql_fnOk k f h
    simp only [fnOk, Bool.and_eq_true] at this
    exact this.1.1.1.1
  prod k r h := by
    have := (List.all_eq_true.mp sparql_prod_all) (k, r) (sparqlRulesTree.find_mem k r h)
    simp only [Bool.and_eq_true] at this
    exact this.1
  consume := sparql_consume
  noError k r h := by
    have := (List.all_eq_true.mp sparql_prod_all) (k, r) (sparqlRulesTree.find_mem k r h)
    simp only [Bool.and_eq_true] at this
    simpa using this.2

/-- The two entry rules (`TopEntryPoint`, parser/mod.rs L306-310). -/
inductive Entry
  | query
  | update
deriving DecidableEq, Repr

def Entry.kind : Entry → Kind
  | .query => K.QueryUnit
  | .update => K.UpdateUnit

/-- Recursion depth that suffices for `L` tokens. -/
def depthFor (L : Nat) : Nat := need rankBound 80 L rankBound 1

/-- A parser run (parser/mod.rs L312-321): `none` is the panic "parser is stuck". -/
def parseTokens (e : Entry) (toks : List Kind) : Option (List Event) :=
  match parseEntry sparql (depthFor toks.length) e.kind toks with
  | .next s => some s.events
  | _ => none

/-- The parser never runs out of the recursion bound and never hits another panic. -/
theorem parseEntry_total (e : Entry) (toks : List Kind) (hk : ∀ t ∈ toks, t < 344) {n : Nat}
    (hn : depthFor toks.length ≤ n) :
    parseEntry sparql n e.kind toks ≠ .deep ∧ parseEntry sparql n e.kind toks ≠ .crash ∧
    (∀ s, parseEntry sparql n e.kind toks ≠ .ret s) ∧
    parseEntry sparql n e.kind toks = parseEntry sparql (depthFor toks.length) e.kind toks := by
  have hT : ToksOk (PState.init toks) := by simpa [ToksOk, PState.init] using hk
  have hr : ranksOk sparqlCert rankBound (.call e.kind) = true := by cases e <;> decide +kernel
  have hw : wfStmt sparql (.call e.kind) = true := by cases e <;> decide +kernel
  have hd : ∀ m, depthFor toks.length ≤ m → parseEntry sparql m e.kind toks ≠ .deep := by
    intro m hm
    exact exec_not_deep sparql sparqlCert rankBound 80 (by decide) sparql_fnOk m 0 e.kind (.call e.kind)
      (PState.init toks) allKinds rankBound hT (allKinds_testBit (cur_lt hT))
      (heads_of_ranksOk _ _ _ _ hr _) hr (by simpa [PState.init, depthFor, Stmt.height] using hm)
  refine ⟨hd n hn, exec_not_crash sparql sparql_wf n 0 _ _ _ hw, ?_, ?_⟩
  · intro s hs
    unfold parseEntry at hs
    cases n with
    | zero => simp [exec] at hs
    | succ n =>
      simp only [exec] at hs
      have hg : ∃ f, sparql e.kind = some f ∧ f.guard = none := by
        cases e
        · exact ⟨fn_QueryUnit, by decide +kernel, rfl⟩
        · exact ⟨fn_UpdateUnit, by decide +kernel, rfl⟩
      obtain ⟨f, hf, hg⟩ := hg
      simp only [hf, hg] at hs
      split at hs
      · split at hs
        · simp at hs
        · next o hno =>
          split at hs
          · exact absurd hs swallow_not_ret
          · simp at hs
      · simp at hs
      · next o h1 h2 => exact absurd hs (h2 s)
  · exact exec_mono_le sparql hn 0 _ _ _ (hd _ (Nat.le_refl _))

/-- What a parser run yields. -/
theorem parseTokens_some {e : Entry} {toks : List Kind} {ev : List Event} (h : parseTokens e toks = some ev) :
    ∃ n s, parseEntry sparql n e.kind toks = .next s ∧ s.events = ev := by
  unfold parseTokens at h
  split at h
  · next s hs => simp at h; exact ⟨_, s, hs, h⟩
  · simp at h

theorem parseTokens_of_next {e : Entry} {toks : List Kind} (hk : ∀ t ∈ toks, t < 344) {n s}
    (h : parseEntry sparql n e.kind toks = .next s) : parseTokens e toks = some s.events := by
  unfold parseTokens
  have h1 := parseEntry_total e toks hk (Nat.le_max_left (depthFor toks.length) n)
  have h2 := exec_mono_le sparql (Nat.le_max_right (depthFor toks.length) n) 0 e.kind (.call e.kind)
    (PState.init toks) (by unfold parseEntry at h; rw [h]; exact next_ne_deep)
  unfold parseEntry at h h1 ⊢
  rw [← h1.2.2.2, h2, h]

theorem call_not_ret {G : Grammar} {n mark root k} {s s' : PState} : exec G n mark root (.call k) s ≠ .ret s' := by
  cases n with
  | zero => simp [exec]
  | succ n =>
    simp only [exec]
    cases G k with
    | none => simp
    | some f =>
      simp only
      have enter : ∀ t : PState,
          (match exec G n t.events.length f.kind f.body (t.push (.openNode K.Error)) with
            | .next s' => match (if f.swallow then s'.swallow else .next s') with
              | .next s' => Out.next (s'.close t.events.length f.kind)
              | o => o
            | .ret s' => .next s'
            | o => o) ≠ .ret s' := by
        intro t
        cases hx : exec G n t.events.length f.kind f.body (t.push (.openNode K.Error)) with
        | next s1 =>
          simp only
          split
          · simp
          · split
            · exact swallow_not_ret
            · simp
        | _ => simp
      cases f.guard with
      | none => exact enter s
      | some ks =>
        simp only
        split
        · simp
        · split
          · exact enter _
          · simp

/-- The rule a unit consists of: `Query` resp. `Update`. -/
def Entry.inner : Entry → Kind
  | .query => K.Query
  | .update => K.Update

theorem unit_fn (e : Entry) : ∃ f, sparql e.kind = some f ∧ f.guard = none ∧ f.swallow = true ∧ f.kind = e.kind ∧
    f.body = .call e.inner := by
  cases e
  · exact ⟨fn_QueryUnit, by decide +kernel, rfl, rfl, rfl, rfl⟩
  · exact ⟨fn_UpdateUnit, by decide +kernel, rfl, rfl, rfl, rfl⟩

theorem unit_rule (e : Entry) : sparqlRules e.kind = some (.node e.inner) := by cases e <;> decide +kernel

/-- Inversion of a unit rule run. -/
theorem unit_inv {n : Nat} {e : Entry} {toks : List Kind} {s : PState}
    (h : parseEntry sparql n e.kind toks = .next s) :
    ∃ m s1 s2, exec sparql m 0 e.kind (.call e.inner) ((PState.init toks).push (.openNode K.Error)) = .next s1 ∧
      s1.swallow = .next s2 ∧ s = s2.close 0 e.kind := by
  obtain ⟨f, hf, hg, hsw, hk, hb⟩ := unit_fn e
  unfold parseEntry at h
  cases n with
  | zero => simp [exec] at h
  | succ n =>
    rw [exec.eq_5, hf] at h
    simp only [hg, hsw, if_true, hk, hb] at h
    refine ⟨n, ?_⟩
    have h0 : (PState.init toks).events.length = 0 := rfl
    rw [h0] at h
    split at h
    · next s1 hs1 =>
      split at h
      · next s2 hs2 =>
        simp at h
        exact ⟨s1, s2, hs1, hs2, h.symm⟩
      · next o hno =>
        exfalso
        cases hsw : s1.swallow with
        | next s2 => exact hno _ hsw
        | _ => rw [hsw] at h; simp at h
    · next s1 hs1 => exact absurd hs1 call_not_ret
    · next o h1 h2 => exact absurd h (h1 s)

/-- The event stream of a run is one node of the entry kind that contains every token. -/
theorem parse_shape {n : Nat} {e : Entry} {toks : List Kind} {s : PState} (hN : K.Eof ∉ toks)
    (h : parseEntry sparql n e.kind toks = .next s) :
    s.toks = [] ∧ ∃ F, s.events = Forest.ser (.node e.kind F .nil) ∧ F.toks = toks.length := by
  obtain ⟨m, s1, s2, h1, h2, rfl⟩ := unit_inv h
  obtain ⟨F1, w1, g1⟩ := (exec_struct sparql m 0 e.kind _ _).1 s1 h1
  obtain ⟨F2, w2, g2, -, -, g3⟩ := swallow_next h2
  have g := bracket_step (s := PState.init toks) e.kind K.Error (g1.trans g2)
  have hN0 : NoEof (PState.init toks) := hN
  have hend : s2.toks = [] := by
    rcases g3 with g3 | g3
    · exact (g.noEof hN0).cur (by simpa [PState.close] using g3)
    · exact g3
  refine ⟨hend, F1.append F2, ?_, ?_⟩
  · have := g.1
    simpa [PState.init] using this
  · have hl := g.2.1
    have hq := g.2.2
    simp only [PState.close, PState.init, hend, List.append_nil] at hl
    rw [hl]
    simpa [Forest.toks] using hq

/-! ## Valid input -/

theorem unit_first (e : Entry) {w F} (d : DTree sparqlRules (.node e.kind) w F) :
    ∃ F', DTree sparqlRules (.node e.inner) w F' ∧ F = (if w = [] then .nil else .node e.kind F' .nil) := by
  cases d with
  | node k r w F' hr d =>
    rw [unit_rule e] at hr
    simp at hr; subst hr
    exact ⟨F', d, rfl⟩

theorem parse_valid (e : Entry) {w F} (d : DTree sparqlRules (.node e.inner) w F) :
    ∃ n s, parseEntry sparql n e.kind w = .next s ∧ s.toks = [] ∧
      s.events = Forest.ser (.node e.kind F .nil) := by
  obtain ⟨f, hf, hg, hsw, hk, hb⟩ := unit_fn e
  obtain ⟨f', hf', t1, t2, t3, t4, t5, t6, t7⟩ := sparql_ll.tab (unit_rule e)
  rw [hf] at hf'; simp at hf'; subst hf'
  rw [hb] at t3 t5 t6 t7
  have hfuel : (Stmt.call e.inner).zc ≤ maxFuel ∧ (Stmt.call e.inner).ecost sparqlLL ≤ maxFuel ∧
      (Stmt.call e.inner).zc + 1 ≤ maxFuel ∧
      (Stmt.call e.inner).xcost sparqlLL + 1 ≤ maxFuel := by cases e <;> decide +kernel
  have hfo : (sparqlLL.follow e.kind).testBit K.Eof = true := by cases e <;> decide +kernel
  have hgood := complete sparql_ll d (.call e.inner) (sparqlLL.follow e.kind) t3 t4 t5
    ((PState.init w).push (.openNode K.Error)) [] (by simp [PState.init, PState.push]) hfo
    (fun _ => hfuel.1) (fun _ => hfuel.2.1) 0 e.kind
  obtain ⟨n, s1, e1, e2, e3, e4, e5⟩ := hgood
  have hs1 : 1 ≤ s1.fuel := by
    by_cases hw : w = []
    · have := e4 hw
      have h3 := hfuel.2.2.1
      simp only [PState.init, PState.push] at this
      omega
    · have := e5 hw
      have h3 := hfuel.2.2.2
      omega
  obtain ⟨s2, hn, ht, -⟩ := nth_some hs1
  have hc : cur s1.toks = K.Eof := by rw [e2]; rfl
  have hswl : s1.swallow = .next s2 := by
    unfold PState.swallow
    rw [hn]; simp [hc]
  have hst := bracket_step (s := PState.init w) e.kind K.Error (e3.trans (nth_step hn))
  rw [append_nil] at hst
  refine ⟨n + 1, s2.close 0 e.kind, ?_, ?_, ?_⟩
  · unfold parseEntry
    rw [exec.eq_5, hf]
    have h0 : (PState.init w).events.length = 0 := rfl
    simp only [hg, hsw, if_true, hk, hb, h0]
    rw [e1]
    simp only [hswl]
  · simp only [PState.close]; rw [ht, e2]
  · have := hst.1
    simpa [PState.init] using this

/-! ## Reports -/

theorem noErr_iff (F : Forest) : F.noErr = true ↔ ∀ x, Event.error x ∉ F.ser := by
  induction F with
  | nil => simp [noErr, ser]
  | tok r ih => simp [noErr, ser, ih]
  | err e r ih => simp only [noErr, ser, Bool.false_eq_true, false_iff, not_forall]; exact ⟨e, by simp⟩
  | node k c r ihc ihr => simp [noErr, ser, ihc, ihr, forall_and]

theorem noErrKind_iff (F : Forest) : F.noErrKind = true ↔ Event.openNode K.Error ∉ F.ser := by
  induction F with
  | nil => simp [noErrKind, ser]
  | tok r ih => simp [noErrKind, ser, ih]
  | err e r ih => simp [noErrKind, ser, ih]
  | node k c r ihc ihr =>
    simp only [noErrKind, ser, Bool.and_eq_true, ihc, ihr]
    constructor
    · rintro ⟨⟨h1, h2⟩, h3⟩ h
      simp only [List.mem_cons, List.mem_append, Event.openNode.injEq] at h
      rcases h with h | h | h | h
      · rw [← h] at h1; simp at h1
      · exact h2 h
      · simp at h
      · exact h3 h
    · intro h
      simp only [List.mem_cons, List.mem_append, Event.openNode.injEq, not_or] at h
      exact ⟨⟨by simpa using fun h0 : k = K.Error => h.1 h0.symm, h.2.1⟩, h.2.2.2⟩

/-- A run that reports nothing consumed a prefix of a sentence; one without any error node consumed a sentence. -/
theorem parse_sound {n : Nat} {e : Entry} {toks : List Kind} {s : PState} {F : Forest} (hN : K.Eof ∉ toks)
    (hk : ∀ t ∈ toks, t < 344) (h : parseEntry sparql n e.kind toks = .next s)
    (hF : s.events = Forest.ser (.node e.kind F .nil)) (inj : ∀ F', Forest.ser F' = Forest.ser F → F' = F) :
    (F.clean = true → ∃ v, Derives sparqlRules (.node e.kind) (toks ++ v)) ∧
    (F.strict = true → DTree sparqlRules (.node e.inner) toks F) := by
  obtain ⟨m, s1, s2, h1, h2, rfl⟩ := unit_inv h
  obtain ⟨f, hf, hg, hsw, hkk, hb⟩ := unit_fn e
  obtain ⟨f', hf', t1, t2, t3, t4, t5, t6, t7⟩ := sparql_ll.tab (unit_rule e)
  rw [hf] at hf'; simp at hf'; subst hf'
  rw [hb] at t3
  have hcl : closedR sparqlRules (.node e.inner) = true := by cases e <;> decide +kernel
  have hs0 := (exec_sound sparql_sound m 0 e.kind (.node e.inner) (.call e.inner)
    ((PState.init toks).push (.openNode K.Error)) hN hk hcl).1 ⟨t3, _, t4⟩
  obtain ⟨F1, w1, a1, a2, a3⟩ := hs0.1 s1 h1
  obtain ⟨F2, w2, b1, b2, b3, b4⟩ := swallow_next h2
  have g := bracket_step (s := PState.init toks) e.kind K.Error (a1.trans b1)
  have hend : s2.toks = [] := by
    rcases b4 with g3 | g3
    · exact (g.noEof hN).cur (by simpa [PState.close] using g3)
    · exact g3
  have hev := g.1
  have hFF : F1.append F2 = F := by
    apply inj
    have : Forest.ser (.node e.kind (F1.append F2) .nil) = Forest.ser (.node e.kind F .nil) := by
      rw [← hF]; simpa [PState.init] using hev.symm
    simpa [ser] using this
  subst hFF
  have hw2 : F2.noErrNode = true → w2 = [] := by
    intro hne
    rcases b2 with ⟨-, hw⟩ | hF2
    · exact hw
    · rw [hF2] at hne
      simp [noErrNode, toks_tokens] at hne
      exact hne.1
  have hl := g.2.1
  simp only [PState.close, PState.init, hend, List.append_nil] at hl
  constructor
  · intro hc
    rw [clean_append, Bool.and_eq_true] at hc
    have hw : w2 = [] := hw2 (by have := hc.2; simp only [clean, Bool.and_eq_true] at this; exact this.2)
    obtain ⟨v, hv, -⟩ := a2 hc.1
    refine ⟨v, .node _ _ _ (unit_rule e) ?_⟩
    rw [hl, hw]; simpa using hv
  · intro hs
    rw [strict_append, Bool.and_eq_true] at hs
    have hF2 : F2 = .nil ∧ w2 = [] := by
      rcases b2 with h0 | h0
      · exact h0
      · have := hs.2
        rw [h0] at this
        simp [strict, noErrKind] at this
    have := a3 hs.1
    rw [hl, hF2.1, hF2.2, append_nil]; simpa using this

/-! ## Event streams determine forests -/

theorem ser_cancel (F : Forest) : ∀ (F' : Forest) (X X' : List Event),
    (X = [] ∨ ∃ Y, X = .close :: Y) → (X' = [] ∨ ∃ Y, X' = .close :: Y) →
    F.ser ++ X = F'.ser ++ X' → F = F' ∧ X = X' := by
  induction F with
  | nil =>
    intro F' X X' hX hX' h
    cases F' with
    | nil => exact ⟨rfl, by simpa [ser] using h⟩
    | _ => simp only [ser, List.nil_append, List.cons_append] at h; rcases hX with rfl | ⟨Y, rfl⟩ <;> simp at h
  | tok r ih =>
    intro F' X X' hX hX' h
    cases F' with
    | tok r' =>
      simp only [ser, List.cons_append, List.cons.injEq, true_and] at h
      obtain ⟨h1, h2⟩ := ih r' X X' hX hX' h
      exact ⟨by rw [h1], h2⟩
    | nil => simp only [ser, List.nil_append, List.cons_append] at h; rcases hX' with rfl | ⟨Y, rfl⟩ <;> simp at h
    | _ => simp [ser] at h
  | err e r ih =>
    intro F' X X' hX hX' h
    cases F' with
    | err e' r' =>
      simp only [ser, List.cons_append, List.cons.injEq, Event.error.injEq] at h
      obtain ⟨rfl, h⟩ := h
      obtain ⟨h1, h2⟩ := ih r' X X' hX hX' h
      exact ⟨by rw [h1], h2⟩
    | nil => simp only [ser, List.nil_append, List.cons_append] at h; rcases hX' with rfl | ⟨Y, rfl⟩ <;> simp at h
    | _ => simp [ser] at h
  | node k c r ihc ihr =>
    intro F' X X' hX hX' h
    cases F' with
    | node k' c' r' =>
      simp only [ser, List.cons_append, List.append_assoc, List.cons.injEq, Event.openNode.injEq] at h
      obtain ⟨rfl, h⟩ := h
      obtain ⟨h1, h2⟩ := ihc c' _ _ (Or.inr ⟨_, rfl⟩) (Or.inr ⟨_, rfl⟩) h
      simp only [List.cons.injEq, true_and] at h2
      obtain ⟨h3, h4⟩ := ihr r' X X' hX hX' h2
      exact ⟨by rw [h1, h3], h4⟩
    | nil => simp only [ser, List.nil_append, List.cons_append] at h; rcases hX' with rfl | ⟨Y, rfl⟩ <;> simp at h
    | _ => simp [ser] at h

theorem ser_inj {F F' : Forest} (h : F.ser = F'.ser) : F = F' :=
  (ser_cancel F F' [] [] (Or.inl rfl) (Or.inl rfl) (by simpa using h)).1

end Verif.Grammar
