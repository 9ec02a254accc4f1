import Verif.Grammar.LooseLemmas
import Verif.Grammar.ParseLemmas
/-!
# From forests to trees
-/
namespace Verif.Grammar
open Forest

/-- The significant kinds among leaves. -/
def sigKinds (l : List (Kind × Text)) : List Kind := (l.filter (fun x => !triviaKind x.1)).map (·.1)

theorem sigKinds_append (a b : List (Kind × Text)) : sigKinds (a ++ b) = sigKinds a ++ sigKinds b := by
  simp [sigKinds]

theorem toks_shape (g : Green) : ∀ r : Forest, (g.shape r).toks = (sigKinds g.leaves).length + r.toks := by
  induction g using Green.rec (motive_2 := fun cs => (Green.shapeL cs).toks = (sigKinds (Green.leavesL cs)).length) with
  | tok k t =>
    intro r
    simp only [Green.shape, Green.leaves, sigKinds]
    cases h : triviaKind k <;> simp [Forest.toks, h]; omega
  | node k cs ih => intro r; simp [Green.shape, Green.leaves, Forest.toks, ih]
  | nil => simp [Green.shapeL, Green.leavesL, Forest.toks, sigKinds]
  | cons g gs ihg ihs => simp [Green.shapeL, Green.leavesL, sigKinds_append, ihg, ihs]

theorem toks_shapeL (cs : List Green) : (Green.shapeL cs).toks = (sigKinds (Green.leavesL cs)).length := by
  have := toks_shape (.node 0 cs) .nil
  simpa [Green.shape, Forest.toks, Green.leaves] using this

/-- The top symbols of a list of trees. -/
theorem syms_shapeL (cs : List Green) : ∀ v, (∀ g ∈ Green.nodesL cs, g.Tight) →
    (Green.shapeL cs).syms (sigKinds (Green.leavesL cs) ++ v) = cs.filterMap Green.sym := by
  induction cs with
  | nil => intro v _; rfl
  | cons g gs ih =>
    intro v ht
    simp only [Green.nodesL, List.mem_append] at ht
    have ih := ih v (fun x hx => ht x (Or.inr hx))
    cases g with
    | tok k t =>
      simp only [Green.shapeL, Green.shape, Green.leavesL, Green.leaves, List.filterMap_cons, Green.sym]
      cases h : triviaKind k
      · simp [sigKinds, h, syms]; exact ih
      · simp [sigKinds, h]; exact ih
    | node k c =>
      simp only [Green.shapeL, Green.shape, Green.leavesL, Green.leaves, List.filterMap_cons, Green.sym, syms,
        toks_shapeL, sigKinds_append, List.append_assoc, List.drop_left]
      rw [ih]
      have hne : (sigKinds (Green.leavesL c)).length ≠ 0 := by
        obtain ⟨⟨k', t, l, h1, h2⟩, -⟩ := ht (.node k c) (Or.inl (by simp [Green.nodes]))
        simp only [Green.leaves] at h1
        simp [h1, sigKinds, h2]
      by_cases hk : k = K.Error <;> simp [hk, hne]

theorem onlyToks_shapeL (cs : List Green) (ht : ∀ g ∈ Green.nodesL cs, g.Tight)
    (h : (Green.shapeL cs).onlyToks = true) : ∀ c ∈ cs, c.isTok = true := by
  induction cs with
  | nil => simp
  | cons g gs ih =>
    simp only [Green.nodesL, List.mem_append] at ht
    cases g with
    | tok k t =>
      have h' : (Green.shapeL gs).onlyToks = true := by
        simp only [Green.shapeL, Green.shape] at h
        split at h
        · exact h
        · exact h
      intro c hc
      simp only [List.mem_cons] at hc
      rcases hc with rfl | hc
      · rfl
      · exact ih (fun x hx => ht x (Or.inr hx)) h' c hc
    | node k c =>
      exfalso
      simp only [Green.shapeL, Green.shape, onlyToks, Bool.and_eq_true, beq_iff_eq, toks_shapeL] at h
      obtain ⟨⟨k', t, l, h1, h2⟩, -⟩ := ht (.node k c) (Or.inl (by simp [Green.nodes]))
      simp only [Green.leaves] at h1
      simp [h1, sigKinds, h2] at h

theorem follows_shape {R} (g : Green) : ∀ r : Forest, ∀ v, (∀ n ∈ g.nodes, n.Tight) →
    (g.shape r).Conf R (sigKinds g.leaves ++ v) → (∀ n ∈ g.nodes, Follows R n) ∧ r.Conf R v := by
  induction g using Green.rec (motive_2 := fun cs => ∀ v, (∀ n ∈ Green.nodesL cs, n.Tight) →
      (Green.shapeL cs).Conf R (sigKinds (Green.leavesL cs) ++ v) → ∀ n ∈ Green.nodesL cs, Follows R n) with
  | tok k t =>
    intro r v _ hc
    refine ⟨by simp [Green.nodes], ?_⟩
    simp only [Green.shape, Green.leaves, sigKinds] at hc
    cases h : triviaKind k
    · simpa [h, Conf] using hc
    · simpa [h] using hc
  | node k cs ih =>
    intro r v ht hc
    simp only [Green.shape, Green.leaves, Conf, toks_shapeL, List.drop_left] at hc
    obtain ⟨h1, h2, h3⟩ := hc
    have ht' : ∀ n ∈ Green.nodesL cs, n.Tight := fun n hn => ht n (by simp [Green.nodes, hn])
    refine ⟨?_, h3⟩
    intro n hn
    simp only [Green.nodes, List.mem_cons] at hn
    rcases hn with rfl | hn
    · simp only [Follows]
      split
      · next hk => rw [if_pos hk] at h1; exact onlyToks_shapeL cs ht' h1
      · next hk =>
        rw [if_neg hk] at h1
        rcases h1 with h1 | ⟨rule, hr, hl⟩
        · exfalso
          obtain ⟨⟨k', t, l, h1', h2'⟩, -⟩ := ht (.node k cs) (by simp [Green.nodes])
          simp only [Green.leaves] at h1'
          simp [h1', sigKinds, h2'] at h1
        · rw [syms_shapeL cs v ht'] at hl
          exact ⟨rule, hr, hl⟩
    · exact ih v ht' h2 n hn
  | nil => rename_i v _ _ n hn; simp [Green.nodesL] at hn
  | cons g gs ihg ihs =>
    rename_i v ht hc n hn
    simp only [Green.nodesL, List.mem_append] at ht hn
    simp only [Green.shapeL, Green.leavesL, sigKinds_append, List.append_assoc] at hc
    obtain ⟨a, b⟩ := ihg (Green.shapeL gs) _ (fun n hn => ht n (Or.inl hn)) hc
    rcases hn with hn | hn
    · exact a n hn
    · exact ihs v (fun n hn => ht n (Or.inr hn)) b n hn

theorem follows_shapeL {R} (cs : List Green) (ht : ∀ n ∈ Green.nodesL cs, n.Tight)
    (hc : (Green.shapeL cs).Conf R (sigKinds (Green.leavesL cs))) : ∀ n ∈ Green.nodesL cs, Follows R n := by
  induction cs with
  | nil => simp [Green.nodesL]
  | cons g gs ihs =>
    intro n hn
    simp only [Green.nodesL, List.mem_append] at ht hn
    simp only [Green.shapeL, Green.leavesL, sigKinds_append] at hc
    obtain ⟨a, b⟩ := follows_shape g (Green.shapeL gs) _ (fun n hn => ht n (Or.inl hn)) hc
    rcases hn with hn | hn
    · exact a n hn
    · exact ihs (fun n hn => ht n (Or.inr hn)) b n hn

/-! ## The root -/

theorem parse_loose {n : Nat} {e : Entry} {toks : List Kind} {s : PState} {F : Forest}
    (h : parseEntry sparql n e.kind toks = .next s) (hF : s.events = Forest.ser (.node e.kind F .nil)) :
    Loose (.node e.inner) (F.syms toks) ∧ F.Conf sparqlRules toks := by
  obtain ⟨m, s1, s2, h1, h2, rfl⟩ := unit_inv h
  obtain ⟨f, hf, hg, hsw, hkk, hb⟩ := unit_fn e
  obtain ⟨f', hf', t1, t2, t3, t4, t5, t6, t7⟩ := sparql_ll.tab (unit_rule e)
  rw [hf] at hf'; simp at hf'; subst hf'
  have hcl := sparql_sound.prod _ _ (unit_rule e)
  simp only [prodOk, Bool.and_eq_true] at hcl
  rw [hb] at t3
  have hs0 := (exec_loose sparql_sound m 0 e.kind (.node e.inner) (.call e.inner)
    ((PState.init toks).push (.openNode K.Error)) hcl.2).1 t3
  obtain ⟨F1, w1, a1, a2, a3⟩ := hs0.1 s1 h1
  obtain ⟨F2, w2, b1, b2, b3, b4⟩ := swallow_next h2
  have g := bracket_step (s := PState.init toks) e.kind K.Error (a1.trans b1)
  have hFF : F = F1.append F2 := by
    have h1 := g.1
    rw [show (PState.init toks).events = [] from rfl, List.nil_append] at h1
    rw [List.length_nil, hF] at h1
    have h2 := ser_inj h1
    simpa using h2
  have hw : F1.toks = w1.length := a1.2.2
  have e2 : F2.syms (toks.drop F1.toks) = [] ∧ F2.Conf sparqlRules (toks.drop F1.toks) := by
    rcases b2 with ⟨rfl, -⟩ | rfl
    · exact ⟨rfl, trivial⟩
    · refine ⟨by simp [syms], by simp [Conf, conf_tokens, onlyToks_tokens]⟩
  subst hFF
  constructor
  · rw [syms_append, e2.1, List.append_nil]; exact a2
  · rw [conf_append]; exact ⟨a3, e2.2⟩

end Verif.Grammar
