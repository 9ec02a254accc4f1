import Verif.Grammar.Starts
/-!
# Nodes that cover at most one token

A static check of the parser functions: how many tokens can a function consume, on any input? Not part of the code.
-/
namespace Verif.Grammar
open Forest

/-- Sum of two bounds. -/
def addMost : Option Nat → Option Nat → Option Nat
  | some a, some b => some (a + b)
  | _, _ => none

/-- Maximum of two bounds. -/
def maxMost : Option Nat → Option Nat → Option Nat
  | some a, some b => some (max a b)
  | _, _ => none

/-- A bound on the number of tokens a statement consumes; the functions in `S` consume at most one. -/
def most (S : Kind → Bool) : Stmt → Option Nat
  | .skip => some 0
  | .seq a b => addMost (most S a) (most S b)
  | .expect _ => some 1
  | .call k => if S k then some 1 else none
  | .opt _ b => most S b
  | .rep _ _ => none
  | .sync _ => none
  | .alt arms => most S arms
  | .arm _ b rest => maxMost (most S b) (most S rest)
  | .altEnd _ => some 1

namespace Forest

/-- Every node of a kind in `S` covers at most one token. -/
def Few (S : Kind → Bool) : Forest → Prop
  | nil => True
  | tok r => r.Few S
  | err _ r => r.Few S
  | node k c r => (S k = true → c.toks ≤ 1) ∧ c.Few S ∧ r.Few S

variable {S : Kind → Bool}

theorem few_append (F G : Forest) : (F.append G).Few S ↔ F.Few S ∧ G.Few S := by
  induction F with
  | nil => simp [append, Few]
  | tok r ih => simp [append, Few, ih]
  | err e r ih => simp [append, Few, ih]
  | node k c r _ ih => simp [append, Few, ih, and_assoc]

theorem few_tokens (n : Nat) : (tokens n).Few S := by
  induction n with
  | zero => trivial
  | succ n ih => exact ih

theorem few_dropErr {F : Forest} : F.Few S → F.dropErr.Few S := by
  induction F with
  | nil => intro h; exact h
  | tok r ih => intro h; exact ih h
  | err e r ih => intro h; exact ih h
  | node k c r ihc ih =>
    rintro ⟨h1, h2, h3⟩
    exact ⟨by rw [toks_dropErr]; exact h1, ihc h2, ih h3⟩

theorem few_prune {F : Forest} : F.Few S → F.prune.Few S := by
  induction F with
  | nil => intro h; exact h
  | tok r ih => intro h; exact ih h
  | err e r ih => intro h; exact ih h
  | node k c r ihc ih =>
    rintro ⟨h1, h2, h3⟩
    by_cases h : c.toks = 0
    · simp only [prune, h, if_true]
      rw [few_append]
      exact ⟨ihc h2, ih h3⟩
    · simp only [prune, h, if_false]
      exact ⟨by rw [toks_prune]; exact h1, ihc h2, ih h3⟩

end Forest

variable {S : Kind → Bool}

/-- A run that consumes at most `m` tokens and emits nodes with few tokens. -/
def FewN (S : Kind → Bool) (m : Option Nat) (s s' : PState) : Prop :=
  ∃ F w, Step s s' F w ∧ F.Few S ∧ ∀ x, m = some x → F.toks ≤ x

def FewR (S : Kind → Bool) (m : Option Nat) (mark : Nat) (root : Kind) (s s' : PState) : Prop :=
  ∃ F w, RetStep mark root s s' F w ∧ F.Few S ∧ ∀ x, m = some x → F.toks ≤ x

theorem FewN.of {s t : PState} {F w m} (h : Step s t F w) (hb : F.Few S) (hm : ∀ x, m = some x → F.toks ≤ x) : FewN S m s t :=
  ⟨F, w, h, hb, hm⟩

theorem FewN.trans {s t u : PState} {m m' : Option Nat} (h : FewN S m s t) (k : FewN S m' t u) : FewN S (addMost m m') s u := by
  obtain ⟨F, w, h1, h2, h3⟩ := h
  obtain ⟨F', w', k1, k2, k3⟩ := k
  refine ⟨_, _, h1.trans k1, (few_append _ _).2 ⟨h2, k2⟩, ?_⟩
  intro x hx
  rw [toks_append]
  cases m with
  | none => simp [addMost] at hx
  | some a =>
    cases m' with
    | none => simp [addMost] at hx
    | some b =>
      simp only [addMost, Option.some.injEq] at hx
      have := h3 a rfl; have := k3 b rfl; omega

theorem FewR.pre {mark root} {s t u : PState} {m m' : Option Nat} (h : FewN S m s t) (k : FewR S m' mark root t u) :
    FewR S (addMost m m') mark root s u := by
  obtain ⟨F, w, h1, h2, h3⟩ := h
  obtain ⟨F', w', k1, k2, k3⟩ := k
  refine ⟨_, _, k1.pre h1, (few_append _ _).2 ⟨h2, k2⟩, ?_⟩
  intro x hx
  rw [toks_append]
  cases m with
  | none => simp [addMost] at hx
  | some a =>
    cases m' with
    | none => simp [addMost] at hx
    | some b =>
      simp only [addMost, Option.some.injEq] at hx
      have := h3 a rfl; have := k3 b rfl; omega

theorem FewN.nth {s s1 : PState} {c : Kind} (h : s.nth = some (c, s1)) : FewN S (some 0) s s1 :=
  .of (nth_step h) trivial (by simp [toks])

theorem addMost_zero (m : Option Nat) : addMost (some 0) m = m := by cases m <;> simp [addMost]

theorem FewN.weaken {m m' : Option Nat} {s s' : PState} (h : FewN S m s s') (hm : ∀ x, m' = some x → ∃ y, m = some y ∧ y ≤ x) :
    FewN S m' s s' := by
  obtain ⟨F, w, h1, h2, h3⟩ := h
  refine ⟨F, w, h1, h2, fun x hx => ?_⟩
  obtain ⟨y, hy, hle⟩ := hm x hx
  exact Nat.le_trans (h3 y hy) hle

theorem FewR.weaken {m m' : Option Nat} {mark root} {s s' : PState} (h : FewR S m mark root s s') (hm : ∀ x, m' = some x → ∃ y, m = some y ∧ y ≤ x) :
    FewR S m' mark root s s' := by
  obtain ⟨F, w, h1, h2, h3⟩ := h
  refine ⟨F, w, h1, h2, fun x hx => ?_⟩
  obtain ⟨y, hy, hle⟩ := hm x hx
  exact Nat.le_trans (h3 y hy) hle

theorem FewN.any {m : Option Nat} {s s' : PState} (h : FewN S m s s') : FewN S none s s' := h.weaken (fun _ hx => by cases hx)

theorem FewR.any {m : Option Nat} {mark root} {s s' : PState} (h : FewR S m mark root s s') : FewR S none mark root s s' :=
  h.weaken (fun _ hx => by cases hx)

theorem maxMost_left {a b : Option Nat} : ∀ x, maxMost a b = some x → ∃ y, a = some y ∧ y ≤ x := by
  intro x hx
  cases a with
  | none => simp [maxMost] at hx
  | some a =>
    cases b with
    | none => simp [maxMost] at hx
    | some b => simp only [maxMost, Option.some.injEq] at hx; exact ⟨a, rfl, by omega⟩

theorem maxMost_right {a b : Option Nat} : ∀ x, maxMost a b = some x → ∃ y, b = some y ∧ y ≤ x := by
  intro x hx
  cases a with
  | none => simp [maxMost] at hx
  | some a =>
    cases b with
    | none => simp [maxMost] at hx
    | some b => simp only [maxMost, Option.some.injEq] at hx; exact ⟨b, rfl, by omega⟩

/-- The check of a function. -/
def fewOk (S : Kind → Bool) (k : Kind) (f : FnDef) : Bool :=
  !S k || ((match most S f.body with | some m => decide (m ≤ 1) | none => false) && !f.swallow)

theorem exec_few (G : Grammar) (hE : S K.Error = false)
    (hG : ∀ k f, G k = some f → f.kind = k ∧ fewOk S k f = true) (n : Nat) :
    ∀ (mark : Nat) (root : Kind) (st : Stmt) (s : PState),
    (∀ s', exec G n mark root st s = .next s' → FewN S (most S st) s s') ∧
    (∀ s', exec G n mark root st s = .ret s' → FewR S (most S st) mark root s s') := by
  induction n with
  | zero => intro mark root st s; constructor <;> intro s' h <;> simp [exec] at h
  | succ n ih =>
    intro mark root st s
    cases st with
    | skip =>
      constructor
      · intro s' h; simp [exec] at h; subst h; exact .of (Step.refl s) trivial (by simp [toks])
      · intro s' h; simp [exec] at h
    | seq a b =>
      simp only [exec, most]
      cases ha : exec G n mark root a s with
      | next s1 =>
        have hF := (ih mark root a s).1 s1 ha
        have hb := ih mark root b s1
        exact ⟨fun s' h => hF.trans (hb.1 s' h), fun s' h => FewR.pre hF (hb.2 s' h)⟩
      | ret s1 =>
        refine ⟨by simp, ?_⟩
        intro s' h
        simp at h; subst h
        refine ((ih mark root a s).2 s1 ha).weaken ?_
        intro x hx
        cases hma : most S a with
        | none => rw [hma] at hx; simp [addMost] at hx
        | some y =>
          rw [hma] at hx
          cases hmb : most S b with
          | none => rw [hmb] at hx; simp [addMost] at hx
          | some z => rw [hmb] at hx; simp only [addMost, Option.some.injEq] at hx; exact ⟨y, rfl, by omega⟩
      | stuck => simp
      | crash => simp
      | deep => simp
    | expect k =>
      simp only [exec, most]
      constructor
      · intro s' h
        rcases expect_next h with ⟨h, -⟩ | ⟨h, -⟩ <;> exact .of h trivial (by simp [toks])
      · intro s' h; exact absurd h expect_not_ret
    | call k =>
      simp only [exec, most]
      cases hf : G k with
      | none => simp
      | some f =>
        obtain ⟨hk, hbody⟩ := hG k f hf
        simp only
        -- what the node of the call may cover
        have bound : S k = true → ∃ m, most S f.body = some m ∧ m ≤ 1 ∧ f.swallow = false := by
          intro hS
          simp only [fewOk, hS, Bool.not_true, Bool.false_or, Bool.and_eq_true, Bool.not_eq_true'] at hbody
          cases hm : most S f.body with
          | none => rw [hm] at hbody; simp at hbody
          | some m => rw [hm] at hbody; exact ⟨m, rfl, by simpa using hbody.1, hbody.2⟩
        have enter : ∀ t : PState, FewN S (some 0) s t → ∀ o,
            o = (match exec G n t.events.length f.kind f.body (t.push (.openNode K.Error)) with
              | .next s' => match (if f.swallow then s'.swallow else .next s') with
                | .next s' => Out.next (s'.close t.events.length f.kind)
                | o => o
              | .ret s' => .next s'
              | o => o) →
            (∀ s', o = .next s' → FewN S (if S k then some 1 else none) s s') ∧
              (∀ s', o = .ret s' → FewR S (if S k then some 1 else none) mark root s s') := by
          intro t ht o ho
          have ihb := ih t.events.length f.kind f.body (t.push (.openNode K.Error))
          have done : ∀ s', FewN S (if S k then some 1 else none) t s' → FewN S (if S k then some 1 else none) s s' := by
            intro s' h
            have := ht.trans h
            rwa [addMost_zero] at this
          cases hb : exec G n t.events.length f.kind f.body (t.push (.openNode K.Error)) with
          | next s1 =>
            rw [hb] at ho
            obtain ⟨F, w, hF, hFb, hFm⟩ := ihb.1 s1 hb
            have hle : S k = true → F.toks ≤ 1 := by
              intro hS
              obtain ⟨m, h1, h2, -⟩ := bound hS
              exact Nat.le_trans (hFm m h1) h2
            simp only at ho
            cases hsw : f.swallow with
            | false =>
              simp [hsw] at ho; subst ho
              refine ⟨?_, by simp⟩
              intro s' h; simp at h; subst h
              refine done _ (.of (bracket_step f.kind K.Error hF) ⟨by rw [hk]; exact hle, hFb, trivial⟩ ?_)
              intro x hx
              by_cases hS : S k = true
              · rw [if_pos hS] at hx; cases hx; simpa [toks] using hle hS
              · rw [if_neg hS] at hx; cases hx
            | true =>
              have hS : ¬ S k = true := fun hS => by
                obtain ⟨_, _, _, h⟩ := bound hS
                rw [hsw] at h; cases h
              simp only [hsw, if_true] at ho
              cases hs2 : s1.swallow with
              | next s2 =>
                rw [hs2] at ho
                simp only at ho; subst ho
                obtain ⟨F2, w2, h2, h3, -⟩ := swallow_next hs2
                refine ⟨?_, by simp⟩
                intro s' h; simp at h; subst h
                refine done _ (.of (bracket_step f.kind K.Error (hF.trans h2))
                  ⟨fun h => absurd (by rw [hk] at h; exact h) hS, (few_append _ _).2 ⟨hFb, ?_⟩, trivial⟩ ?_)
                · rcases h3 with ⟨rfl, -⟩ | rfl
                  · trivial
                  · exact ⟨fun h => (by rw [hE] at h; cases h), few_tokens _, trivial⟩
                · intro x hx; rw [if_neg hS] at hx; cases hx
              | ret s2 => exact absurd hs2 swallow_not_ret
              | stuck => rw [hs2] at ho; subst ho; simp
              | crash => rw [hs2] at ho; subst ho; simp
              | deep => rw [hs2] at ho; subst ho; simp
          | ret s1 =>
            rw [hb] at ho
            simp only at ho; subst ho
            obtain ⟨F, w, ⟨h1, h2, h3, h4⟩, hFb, hFm⟩ := ihb.2 s1 hb
            refine ⟨?_, by simp⟩
            intro s' h; simp at h; subst h
            have he := h1 t.events K.Error .nil (by simp [PState.push, ser]) rfl
            have hst : Step t s1 (.node f.kind F (.node K.Error .nil .nil)) w :=
              ⟨by rw [he]; simp [append], by simpa [PState.push] using h2, by simpa [toks] using h3⟩
            have hle : S k = true → F.toks ≤ 1 := by
              intro hS
              obtain ⟨m, h1, h2, -⟩ := bound hS
              exact Nat.le_trans (hFm m h1) h2
            refine done _ (.of hst ⟨by rw [hk]; exact hle, hFb, fun h => (by rw [hE] at h; cases h), trivial, trivial⟩ ?_)
            intro x hx
            by_cases hS : S k = true
            · rw [if_pos hS] at hx; cases hx; simpa [toks] using hle hS
            · rw [if_neg hS] at hx; cases hx
          | stuck => rw [hb] at ho; subst ho; simp
          | crash => rw [hb] at ho; subst ho; simp
          | deep => rw [hb] at ho; subst ho; simp
        cases hg : f.guard with
        | none => exact enter s (.of (Step.refl s) trivial (by simp [toks])) _ rfl
        | some gs =>
          simp only
          cases hn : s.nth with
          | none => simp
          | some p =>
            obtain ⟨c, s1⟩ := p
            simp only
            split
            · exact enter s1 (.nth hn) _ rfl
            · refine ⟨?_, by simp⟩
              intro s' h; simp at h; subst h
              exact .of (nth_step hn) trivial (by simp [toks])
    | sync ks =>
      simp only [exec, most]
      cases hn : s.nth with
      | none => simp
      | some p =>
        obtain ⟨c, s1⟩ := p
        simp only
        split
        · refine ⟨?_, by simp⟩
          intro s' h; simp at h; subst h; exact (FewN.nth hn).any
        · constructor
          · intro s' h
            obtain ⟨F, w, h, hF⟩ := errorUntil_next' h
            refine FewN.trans (FewN.nth hn) (m' := none) (.of h ?_ (by simp))
            rcases hF with rfl | ⟨n, rfl⟩
            · trivial
            · exact ⟨fun h => (by rw [hE] at h; cases h), few_tokens _, trivial⟩
          · intro s' h; exact absurd h errorUntil_not_ret
    | opt ks b =>
      simp only [exec, most]
      cases hn : s.nth with
      | none => simp
      | some p =>
        obtain ⟨c, s1⟩ := p
        simp only
        split
        · have := ih mark root b s1
          refine ⟨fun s' h => ?_, fun s' h => ?_⟩
          · have := FewN.trans (.nth hn) (this.1 s' h); rwa [addMost_zero] at this
          · have := FewR.pre (.nth hn) (this.2 s' h); rwa [addMost_zero] at this
        · refine ⟨?_, by simp⟩
          intro s' h; simp at h; subst h; exact .of (nth_step hn) trivial (by simp [toks])
    | rep ks b =>
      simp only [exec, most]
      cases hn : s.nth with
      | none => simp
      | some p =>
        obtain ⟨c, s1⟩ := p
        simp only
        split
        · have hb1 := ih mark root b s1
          cases hb : exec G n mark root b s1 with
          | next s2 =>
            have hF := (FewN.trans (.nth hn) (hb1.1 s2 hb)).any
            simp only
            split
            · refine ⟨?_, by simp⟩
              intro s' h; simp at h; subst h; exact hF
            · have := ih mark root (.rep ks b) s2
              exact ⟨fun s' h => hF.trans (this.1 s' h), fun s' h => FewR.pre hF (this.2 s' h)⟩
          | ret s2 =>
            simp only
            refine ⟨by simp, ?_⟩
            intro s' h; simp at h; subst h
            exact (FewR.pre (.nth hn) (hb1.2 s2 hb)).any
          | stuck => simp
          | crash => simp
          | deep => simp
        · refine ⟨?_, by simp⟩
          intro s' h; simp at h; subst h; exact (FewN.nth hn).any
    | alt arms =>
      simp only [exec, most]
      cases hn : s.nth with
      | none => simp
      | some p =>
        obtain ⟨c, s1⟩ := p
        simp only
        have := ih mark root arms s1
        refine ⟨fun s' h => ?_, fun s' h => ?_⟩
        · have := FewN.trans (.nth hn) (this.1 s' h); rwa [addMost_zero] at this
        · have := FewR.pre (.nth hn) (this.2 s' h); rwa [addMost_zero] at this
    | arm ks b rest =>
      simp only [exec, most]
      split
      · have := ih mark root b s
        exact ⟨fun s' h => (this.1 s' h).weaken maxMost_left, fun s' h => (this.2 s' h).weaken maxMost_left⟩
      · have := ih mark root rest s
        exact ⟨fun s' h => (this.1 s' h).weaken maxMost_right, fun s' h => (this.2 s' h).weaken maxMost_right⟩
    | altEnd expected =>
      simp only [exec, most]
      split
      · next hc =>
        refine ⟨by simp, ?_⟩
        intro s' h; simp at h; subst h; exact ⟨_, _, altEnd_ret mark root hc, trivial, by simp [toks]⟩
      · cases expected with
        | none =>
          refine ⟨?_, by simp⟩
          intro s' h; simp at h; subst h; exact .of (Step.refl s) trivial (by simp [toks])
        | some ex =>
          constructor
          · intro s' h
            rcases advanceWithError_next h with ⟨h, -⟩ | ⟨t, h, -⟩
            · exact .of h trivial (by simp [toks])
            · exact .of h ⟨fun h => (by rw [hE] at h; cases h), trivial, trivial⟩ (by simp [toks])
          · intro s' h; exact absurd h advanceWithError_not_ret

/-! ## The SPARQL parser -/

/-- Kinds of nodes that consist of one token. -/
def oneToken (k : Kind) : Bool := [K.iri, K.PrefixedName, K.Var].contains k

theorem few_check : sparqlTree.toList.all (fun p => (p.2.kind == p.1) && fewOk oneToken p.1 p.2) = true := by decide +kernel

theorem few_fn (k : Kind) (f : FnDef) (h : sparql k = some f) : f.kind = k ∧ fewOk oneToken k f = true := by
  have := List.all_eq_true.1 few_check (k, f) (sparqlTree.find_mem k f h)
  simpa [Bool.and_eq_true] using this

theorem parse_few {n : Nat} {e : Entry} {toks : List Kind} {s : PState} {F : Forest}
    (h : parseEntry sparql n e.kind toks = .next s) (hF : s.events = Forest.ser (.node e.kind F .nil)) : F.Few oneToken := by
  have := exec_few (S := oneToken) sparql (by decide) few_fn n 0 e.kind (.call e.kind) (PState.init toks)
  obtain ⟨F', w, h1, h2, -⟩ := this.1 s h
  have h3 := h1.1
  rw [show (PState.init toks).events = [] from rfl, List.nil_append, hF] at h3
  have h4 := ser_inj h3
  rw [← h4] at h2
  exact h2.2.1

/-- The significant tokens below the nodes of a tree. -/
theorem few_shape (g : Green) : ∀ r : Forest, (∀ n ∈ g.nodes, n.Tight) → (g.shape r).Few S →
    (∀ n ∈ g.nodes, S n.kind = true → (sigKinds n.leaves).length ≤ 1) ∧ r.Few S := by
  induction g using Green.rec (motive_2 := fun cs => (∀ n ∈ Green.nodesL cs, n.Tight) → (Green.shapeL cs).Few S →
      ∀ n ∈ Green.nodesL cs, S n.kind = true → (sigKinds n.leaves).length ≤ 1) with
  | tok k t =>
    intro r _ hc
    refine ⟨by simp [Green.nodes], ?_⟩
    simp only [Green.shape] at hc
    cases h : triviaKind k
    · simpa [h, Few] using hc
    · simpa [h] using hc
  | node k cs ih =>
    intro r ht hc
    simp only [Green.shape, Few, toks_shapeL] at hc
    obtain ⟨h1, h2, h3⟩ := hc
    have ht' : ∀ n ∈ Green.nodesL cs, n.Tight := fun n hn => ht n (by simp [Green.nodes, hn])
    refine ⟨?_, h3⟩
    intro n hn hS
    simp only [Green.nodes, List.mem_cons] at hn
    rcases hn with rfl | hn
    · simpa [Green.leaves] using h1 hS
    · exact ih ht' h2 n hn hS
  | nil => rename_i _ _ n hn _; simp [Green.nodesL] at hn
  | cons g gs ihg ihs =>
    rename_i ht hc n hn hS
    simp only [Green.nodesL, List.mem_append] at ht hn
    simp only [Green.shapeL] at hc
    obtain ⟨a, b⟩ := ihg (Green.shapeL gs) (fun n hn => ht n (Or.inl hn)) hc
    rcases hn with hn | hn
    · exact a n hn hS
    · exact ihs (fun n hn => ht n (Or.inr hn)) b n hn hS

end Verif.Grammar
