import Verif.Grammar.StartsData
import Verif.Grammar.LooseTree
/-!
# Nodes are only opened on the right token

A static check of the parser functions: with which current token can a function be entered? Not part of the code.
-/
namespace Verif.Grammar
open Forest

/-- `l ⊆ ks`. -/
def within (l ks : List Kind) : Bool := l.all (fun x => ks.contains x)

/-- The check: `known` is a set the current token is known to be in. -/
def startsOk (G : Grammar) (B : Kind → Option (List Kind)) : Option (List Kind) → Stmt → Bool
  | known, .seq a b => startsOk G B known a && startsOk G B none b
  | known, .call k =>
    match B k with
    | none => true
    | some ks =>
      match (match G k with | some f => f.guard.or known | none => known) with
      | none => false
      | some l => within l ks
  | _, .opt ks b => startsOk G B (some ks) b
  | _, .rep ks b => startsOk G B (some ks) b
  | known, .alt arms => startsOk G B known arms
  | known, .arm ks b rest => startsOk G B (some ks) b && startsOk G B known rest
  | _, _ => true

namespace Forest

/-- Every node that covers a token starts with a token from the set of its kind. -/
def Begins (B : Kind → Option (List Kind)) : Forest → List Kind → Prop
  | nil, _ => True
  | tok r, w => r.Begins B w.tail
  | err _ r, w => r.Begins B w
  | node k c r, w => (∀ ks, B k = some ks → c.toks = 0 ∨ cur w ∈ ks) ∧ c.Begins B w ∧ r.Begins B (w.drop c.toks)

variable {B : Kind → Option (List Kind)}

theorem begins_append (F G : Forest) : ∀ w, (F.append G).Begins B w ↔ F.Begins B w ∧ G.Begins B (w.drop F.toks) := by
  induction F with
  | nil => intro w; simp [append, Begins, toks]
  | tok r ih => intro w; simp [append, Begins, toks, ih, List.drop_tail]
  | err e r ih => intro w; simp [append, Begins, toks, ih]
  | node k c r _ ih => intro w; simp [append, Begins, toks, ih, and_assoc]

theorem begins_tokens (n : Nat) (w : List Kind) : (tokens n).Begins B w := by
  induction n generalizing w with
  | zero => trivial
  | succ n ih => exact ih _

theorem begins_empty {F : Forest} (h : F.toks = 0) : ∀ w, F.Begins B w := by
  induction F with
  | nil => intro w; trivial
  | tok r ih => simp [toks] at h
  | err e r ih => intro w; exact ih h w
  | node k c r ihc ih =>
    intro w
    simp only [toks, Nat.add_eq_zero_iff] at h
    exact ⟨fun _ _ => Or.inl h.1, ihc h.1 w, ih h.2 _⟩

theorem begins_dropErr {F : Forest} : ∀ w, F.Begins B w → F.dropErr.Begins B w := by
  induction F with
  | nil => intro w h; exact h
  | tok r ih => intro w h; exact ih _ h
  | err e r ih => intro w h; exact ih _ h
  | node k c r ihc ih =>
    rintro w ⟨h1, h2, h3⟩
    exact ⟨by rw [toks_dropErr]; exact h1, ihc _ h2, by rw [toks_dropErr]; exact ih _ h3⟩

theorem begins_prune {F : Forest} : ∀ w, F.Begins B w → F.prune.Begins B w := by
  induction F with
  | nil => intro w h; exact h
  | tok r ih => intro w h; exact ih _ h
  | err e r ih => intro w h; exact ih _ h
  | node k c r ihc ih =>
    rintro w ⟨h1, h2, h3⟩
    by_cases h : c.toks = 0
    · simp only [prune, h, if_true]
      rw [begins_append, toks_prune]
      exact ⟨ihc _ h2, ih _ h3⟩
    · simp only [prune, h, if_false]
      exact ⟨by rw [toks_prune]; exact h1, ihc _ h2, by rw [toks_prune]; exact ih _ h3⟩

end Forest

variable {B : Kind → Option (List Kind)}

def BeginsN (B : Kind → Option (List Kind)) (s s' : PState) : Prop :=
  ∃ F w, Step s s' F w ∧ F.Begins B s.toks

def BeginsR (B : Kind → Option (List Kind)) (mark : Nat) (root : Kind) (s s' : PState) : Prop :=
  ∃ F w, RetStep mark root s s' F w ∧ F.Begins B s.toks

theorem BeginsN.of {s t : PState} {F w} (h : Step s t F w) (hb : F.Begins B s.toks) : BeginsN B s t := ⟨F, w, h, hb⟩

theorem BeginsN.trans {s t u : PState} (h : BeginsN B s t) (k : BeginsN B t u) : BeginsN B s u := by
  obtain ⟨F, w, h1, h2⟩ := h
  obtain ⟨F', w', k1, k2⟩ := k
  rw [h1.toks_eq] at k2
  exact ⟨_, _, h1.trans k1, (begins_append _ _ _).2 ⟨h2, k2⟩⟩

theorem BeginsR.pre {mark root} {s t u : PState} (h : BeginsN B s t) (k : BeginsR B mark root t u) :
    BeginsR B mark root s u := by
  obtain ⟨F, w, h1, h2⟩ := h
  obtain ⟨F', w', k1, k2⟩ := k
  rw [h1.toks_eq] at k2
  exact ⟨_, _, k1.pre h1, (begins_append _ _ _).2 ⟨h2, k2⟩⟩

theorem BeginsN.nth {s s1 : PState} {c : Kind} (h : s.nth = some (c, s1)) : BeginsN B s s1 := .of (nth_step h) trivial

/-- The current token is in a known set. -/
def Knows (known : Option (List Kind)) (s : PState) : Prop := ∀ l, known = some l → cur s.toks ∈ l

theorem within_mem {l ks : List Kind} (h : within l ks = true) {x : Kind} (hx : x ∈ l) : x ∈ ks := by
  have := List.all_eq_true.1 h x hx
  simpa using this

theorem exec_begins (G : Grammar) (hE : B K.Error = none)
    (hG : ∀ k f, G k = some f → f.kind = k ∧ startsOk G B (B k) f.body = true) (n : Nat) :
    ∀ (mark : Nat) (root : Kind) (st : Stmt) (s : PState) (known : Option (List Kind)), startsOk G B known st = true →
    Knows known s →
    (∀ s', exec G n mark root st s = .next s' → BeginsN B s s') ∧
    (∀ s', exec G n mark root st s = .ret s' → BeginsR B mark root s s') := by
  induction n with
  | zero => intro mark root st s known _ _; constructor <;> intro s' h <;> simp [exec] at h
  | succ n ih =>
    intro mark root st s known hok hkn
    have hnth : ∀ {c s1}, s.nth = some (c, s1) → Knows known s1 := by
      intro c s1 hn l hl; rw [(nth_eq hn).2.1]; exact hkn l hl
    cases st with
    | skip =>
      constructor
      · intro s' h; simp [exec] at h; subst h; exact .of (Step.refl s) trivial
      · intro s' h; simp [exec] at h
    | seq a b =>
      simp only [startsOk, Bool.and_eq_true] at hok
      simp only [exec]
      cases ha : exec G n mark root a s with
      | next s1 =>
        have hF := (ih mark root a s known hok.1 hkn).1 s1 ha
        have hb := ih mark root b s1 none hok.2 (by intro l hl; cases hl)
        exact ⟨fun s' h => hF.trans (hb.1 s' h), fun s' h => BeginsR.pre hF (hb.2 s' h)⟩
      | ret s1 =>
        refine ⟨by simp, ?_⟩
        intro s' h
        simp at h; subst h
        exact (ih mark root a s known hok.1 hkn).2 s1 ha
      | stuck => simp
      | crash => simp
      | deep => simp
    | expect k =>
      simp only [exec]
      constructor
      · intro s' h
        rcases expect_next h with ⟨h, -⟩ | ⟨h, -⟩ <;> exact .of h trivial
      · intro s' h; exact absurd h expect_not_ret
    | call k =>
      simp only [exec]
      cases hf : G k with
      | none => simp
      | some f =>
        obtain ⟨hk, hbody⟩ := hG k f hf
        simp only [startsOk, hf] at hok
        simp only
        have enter : ∀ t : PState, Knows (B k) t → BeginsN B s t → ∀ o,
            o = (match exec G n t.events.length f.kind f.body (t.push (.openNode K.Error)) with
              | .next s' => match (if f.swallow then s'.swallow else .next s') with
                | .next s' => Out.next (s'.close t.events.length f.kind)
                | o => o
              | .ret s' => .next s'
              | o => o) →
            (∀ s', o = .next s' → BeginsN B s s') ∧ (∀ s', o = .ret s' → BeginsR B mark root s s') := by
          intro t hkt ht o ho
          have ihb := ih t.events.length f.kind f.body (t.push (.openNode K.Error)) (B k) hbody hkt
          cases hb : exec G n t.events.length f.kind f.body (t.push (.openNode K.Error)) with
          | next s1 =>
            rw [hb] at ho
            obtain ⟨F, w, hF, hFb⟩ := ihb.1 s1 hb
            simp only at ho
            cases hsw : f.swallow with
            | false =>
              simp [hsw] at ho; subst ho
              refine ⟨?_, by simp⟩
              intro s' h; simp at h; subst h
              exact ht.trans (.of (bracket_step f.kind K.Error hF)
                ⟨fun ks hks => Or.inr (by rw [hk] at hks; exact hkt ks hks), hFb, trivial⟩)
            | true =>
              simp only [hsw, if_true] at ho
              cases hs2 : s1.swallow with
              | next s2 =>
                rw [hs2] at ho
                simp only at ho; subst ho
                obtain ⟨F2, w2, h2, h3, -⟩ := swallow_next hs2
                refine ⟨?_, by simp⟩
                intro s' h; simp at h; subst h
                refine ht.trans (.of (bracket_step f.kind K.Error (hF.trans h2))
                  ⟨fun ks hks => Or.inr (by rw [hk] at hks; exact hkt ks hks), (begins_append _ _ _).2 ⟨hFb, ?_⟩, trivial⟩)
                rcases h3 with ⟨rfl, -⟩ | rfl
                · trivial
                · exact ⟨fun ks hks => (by rw [hE] at hks; cases hks), begins_tokens _ _, trivial⟩
              | ret s2 => exact absurd hs2 swallow_not_ret
              | stuck => rw [hs2] at ho; subst ho; simp
              | crash => rw [hs2] at ho; subst ho; simp
              | deep => rw [hs2] at ho; subst ho; simp
          | ret s1 =>
            rw [hb] at ho
            simp only at ho; subst ho
            obtain ⟨F, w, ⟨h1, h2, h3, h4⟩, hFb⟩ := ihb.2 s1 hb
            refine ⟨?_, by simp⟩
            intro s' h; simp at h; subst h
            have he := h1 t.events K.Error .nil (by simp [PState.push, ser]) rfl
            have : Step t s1 (.node f.kind F (.node K.Error .nil .nil)) w :=
              ⟨by rw [he]; simp [append], by simpa [PState.push] using h2, by simpa [toks] using h3⟩
            exact ht.trans (.of this ⟨fun ks hks => Or.inr (by rw [hk] at hks; exact hkt ks hks), hFb,
              begins_empty rfl _⟩)
          | stuck => rw [hb] at ho; subst ho; simp
          | crash => rw [hb] at ho; subst ho; simp
          | deep => rw [hb] at ho; subst ho; simp
        cases hg : f.guard with
        | none =>
          refine enter s ?_ (.of (Step.refl s) trivial) _ rfl
          intro ks hks
          rw [hks, hg] at hok
          simp only [Option.none_or] at hok
          cases hkk : known with
          | none => rw [hkk] at hok; simp at hok
          | some l => rw [hkk] at hok; exact within_mem hok (hkn l hkk)
        | some gs =>
          simp only
          cases hn : s.nth with
          | none => simp
          | some p =>
            obtain ⟨c, s1⟩ := p
            simp only
            split
            · rename_i hc
              refine enter s1 ?_ (.nth hn) _ rfl
              intro ks hks
              rw [hks, hg] at hok
              simp only [Option.some_or] at hok
              rw [(nth_eq hn).2.1, ← (nth_eq hn).1]
              exact within_mem hok hc
            · refine ⟨?_, by simp⟩
              intro s' h; simp at h; subst h; exact .nth hn
    | sync ks =>
      simp only [exec]
      cases hn : s.nth with
      | none => simp
      | some p =>
        obtain ⟨c, s1⟩ := p
        simp only
        split
        · refine ⟨?_, by simp⟩
          intro s' h; simp at h; subst h; exact .nth hn
        · constructor
          · intro s' h
            obtain ⟨F, w, h, hF⟩ := errorUntil_next' h
            refine BeginsN.trans (.nth hn) (.of h ?_)
            rcases hF with rfl | ⟨n, rfl⟩
            · trivial
            · exact ⟨fun ks hks => (by rw [hE] at hks; cases hks), begins_tokens _ _, trivial⟩
          · intro s' h; exact absurd h errorUntil_not_ret
    | opt ks b =>
      simp only [startsOk] at hok
      simp only [exec]
      cases hn : s.nth with
      | none => simp
      | some p =>
        obtain ⟨c, s1⟩ := p
        simp only
        split
        · rename_i hc
          have := ih mark root b s1 (some ks) hok (by
            intro l hl; cases hl; rw [(nth_eq hn).2.1, ← (nth_eq hn).1]; exact hc)
          exact ⟨fun s' h => BeginsN.trans (.nth hn) (this.1 s' h), fun s' h => BeginsR.pre (.nth hn) (this.2 s' h)⟩
        · refine ⟨?_, by simp⟩
          intro s' h; simp at h; subst h; exact .nth hn
    | rep ks b =>
      have hok0 := hok
      simp only [startsOk] at hok
      simp only [exec]
      cases hn : s.nth with
      | none => simp
      | some p =>
        obtain ⟨c, s1⟩ := p
        simp only
        split
        · rename_i hc
          have hb1 := ih mark root b s1 (some ks) hok (by
            intro l hl; cases hl; rw [(nth_eq hn).2.1, ← (nth_eq hn).1]; exact hc)
          cases hb : exec G n mark root b s1 with
          | next s2 =>
            have hF := BeginsN.trans (.nth hn) (hb1.1 s2 hb)
            simp only
            split
            · refine ⟨?_, by simp⟩
              intro s' h; simp at h; subst h; exact hF
            · have := ih mark root (.rep ks b) s2 none hok0 (by intro l hl; cases hl)
              exact ⟨fun s' h => hF.trans (this.1 s' h), fun s' h => BeginsR.pre hF (this.2 s' h)⟩
          | ret s2 =>
            simp only
            refine ⟨by simp, ?_⟩
            intro s' h; simp at h; subst h
            exact BeginsR.pre (.nth hn) (hb1.2 s2 hb)
          | stuck => simp
          | crash => simp
          | deep => simp
        · refine ⟨?_, by simp⟩
          intro s' h; simp at h; subst h; exact .nth hn
    | alt arms =>
      simp only [startsOk] at hok
      simp only [exec]
      cases hn : s.nth with
      | none => simp
      | some p =>
        obtain ⟨c, s1⟩ := p
        simp only
        have := ih mark root arms s1 known hok (hnth hn)
        exact ⟨fun s' h => BeginsN.trans (.nth hn) (this.1 s' h), fun s' h => BeginsR.pre (.nth hn) (this.2 s' h)⟩
    | arm ks b rest =>
      simp only [startsOk, Bool.and_eq_true] at hok
      simp only [exec]
      split
      · rename_i hc
        exact ih mark root b s (some ks) hok.1 (by intro l hl; cases hl; exact hc)
      · exact ih mark root rest s known hok.2 hkn
    | altEnd expected =>
      simp only [exec]
      split
      · next hc =>
        refine ⟨by simp, ?_⟩
        intro s' h; simp at h; subst h; exact ⟨_, _, altEnd_ret mark root hc, trivial⟩
      · cases expected with
        | none =>
          refine ⟨?_, by simp⟩
          intro s' h; simp at h; subst h; exact .of (Step.refl s) trivial
        | some ex =>
          constructor
          · intro s' h
            rcases advanceWithError_next h with ⟨h, -⟩ | ⟨t, h, -⟩
            · exact .of h trivial
            · exact .of h ⟨fun ks hks => (by rw [hE] at hks; cases hks), trivial, trivial⟩
          · intro s' h; exact absurd h advanceWithError_not_ret

/-! ## The SPARQL parser -/

/-- The tokens a node of this kind can start with (`none`: not restricted). -/
def startTokens (k : Kind) : Option (List Kind) := (nodeStarts.find? (fun p => p.1 == k)).map (·.2)

theorem starts_check : sparqlTree.toList.all (fun p => (p.2.kind == p.1) &&
    startsOk sparql startTokens (startTokens p.1) p.2.body) = true := by decide +kernel

theorem starts_fn (k : Kind) (f : FnDef) (h : sparql k = some f) :
    f.kind = k ∧ startsOk sparql startTokens (startTokens k) f.body = true := by
  have := List.all_eq_true.1 starts_check (k, f) (sparqlTree.find_mem k f h)
  simpa [Bool.and_eq_true] using this

theorem parse_begins {n : Nat} {e : Entry} {toks : List Kind} {s : PState} {F : Forest}
    (h : parseEntry sparql n e.kind toks = .next s) (hF : s.events = Forest.ser (.node e.kind F .nil)) :
    F.Begins startTokens toks := by
  have hk : startTokens e.kind = none := by cases e <;> decide
  have := exec_begins (B := startTokens) sparql (by decide) starts_fn n 0 e.kind (.call e.kind) (PState.init toks) none
    (by simp [startsOk, hk]) (by intro l hl; cases hl)
  obtain ⟨F', w, h1, h2⟩ := this.1 s h
  have h3 := h1.1
  rw [show (PState.init toks).events = [] from rfl, List.nil_append, hF] at h3
  have h4 := ser_inj h3
  rw [← h4] at h2
  exact h2.2.1

/-- The first significant token of a tree. -/
theorem begins_shape (g : Green) : ∀ r : Forest, ∀ v, (∀ n ∈ g.nodes, n.Tight) →
    (g.shape r).Begins B (sigKinds g.leaves ++ v) →
    (∀ k cs, Green.node k cs ∈ g.nodes → ∀ ks, B k = some ks →
      ∃ p l, (Green.node k cs).leaves = p :: l ∧ p.1 ∈ ks) ∧ r.Begins B v := by
  induction g using Green.rec (motive_2 := fun cs => ∀ v, (∀ n ∈ Green.nodesL cs, n.Tight) →
      (Green.shapeL cs).Begins B (sigKinds (Green.leavesL cs) ++ v) → ∀ k c, Green.node k c ∈ Green.nodesL cs →
      ∀ ks, B k = some ks → ∃ p l, (Green.node k c).leaves = p :: l ∧ p.1 ∈ ks) with
  | tok k t =>
    intro r v _ hc
    refine ⟨by simp [Green.nodes], ?_⟩
    simp only [Green.shape, Green.leaves, sigKinds] at hc
    cases h : triviaKind k
    · simpa [h, Begins] using hc
    · simpa [h] using hc
  | node k cs ih =>
    intro r v ht hc
    simp only [Green.shape, Green.leaves, Begins, toks_shapeL, List.drop_left] at hc
    obtain ⟨h1, h2, h3⟩ := hc
    have ht' : ∀ n ∈ Green.nodesL cs, n.Tight := fun n hn => ht n (by simp [Green.nodes, hn])
    refine ⟨?_, h3⟩
    intro k' cs' hn ks hks
    simp only [Green.nodes, List.mem_cons] at hn
    rcases hn with hn | hn
    · cases hn
      obtain ⟨⟨_, t, l, h1', h2'⟩, -⟩ := ht (.node k cs) (by simp [Green.nodes])
      refine ⟨_, _, h1', ?_⟩
      simp only [Green.leaves] at h1'
      rcases h1 ks hks with h1 | h1
      · simp [h1', sigKinds, h2'] at h1
      · simpa [h1', sigKinds, h2', cur] using h1
    · exact ih v ht' h2 k' cs' hn ks hks
  | nil => rename_i hn _ _; simp [Green.nodesL] at hn
  | cons g gs ihg ihs =>
    rename_i v ht hc k c hn ks hks
    simp only [Green.nodesL, List.mem_append] at ht hn
    simp only [Green.shapeL, Green.leavesL, sigKinds_append, List.append_assoc] at hc
    obtain ⟨a, b⟩ := ihg (Green.shapeL gs) _ (fun n hn => ht n (Or.inl hn)) hc
    rcases hn with hn | hn
    · exact a k c hn ks hks
    · exact ihs v (fun n hn => ht n (Or.inr hn)) b k c hn ks hks

end Verif.Grammar
