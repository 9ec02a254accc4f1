import Verif.Features.Indent
import Verif.Features.Shape
import Verif.Grammar.Whole
/-!
# Braces in complete trees

Where `{` and `}` can stand in the right-hand sides of the grammar, and what follows for the leaves in front of a token.
-/
namespace Verif.Features
open Verif Verif.Grammar Verif.Lexer Verif.Props

/-- How a kind of node uses braces. -/
inductive Cls
  | bracket
  | header
  | construct
  | plain
deriving DecidableEq

def headerKinds : List Kind := [K.QuadsNotTriples, K.InlineDataOneVar, K.InlineDataFull]

def clsOf (k : Kind) : Cls :=
  if k ∈ headerKinds then .header
  else if k ∈ braceKinds then .bracket
  else if k = K.ConstructQuery then .construct
  else .plain

/-- Kinds of the nodes in front of the brace of a header, and below these. -/
def headKinds : List Kind := [K.VarOrIri, K.Var, K.iri, K.PrefixedName]

/-- May the symbol come in this phase (0: before `{`, 1: behind it, 2: behind `}`)? -/
def symOk : Cls → Nat → Sym → Bool
  | .bracket, 0, s => s == .tok K.LCurly
  | .bracket, 1, s => s != .tok K.LCurly
  | .bracket, _, _ => false
  | .header, 0, .node k => headKinds.contains k
  | .header, 0, .tok k => k != K.RCurly
  | .header, 1, s => s != .tok K.LCurly
  | .header, _, _ => false
  | .construct, 0, s => s != .node K.TriplesTemplate && s != .tok K.RCurly
  | .construct, 1, s => s == .node K.TriplesTemplate || s == .tok K.RCurly
  | .construct, _, s => s != .node K.TriplesTemplate && s != .tok K.RCurly && s != .tok K.LCurly
  | .plain, _, s => s != .tok K.LCurly && s != .tok K.RCurly

/-- The phase behind a symbol. -/
def phaseStep (p : Nat) (s : Sym) : Nat :=
  if s = .tok K.LCurly then 1 else if s = .tok K.RCurly then 2 else p

def phaseRun (c : Cls) : Nat → List Sym → Option Nat
  | p, [] => some p
  | p, s :: w => if symOk c p s then phaseRun c (phaseStep p s) w else none

/-- The phases behind a right-hand side that starts in a phase. -/
def phaseEnds (c : Cls) : Rule → Nat → Option (List Nat)
  | .node k, p => if symOk c p (.node k) then some [p] else none
  | .tok k, p => if symOk c p (.tok k) then some [phaseStep p (.tok k)] else none
  | .seq a b, p =>
    match phaseEnds c a p with
    | none => none
    | some l => (l.mapM (phaseEnds c b)).map List.flatten
  | .alt a b, p =>
    match phaseEnds c a p, phaseEnds c b p with
    | some x, some y => some (x ++ y)
    | _, _ => none
  | .opt r, p => (phaseEnds c r p).map (p :: ·)
  | .rep r, p =>
    match phaseEnds c r p with
    | some l => if l.all (· == p) then some [p] else none
    | none => none

theorem phaseRun_append (c : Cls) : ∀ (u v : List Sym) (p : Nat),
    phaseRun c p (u ++ v) = (phaseRun c p u).bind (fun q => phaseRun c q v) := by
  intro u
  induction u with
  | nil => intro v p; rfl
  | cons s u ih =>
    intro v p
    simp only [List.cons_append, phaseRun]
    split
    · exact ih v _
    · rfl

theorem mapM_mem {α β : Type} {f : α → Option β} : ∀ {l : List α} {r : List β}, l.mapM f = some r → ∀ a ∈ l, ∃ b ∈ r, f a = some b := by
  intro l
  induction l with
  | nil => intro r _ a ha; cases ha
  | cons x l ih =>
    intro r h a ha
    simp only [List.mapM_cons, Option.bind_eq_bind, Option.pure_def] at h
    cases hx : f x with
    | none => rw [hx] at h; cases h
    | some y =>
      cases hl : l.mapM f with
      | none => rw [hx, hl] at h; cases h
      | some ys =>
        rw [hx, hl] at h
        simp only [Option.bind_some, Option.some.injEq] at h
        subst h
        rcases List.mem_cons.1 ha with rfl | ha
        · exact ⟨y, List.mem_cons_self .., hx⟩
        · obtain ⟨b, hb, e⟩ := ih hl a ha
          exact ⟨b, List.mem_cons_of_mem _ hb, e⟩

theorem phase_sound {R : Kind → Option Rule} {c : Cls} {r : Rule} {w : List Sym} (h : Whole R r w) :
    ∀ p E, phaseEnds c r p = some E → ∃ q ∈ E, phaseRun c p w = some q := by
  induction h with
  | tok k =>
    intro p E hE
    simp only [phaseEnds] at hE
    split at hE
    · next ho => cases hE; exact ⟨_, List.mem_singleton.2 rfl, by simp [phaseRun, ho]⟩
    · cases hE
  | node k =>
    intro p E hE
    simp only [phaseEnds] at hE
    split at hE
    · next ho =>
      cases hE
      refine ⟨p, List.mem_singleton.2 rfl, ?_⟩
      simp [phaseRun, ho, phaseStep]
    · cases hE
  | empty k _ =>
    intro p E hE
    simp only [phaseEnds] at hE
    split at hE
    · cases hE; exact ⟨p, List.mem_singleton.2 rfl, rfl⟩
    · cases hE
  | seq _ _ ia ib =>
    intro p E hE
    simp only [phaseEnds] at hE
    split at hE
    · cases hE
    · next l hl =>
      obtain ⟨q, hq, e⟩ := ia p l hl
      rw [Option.map_eq_some_iff] at hE
      obtain ⟨ls, hls, rfl⟩ := hE
      obtain ⟨E', hE', e'⟩ := mapM_mem hls q hq
      obtain ⟨q', hq', e''⟩ := ib q E' e'
      exact ⟨q', List.mem_flatten.2 ⟨E', hE', hq'⟩, by rw [phaseRun_append, e]; exact e''⟩
  | altL _ ih =>
    intro p E hE
    simp only [phaseEnds] at hE
    split at hE
    · next x y hx hy =>
      cases hE
      obtain ⟨q, hq, e⟩ := ih p x hx
      exact ⟨q, List.mem_append_left _ hq, e⟩
    · cases hE
  | altR _ ih =>
    intro p E hE
    simp only [phaseEnds] at hE
    split at hE
    · next x y hx hy =>
      cases hE
      obtain ⟨q, hq, e⟩ := ih p y hy
      exact ⟨q, List.mem_append_right _ hq, e⟩
    · cases hE
  | optNone r =>
    intro p E hE
    simp only [phaseEnds, Option.map_eq_some_iff] at hE
    obtain ⟨l, -, rfl⟩ := hE
    exact ⟨p, List.mem_cons_self .., rfl⟩
  | optSome _ ih =>
    intro p E hE
    simp only [phaseEnds, Option.map_eq_some_iff] at hE
    obtain ⟨l, hl, rfl⟩ := hE
    obtain ⟨q, hq, e⟩ := ih p l hl
    exact ⟨q, List.mem_cons_of_mem _ hq, e⟩
  | repNil r =>
    intro p E hE
    simp only [phaseEnds] at hE
    split at hE
    · split at hE
      · cases hE; exact ⟨p, List.mem_singleton.2 rfl, rfl⟩
      · cases hE
    · cases hE
  | repCons _ _ ia ib =>
    intro p E hE
    have hE0 := hE
    simp only [phaseEnds] at hE
    split at hE
    · next l hl =>
      split at hE
      · next hall =>
        obtain ⟨q, hq, e⟩ := ia p l hl
        have := List.all_eq_true.1 hall q hq
        rw [beq_iff_eq] at this
        subst this
        obtain ⟨q', hq', e'⟩ := ib _ E hE0
        exact ⟨q', hq', by rw [phaseRun_append, e]; exact e'⟩
      · cases hE
    · cases hE

/-- The phases a right-hand side can end in. -/
def finals : Cls → List Nat
  | .bracket => [2]
  | .header => [2]
  | .construct => [0, 2]
  | .plain => [0]

/-- Every rule of the grammar keeps to its class. -/
theorem phases_ok : sparqlRulesTree.toList.all (fun p =>
    match phaseEnds (clsOf p.1) p.2 0 with
    | some E => E.all (fun q => (finals (clsOf p.1)).contains q)
    | none => false) = true := by decide +kernel

/-- Below the kinds of a header there are only such kinds. -/
theorem headKinds_closed : sparqlRulesTree.toList.all (fun p => !headKinds.contains p.1 ||
    (symbols p.2).all (fun s => match s with | .node k => headKinds.contains k | .tok _ => true)) = true := by decide +kernel

/-- A complete node keeps to its class. -/
theorem complete_run {k : Kind} {cs : List Green} (h : Complete sparqlRules (.node k cs)) :
    ∃ q ∈ finals (clsOf k), phaseRun (clsOf k) 0 (cs.filterMap Green.sym) = some q := by
  obtain ⟨-, r, hr, hw⟩ := h
  have := List.all_eq_true.1 phases_ok _ (KTree.find_mem _ _ _ hr)
  dsimp only at this
  split at this
  · next E hE =>
    obtain ⟨q, hq, e⟩ := phase_sound hw 0 E hE
    have := List.all_eq_true.1 this q hq
    exact ⟨q, List.contains_iff_mem.1 this, e⟩
  · cases this

/-- In phase 1 a `{` has come, in phase 2 also a `}`. -/
theorem run_counts {c : Cls} {w : List Sym} : ∀ {p q : Nat}, p ≤ 2 → phaseRun c p w = some q →
    q ≤ 2 ∧ p ≤ q ∧ w.count (.tok K.LCurly) + (if 1 ≤ p then 1 else 0) = (if 1 ≤ q then 1 else 0) ∧
      w.count (.tok K.RCurly) + (if 2 ≤ p then 1 else 0) = (if 2 ≤ q then 1 else 0) := by
  induction w with
  | nil => intro p q hp h; cases h; exact ⟨hp, Nat.le_refl _, by simp, by simp⟩
  | cons s w ih =>
    intro p q hp h
    simp only [phaseRun] at h
    split at h
    · next ho =>
      by_cases h1 : s = .tok K.LCurly
      · subst h1
        have e : phaseStep p (.tok K.LCurly) = 1 := rfl
        rw [e] at h
        have hp0 : p = 0 := by
          match p, hp, ho with
          | 0, _, _ => rfl
          | 1, _, ho => exact absurd ho (by cases c <;> decide)
          | 2, _, ho => exact absurd ho (by cases c <;> decide)
        subst hp0
        obtain ⟨a, b, c1, c2⟩ := ih (by omega) h
        refine ⟨a, by omega, ?_, ?_⟩
        · rw [List.count_cons_self]; simp only [Nat.le_refl, if_true] at c1; simpa using c1
        · rw [List.count_cons_of_ne (by decide)]; simpa using c2
      · by_cases h2 : s = .tok K.RCurly
        · subst h2
          have e : phaseStep p (.tok K.RCurly) = 2 := rfl
          rw [e] at h
          have hp0 : p = 1 := by
            match p, hp, ho with
            | 0, _, ho => exact absurd ho (by cases c <;> decide)
            | 1, _, _ => rfl
            | 2, _, ho => exact absurd ho (by cases c <;> decide)
          subst hp0
          obtain ⟨a, b, c1, c2⟩ := ih (by omega) h
          refine ⟨a, by omega, ?_, ?_⟩
          · rw [List.count_cons_of_ne (by decide)]; simpa using c1
          · rw [List.count_cons_self]; simpa using c2
        · have e : phaseStep p s = p := by simp [phaseStep, h1, h2]
          rw [e] at h
          obtain ⟨a, b, c1, c2⟩ := ih hp h
          exact ⟨a, b, by rw [List.count_cons_of_ne h1]; exact c1, by rw [List.count_cons_of_ne h2]; exact c2⟩
    · cases h

/-! ## Counting braces in leaves -/

/-- Number of `{` in a list of tokens. -/
def opens (l : List (Kind × Text)) : Nat := l.countP (fun p => p.1 == K.LCurly)
/-- Number of `}` in a list of tokens. -/
def closes (l : List (Kind × Text)) : Nat := l.countP (fun p => p.1 == K.RCurly)

theorem opens_append (a b) : opens (a ++ b) = opens a + opens b := List.countP_append ..
theorem closes_append (a b) : closes (a ++ b) = closes a + closes b := List.countP_append ..

/-- Opens minus closes of balanced children are the direct ones. -/
theorem leavesL_counts (cs : List Green) (hb : ∀ k ds, Green.node k ds ∈ cs → opens (Green.node k ds).leaves = closes (Green.node k ds).leaves) :
    opens (Green.leavesL cs) + (cs.filterMap Green.sym).count (.tok K.RCurly) =
    closes (Green.leavesL cs) + (cs.filterMap Green.sym).count (.tok K.LCurly) := by
  induction cs with
  | nil => rfl
  | cons g gs ih =>
    have ih := ih (fun k ds h => hb k ds (List.mem_cons_of_mem _ h))
    simp only [Green.leavesL, opens_append, closes_append]
    cases g with
    | tok k t =>
      by_cases h1 : k = K.LCurly
      · subst h1
        have : (Green.tok K.LCurly t).sym = some (.tok K.LCurly) := by simp [Green.sym]; decide
        rw [List.filterMap_cons_some this, List.count_cons_self, List.count_cons_of_ne (by decide)]
        have e1 : opens (Green.tok K.LCurly t).leaves = 1 := by simp [Green.leaves, opens]
        have e2 : closes (Green.tok K.LCurly t).leaves = 0 := rfl
        omega
      · by_cases h2 : k = K.RCurly
        · subst h2
          have : (Green.tok K.RCurly t).sym = some (.tok K.RCurly) := by simp [Green.sym]; decide
          rw [List.filterMap_cons_some this, List.count_cons_self, List.count_cons_of_ne (by decide)]
          have e1 : opens (Green.tok K.RCurly t).leaves = 0 := rfl
          have e2 : closes (Green.tok K.RCurly t).leaves = 1 := by simp [Green.leaves, closes]
          omega
        · have e1 : opens (Green.tok k t).leaves = 0 := by simp [Green.leaves, opens, h1]
          have e2 : closes (Green.tok k t).leaves = 0 := by simp [Green.leaves, closes, h2]
          have hs : (Green.tok k t).sym = none ∨ (Green.tok k t).sym = some (.tok k) := by
            simp only [Green.sym]; split <;> simp
          rcases hs with hs | hs
          · rw [List.filterMap_cons_none hs]; omega
          · rw [List.filterMap_cons_some hs, List.count_cons_of_ne (by simpa using h2), List.count_cons_of_ne (by simpa using h1)]
            omega
    | node k ds =>
      have e := hb k ds (List.mem_cons_self ..)
      have hs : (Green.node k ds).sym = none ∨ (Green.node k ds).sym = some (.node k) := by
        simp only [Green.sym]; split <;> simp
      rcases hs with hs | hs
      · rw [List.filterMap_cons_none hs]; omega
      · rw [List.filterMap_cons_some hs, List.count_cons_of_ne (by simp), List.count_cons_of_ne (by simp)]
        omega

/-- A complete tree has as many `{` as `}`. -/
theorem balanced {g : Green} : (∀ n ∈ g.nodes, Complete sparqlRules n) → ∀ k cs, g = .node k cs → opens g.leaves = closes g.leaves := by
  induction g using Green.rec (motive_2 := fun cs => (∀ n ∈ Green.nodesL cs, Complete sparqlRules n) → ∀ k ds, Green.node k ds ∈ cs →
      opens (Green.node k ds).leaves = closes (Green.node k ds).leaves) with
  | tok k t => intro _ k cs h; cases h
  | node k cs ih =>
    rintro h k cs ⟨⟩
    have hc : Complete sparqlRules (.node k cs) := h _ (by simp [Green.nodes])
    have hb := ih (fun n hn => h n (by simp [Green.nodes, hn]))
    obtain ⟨q, hq, e⟩ := complete_run hc
    obtain ⟨-, -, c1, c2⟩ := run_counts (by omega) e
    have := leavesL_counts cs hb
    simp only [Green.leaves]
    have hq' : q = 0 ∨ q = 2 := by
      revert hq
      cases clsOf k <;> simp [finals] <;> omega
    rcases hq' with rfl | rfl
    · simp only [show ¬ (1 ≤ 0) by omega, show ¬ (2 ≤ 0) by omega, if_false] at c1 c2; omega
    · simp only [show ¬ (1 ≤ 0) by omega, show ¬ (2 ≤ 0) by omega, show 1 ≤ 2 by omega, show 2 ≤ 2 by omega, if_false, if_true] at c1 c2; omega
  | nil => rename_i k ds h; cases h
  | cons g gs ihg ihs =>
    rename_i h k ds hm
    rcases List.mem_cons.1 hm with rfl | hm
    · exact ihg (fun n hn => h n (by simp [Green.nodesL, hn])) k ds rfl
    · exact ihs (fun n hn => h n (by simp [Green.nodesL, hn])) k ds hm

end Verif.Features
