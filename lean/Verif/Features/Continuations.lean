import Verif.Grammar.Residual
import Verif.Features.TokenRow
/-!
# What can follow at an offset

Models `continuations_at` (crates/sparql-parser/src/utils.rs L5-133): the rules of the nodes around a token are walked along their
children up to the offset; what is left of the rules gives the kinds that can follow. The loop is a transition system here; that it ends
is a theorem (C67). `Seq` and `Alt` have two parts, so that a longer one takes several rounds.
-/
namespace Verif.Features
open Verif Verif.Grammar

/-- The variables of the loop (utils.rs L16-20): the stacks have their tops first. -/
structure Walk where
  parent : Red
  kids : List Red
  rules : List Rule
  result : List Kind

/-- The next round, or the end with its result. -/
inductive Turn
  | go (w : Walk)
  | done (out : Option (List Kind))

/-- Start with a node (utils.rs L16-19, L40-42, L66-69, L124-127): all its children and its rule. -/
def enter (p : Red) (result : List Kind) : Turn :=
  match sparqlRules p.kind with
  | none => .done none
  | some r => .go ⟨p, p.childrenT, [r], result⟩

/-- Go on with the parent (utils.rs L38-46, L64-72, L122-129). -/
def goUp (p : Red) (result : List Kind) : Turn :=
  match p.parent with
  | none => .done (some result)
  | some q => enter q result

/-- The kinds the rules on the stack can begin with, up to the first that is not nullable (utils.rs L31-36, L116-121); whether all are
nullable. -/
def flush : List Rule → List Kind → List Kind × Bool
  | [], result => (result, true)
  | r :: S, result => if r.nullable then flush S (result ++ r.first) else (result ++ r.first, false)

/-- Collect what is left of the rules (utils.rs L31-46, L116-129). -/
def collectRest (w : Walk) : Turn :=
  if (flush w.rules w.result).2 then goUp w.parent (flush w.rules w.result).1 else .done (some (flush w.rules w.result).1)

/-- One round of the loop (utils.rs L22-131). -/
def turn (off : Nat) (w : Walk) : Turn :=
  match w.kids with
  | [] => collectRest w
  | c :: kids =>
    match w.rules with
    | [] => .done (some w.result)
    | r :: S =>
      if off ≤ c.start then collectRest w
      else if triviaKind c.kind then .go { w with kids := kids }
      else if c.kind == K.Error then .done (some w.result)
      else
        match expand c.kind r S with
        | .eat => if kids.isEmpty && S.isEmpty then goUp w.parent w.result else .go { w with kids := kids, rules := S }
        | .stop => .done (some w.result)
        | .fail => .done none
        | .to S' => .go { w with rules := S' }

/-- Where the loop starts (utils.rs L6-18) and the offset it works with. -/
def begin (g : Green) (offset : Nat) : Nat × Turn :=
  let found : Option (Red × Nat) :=
    if (Red.root g).stop < offset then (Red.root g).tokens.getLast?.map (fun t => (t, t.stop))
    else ((Red.root g).tokenAtLeft offset).map (fun t => (t, offset))
  match found with
  | none => (offset, .done none)
  | some (t, off) =>
    match t.parent with
    | none => (off, .done none)
    | some p => (off, enter p [])

/-- The loop ends with the result. -/
inductive Ends (off : Nat) : Turn → Option (List Kind) → Prop
  | done (out) : Ends off (.done out) out
  | go {w out} (h : Ends off (turn off w) out) : Ends off (.go w) out

/-- `continuations_at` returns the result. -/
def Continues (g : Green) (offset : Nat) (out : Option (List Kind)) : Prop := Ends (begin g offset).1 (begin g offset).2 out

/-- The loop for evaluation, with a number of rounds. -/
def endSteps (off : Nat) : Nat → Turn → Option (Option (List Kind))
  | _, .done out => some out
  | 0, .go _ => none
  | n + 1, .go w => endSteps off n (turn off w)

theorem ends_of_steps {off : Nat} : ∀ {n : Nat} {t : Turn} {out}, endSteps off n t = some out → Ends off t out := by
  intro n
  induction n with
  | zero =>
    intro t out h
    cases t with
    | done o => injection h with h; subst h; exact .done _
    | go w => cases h
  | succ n ih =>
    intro t out h
    cases t with
    | done o => injection h with h; subst h; exact .done _
    | go w => exact .go (ih h)

theorem ends_unique {off : Nat} {t : Turn} {a b} (h : Ends off t a) (h' : Ends off t b) : a = b := by
  induction h with
  | done => cases h'; rfl
  | go _ ih => cases h' with | go h' => exact ih h'

/-! ## Specification -/

/-- The grammar symbols of the children of a node that start in front of an offset. -/
def done (q : Red) (off : Nat) : List Sym := (q.childrenT.filter (fun c => decide (c.start < off))).filterMap (fun c => c.green.sym)

/-- The node can end at the offset. -/
def Closes (q : Red) (off : Nat) : Prop := ∃ r, sparqlRules q.kind = some r ∧ Whole sparqlRules r (done q off)

/-- The node can go on at the offset with a symbol of a kind. -/
def Extends (q : Red) (off : Nat) (k : Kind) : Prop :=
  ∃ r s l, sparqlRules q.kind = some r ∧ s.kind = k ∧ Whole sparqlRules r (done q off ++ s :: l)

/-- Some node around goes on with the kind, and those inside of it end. -/
def CanFollow (around : List Red) (off : Nat) (k : Kind) : Prop :=
  ∃ A q B, around = A ++ q :: B ∧ (∀ p ∈ A, Closes p off) ∧ Extends q off k

/-- Up to the offset the node is as the grammar wants it; and if it cannot go on nothing stands behind the offset. -/
structure Sound (q : Red) (off : Nat) : Prop where
  rule : ∃ r l, sparqlRules q.kind = some r ∧ Whole sparqlRules r (done q off ++ l)
  fine : ∀ c ∈ q.childrenT, c.start < off → c.kind ≠ K.Error
  last : ∃ D c B, q.childrenT = D ++ c :: B ∧ (∀ x ∈ D, x.start < off) ∧ c.start < off ∧ triviaKind c.kind = false ∧ ∀ x ∈ B, off ≤ x.start
  free : q.parent ≠ none → (∃ c ∈ q.childrenT, off ≤ c.start) → ∃ k, Extends q off k

end Verif.Features
