import Verif.Grammar.Few
import Verif.Props.Diagnostics
/-!
# Names are single tokens
-/
namespace Verif.Props
open Verif Verif.Grammar Verif.Lexer Verif.Features

theorem tight_one {n : Green} (ht : n.Tight) (h : (sigKinds n.leaves).length ≤ 1) : ∃ p, n.leaves = [p] ∧ triviaKind p.1 = false := by
  obtain ⟨⟨k, t, l, e, hk⟩, ⟨k', t', l', e', hk'⟩⟩ := ht
  cases l with
  | nil => exact ⟨_, e, hk⟩
  | cons p l =>
    exfalso
    rw [e] at e' h
    cases l' with
    | nil => simp at e'
    | cons q l' =>
      simp only [List.cons_append, List.cons.injEq] at e'
      rw [e'.2] at h
      simp [sigKinds, List.filter_cons, List.filter_append, hk, hk'] at h

/-- **C48.** In the tree of any text, valid or not, a variable, an IRI and a prefixed name consist of exactly one token:
error recovery never puts anything else into such a node. -/
theorem c48_single (e : Entry) (text : Text) (tokens : List Tok) (hL : Lexed text tokens) (g errs)
    (h : parseText e tokens = some (g, errs)) (n : Green) (hn : n ∈ g.nodes)
    (hk : n.kind = K.Var ∨ n.kind = K.iri ∨ n.kind = K.PrefixedName) : ∃ p, n.leaves = [p] ∧ triviaKind p.1 = false := by
  obtain ⟨F, cs, h1, h2, rfl, -, h5, h6, h7⟩ := parseText_some hL h
  obtain ⟨m, s, hs, hev⟩ := parseTokens_some h1
  have hc := parse_few hs hev
  have hS : oneToken n.kind = true := by rcases hk with h | h | h <;> rw [h] <;> decide
  have hcf : (Green.shapeL cs).Few oneToken := by rw [h6]; exact Forest.few_dropErr (Forest.few_prune hc)
  simp only [Green.nodes, List.mem_cons] at hn
  rcases hn with rfl | hn
  · exfalso
    have hu : oneToken e.kind = false := by cases e <;> decide +kernel
    rw [show (Green.node e.kind cs).kind = e.kind from rfl, hu] at hS; cases hS
  · have key : ∀ cs : List Green, (∀ n ∈ Green.nodesL cs, n.Tight) → (Green.shapeL cs).Few oneToken → n ∈ Green.nodesL cs →
        (sigKinds n.leaves).length ≤ 1 := by
      intro cs
      induction cs with
      | nil => intro _ _ hn; simp [Green.nodesL] at hn
      | cons g gs ih =>
        intro ht hc hn
        simp only [Green.nodesL, List.mem_append] at ht hn
        simp only [Green.shapeL] at hc
        obtain ⟨a, b⟩ := few_shape g (Green.shapeL gs) (fun n hn => ht n (Or.inl hn)) hc
        rcases hn with hn | hn
        · exact a n hn hS
        · exact ih (fun n hn => ht n (Or.inr hn)) b hn
    exact tight_one (h7 n hn) (key cs h7 hcf hn)

theorem single_of {errLen : Text → Nat} {text : Text} {g errs} (h : parseSource errLen text = some (g, errs)) {n : Green} (hn : n ∈ g.nodes)
    (hk : n.kind = K.Var ∨ n.kind = K.iri ∨ n.kind = K.PrefixedName) : ∃ p, n.leaves = [p] ∧ triviaKind p.1 = false := by
  unfold parseSource parseDocument at h
  split at h <;> exact c48_single _ text _ (c47_lossless errLen text) g errs h n hn hk

/-- Example: the nodes of a broken document. -/
theorem c48_single_cases : (∃ errs, parseSource (fun _ => 1) badText = some (badTree, errs)) ∧
    ∃ n ∈ badTree.nodes, n.kind = K.Var := by
  refine ⟨⟨_, badTree_parse⟩, ?_⟩
  have : badTree.nodes.any (fun n => n.kind == K.Var) = true := by decide +kernel
  obtain ⟨n, h1, h2⟩ := List.any_eq_true.1 this
  exact ⟨n, h1, by simpa using h2⟩

end Verif.Props
