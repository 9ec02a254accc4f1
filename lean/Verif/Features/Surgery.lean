import Verif.Features.Clause
import Verif.Features.SigTokens
import Verif.Grammar.PrologueWord
/-!
# Exchanging a part of a valid document

In a document without syntax errors, the tokens of a node can be exchanged for any others its rule derives: the whole is valid again.
-/
namespace Verif.Props
open Verif Verif.Grammar Verif.Lexer Verif.Features Verif.Format

/-- A symbol as a rule. -/
def symRule : Sym → Rule
  | .tok k => .tok k
  | .node k => .node k

theorem forall₂_split {α β : Type} {R : α → β → Prop} : ∀ {u v : List α} {l : List β}, List.Forall₂ R (u ++ v) l →
    ∃ x y, l = x ++ y ∧ List.Forall₂ R u x ∧ List.Forall₂ R v y := by
  intro u
  induction u with
  | nil => intro v l h; exact ⟨[], l, rfl, .nil, h⟩
  | cons a u ih =>
    intro v l h
    cases h with
    | cons h1 h2 =>
      obtain ⟨x, y, rfl, h3, h4⟩ := ih h2
      exact ⟨_ :: x, y, rfl, .cons h1 h3, h4⟩

/-- Words for the symbols of a right-hand side make a word of the rule. -/
theorem whole_subst {R : Kind → Option Rule} {r : Rule} {l : List Sym} (h : Whole R r l) {ws : List (List Kind)}
    (hw : List.Forall₂ (fun s w => Derives R (symRule s) w) l ws) : Derives R r ws.flatten := by
  induction h generalizing ws with
  | tok k =>
    cases hw with | cons h1 h2 => cases h2; rw [List.flatten_cons, List.flatten_nil, List.append_nil]; exact h1
  | node k =>
    cases hw with | cons h1 h2 => cases h2; rw [List.flatten_cons, List.flatten_nil, List.append_nil]; exact h1
  | empty k h => cases hw; exact h
  | seq da db iha ihb =>
    obtain ⟨x, y, rfl, h1, h2⟩ := forall₂_split hw
    rw [List.flatten_append]
    exact .seq _ _ _ _ (iha h1) (ihb h2)
  | altL d ih => exact .altL _ _ _ (ih hw)
  | altR d ih => exact .altR _ _ _ (ih hw)
  | optNone r => cases hw; exact .optNone _
  | optSome d ih => exact .optSome _ _ (ih hw)
  | repNil r => cases hw; exact .repNil _
  | repCons d ds iha ihb =>
    obtain ⟨x, y, rfl, h1, h2⟩ := forall₂_split hw
    rw [List.flatten_append]
    exact .repCons _ _ _ (iha h1) (ihb h2)

/-- The kinds of the significant tokens. -/
def sigKs (l : List Red) : List Kind := (l.filter (fun t => !triviaKind t.kind)).map Red.kind

theorem sigKs_append (a b : List Red) : sigKs (a ++ b) = sigKs a ++ sigKs b := by simp [sigKs]

theorem sigKs_kt (l : List Red) : sigKs l = sigK (l.map Red.kt) := by
  unfold sigKs sigK sigPairs
  rw [List.filter_map, List.map_map]
  rfl

section
variable {text : Text} {g : Green} (P : Parsed text g) (hC : ∀ n ∈ g.nodes, Complete sparqlRules n)

/-- The significant tokens of an element. -/
def word (r : Red) : List Kind := sigKs r.tokens

theorem word_tok {r : Red} (hn : r.isNode = false) (hs : r.sig = true) : word r = [r.kind] := by
  unfold word
  rw [tokens_eq r, if_neg (by simp [hn])]
  have hs : (!triviaKind r.kind) = true := by simpa [Red.sig] using hs
  simp [sigKs, hs]

include P in
theorem flat_words {r : Red} (hr : InTree g r) : ∀ {l : List Red}, (∀ c ∈ l, c ∈ r.childrenT) →
    sigKs (l.flatMap Red.tokens) = ((l.filter Red.sig).map word).flatten := by
  intro l
  induction l with
  | nil => intro _; rfl
  | cons c l ih =>
    intro hl
    have ih := ih (fun x hx => hl x (List.mem_cons_of_mem _ hx))
    rw [List.flatMap_cons, sigKs_append, ih]
    have hc := hr.child (hl c List.mem_cons_self)
    cases hs : c.sig with
    | true => rw [List.filter_cons_of_pos hs]; rfl
    | false =>
      rw [List.filter_cons_of_neg (by simp [hs])]
      have ht : triviaKind c.kind = true := by simpa [Red.sig] using hs
      have hn := trivia_token P hc ht
      rw [tokens_eq c, if_neg (by simp [hn])]
      simp [sigKs, ht]

include P in
theorem word_children {r : Red} (hr : InTree g r) (hn : r.isNode = true) : word r = ((sigC r).map word).flatten := by
  unfold word
  rw [tokens_eq r, if_pos hn]
  exact flat_words P hr (fun _ h => h)

include P hC

/-- Every significant element derives its tokens. -/
theorem word_derives : ∀ (r : Red), InTree g r → r.sig = true → Derives sparqlRules (symRule (symOf r)) (word r) := by
  refine red_induction (P := fun r => InTree g r → r.sig = true → Derives sparqlRules (symRule (symOf r)) (word r)) ?_
  intro r ih hr hs
  cases hn : r.isNode with
  | false =>
    rw [word_tok hn hs, symOf_tok hn]
    exact .tok _
  | true =>
    rw [symOf_node hn]
    obtain ⟨-, R, hR, -⟩ := whole_of P hC hr hn
    refine .node _ R _ hR ?_
    rw [word_children P hr hn]
    refine whole_subst (sigC_whole P hC hr hn hR) ?_
    have : ∀ l : List Red, (∀ c ∈ l, c ∈ sigC r) → List.Forall₂ (fun s w => Derives sparqlRules (symRule s) w) (l.map symOf) (l.map word) := by
      intro l
      induction l with
      | nil => intro _; exact .nil
      | cons c l ihl =>
        intro h
        have hc := mem_sigC.1 (h c List.mem_cons_self)
        exact .cons (ih c hc.1 (hr.child hc.1) hc.2) (ihl (fun x hx => h x (List.mem_cons_of_mem _ hx)))
    exact this _ (fun _ h => h)

theorem words_derive {r : Red} (hr : InTree g r) : ∀ {l : List Red}, (∀ c ∈ l, c ∈ r.childrenT ∧ c.sig = true) →
    List.Forall₂ (fun s w => Derives sparqlRules (symRule s) w) (l.map symOf) (l.map word) := by
  intro l
  induction l with
  | nil => intro _; exact .nil
  | cons c l ihl =>
    intro h
    have hc := h c List.mem_cons_self
    exact .cons (word_derives P hC c (hr.child hc.1) hc.2) (ihl (fun x hx => h x (List.mem_cons_of_mem _ hx)))

/-- Exchanging a child. -/
theorem exchange_child {r c : Red} (hr : InTree g r) {a b : List Red} (hab : r.childrenT = a ++ c :: b) (hn : c.isNode = true) {w : List Kind}
    (hw : Derives sparqlRules (.node c.kind) w) :
    Derives sparqlRules (.node r.kind) (sigKs (a.flatMap Red.tokens) ++ w ++ sigKs (b.flatMap Red.tokens)) := by
  have hc : c ∈ r.childrenT := by rw [hab]; simp
  have hrn := child_isNode hc
  have ha : ∀ x ∈ a, x ∈ r.childrenT := fun x hx => by rw [hab]; simp [hx]
  have hb : ∀ x ∈ b, x ∈ r.childrenT := fun x hx => by rw [hab]; simp [hx]
  have hcs := node_sig P (hr.child hc) hn
  have hsig : sigC r = a.filter Red.sig ++ c :: b.filter Red.sig := by
    unfold sigC; rw [hab, List.filter_append, List.filter_cons_of_pos hcs]
  obtain ⟨-, Rl, hR, -⟩ := whole_of P hC hr hrn
  have hwh := sigC_whole P hC hr hrn hR
  rw [hsig, List.map_append, List.map_cons] at hwh
  have key : ∀ l : List Red, (∀ x ∈ l, x ∈ r.childrenT) → ∀ x ∈ l.filter Red.sig, x ∈ r.childrenT ∧ x.sig = true := by
    intro l hl x hx
    obtain ⟨h1, h2⟩ := List.mem_filter.1 hx
    exact ⟨hl x h1, h2⟩
  have := whole_subst hwh (List.rel_append (words_derive P hC hr (key a ha)) (.cons (by rw [symOf_node hn]; exact hw) (words_derive P hC hr (key b hb))))
  refine .node _ Rl _ hR ?_
  rw [flat_words P hr ha, flat_words P hr hb]
  simpa using this

/-- **Exchanging a part.** Whatever the rule of a node derives can stand in its place. -/
theorem exchange {r : Red} (hr : InTree g r) (hn : r.isNode = true) :
    ∃ L R, (Red.root g).tokens = L ++ r.tokens ++ R ∧
      ∀ w, Derives sparqlRules (.node r.kind) w → Derives sparqlRules (.node g.kind) (sigKs L ++ w ++ sigKs R) := by
  induction hr with
  | root => exact ⟨[], [], by simp, fun w h => by rw [show sigKs [] = [] from rfl, List.nil_append, List.append_nil]; exact h⟩
  | @child r c hr hc ih =>
    have hrn := child_isNode hc
    obtain ⟨L, R, e, h⟩ := ih hrn
    obtain ⟨a, b, hab⟩ := List.append_of_mem hc
    refine ⟨L ++ a.flatMap Red.tokens, b.flatMap Red.tokens ++ R, ?_, ?_⟩
    · have : r.tokens = a.flatMap Red.tokens ++ c.tokens ++ b.flatMap Red.tokens := by
        rw [tokens_eq r, if_pos hrn, hab]; simp
      rw [e, this]; simp
    · intro w hw
      have h2 := h _ (exchange_child P hC hr hab hn hw)
      rw [sigKs_append, sigKs_append]
      simpa using h2

end
end Verif.Props
