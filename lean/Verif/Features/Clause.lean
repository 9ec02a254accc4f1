import Verif.Features.SelectDiagnostics
import Verif.Format.Meet
import Verif.Format.Owner
/-!
# Children of nodes of valid documents

The significant children of a node of a document without errors spell out its rule, so what the tree methods find is
determined by which symbols can be next to each other.
-/
namespace Verif.Props
open Verif Verif.Grammar Verif.Lexer Verif.Features Verif.Format

section
variable {text : Text} {g : Green} (P : Parsed text g) (hC : ∀ n ∈ g.nodes, Complete sparqlRules n)

/-- The significant children. -/
def sigC (r : Red) : List Red := r.childrenT.filter Red.sig

include P in
omit hC in
theorem node_sig {c : Red} (hc : InTree g c) (hn : c.isNode = true) : c.sig = true := by
  unfold Red.sig
  cases h : triviaKind c.kind with
  | false => rfl
  | true => rw [trivia_token P hc h] at hn; cases hn

theorem mem_sigC {r c : Red} : c ∈ sigC r ↔ c ∈ r.childrenT ∧ c.sig = true := List.mem_filter

include P hC

theorem syms_sig {r : Red} (hr : InTree g r) {l : List Red} (hl : ∀ c ∈ l, c ∈ r.childrenT) :
    (l.map Red.green).filterMap Green.sym = (l.filter Red.sig).map symOf := by
  induction l with
  | nil => rfl
  | cons c l ih =>
    have hc := hr.child (hl c (List.mem_cons_self ..))
    have ih := ih (fun x hx => hl x (List.mem_cons_of_mem _ hx))
    cases hk : triviaKind c.kind with
    | true =>
      rw [List.filter_cons_of_neg (by simp [Red.sig, hk]), List.map_cons, List.filterMap_cons_none (trivia_sym P hc hk), ih]
    | false =>
      rw [List.filter_cons_of_pos (by simp [Red.sig, hk]), List.map_cons, List.filterMap_cons_some (sym_eq P hC hc hk), ih,
        List.map_cons]

theorem sigC_whole {r : Red} (hr : InTree g r) (hn : r.isNode = true) {R : Rule} (hR : sparqlRules r.kind = some R) :
    Whole sparqlRules R ((sigC r).map symOf) := by
  obtain ⟨-, R', h1, -, h2⟩ := whole_of P hC hr hn
  rw [hR] at h1; cases h1
  rw [syms_sig P hC hr (fun _ h => h)] at h2
  exact h2

theorem sigC_next {r : Red} (hr : InTree g r) (hn : r.isNode = true) {R : Rule} (hR : sparqlRules r.kind = some R)
    {f : Sym → Sym → Bool} (hf : nexts nullNodes f R = true) {L T : List Red} {a b : Red} (h : sigC r = L ++ a :: b :: T) :
    f (symOf a) (symOf b) = true :=
  nexts_sound null_ok (sigC_whole P hC hr hn hR) hf (by rw [h, List.map_append]; rfl)

theorem sigC_head {r : Red} (hr : InTree g r) (hn : r.isNode = true) {R : Rule} (hR : sparqlRules r.kind = some R)
    {T : List Red} {a : Red} (h : sigC r = a :: T) : symOf a ∈ headSyms nullNodes R :=
  headSyms_sound null_ok (sigC_whole P hC hr hn hR) (by rw [h]; rfl)

theorem sigC_tail {r : Red} (hr : InTree g r) (hn : r.isNode = true) {R : Rule} (hR : sparqlRules r.kind = some R)
    {L : List Red} {a : Red} (h : sigC r = L ++ [a]) : symOf a ∈ tailSyms nullNodes R :=
  tailSyms_sound null_ok (sigC_whole P hC hr hn hR) (by rw [h, List.map_append]; rfl)

omit hC in
theorem children_sig {r : Red} (hr : InTree g r) : r.children = (sigC r).filter Red.isNode := by
  unfold Red.children sigC
  rw [List.filter_filter]
  apply List.filter_congr
  intro c hc
  cases hn : c.isNode with
  | false => rfl
  | true => rw [node_sig P (hr.child hc) hn]; rfl

omit P hC in
theorem symOf_node {c : Red} (hn : c.isNode = true) : symOf c = .node c.kind := by simp [symOf, hn]
omit P hC in
theorem symOf_tok {c : Red} (hn : c.isNode = false) : symOf c = .tok c.kind := by simp [symOf, hn]
omit P hC in
theorem symOf_eq_node {c : Red} {k : Kind} : symOf c = .node k ↔ c.isNode = true ∧ c.kind = k := by
  unfold symOf
  cases c.isNode <;> simp
omit P hC in
theorem symOf_eq_tok {c : Red} {k : Kind} : symOf c = .tok k ↔ c.isNode = false ∧ c.kind = k := by
  unfold symOf
  cases c.isNode <;> simp

/-- A part that occurs once in the rule is unique. -/
theorem part_unique {r a b : Red} (hr : InTree g r) (hn : r.isNode = true) {R : Rule} (hR : sparqlRules r.kind = some R) {k : Kind}
    (ho : onceRule (.node k) R = true) (h1 : occRule (.node k) R ≤ 1) (ha : Part r k a) (hb : Part r k b) : a = b := by
  have key : ∀ {c : Red}, Part r k c → c.green.sym = some (.node k) := by
    intro c h
    have := sym_eq P hC (hr.child h.1) (by simpa [Red.sig] using node_sig P (hr.child h.1) h.2.1)
    rw [this, symOf_node h.2.1, h.2.2]
  exact P.child_unique hr (whole_of P hC hr hn).1 hR ho h1 ha.1 hb.1 (key ha) (key hb)

omit P hC in
theorem mem_children {r c : Red} : c ∈ r.children ↔ c ∈ r.childrenT ∧ c.isNode = true := List.mem_filter

omit P hC in
theorem childOf_part {r c : Red} {k : Kind} (h : r.childOf [k] = some c) : Part r k c := by
  have h : r.children.find? (fun c => decide (c.kind ∈ [k])) = some c := h
  have hm := mem_children.1 (List.mem_of_find?_eq_some h)
  exact ⟨hm.1, hm.2, by simpa using List.find?_some h⟩

theorem childOf_iff {r c : Red} (hr : InTree g r) (hn : r.isNode = true) {R : Rule} (hR : sparqlRules r.kind = some R) {k : Kind}
    (ho : onceRule (.node k) R = true) (h1 : occRule (.node k) R ≤ 1) : r.childOf [k] = some c ↔ Part r k c := by
  constructor
  · exact childOf_part
  · intro h
    cases hf : r.childOf [k] with
    | none =>
      have := List.find?_eq_none.1 hf c (mem_children.2 ⟨h.1, h.2.1⟩)
      simp [h.2.2] at this
    | some d => rw [part_unique P hC hr hn hR ho h1 (childOf_part hf) h]

omit P hC in
/-- An element behind which nothing can come is the last. -/
theorem last_of {l : List Red} {a : Red} (h : a ∈ l) (hn : ∀ L T b, l = L ++ a :: b :: T → False) : ∃ L, l = L ++ [a] := by
  obtain ⟨L, T, e⟩ := List.append_of_mem h
  cases T with
  | nil => exact ⟨L, e⟩
  | cons b T => exact absurd e (fun e => hn L T b e)

omit P hC in
/-- An element in front of which nothing can come is the first. -/
theorem first_of {l : List Red} {a : Red} (h : a ∈ l) (hn : ∀ L T b, l = L ++ b :: a :: T → False) : ∃ T, l = a :: T := by
  obtain ⟨L, T, e⟩ := List.append_of_mem h
  rcases List.eq_nil_or_concat L with rfl | ⟨L', b, rfl⟩
  · exact ⟨T, e⟩
  · exact absurd (by rw [e, List.concat_eq_append, List.append_assoc]; rfl) (fun e => hn L' T b e)

end
end Verif.Props
