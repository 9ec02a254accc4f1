import Verif.Props.Diagnostics
import Verif.Props.Indent
import Verif.Features.TokenRow
/-!
# The significant tokens of a valid document and their parents
-/
namespace Verif.Features
open Verif Verif.Grammar Verif.Lexer Verif.Props

/-- The tokens below an element without trivia. -/
def Red.sigT (r : Red) : List Red := r.tokens.filter (fun t => !triviaKind t.kind)

theorem inTree_tokens {g : Green} {r : Red} (h : InTree g r) :
    ∃ L R, (Red.root g).tokens = L ++ r.tokens ++ R := by
  induction h with
  | root => exact ⟨[], [], by simp⟩
  | @child r c hr hc ih =>
    obtain ⟨L, R, e⟩ := ih
    obtain ⟨a, b, hab⟩ := List.append_of_mem hc
    have : r.tokens = a.flatMap Red.tokens ++ c.tokens ++ b.flatMap Red.tokens := by
      rw [tokens_eq r, if_pos (child_isNode hc), hab]; simp
    exact ⟨L ++ a.flatMap Red.tokens, b.flatMap Red.tokens ++ R, by rw [e, this]; simp⟩

theorem inTree_sigT {g : Green} {r : Red} (h : InTree g r) : ∃ L R, (Red.root g).sigT = L ++ r.sigT ++ R := by
  obtain ⟨L, R, e⟩ := inTree_tokens h
  exact ⟨L.filter (fun t => !triviaKind t.kind), R.filter (fun t => !triviaKind t.kind), by
    unfold Red.sigT; rw [e]; simp⟩

theorem mem_tokens {g : Green} {t : Red} : t ∈ (Red.root g).tokens ↔ InTree g t ∧ t.isNode = false := by
  unfold Red.tokens
  rw [List.mem_filter, mem_descendantsT_root]
  simp

theorem mem_sigT {g : Green} {t : Red} : t ∈ (Red.root g).sigT ↔ InTree g t ∧ t.isNode = false ∧ triviaKind t.kind = false := by
  unfold Red.sigT
  rw [List.mem_filter, mem_tokens]
  simp [and_assoc]

theorem sigT_kt (r : Red) : r.sigT.map Red.kt = r.green.leaves.filter (fun p => !triviaKind p.1) := by
  unfold Red.sigT
  rw [← (tokens_row r).1, List.filter_map]
  rfl

theorem row_pairwise : ∀ {o : Nat} {l : List Red}, Row o l → (∀ t ∈ l, t.text ≠ []) →
    (∀ t ∈ l, o ≤ t.start) ∧ l.Pairwise (fun a b => a.start < b.start) := by
  intro o l
  induction l generalizing o with
  | nil => intro _ _; exact ⟨by simp, .nil⟩
  | cons t l ih =>
    rintro ⟨h1, h2⟩ hne
    obtain ⟨a, b⟩ := ih h2 (fun x hx => hne x (List.mem_cons_of_mem _ hx))
    have hlt : t.start < t.stop := by
      have := blen_pos (hne t (by simp))
      have e : t.stop = t.start + blen t.text := rfl
      omega
    refine ⟨?_, List.pairwise_cons.2 ⟨fun x hx => Nat.lt_of_lt_of_le hlt (a x hx), b⟩⟩
    intro x hx
    rcases List.mem_cons.1 hx with rfl | hx
    · omega
    · have := a x hx; omega

section
variable {text : Text} {g : Green} (P : Parsed text g)
include P

theorem tokens_nonempty : ∀ t ∈ (Red.root g).tokens, t.text ≠ [] := by
  intro t ht
  obtain ⟨h1, h2⟩ := mem_tokens.1 ht
  exact P.leaf_nonempty _ (Parsed.token_leaf h1 h2)

theorem sigT_nodup : (Red.root g).sigT.Nodup := by
  have := (row_pairwise (tokens_row (Red.root g)).2 (tokens_nonempty P)).2
  refine (this.sublist List.filter_sublist).imp ?_
  intro a b h e
  rw [e] at h; omega

variable (hC : ∀ n ∈ g.nodes, Complete sparqlRules n)
include hC

/-- The parent of a significant token. -/
theorem token_parent {t : Red} (h : t ∈ (Red.root g).sigT) :
    ∃ r R, InTree g r ∧ r.isNode = true ∧ t ∈ r.childrenT ∧ sparqlRules r.kind = some R ∧ Sym.tok t.kind ∈ symbols R := by
  obtain ⟨h1, h2, h3⟩ := mem_sigT.1 h
  have hsym : t.green.sym = some (.tok t.kind) := by
    rcases sym_cases hC h1 with h | h | h
    · have := (no_sym hC h1 h.1).2; rw [h3] at this; cases this
    · rw [h2] at h; cases h.2
    · exact h.1
  cases h1 with
  | root =>
    have := root_isNode P
    rw [h2] at this; cases this
  | @child r _ hp hc =>
    have hs := P.child_sym hp hc
    split at hs
    · next hE =>
      exfalso
      have := hC _ (hp.green_mem (child_isNode hc))
      have hk : r.green.kind = K.Error := hE
      cases hg : r.green with
      | tok k x =>
        have hn := child_isNode hc
        unfold Red.isNode at hn
        have hg : r.here.green = _ := hg
        rw [hg] at hn; cases hn
      | node k x => rw [hg] at this hk; exact this.1 hk
    · rcases hs with hs | ⟨R, s, a, b, c⟩
      · rw [hsym] at hs; cases hs
      · rw [hsym] at b; cases b
        exact ⟨r, R, hp, child_isNode hc, hc, a, c⟩

omit P in
/-- The significant tokens of a node with only tokens as parts. -/
theorem part_tokens {x : Red} (hx : InTree g x) (hn : x.isNode = true) {R : Rule} (hR : sparqlRules x.kind = some R)
    (hT : ∀ k, Sym.node k ∉ symbols R) :
    (∀ t ∈ x.tokens, t ∈ x.childrenT) ∧ Whole sparqlRules R (x.sigT.map (fun t => Sym.tok t.kind)) := by
  have hc := hC _ (hx.green_mem hn)
  have hg : x.green = x.here.green := rfl
  have hk : x.kind = x.here.green.kind := rfl
  unfold Red.isNode at hn
  cases he : x.here.green with
  | tok k t => rw [he] at hn; cases hn
  | node k cs =>
    rw [hg, he] at hc
    obtain ⟨h1, R', h2, h3⟩ := hc
    have hkk : x.kind = k := by rw [hk, he]; rfl
    rw [hkk, h2] at hR
    cases hR
    have hsy : ∀ {r : Rule} {w : List Sym}, Whole sparqlRules r w → ∀ s ∈ w, s ∈ symbols r := by
      intro r w h
      induction h with
      | tok k => intro s hs; exact hs
      | node k => intro s hs; exact hs
      | empty k h => intro s hs; cases hs
      | seq da db iha ihb =>
        intro s hs
        rcases List.mem_append.1 hs with hs | hs
        · exact List.mem_append_left _ (iha s hs)
        · exact List.mem_append_right _ (ihb s hs)
      | altL d ih => intro s hs; exact List.mem_append_left _ (ih s hs)
      | altR d ih => intro s hs; exact List.mem_append_right _ (ih s hs)
      | optNone r => intro s hs; cases hs
      | optSome d ih => exact ih
      | repNil r => intro s hs; cases hs
      | repCons d ds ih ihs =>
        intro s hs
        rcases List.mem_append.1 hs with hs | hs
        · exact ih s hs
        · exact ihs s hs
    have hcn : (⟨x.here, x.up⟩ : Red).isNode = true := by unfold Red.isNode; rw [he]
    have htok : ∀ c ∈ cs, c.isTok = true := by
      intro c hc
      obtain ⟨i, hi⟩ := List.getElem?_of_mem hc
      obtain ⟨o, ho⟩ := childSites_get (idx := 0) (off := x.here.off) hi
      have hcx : (⟨⟨c, 0 + i, o⟩, x.here :: x.up⟩ : Red) ∈ x.childrenT := by
        unfold Red.childrenT; rw [he]; exact List.mem_map.2 ⟨_, ho, rfl⟩
      rcases sym_cases hC (hx.child hcx) with h | h | h
      · have := h.2; rw [isNode_iff, Bool.not_eq_false'] at this; exact this
      · exfalso
        have hs : Sym.node c.kind ∈ cs.filterMap Green.sym := List.mem_filterMap.2 ⟨c, hc, h.1⟩
        exact hT _ (hsy h3 _ hs)
      · have := h.2; rw [isNode_iff, Bool.not_eq_false'] at this; exact this
    constructor
    · intro t ht
      rw [tokens_eq, if_pos hcn] at ht
      obtain ⟨c, hc, ht⟩ := List.mem_flatMap.1 ht
      have hcn' : c.isNode = false := by
        rw [isNode_iff]
        have : c.green ∈ x.childrenT.map Red.green := List.mem_map.2 ⟨c, hc, rfl⟩
        rw [children_green] at this
        simp only [he] at this
        rw [htok _ this]; rfl
      rw [tokens_eq, hcn', if_neg (by simp)] at ht
      rw [List.mem_singleton.1 ht]; exact hc
    · rw [syms_of_tokens cs htok] at h3
      have e : x.sigT.map (fun t => Sym.tok t.kind) = (x.sigT.map Red.kt).map (fun p => Sym.tok p.1) := by
        rw [List.map_map]; rfl
      rw [e, sigT_kt, hg, he]
      exact h3

omit P in
theorem node_of_kind {x : Red} (hx : InTree g x) (hn : x.isNode = true) : x.kind ≠ K.Error := by
  intro e
  have := hC _ (hx.green_mem hn)
  have hk : x.green.kind = K.Error := e
  cases hg : x.green with
  | tok k t =>
    unfold Red.isNode at hn
    have hg : x.here.green = _ := hg
    rw [hg] at hn; cases hn
  | node k cs => rw [hg] at this hk; exact this.1 hk

omit P in
/-- The tokens of a declaration. -/
theorem decl_tokens {x : Red} (hx : IsDecl g x) : ∃ s t i, x.sigT = [s, t, i] ∧ s.kind = K.PREFIX ∧ t.kind = K.PNAME_NS ∧
    i.kind = K.IRIREF ∧ s ∈ x.childrenT ∧ t ∈ x.childrenT ∧ i ∈ x.childrenT := by
  obtain ⟨h1, h2, h3⟩ := hx
  obtain ⟨a, b⟩ := part_tokens hC h1 h2 (h3 ▸ declRule) (by intro k h; simp [symbols] at h)
  have hm : ∀ t ∈ x.sigT, t ∈ x.childrenT := fun t ht => a t (List.mem_filter.1 ht).1
  generalize hl : x.sigT.map (fun t => Sym.tok t.kind) = l at b
  cases b with
  | seq da db =>
    cases da
    cases db with
    | seq da db =>
      cases da
      cases db
      match hs : x.sigT with
      | [] => rw [hs] at hl; cases hl
      | [s] => rw [hs] at hl; simp at hl
      | [s, t] => rw [hs] at hl; simp at hl
      | [s, t, i] =>
        rw [hs] at hl
        simp only [List.map_cons, List.map_nil, List.cons_append, List.nil_append, List.cons.injEq, Sym.tok.injEq, and_true] at hl
        rw [hs] at hm
        exact ⟨s, t, i, rfl, hl.1, hl.2.1, hl.2.2, hm s (by simp), hm t (by simp), hm i (by simp)⟩
      | s :: t :: i :: j :: r => rw [hs] at hl; simp at hl

omit P in
/-- The token of a prefixed name. -/
theorem name_token {n : Red} (h1 : InTree g n) (h2 : n.isNode = true) (h3 : n.kind = K.PrefixedName) :
    ∃ t, n.sigT = [t] ∧ (t.kind = K.PNAME_LN ∨ t.kind = K.PNAME_NS) ∧ t ∈ n.childrenT := by
  have hR : sparqlRules K.PrefixedName = some (.alt (.tok K.PNAME_LN) (.tok K.PNAME_NS)) := by decide +kernel
  obtain ⟨a, b⟩ := part_tokens hC h1 h2 (h3 ▸ hR) (by intro k h; simp [symbols] at h)
  have hm : ∀ t ∈ n.sigT, t ∈ n.childrenT := fun t ht => a t (List.mem_filter.1 ht).1
  generalize hl : n.sigT.map (fun t => Sym.tok t.kind) = l at b
  have : l = [.tok K.PNAME_LN] ∨ l = [.tok K.PNAME_NS] := by
    cases b with
    | altL d => cases d; exact Or.inl rfl
    | altR d => cases d; exact Or.inr rfl
  match hs : n.sigT with
  | [] => rw [hs] at hl; rcases this with h | h <;> (rw [h] at hl; cases hl)
  | [t] =>
    rw [hs] at hl hm
    refine ⟨t, rfl, ?_, hm t (by simp)⟩
    rcases this with h | h
    · rw [h] at hl; simp at hl; exact Or.inl hl
    · rw [h] at hl; simp at hl; exact Or.inr hl
  | s :: t :: r => rw [hs] at hl; rcases this with h | h <;> (rw [h] at hl; simp at hl)

omit P hC in
theorem parent_table : sparqlRulesTree.toList.all (fun p => (!(symbols p.2).contains (.tok K.PREFIX) || p.1 == K.PrefixDecl) &&
    (!(symbols p.2).contains (.tok K.PNAME_LN) || p.1 == K.PrefixedName) &&
    (!(symbols p.2).contains (.tok K.PNAME_NS) || p.1 == K.PrefixedName || p.1 == K.PrefixDecl)) = true := by decide +kernel

/-- Whose child the tokens of names and declarations are. -/
theorem parent_of {t : Red} (h : t ∈ (Red.root g).sigT) : (t.kind = K.PREFIX → ∃ d, IsDecl g d ∧ t ∈ d.childrenT) ∧
    (t.kind = K.PNAME_LN → ∃ n, InTree g n ∧ n.isNode = true ∧ n.kind = K.PrefixedName ∧ t ∈ n.childrenT) ∧
    (t.kind = K.PNAME_NS → (∃ n, InTree g n ∧ n.isNode = true ∧ n.kind = K.PrefixedName ∧ t ∈ n.childrenT) ∨
      ∃ d, IsDecl g d ∧ t ∈ d.childrenT) := by
  obtain ⟨r, R, h1, h2, h3, h4, h5⟩ := token_parent P hC h
  have := List.all_eq_true.1 parent_table (r.kind, R) (sparqlRulesTree.find_mem _ _ h4)
  simp only [Bool.and_eq_true, Bool.or_eq_true, Bool.not_eq_true', beq_iff_eq] at this
  obtain ⟨⟨a, b⟩, c⟩ := this
  refine ⟨fun e => ?_, fun e => ?_, fun e => ?_⟩
  · rw [e] at h5
    rcases a with a | a
    · rw [List.contains_iff_mem.2 h5] at a; cases a
    · exact ⟨r, ⟨h1, h2, a⟩, h3⟩
  · rw [e] at h5
    rcases b with a | a
    · rw [List.contains_iff_mem.2 h5] at a; cases a
    · exact ⟨r, h1, h2, a, h3⟩
  · rw [e] at h5
    rcases c with (a | a) | a
    · rw [List.contains_iff_mem.2 h5] at a; cases a
    · exact Or.inl ⟨r, h1, h2, a, h3⟩
    · exact Or.inr ⟨r, ⟨h1, h2, a⟩, h3⟩

end

end Verif.Features
