import Verif.Features.Group
import Verif.Features.CodeAction
import Verif.Features.Addition
/-!
# Behind a triple

The place where code actions put new patterns: behind the dot of a triple or behind the triple.
-/
namespace Verif.Props
open Verif Verif.Grammar Verif.Lexer Verif.Features Verif.Format

/-- Tokens that may be followed by a blank. -/
def blankMask : Sym → Nat
  | .node _ => 1
  | .tok k => if (safeOf k).has ' ' then 1 else 0

theorem blank_table : sparqlRulesTree.toList.all (fun p => (tailSyms nullNodes p.2).all (fun s => subMask (blankMask (.node p.1)) (blankMask s))) = true := by
  decide +kernel

section
variable {text : Text} {g : Green} (P : Parsed text g) (hC : ∀ n ∈ g.nodes, Complete sparqlRules n)
include P hC

/-- The last token of a node can be followed by a blank. -/
theorem node_end {r : Red} (hr : InTree g r) (hn : r.isNode = true) {x : Kind × Text} {A : List (Kind × Text)} (h : r.green.leaves = A ++ [x])
    (hx : triviaKind x.1 = false) : (safeOf x.1).has ' ' = true := by
  have := behind_gen P hC blankMask (fun k => blankMask (.tok k)) (fun _ => rfl) blank_table r hr
    (by simpa [Red.sig] using node_sig P hr hn) h hx 0 (by rw [symOf_node hn]; simp [blankMask])
  cases hs : (safeOf x.1).has ' ' with
  | true => rfl
  | false => simp [blankMask, hs] at this

/-- Where the patterns for a triple are put. -/
structure TripleEnd (g : Green) (t : Red) (A B : List Red) : Prop where
  opening : Opening g A B
  last : ∃ A0 q, A = A0 ++ [q] ∧ triviaKind q.kind = false ∧ (safeOf q.kind).has ' ' = true
  place : blen (flat (A.map Red.kt)) = filterOffset t

omit P hC in
theorem block_shape {u v : List Sym} (h : u ++ Sym.node K.TriplesSameSubjectPath :: v = [.node K.TriplesSameSubjectPath] ∨
      u ++ Sym.node K.TriplesSameSubjectPath :: v = [.node K.TriplesSameSubjectPath, .tok K.Dot] ∨
      u ++ Sym.node K.TriplesSameSubjectPath :: v = [.node K.TriplesSameSubjectPath, .tok K.Dot, .node K.TriplesBlock]) :
    u = [] ∧ (v = [] ∨ v = [.tok K.Dot] ∨ v = [.tok K.Dot, .node K.TriplesBlock]) := by
  cases u with
  | nil =>
    refine ⟨rfl, ?_⟩
    rcases h with h | h | h <;> injection h with _ h
    · exact .inl h
    · exact .inr (.inl h)
    · exact .inr (.inr h)
  | cons a u =>
    exfalso
    have key : ∀ l : List Sym, u ++ Sym.node K.TriplesSameSubjectPath :: v = l → Sym.node K.TriplesSameSubjectPath ∈ l := by
      intro l e; rw [← e]; simp
    rcases h with h | h | h <;> injection h with _ h <;> have := key _ h <;> revert this <;> decide

omit P hC in
theorem tokens_tok {d : Red} (hn : d.isNode = false) : d.tokens = [d] := by rw [tokens_eq d, if_neg (by simp [hn])]

/-- Every triple of a group has room behind it. -/
theorem triple_end {t : Red} (ht : InTree g t) (hn : t.isNode = true) (hk : t.kind = K.TriplesSameSubjectPath) : ∃ A B, TripleEnd g t A B := by
  obtain ⟨b, hb, hbn, htb, hbk⟩ := triple_block P ht hn hk
  obtain ⟨a, rest, hab⟩ := List.append_of_mem htb
  have hy : younger t = rest := (elder_eq hab).2
  have hsig : sigC b = a.filter Red.sig ++ t :: rest.filter Red.sig := by
    unfold sigC; rw [hab, List.filter_append, List.filter_cons_of_pos (node_sig P ht hn)]
  have hw := sigC_whole P hC hb hbn (by rw [hbk]; exact r_block)
  rw [hsig, List.map_append, List.map_cons, symOf_node hn, hk] at hw
  obtain ⟨ha, hr⟩ := block_shape (whole_block hw)
  have ha : a.filter Red.sig = [] := by simpa using ha
  have ham : ∀ x ∈ a, x ∈ b.childrenT := fun x hx => by rw [hab]; simp [hx]
  have hrm : ∀ x ∈ rest, x ∈ b.childrenT := fun x hx => by rw [hab]; simp [hx]
  have ha0 : sigKs (a.flatMap Red.tokens) = [] := flat_nil P hb ham ha
  have hwt : Derives sparqlRules (.node K.TriplesSameSubjectPath) (sigKs t.tokens) := by
    have := word_derives P hC t ht (node_sig P ht hn)
    rw [symOf_node hn, hk] at this
    exact this
  have hbt : b.tokens = a.flatMap Red.tokens ++ t.tokens ++ rest.flatMap Red.tokens := by
    rw [tokens_eq b, if_pos hbn, hab]; simp
  have finish : ∀ X Y q, Room b (X ++ [q]) Y → triviaKind q.kind = false → (safeOf q.kind).has ' ' = true → q.stop = filterOffset t →
      ∃ A B, TripleEnd g t A B := by
    intro X Y q hroom h1 h2 h3
    obtain ⟨L, R, ho⟩ := room_open P hC hb hbn hbk hroom
    refine ⟨_, _, ho, ⟨L ++ X, q, by simp, h1, h2⟩, ?_⟩
    have hrow := (tokens_row (Red.root g)).2
    rw [ho.eq, ← List.append_assoc] at hrow
    have hrow : Row 0 ((L ++ X) ++ [q] ++ (Y ++ R)) := by
      rw [show (Red.root g).start = 0 from rfl] at hrow
      simpa using hrow
    have := row_stop (row_prefix hrow)
    rw [← h3, this, Nat.zero_add, lv_flat]
    simp
  cases hf : rest.find? (fun s => s.kind == K.Dot) with
  | none =>
    have hoff : filterOffset t = t.stop := by unfold filterOffset laterSibling; rw [hy, hf]
    have hr0 : rest.filter Red.sig = [] := by
      cases hc : rest.filter Red.sig with
      | nil => rfl
      | cons y T =>
        exfalso
        rw [hc] at hr
        have hs : symOf y = .tok K.Dot := by
          rcases hr with hr | hr | hr
          · cases hr
          · injection hr
          · injection hr
        have hm := (List.mem_filter.1 (show y ∈ rest.filter Red.sig by rw [hc]; simp)).1
        have := List.find?_eq_none.1 hf y hm
        exact this (by simp [(symOf_eq_tok.1 hs).2])
    have hinner : t.green ∈ g.inner := P.inner_of ht hn (by
      intro h0
      have := child_parent htb
      unfold Red.parent at this
      rw [h0] at this
      cases this)
    obtain ⟨-, k, w, l, el, hkx⟩ := P.tight t.green hinner
    obtain ⟨hkt, hrow⟩ := tokens_row t
    rw [el] at hkt
    obtain ⟨X, Q, e1, e2, e3⟩ := List.map_eq_append_iff.1 hkt
    obtain ⟨q, Q', rfl, e4, e5⟩ := List.map_eq_cons_iff.1 e3
    have : Q' = [] := by simpa using e5
    subst this
    have hqk : q.kind = k := congrArg Prod.fst e4
    refine finish (a.flatMap Red.tokens ++ X) (rest.flatMap Red.tokens) q ⟨?_, ?_, ?_⟩ (by rw [hqk]; exact hkx)
      (by rw [hqk]; exact node_end P hC ht hn el hkx) ?_
    · rw [hbt, e1]; simp
    · have : sigKs (a.flatMap Red.tokens ++ X ++ [q]) = sigKs t.tokens := by
        rw [List.append_assoc, ← e1, sigKs_append, ha0, List.nil_append]
      rw [this]
      refine .node _ _ _ r_block ?_
      have := Derives.seq (R := sparqlRules) _ _ _ [] hwt (.optNone (.seq (.tok K.Dot) (.opt (.node K.TriplesBlock))))
      rw [List.append_nil] at this
      exact this
    · exact .inl (flat_nil P hb hrm hr0)
    · rw [hoff]
      rw [e1] at hrow
      have h1 := row_stop hrow
      rw [h1, lv_flat, ← e1, (tokens_row t).1, flat_leaves]
      rfl
  | some d =>
    have hoff : filterOffset t = d.stop := by unfold filterOffset laterSibling; rw [hy, hf]
    obtain ⟨hdk, c1, c2, hcd, hc1⟩ := List.find?_eq_some_iff_append.1 hf
    have hdk : d.kind = K.Dot := by simpa using hdk
    have hd : d ∈ b.childrenT := hrm d (by rw [hcd]; simp)
    have hdt := hb.child hd
    have hds : d.sig = true := by simp [Red.sig, hdk]; decide
    have hdn : d.isNode = false := by
      cases h : d.isNode with
      | false => rfl
      | true =>
        exfalso
        obtain ⟨-, R, hR, -⟩ := whole_of P hC hdt h
        rw [hdk] at hR
        revert hR
        have : sparqlRules K.Dot = none := by decide +kernel
        rw [this]; simp
    have hrs : rest.filter Red.sig = c1.filter Red.sig ++ d :: c2.filter Red.sig := by
      rw [hcd, List.filter_append, List.filter_cons_of_pos hds]
    rw [hrs, List.map_append, List.map_cons, symOf_tok hdn, hdk] at hr
    have hc10 : c1.filter Red.sig = [] ∧ ((c2.filter Red.sig).map symOf = [] ∨ (c2.filter Red.sig).map symOf = [.node K.TriplesBlock]) := by
      cases hc : c1.filter Red.sig with
      | nil =>
        rw [hc] at hr
        refine ⟨rfl, ?_⟩
        rcases hr with hr | hr | hr
        · cases hr
        · injection hr with _ hr; exact .inl hr
        · injection hr with _ hr; exact .inr hr
      | cons y T =>
        exfalso
        rw [hc] at hr
        have hs : symOf y = .tok K.Dot := by
          rcases hr with hr | hr | hr
          · cases hr
          · injection hr
          · injection hr
        have hm := (List.mem_filter.1 (show y ∈ c1.filter Red.sig by rw [hc]; simp)).1
        have := hc1 y hm
        simp [(symOf_eq_tok.1 hs).2] at this
    have hc1m : ∀ x ∈ c1, x ∈ b.childrenT := fun x hx => hrm x (by rw [hcd]; simp [hx])
    have hc2m : ∀ x ∈ c2, x ∈ b.childrenT := fun x hx => hrm x (by rw [hcd]; simp [hx])
    have hc1k := flat_nil P hb hc1m hc10.1
    refine finish (a.flatMap Red.tokens ++ t.tokens ++ c1.flatMap Red.tokens) (c2.flatMap Red.tokens) d ⟨?_, ?_, ?_⟩ (by rw [hdk]; decide)
      (by rw [hdk]; decide +kernel) hoff.symm
    · rw [hbt, hcd]; simp [tokens_tok hdn]
    · have : sigKs (a.flatMap Red.tokens ++ t.tokens ++ c1.flatMap Red.tokens ++ [d]) = sigKs t.tokens ++ [K.Dot] := by
        rw [sigKs_append, sigKs_append, sigKs_append, ha0, hc1k]
        have : sigKs [d] = [K.Dot] := by
          unfold sigKs
          rw [List.filter_cons_of_pos (by rw [hdk]; decide)]
          simp [hdk]
        rw [this]; simp
      rw [this]
      refine .node _ _ _ r_block (.seq _ _ _ _ hwt (.optSome _ _ ?_))
      exact Derives.seq (R := sparqlRules) _ _ [K.Dot] [] (.tok _) (.optNone _)
    · rw [flat_words P hb hc2m]
      have key := words_derive P hC hb (l := c2.filter Red.sig) (fun x hx => ⟨hc2m x (List.mem_filter.1 hx).1, (List.mem_filter.1 hx).2⟩)
      rcases hc10.2 with h | h
      · have : c2.filter Red.sig = [] := by simpa using h
        rw [this]; exact .inl rfl
      · right
        rw [h] at key
        cases hl : (c2.filter Red.sig).map word with
        | nil => rw [hl] at key; cases key
        | cons w ws =>
          rw [hl] at key
          cases key with
          | cons h1 h2 =>
            cases h2
            rw [List.flatten_cons, List.flatten_nil, List.append_nil]; exact h1

end
end Verif.Props
