import Verif.Features.Contract
import Verif.Features.DemoContract
import Verif.Props.SameSubject
import Verif.Props.OnType
/-!
# Contracting triples with the same subject: C73
-/
namespace Verif.Props
open Verif Verif.Grammar Verif.Lexer Verif.Features

/-- The kinds of nodes below a triple. -/
def tripleParts : List Kind := [279, 296, 297, 298, 253, 280, 203, 211, 273, 274, 275, 319, 283, 299, 300, 301, 316, 317, 343, 341, 342, 327,
  328, 281, 292, 282, 254, 284, 285, 302, 303, 304, 255, 207, 305, 256, 257, 306, 307, 308, 309, 310, 311, 312]

theorem tripleParts_closed : sparqlRulesTree.toList.all (fun p => !(p.1 == K.TriplesSameSubjectPath || tripleParts.contains p.1) ||
    (symbols p.2).all (fun s => match s with | .node k => tripleParts.contains k | .tok _ => true)) = true := by decide +kernel

section
variable {text : Text} {g : Green} (P : Parsed text g)
include P

/-- Below a triple without errors there is no triple. -/
theorem triple_parts {t : Red} (hk : t.kind = K.TriplesSameSubjectPath) (hE : ∀ x ∈ t.descendants, x.kind ≠ K.Error) :
    ∀ {r : Red}, InTree g r → t ∈ Red.chain r.up → r.isNode = true → r.kind ∈ tripleParts := by
  intro r h
  induction h with
  | root => intro h; cases h
  | @child p c hp hc ih =>
    intro ht hcn
    rw [parent_chain (child_parent hc)] at ht
    have hpn := child_isNode hc
    have hanc : t ∈ p.ancestors := by
      rcases List.mem_cons.1 ht with h | h
      · rw [h]; exact List.mem_cons_self ..
      · exact List.mem_cons_of_mem _ h
    have hpE : p.kind ≠ K.Error := hE p (List.mem_filter.2 ⟨(mem_descendantsT_iff hp).2 hanc, hpn⟩)
    have hcE : c.kind ≠ K.Error := by
      refine hE c (List.mem_filter.2 ⟨(mem_descendantsT_iff (hp.child hc)).2 ?_, hcn⟩)
      unfold Red.ancestors
      rw [parent_chain (child_parent hc)]
      exact List.mem_cons_of_mem _ ht
    have hpk : (p.kind == K.TriplesSameSubjectPath || tripleParts.contains p.kind) = true := by
      rcases List.mem_cons.1 ht with h | h
      · rw [← h, hk]; rfl
      · simp [ih h hpn]
    have hs := P.child_sym hp hc
    rw [if_neg hpE] at hs
    have hsym : c.green.sym = some (.node c.kind) := by
      have hcE : c.here.green.kind ≠ K.Error := hcE
      unfold Red.isNode at hcn
      show c.here.green.sym = some (.node c.here.green.kind)
      cases hg : c.here.green with
      | tok k x => rw [hg] at hcn; cases hcn
      | node k cs => rw [hg] at hcE; have hk2 : k ≠ K.Error := hcE; simp only [Green.sym, Green.kind]; rw [if_neg hk2]
    rcases hs with h | ⟨R, s, h1, h2, h3⟩
    · rw [hsym] at h; cases h
    · rw [hsym] at h2; cases h2
      have := List.all_eq_true.1 tripleParts_closed _ (KTree.find_mem _ _ _ h1)
      rw [hpk] at this
      simp only [Bool.not_true, Bool.false_or] at this
      have := List.all_eq_true.1 this _ h3
      simpa using this

/-- The triple around its first token is the triple. -/
theorem triple_of_token {t x : Red} (ht : InTree g t) (htn : t.isNode = true) (hk : t.kind = K.TriplesSameSubjectPath)
    (hE : ∀ x ∈ t.descendants, x.kind ≠ K.Error) (hx : x ∈ t.tokens) : tripleAbove x = some t := by
  obtain ⟨hx1, hx2⟩ := List.mem_filter.1 hx
  have hxT := inTree_of_mem_descendantsT t ht x hx1
  have hxn : x.isNode = false := by simpa using hx2
  have hanc : t ∈ x.ancestors := (mem_descendantsT_iff hxT).1 hx1
  have hch : t ∈ Red.chain x.up := by
    rcases List.mem_cons.1 hanc with h | h
    · rw [h, hxn] at htn; cases htn
    · exact h
  unfold tripleAbove
  cases hf : (Red.chain x.up).find? (fun n => n.kind == K.TriplesSameSubjectPath) with
  | none =>
    have := List.find?_eq_none.1 hf t hch
    simp [hk] at this
  | some u =>
    have hu := List.mem_of_find?_eq_some hf
    have huk : u.kind = K.TriplesSameSubjectPath := by simpa using List.find?_some hf
    have hno : tripleParts.contains K.TriplesSameSubjectPath = false := by decide +kernel
    obtain ⟨A, B, h1, h2⟩ := List.find?_eq_some_iff_append.1 hf |>.2
    obtain ⟨huT, hun⟩ := hxT.chain u hu
    congr 1
    rw [h1] at hch
    rcases List.mem_append.1 hch with h | h
    · have := h2 t h
      simp [hk] at this
    · rcases List.mem_cons.1 h with h | h
      · exact h.symm
      · exfalso
        have : Red.chain u.up = B := chain_suffix A x.up h1
        have := triple_parts P hk hE huT (by rw [this]; exact h) hun
        rw [huk] at this
        simp at hno
        exact hno this

/-- What is in the text of an element that is in the tree. -/
theorem columnAt_is (width : Char → Nat) {r : Red} (h : InTree g r) : ∃ n, columnAt width text r.start = some n ∧ ColumnIs width text r.start n := by
  obtain ⟨a, b, e1, e2⟩ := h.text
  rw [P.text_eq, List.append_assoc] at e1
  refine ⟨_, ?_, a, r.text ++ b, e1, e2.symm, rfl⟩
  rw [e1, e2, columnAt_some]

omit P in
/-- The dot of the triple is removed with it. -/
theorem dot_dropped {t d : Red} (ht : InTree g t) (h : DotBehind t d) : d.stop ≤ dropStop t := by
  obtain ⟨hd, h⟩ := h
  obtain ⟨q, htq⟩ : ∃ q, t.parent = some q := by
    cases hr : t.parent with
    | none =>
      have : Format.younger t = [] := by unfold Format.younger Format.siblings; rw [hr]; simp
      rcases h with ⟨R, h⟩ | ⟨w, R, h, -⟩ <;> rw [this] at h <;> cases h
    | some r => exact ⟨r, rfl⟩
  obtain ⟨hqT, htm⟩ := ht.parent htq
  obtain ⟨L, R, hLR⟩ := List.append_of_mem htm
  have h3 := (Format.elder_eq hLR).2
  unfold dropStop
  rcases h with ⟨R', h⟩ | ⟨w, R', h, hw⟩
  · have h4 : q.childrenT = (L ++ [t]) ++ d :: R' := by rw [hLR, ← h3, h]; simp
    rw [h]
    simp only [List.find?_cons, hd, beq_self_eq_true, Bool.or_true]
    unfold Format.nextT
    rw [(Format.elder_eq h4).2]
    cases R' with
    | nil => exact Nat.le_refl _
    | cons m R' =>
      simp only [List.head?_cons]
      have hsort := childrenT_pairwise q
      rw [h4] at hsort
      have hle := (List.pairwise_cons.1 (List.pairwise_append.1 hsort).2.1).1 m (List.mem_cons_self ..)
      have : m.start ≤ m.stop := Nat.le_add_right _ _
      by_cases hm : m.kind = K.Dot
      · rw [if_pos hm]; omega
      · rw [if_neg hm]
  · have h4 : q.childrenT = (L ++ [t]) ++ w :: d :: R' := by rw [hLR, ← h3, h]; simp
    rw [h]
    simp only [List.find?_cons, hw, beq_self_eq_true, Bool.true_or]
    unfold Format.nextT
    rw [(Format.elder_eq h4).2]
    simp [hd]

/-- The edit that removes a triple. -/
theorem dropEdit_spec {t : Red} (ht : InTree g t) : ∃ e, dropEdit text t = some e ∧ Dropped text t e := by
  obtain ⟨a, b, h1, h2, -, -⟩ := pos_start P ht
  have hstop : t.stop = blen (a ++ t.text) := by rw [blen_append, h2]; rfl
  -- the front
  have hfront : ∃ pre front, a = pre ++ front ∧ blen pre = dropStart t ∧ (front = [] ∨ ∃ b w, t.parent = some b ∧ Format.prevT b = some w ∧
      w.kind = K.WHITESPACE ∧ w.start = blen pre) := by
    unfold dropStart
    cases hpar : t.parent with
    | none => exact ⟨a, [], by simp, h2, .inl rfl⟩
    | some q =>
      dsimp only
      cases hpv : Format.prevT q with
      | none => exact ⟨a, [], by simp, h2, .inl rfl⟩
      | some w =>
        dsimp only
        by_cases hwk : w.kind = K.WHITESPACE
        · rw [if_pos hwk]
          obtain ⟨hqT, htq⟩ := ht.parent hpar
          have hwm : w ∈ Format.elder q := by unfold Format.prevT at hpv; exact List.mem_of_getLast? hpv
          obtain ⟨r, hqr⟩ : ∃ r, q.parent = some r := by
            cases hr : q.parent with
            | none => unfold Format.elder Format.siblings at hwm; rw [hr] at hwm; simp at hwm
            | some r => exact ⟨r, rfl⟩
          obtain ⟨hrT, hqm⟩ := hqT.parent hqr
          obtain ⟨L, R, hLR⟩ := List.append_of_mem hqm
          rw [(Format.elder_eq hLR).1] at hwm
          have hwr : w ∈ r.childrenT := by rw [hLR]; simp [hwm]
          have hwT := hrT.child hwr
          have hsort := childrenT_pairwise r
          rw [hLR] at hsort
          have hle := (List.pairwise_append.1 hsort).2.2 w hwm q (List.mem_cons_self ..)
          have hin := (child_within htq).1
          obtain ⟨c, d, g1, g2, -, -⟩ := pos_start P hwT
          have hlen : blen c ≤ blen a := by
            have : w.start ≤ w.stop := Nat.le_add_right _ _
            omega
          have heq : c ++ (w.text ++ d) = a ++ (t.text ++ b) := by rw [← List.append_assoc, ← g1, h1, List.append_assoc]
          rcases prefix_cases heq with ⟨m, e, -⟩ | ⟨m, hm, e, -⟩
          · exact ⟨c, m, e, g2, .inr ⟨q, w, rfl, hpv, hwk, g2.symm⟩⟩
          · rw [e, blen_append] at hlen
            exfalso
            have : 0 < blen m := by
              cases m with
              | nil => exact absurd rfl hm
              | cons x m => rw [show x :: m = [x] ++ m from rfl, blen_append]; have := u8_pos x; simp [blen]; omega
            omega
        · rw [if_neg hwk]; exact ⟨a, [], by simp, h2, .inl rfl⟩
  -- the back
  have hback : ∃ back post, b = back ++ post ∧ blen (a ++ t.text ++ back) = dropStop t ∧ (back = [] ∨ ∃ m ∈ Format.younger t,
      (m.kind = K.WHITESPACE ∨ m.kind = K.Dot) ∧ m.stop = blen (a ++ t.text ++ back)) := by
    have key : ∀ m ∈ Format.younger t, (m.kind = K.WHITESPACE ∨ m.kind = K.Dot) → ∃ back post, b = back ++ post ∧ blen (a ++ t.text ++ back) = m.stop ∧
        (back = [] ∨ ∃ m ∈ Format.younger t, (m.kind = K.WHITESPACE ∨ m.kind = K.Dot) ∧ m.stop = blen (a ++ t.text ++ back)) := by
      intro m hm hmk
      obtain ⟨q, htq⟩ : ∃ q, t.parent = some q := by
        cases hr : t.parent with
        | none => unfold Format.younger Format.siblings at hm; rw [hr] at hm; simp at hm
        | some r => exact ⟨r, rfl⟩
      obtain ⟨hqT, htm⟩ := ht.parent htq
      obtain ⟨L, R, hLR⟩ := List.append_of_mem htm
      have hm' := hm
      rw [(Format.elder_eq hLR).2] at hm'
      have hmq : m ∈ q.childrenT := by rw [hLR]; simp [hm']
      have hmT := hqT.child hmq
      have hsort := childrenT_pairwise q
      rw [hLR] at hsort
      have hle := (List.pairwise_cons.1 (List.pairwise_append.1 hsort).2.1).1 m hm'
      obtain ⟨c, d, g1, g2, -, -⟩ := pos_start P hmT
      have hmstop : m.stop = blen (c ++ m.text) := by rw [blen_append, g2]; rfl
      have hms : m.start ≤ m.stop := Nat.le_add_right _ _
      have heq : (a ++ t.text) ++ b = (c ++ m.text) ++ d := by rw [← g1, h1]
      rcases prefix_cases heq with ⟨x, e, e'⟩ | ⟨x, hx, e, e'⟩
      · refine ⟨x, d, e', by rw [← e, hmstop], .inr ⟨m, hm, hmk, by rw [← e, hmstop]⟩⟩
      · exfalso
        rw [e, blen_append] at hstop
        have : 0 < blen x := by
          cases x with
          | nil => exact absurd rfl hx
          | cons y x => rw [show y :: x = [y] ++ x from rfl, blen_append]; have := u8_pos y; simp [blen]; omega
        omega
    unfold dropStop
    cases hf : (Format.younger t).find? (fun s => s.kind == K.WHITESPACE || s.kind == K.Dot) with
    | none => exact ⟨[], b, rfl, by rw [List.append_nil, ← hstop], .inl rfl⟩
    | some n =>
      dsimp only
      have hnm := List.mem_of_find?_eq_some hf
      have hnk : n.kind = K.WHITESPACE ∨ n.kind = K.Dot := by simpa using List.find?_some hf
      cases hnx : Format.nextT n with
      | none => exact key n hnm hnk
      | some m =>
        dsimp only
        by_cases hmk : m.kind = K.Dot
        · rw [if_pos hmk]
          refine key m ?_ (.inr hmk)
          obtain ⟨q, htq⟩ : ∃ q, t.parent = some q := by
            cases hr : t.parent with
            | none => unfold Format.younger Format.siblings at hnm; rw [hr] at hnm; simp at hnm
            | some r => exact ⟨r, rfl⟩
          obtain ⟨hqT, htm⟩ := ht.parent htq
          obtain ⟨L, R, hLR⟩ := List.append_of_mem htm
          have h3 := (Format.elder_eq hLR).2
          rw [h3] at hnm ⊢
          obtain ⟨L', R', hLR'⟩ := List.append_of_mem hnm
          have h4 : q.childrenT = (L ++ t :: L') ++ n :: R' := by rw [hLR, hLR']; simp
          have h5 := (Format.elder_eq h4).2
          unfold Format.nextT at hnx
          rw [h5] at hnx
          have := List.mem_of_head? hnx
          rw [hLR']; simp [this]
        · rw [if_neg hmk]; exact key n hnm hnk
  obtain ⟨pre, front, rfl, f2, f3⟩ := hfront
  obtain ⟨back, post, rfl, b2, b3⟩ := hback
  refine ⟨⟨⟨posOf pre, posOf (pre ++ front ++ t.text ++ back)⟩, []⟩, ?_, pre, front, back, post, by rw [h1]; simp, h2, rfl, f3, b3,
    fun d hd => by rw [b2]; exact dot_dropped ht hd⟩
  have p1 : fromByteIndex (dropStart t) text = some (posOf pre) := by
    rw [← f2, show text = pre ++ (front ++ t.text ++ back ++ post) by rw [h1]; simp]
    exact fromByteIndex_of_prefix _ _
  have p2 : fromByteIndex (dropStop t) text = some (posOf (pre ++ front ++ t.text ++ back)) := by
    rw [← b2, show text = (pre ++ front ++ t.text ++ back) ++ post by rw [h1]; simp]
    exact fromByteIndex_of_prefix _ _
  simp [dropEdit, Range.fromByteOffsetRange, p1, p2]

end

theorem joinWith_eq (sep : Text) : ∀ l : List Text, l ≠ [] → sep ++ joinWith sep l = (l.map (fun x => sep ++ x)).flatten := by
  intro l
  induction l with
  | nil => intro h; exact absurd rfl h
  | cons x l ih =>
    intro _
    cases l with
    | nil => simp [joinWith]
    | cons y l =>
      have := ih (by simp)
      rw [List.map_cons, List.flatten_cons, ← this]
      simp [joinWith]

theorem propertyList_iff {t pl : Red} : propertyList t = some pl ↔ HasPredicates t pl := by
  unfold propertyList HasPredicates
  cases h : t.children[1]? with
  | none => simp
  | some c =>
    dsimp only
    by_cases hk : c.kind = K.PropertyListPath ∨ c.kind = K.PropertyListPathNotEmpty
    · rw [if_pos hk]
      constructor
      · intro e; cases e; exact ⟨rfl, hk⟩
      · rintro ⟨e, -⟩; exact e
    · rw [if_neg hk]
      constructor
      · intro e; cases e
      · rintro ⟨e, e'⟩; cases e; exact absurd e' hk

/-- **C73.** Of triples of a document without errors in them, also of a broken document: if the first has predicates or predicates are not
aligned, contracting them does not panic. Each further triple is removed, and behind the first one come, each on a line of its own behind a
semicolon, the predicates of the others, in their order. They are indented to the column of the predicates of the first triple, or by one
level more than its subject. -/
theorem c73_contract (errLen : Text → Nat) (width : Char → Nat) (text : Text) (g errs) (hp : parseSource errLen text = some (g, errs))
    (t : Red) (rest : List Red) (hT : ∀ x ∈ t :: rest, ∃ p s, SubjectIn g p s x) (align : Bool) (tab : Option Nat)
    (ha : align = true → ∃ pl, HasPredicates t pl) :
    ∃ drops ins n kept pls a b, contractTriples width text align tab (t :: rest) = some (drops ++ [ins]) ∧
      List.Forall₂ (Dropped text) rest drops ∧
      text = a ++ t.text ++ b ∧ blen a = t.start ∧ ins.range = ⟨posOf (a ++ t.text), posOf (a ++ t.text)⟩ ∧
      kept.Sublist rest ∧ (∀ x ∈ rest, x ∈ kept ↔ ∃ pl, HasPredicates x pl) ∧ List.Forall₂ HasPredicates kept pls ∧
      ins.newText = (if pls = [] then " ;\n".toList ++ List.replicate n ' '
        else (pls.map (fun pl => " ;\n".toList ++ List.replicate n ' ' ++ pl.text)).flatten) ∧
      (if align then ∃ pl, HasPredicates t pl ∧ ColumnIs width text pl.start n
       else ∃ c m, t.children.head? = some c ∧ ColumnIs width text c.start m ∧ n = m + tab.getD 2) := by
  have P := parsed_of hp
  have hin : ∀ x ∈ t :: rest, InTree g x := fun x hx => by obtain ⟨p, s, h⟩ := hT x hx; exact h.1
  -- the removals
  have hdrops : ∀ l : List Red, (∀ x ∈ l, InTree g x) → ∃ ds, unwrapAll (dropEdit text) l = some ds ∧ List.Forall₂ (Dropped text) l ds := by
    intro l
    induction l with
    | nil => intro _; exact ⟨[], rfl, .nil⟩
    | cons x l ih =>
      intro h
      obtain ⟨ds, h1, h2⟩ := ih (fun y hy => h y (List.mem_cons_of_mem _ hy))
      obtain ⟨e, h3, h4⟩ := dropEdit_spec P (h x (List.mem_cons_self ..))
      exact ⟨e :: ds, by simp [unwrapAll, h1, h3], .cons h4 h2⟩
  obtain ⟨drops, d1, d2⟩ := hdrops rest (fun x hx => hin x (List.mem_cons_of_mem _ hx))
  have htT := hin t (List.mem_cons_self ..)
  obtain ⟨p, s, -, ⟨tn, tk, -⟩, tE, c, hc, hck, hcs⟩ := hT t (List.mem_cons_self ..)
  -- the column
  have hcol : ∃ n, contractColumn width text align tab t = some n ∧ (if align then ∃ pl, HasPredicates t pl ∧ ColumnIs width text pl.start n
       else ∃ c m, t.children.head? = some c ∧ ColumnIs width text c.start m ∧ n = m + tab.getD 2) := by
    unfold contractColumn
    cases align with
    | true =>
      simp only [if_true]
      obtain ⟨pl, hpl⟩ := ha rfl
      have hpT := (propertyList_some htT (propertyList_iff.2 hpl)).1
      obtain ⟨n, hn1, hn2⟩ := columnAt_is P width hpT
      have hne : t.tokens ≠ [] := by
        intro e
        have := (tokens_row t).1
        rw [e] at this
        have hpm := (propertyList_some htT (propertyList_iff.2 hpl)).2
        obtain ⟨A, B, hl, -⟩ := child_leaves hpm
        rw [← this] at hl
        have hl : ([] : List (Kind × Text)) = A ++ pl.green.leaves ++ B := hl
        simp only [List.nil_eq, List.append_eq_nil_iff] at hl
        have hplr : pl.text = [] := by
          show pl.green.text = []
          simp [Green.text, hl.1.2]
        have : pl.isNode = true := (List.mem_filter.1 (List.mem_of_getElem? hpl.1)).2
        exact P.node_nonempty hpT this (by rw [child_up hpm]; simp) hplr
      obtain ⟨x, xs, hx⟩ := List.exists_cons_of_ne_nil hne
      have hta := triple_of_token P htT tn tk tE (show x ∈ t.tokens by rw [hx]; simp)
      refine ⟨n, ?_, pl, hpl, hn2⟩
      rw [hx]
      simp only [List.head?_cons]
      unfold alignColumn
      rw [hta]
      dsimp only
      rw [propertyList_iff.2 hpl]
      dsimp only
      rw [hn1]
      rfl
    | false =>
      simp only [Bool.false_eq_true, if_false]
      have hcT := htT.child (List.mem_filter.1 (List.mem_of_head? hc)).1
      obtain ⟨m, hm1, hm2⟩ := columnAt_is P width hcT
      refine ⟨m + tab.getD 2, ?_, c, m, hc, hm2, rfl⟩
      have : subjectNode t = some c := by
        unfold subjectNode Red.firstChild
        rw [hc]
        dsimp only
        rw [if_pos hck]
      rw [this]
      dsimp only
      rw [hm1]; rfl
  obtain ⟨n, n1, n2⟩ := hcol
  obtain ⟨a, b, h1, h2, -, h4⟩ := pos_start P htT
  have hforall : ∀ l : List Red, List.Forall₂ HasPredicates (l.filter (fun x => (propertyList x).isSome)) (l.filterMap propertyList) := by
    intro l
    induction l with
    | nil => exact .nil
    | cons x l ih =>
      cases hx : propertyList x with
      | none => rw [List.filter_cons_of_neg (by simp [hx]), List.filterMap_cons_none hx]; exact ih
      | some pl => rw [List.filter_cons_of_pos (by simp [hx]), List.filterMap_cons_some hx]; exact .cons (propertyList_iff.1 hx) ih
  refine ⟨drops, ⟨⟨posOf (a ++ t.text), posOf (a ++ t.text)⟩, [' ', ';', '\n'] ++ List.replicate n ' ' ++
        joinWith ([' ', ';', '\n'] ++ List.replicate n ' ') ((rest.filterMap propertyList).map Red.text)⟩, n,
      rest.filter (fun x => (propertyList x).isSome), rest.filterMap propertyList, a, b, ?_, d2, h1, h2, rfl, List.filter_sublist, ?_, hforall rest, ?_, n2⟩
  · simp only [contractTriples, d1, appendEdit, n1, h4]
  · intro x hx
    rw [List.mem_filter, Option.isSome_iff_exists]
    constructor
    · rintro ⟨-, pl, h⟩; exact ⟨pl, propertyList_iff.1 h⟩
    · rintro ⟨pl, h⟩; exact ⟨hx, pl, propertyList_iff.2 h⟩
  · show [' ', ';', '\n'] ++ List.replicate n ' ' ++ joinWith _ _ = _
    have e0 : " ;\n".toList = [' ', ';', '\n'] := by decide
    rw [e0]
    by_cases he : rest.filterMap propertyList = []
    · rw [if_pos he, he]; simp [joinWith]
    · rw [if_neg he, joinWith_eq _ _ (by simpa using he), List.map_map]
      rfl

/-- The action for the whole document does not panic if predicates are not aligned or every triple that shares its subject has predicates. -/
theorem c73_total (errLen : Text → Nat) (width : Char → Nat) (text : Text) (g errs) (hp : parseSource errLen text = some (g, errs))
    (align : Bool) (tab : Option Nat)
    (ha : align = true → ∀ p s t t', t ≠ t' → SubjectIn g p s t → SubjectIn g p s t' → ∃ pl, HasPredicates t pl) :
    ∃ o, contractAll width text align tab g = some o := by
  have P := parsed_of hp
  have key : ∀ L : List (Text × List Red), (∀ x ∈ L, x ∈ tripleGroups g) →
      ∃ ess, unwrapAll (fun x : Text × List Red => contractTriples width text align tab x.2) L = some ess := by
    intro L
    induction L with
    | nil => intro _; exact ⟨[], rfl⟩
    | cons x L ih =>
      intro h
      obtain ⟨ess, h1⟩ := ih (fun y hy => h y (List.mem_cons_of_mem _ hy))
      obtain ⟨s, l⟩ := x
      obtain ⟨p, ⟨g1, g2, g3⟩, g4, g5⟩ := (mem_groups P s l).1 (h _ (List.mem_cons_self ..))
      have hS : ∀ x ∈ l, SubjectIn g p s x := fun x hx => (mem_withSubject P g1 g2 g3 s x).1 (by rw [← g4]; exact hx)
      have hnd : l.Nodup := by rw [g4]; exact (patternTriples_nodup P g1 g2 g3).filter _
      match l, g5, hS, hnd with
      | t :: rest, g5, hS, hnd =>
        obtain ⟨u, hu, hut⟩ := exists_ne_of_two hnd g5 t
        obtain ⟨drops, ins, n, kept, pls, a, b, e, -⟩ := c73_contract errLen width text g errs hp t rest (fun x hx => ⟨p, s, hS x hx⟩) align tab
          (fun e => ha e p s t u (fun e => hut e.symm) (hS t (List.mem_cons_self ..)) (hS u hu))
        exact ⟨(drops ++ [ins]) :: ess, by simp [unwrapAll, h1, e]⟩
  obtain ⟨ess, h⟩ := key _ (fun _ h => h)
  unfold contractAll
  by_cases hq : g.kind = K.QueryUnit
  · rw [if_pos hq, h]; exact ⟨_, rfl⟩
  · rw [if_neg hq]; exact ⟨_, rfl⟩

theorem firstOfRange_spec : ∀ (es : List TextEdit) (seen : List Range), (firstOfRange es seen).Sublist es ∧
    ((firstOfRange es seen).map TextEdit.range).Nodup ∧ (∀ e ∈ firstOfRange es seen, e.range ∉ seen) ∧
    ∀ e ∈ es, e.range ∈ seen ∨ ∃ e' ∈ firstOfRange es seen, e'.range = e.range
  | [], seen => by simp [firstOfRange]
  | e :: es, seen => by
    unfold firstOfRange
    by_cases h : e.range ∈ seen
    · obtain ⟨i1, i2, i3, i4⟩ := firstOfRange_spec es seen
      rw [if_pos (by simpa using h)]
      refine ⟨i1.cons _, i2, i3, fun x hx => ?_⟩
      rcases List.mem_cons.1 hx with rfl | hx
      · exact Or.inl h
      · exact i4 x hx
    · obtain ⟨i1, i2, i3, i4⟩ := firstOfRange_spec es (e.range :: seen)
      rw [if_neg (by simpa using h)]
      refine ⟨i1.cons_cons _, ?_, ?_, ?_⟩
      · rw [List.map_cons, List.nodup_cons]
        refine ⟨fun hm => ?_, i2⟩
        obtain ⟨y, hy, e1⟩ := List.mem_map.1 hm
        exact i3 y hy (e1 ▸ List.mem_cons_self ..)
      · intro x hx
        rcases List.mem_cons.1 hx with rfl | hx
        · exact h
        · exact fun hm => i3 x hx (List.mem_cons_of_mem _ hm)
      · intro x hx
        rcases List.mem_cons.1 hx with rfl | hx
        · exact Or.inr ⟨_, List.mem_cons_self .., rfl⟩
        · rcases i4 x hx with h | ⟨y, hy, e1⟩
          · rcases List.mem_cons.1 h with h | h
            · exact Or.inr ⟨e, List.mem_cons_self .., h.symm⟩
            · exact Or.inl h
          · exact Or.inr ⟨y, List.mem_cons_of_mem _ hy, e1⟩

theorem unwrapAll_forall₂ {α β} (f : α → Option β) : ∀ (l : List α) (r : List β), unwrapAll f l = some r → List.Forall₂ (fun a b => f a = some b) l r
  | [], r, h => by cases h; exact .nil
  | a :: l, r, h => by
    unfold unwrapAll at h
    cases h1 : f a with
    | none => simp [h1] at h
    | some b =>
      cases h2 : unwrapAll f l with
      | none => simp [h1, h2] at h
      | some bs =>
        simp [h1, h2] at h
        subst h
        exact .cons h1 (unwrapAll_forall₂ f l bs h2)

/-- The action for the whole document makes the edits of all groups of triples that share a subject, but of edits with the same range only
the first. It is offered only if it has edits. -/
theorem c73_all (width : Char → Nat) (text : Text) (g : Green) (align : Bool) (tab : Option Nat) (es)
    (h : contractAll width text align tab g = some (some es)) :
    es ≠ [] ∧ ∃ ess, List.Forall₂ (fun x r => contractTriples width text align tab x.2 = some r) (tripleGroups g) ess ∧
      es.Sublist ess.flatten ∧ (es.map TextEdit.range).Nodup ∧ ∀ e ∈ ess.flatten, ∃ e' ∈ es, e'.range = e.range := by
  unfold contractAll at h
  by_cases hq : g.kind = K.QueryUnit
  · rw [if_pos hq] at h
    cases h1 : unwrapAll (fun x : Text × List Red => contractTriples width text align tab x.2) (tripleGroups g) with
    | none => simp [h1] at h
    | some ess =>
      obtain ⟨i1, i2, -, i4⟩ := firstOfRange_spec ess.flatten []
      simp only [h1, Option.some.injEq] at h
      by_cases hn : (firstOfRange ess.flatten []).isEmpty = true
      · rw [if_pos hn] at h; cases h
      · rw [if_neg hn] at h
        cases h
        refine ⟨fun e => hn (by rw [e]; rfl), ess, unwrapAll_forall₂ _ _ _ h1, i1, i2, fun e he => ?_⟩
        rcases i4 e he with h | h
        · cases h
        · exact h
  · rw [if_neg hq] at h; cases h

/-! ## Concrete documents -/

/-- `SELECT * {?s ?p ?o . ?s ?q ?r .⏎?x ?p ?o . ?s ?u ?v}` -/
theorem c73_cases : (∃ errs, parseSource (fun _ => 1) contractText = some (contractTree, errs)) ∧
    contractAll (fun _ => 1) contractText true none contractTree = some (some
      [⟨⟨⟨0, 20⟩, ⟨0, 31⟩⟩, []⟩, ⟨⟨⟨1, 10⟩, ⟨1, 19⟩⟩, []⟩, ⟨⟨⟨0, 18⟩, ⟨0, 18⟩⟩, [' ', ';', '\n'] ++ List.replicate 13 ' ' ++ "?q ?r".toList ++
        [' ', ';', '\n'] ++ List.replicate 13 ' ' ++ "?u ?v".toList⟩]) :=
  ⟨⟨_, contractTree_parse⟩, by decide +kernel⟩

/-- Three of its four triples have a dot behind them. -/
theorem c73_dots : ((Red.root contractTree).descendants.filter (fun t => t.kind == K.TriplesSameSubjectPath)).map
    (fun t => ((Format.younger t).map Red.kind).take 2 == [K.WHITESPACE, K.Dot]) = [true, true, true, false] := by decide +kernel

/-- The valid document `SELECT * {[?p ?o] . [?p ?o]}`: with aligned predicates, the action panics. Without, it makes one triple of two and
puts a semicolon in that has nothing behind it. -/
theorem c73_panic : (∃ errs, parseSource (fun _ => 1) bnodeText = some (bnodeTree, errs)) ∧
    Derives sparqlRules (.node bnodeTree.kind) (kinds (lex (fun _ => 1) bnodeText)) ∧
    contractAll (fun _ => 1) bnodeText true none bnodeTree = none ∧
    contractAll (fun _ => 1) bnodeText false none bnodeTree = some (some
      [⟨⟨⟨0, 19⟩, ⟨0, 27⟩⟩, []⟩, ⟨⟨⟨0, 17⟩, ⟨0, 17⟩⟩, [' ', ';', '\n'] ++ List.replicate 12 ' '⟩]) :=
  ⟨⟨_, bnodeTree_parse⟩, bnode_derives, by decide +kernel, by decide +kernel⟩

/-- `SELECT * {?s ?p ?o . ?s ?q ?r#c⏎. ?x ?y ?z}`: the comment directly behind the triple is removed with it. -/
theorem c73_comment : (∃ errs, parseSource (fun _ => 1) remarkText = some (remarkTree, errs)) ∧
    contractAll (fun _ => 1) remarkText true none remarkTree = some (some
      [⟨⟨⟨0, 20⟩, ⟨1, 1⟩⟩, []⟩, ⟨⟨⟨0, 18⟩, ⟨0, 18⟩⟩, [' ', ';', '\n'] ++ List.replicate 13 ' ' ++ "?q ?r".toList⟩]) :=
  ⟨⟨_, remarkTree_parse⟩, by decide +kernel⟩

end Verif.Props
