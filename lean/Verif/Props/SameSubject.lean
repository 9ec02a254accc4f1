import Verif.Features.SameSubject
import Verif.Features.Demo
import Verif.Props.SelectDiagnostics
/-!
# Triples with the same subject: C59
-/
namespace Verif.Props
open Verif Verif.Grammar Verif.Lexer Verif.Features

/-! ## The triples of a block -/

/-- What a child contributes. -/
def tripleStep (c : Red) : List Red :=
  if c.isNode = true then
    if c.kind = K.TriplesSameSubjectPath then [c]
    else if c.kind = K.TriplesBlock then triplesOf c else []
  else []

theorem triplesInL_eq (cs : List Green) (idx off : Nat) (up : List Site) :
    triplesInL cs idx off up = ((childSites idx off cs).map (fun s => (⟨s, up⟩ : Red))).flatMap tripleStep := by
  induction cs generalizing idx off with
  | nil => simp [triplesInL, childSites]
  | cons g gs ih =>
    cases g with
    | tok k t =>
      rw [triplesInL, ih]
      have : tripleStep ⟨⟨.tok k t, idx, off⟩, up⟩ = [] := rfl
      simp [childSites, this, Green.text_tok]
    | node k cs =>
      rw [triplesInL, ih]
      have : tripleStep ⟨⟨.node k cs, idx, off⟩, up⟩ = (if k = K.TriplesSameSubjectPath then [⟨⟨.node k cs, idx, off⟩, up⟩]
          else if k = K.TriplesBlock then triplesIn (.node k cs) idx off up else []) := rfl
      simp [childSites, this]

theorem triplesOf_eq (b : Red) : triplesOf b = b.childrenT.flatMap tripleStep := by
  obtain ⟨⟨g, idx, off⟩, up⟩ := b
  cases g with
  | tok k t => rfl
  | node k cs => exact triplesInL_eq cs 0 off _

/-- The triples of a block: those reached through blocks only. -/
theorem mem_triplesOf {g : Green} (b : Red) : InTree g b → ∀ t, t ∈ triplesOf b ↔ InTree g t ∧ t.isNode = true ∧
    t.kind = K.TriplesSameSubjectPath ∧ ∃ bs, Red.chain t.up = bs ++ b :: Red.chain b.up ∧ ∀ x ∈ bs, x.kind = K.TriplesBlock := by
  refine red_induction (P := fun b => InTree g b → ∀ t, t ∈ triplesOf b ↔ InTree g t ∧ t.isNode = true ∧
    t.kind = K.TriplesSameSubjectPath ∧ ∃ bs, Red.chain t.up = bs ++ b :: Red.chain b.up ∧ ∀ x ∈ bs, x.kind = K.TriplesBlock) ?_ b
  intro b ih hb t
  rw [triplesOf_eq, List.mem_flatMap]
  constructor
  · rintro ⟨c, hc, ht⟩
    unfold tripleStep at ht
    split at ht
    · next hn =>
      split at ht
      · next hk =>
        simp only [List.mem_singleton] at ht; subst ht
        exact ⟨hb.child hc, hn, hk, [], parent_chain (child_parent hc), by simp⟩
      · split at ht
        · next hk =>
          obtain ⟨h1, h2, h3, bs, h4, h5⟩ := (ih c hc (hb.child hc) t).1 ht
          refine ⟨h1, h2, h3, bs ++ [c], by rw [h4, parent_chain (child_parent hc)]; simp, ?_⟩
          intro x hx
          rcases List.mem_append.1 hx with hx | hx
          · exact h5 x hx
          · simp only [List.mem_singleton] at hx; rw [hx]; exact hk
        · cases ht
    · cases ht
  · rintro ⟨h1, h2, h3, bs, h4, h5⟩
    rcases List.eq_nil_or_concat bs with rfl | ⟨bs', c, rfl⟩
    · cases h1 with
      | root => simp [Red.root, Red.chain] at h4
      | @child r _ hr hc =>
        rw [parent_chain (child_parent hc)] at h4
        simp only [List.nil_append, List.cons.injEq] at h4
        rw [← h4.1]
        exact ⟨t, hc, by simp [tripleStep, h2, h3]⟩
    · have hcT : InTree g c ∧ c.isNode = true := h1.chain c (by rw [h4]; simp)
      have hck : c.kind = K.TriplesBlock := h5 c (by simp)
      have hcc : Red.chain c.up = b :: Red.chain b.up := by
        have : ∀ (l : List Red) (up : List Site), Red.chain up = l ++ c :: (b :: Red.chain b.up) → Red.chain c.up = b :: Red.chain b.up := by
          intro l
          induction l with
          | nil =>
            intro up h
            cases up with
            | nil => cases h
            | cons s up => simp only [Red.chain, List.nil_append, List.cons.injEq] at h; rw [← h.1]; exact h.2
          | cons a l ih =>
            intro up h
            cases up with
            | nil => cases h
            | cons s up => simp only [Red.chain, List.cons_append, List.cons.injEq] at h; exact ih up h.2
        exact this bs' t.up (by rw [h4]; simp)
      have hcb : c ∈ b.childrenT := by
        cases hcT.1 with
        | root => simp [Red.root, Red.chain] at hcc
        | @child r _ hr hc =>
          rw [parent_chain (child_parent hc)] at hcc
          simp only [List.cons.injEq] at hcc
          rw [← hcc.1]; exact hc
      refine ⟨c, hcb, ?_⟩
      have hne : c.kind ≠ K.TriplesSameSubjectPath := by rw [hck]; decide
      unfold tripleStep
      rw [if_pos hcT.2, if_neg hne, if_pos hck]
      exact (ih c hcb hcT.1 t).2 ⟨h1, h2, h3, bs', by rw [h4, hcc]; simp, fun x hx => h5 x (by simp [hx])⟩

theorem triplesOf_within (b : Red) : ∀ t ∈ triplesOf b, Within t b := by
  refine red_induction (P := fun b => ∀ t ∈ triplesOf b, Within t b) ?_ b
  intro b ih t ht
  rw [triplesOf_eq, List.mem_flatMap] at ht
  obtain ⟨c, hc, ht⟩ := ht
  have hw := child_within hc
  unfold tripleStep at ht
  split at ht
  · split at ht
    · simp only [List.mem_singleton] at ht; subst ht; exact hw
    · split at ht
      · have := ih c hc t ht
        exact ⟨by have := this.1; have := hw.1; omega, by have := this.2; have := hw.2; omega⟩
      · cases ht
  · cases ht

theorem step_within {c t : Red} (h : t ∈ tripleStep c) : Within t c := by
  unfold tripleStep at h
  split at h
  · split at h
    · simp only [List.mem_singleton] at h; subst h; exact ⟨Nat.le_refl _, Nat.le_refl _⟩
    · split at h
      · exact triplesOf_within c t h
      · cases h
  · cases h

/-- Lists of disjoint parts keep their order. -/
theorem flatMap_sorted {f : Red → List Red} : ∀ {l : List Red}, l.Pairwise (fun a b => a.stop ≤ b.start) →
    (∀ c ∈ l, (f c).Pairwise (fun a b => a.stop ≤ b.start)) → (∀ c ∈ l, ∀ t ∈ f c, Within t c) →
    (l.flatMap f).Pairwise (fun a b => a.stop ≤ b.start) := by
  intro l
  induction l with
  | nil => intro _ _ _; simp
  | cons c l ih =>
    intro h h1 h2
    rw [List.pairwise_cons] at h
    rw [List.flatMap_cons, List.pairwise_append]
    refine ⟨h1 c (List.mem_cons_self ..), ih h.2 (fun c hc => h1 c (List.mem_cons_of_mem _ hc)) (fun c hc => h2 c (List.mem_cons_of_mem _ hc)), ?_⟩
    intro a ha b hb
    obtain ⟨d, hd, hb⟩ := List.mem_flatMap.1 hb
    have := (h2 c (List.mem_cons_self ..) a ha).2
    have := (h2 d (List.mem_cons_of_mem _ hd) b hb).1
    have := h.1 d hd
    omega

theorem children_sorted (r : Red) : r.childrenT.Pairwise (fun a b => a.stop ≤ b.start) := childrenT_pairwise r

theorem triplesOf_sorted (b : Red) : (triplesOf b).Pairwise (fun a b => a.stop ≤ b.start) := by
  refine red_induction (P := fun b => (triplesOf b).Pairwise (fun a b => a.stop ≤ b.start)) ?_ b
  intro b ih
  rw [triplesOf_eq]
  refine flatMap_sorted (children_sorted b) ?_ (fun c _ t ht => step_within ht)
  intro c hc
  unfold tripleStep
  split
  · split
    · exact List.pairwise_singleton ..
    · split
      · exact ih c hc
      · exact .nil
  · exact .nil

/-! ## The triples of a pattern -/

/-- All triples directly in a pattern. -/
def patternTriples (p : Red) : List Red := (tripleBlocks p).flatMap triplesOf

theorem chain_suffix {c : Red} {tail : List Red} : ∀ (l : List Red) (up : List Site), Red.chain up = l ++ c :: tail → Red.chain c.up = tail := by
  intro l
  induction l with
  | nil =>
    intro up h
    cases up with
    | nil => cases h
    | cons s up => simp only [Red.chain, List.nil_append, List.cons.injEq] at h; rw [← h.1]; exact h.2
  | cons a l ih =>
    intro up h
    cases up with
    | nil => cases h
    | cons s up => simp only [Red.chain, List.cons_append, List.cons.injEq] at h; exact ih up h.2

theorem child_of_chain {g : Green} {c p : Red} {rest : List Red} (h : InTree g c) (hc : Red.chain c.up = p :: rest) : c ∈ p.childrenT ∧
    Red.chain p.up = rest := by
  cases h with
  | root => simp [Red.root, Red.chain] at hc
  | @child r _ hr hm =>
    rw [parent_chain (child_parent hm)] at hc
    simp only [List.cons.injEq] at hc
    rw [← hc.1]; exact ⟨hm, hc.2⟩

section
variable {text : Text} {g : Green} (P : Parsed text g)
include P

theorem sub_iff {p sub : Red} (hp : InTree g p) (hn : p.isNode = true) (hk : p.kind = K.GroupGraphPattern) :
    p.childOf [K.GroupGraphPatternSub] = some sub ↔ Part p K.GroupGraphPatternSub sub := by
  constructor
  · exact childOf_part
  · intro h
    obtain ⟨R, hR, ho, h1⟩ : ∃ R, sparqlRules p.kind = some R ∧ onceRule (.node K.GroupGraphPatternSub) R = true ∧
        occRule (.node K.GroupGraphPatternSub) R ≤ 1 := by
      rw [hk]
      refine ⟨(sparqlRules K.GroupGraphPattern).get (by decide +kernel), (Option.some_get _).symm, by decide +kernel, by decide +kernel⟩
    have hE : p.kind ≠ K.Error := by rw [hk]; decide
    have sym : ∀ {c : Red}, Part p K.GroupGraphPatternSub c → c.green.sym = some (.node K.GroupGraphPatternSub) := by
      intro c hc
      have h2 := hc.2.1
      have h3 := hc.2.2
      unfold Red.isNode at h2
      show c.here.green.sym = _
      cases hg : c.here.green with
      | tok k x => rw [hg] at h2; cases h2
      | node k x =>
        have : k = K.GroupGraphPatternSub := by rw [← h3]; show k = c.here.green.kind; rw [hg]; rfl
        subst this
        simp [Green.sym]; decide
    cases hf : p.childOf [K.GroupGraphPatternSub] with
    | none =>
      have hf : p.children.find? (fun c => decide (c.kind ∈ [K.GroupGraphPatternSub])) = none := hf
      have := List.find?_eq_none.1 hf sub (mem_children.2 ⟨h.1, h.2.1⟩)
      simp [h.2.2] at this
    | some s' =>
      have h' := childOf_part hf
      rw [P.child_unique hp hE hR ho h1 h'.1 h.1 (sym h') (sym h)]

/-- A triple's parent is a block. -/
theorem triple_block {t : Red} (h : InTree g t) (hn : t.isNode = true) (hk : t.kind = K.TriplesSameSubjectPath) :
    ∃ b, InTree g b ∧ b.isNode = true ∧ t ∈ b.childrenT ∧ b.kind = K.TriplesBlock := by
  obtain ⟨b, h1, h2, h3, h4⟩ := P.parent_kind h hn (by rw [hk]; decide) (by
    rintro rfl
    have := P.root
    rcases this with h | h <;> rw [show (Red.root g).kind = g.kind from rfl, h] at hk <;> revert hk <;> decide)
    [K.TriplesBlock] (by rw [hk]; decide +kernel)
  exact ⟨b, h1, h2, h3, by simpa using h4⟩

theorem mem_patternTriples {p : Red} (hp : InTree g p) (hn : p.isNode = true) (hk : p.kind = K.GroupGraphPattern) (t : Red) :
    t ∈ patternTriples p ↔ InTree g t ∧ TripleOf p t := by
  unfold patternTriples tripleBlocks
  constructor
  · intro h
    cases hs : p.childOf [K.GroupGraphPatternSub] with
    | none => rw [hs] at h; cases h
    | some sub =>
      rw [hs] at h
      have hsub := childOf_part hs
      obtain ⟨b, hb, ht⟩ := List.mem_flatMap.1 h
      obtain ⟨hb, hbk⟩ := List.mem_filter.1 hb
      have hb := mem_children.1 hb
      have hbT := (hp.child hsub.1).child hb.1
      obtain ⟨h1, h2, h3, bs, h4, h5⟩ := (mem_triplesOf b hbT t).1 ht
      refine ⟨h1, h2, h3, hk, bs ++ [b], sub, Red.chain p.up, ?_, ?_, hsub.2.2⟩
      · rw [h4, parent_chain (child_parent hb.1), parent_chain (child_parent hsub.1)]; simp
      · intro x hx
        rcases List.mem_append.1 hx with hx | hx
        · exact h5 x hx
        · simp only [List.mem_singleton] at hx; rw [hx]; simpa using hbk
  · rintro ⟨h1, h2, h3, -, bs, sub, rest, h4, h5, h6⟩
    rcases List.eq_nil_or_concat bs with rfl | ⟨bs', b, rfl⟩
    · exfalso
      obtain ⟨b, -, -, hb, hbk⟩ := triple_block P h1 h2 h3
      rw [parent_chain (child_parent hb)] at h4
      simp only [List.nil_append, List.cons.injEq] at h4
      rw [h4.1, h6] at hbk
      revert hbk; decide
    · have h4' : Red.chain t.up = bs' ++ b :: (sub :: p :: rest) := by rw [h4]; simp
      have hcb := chain_suffix _ _ h4'
      have hbT := h1.chain b (by rw [h4']; simp)
      have hbk := h5 b (by simp)
      obtain ⟨hbm, hcs⟩ := child_of_chain hbT.1 hcb
      have hsT := h1.chain sub (by rw [h4']; simp)
      obtain ⟨hsm, hcp⟩ := child_of_chain hsT.1 hcs
      rw [(sub_iff P hp hn hk).2 ⟨hsm, hsT.2, h6⟩]
      refine List.mem_flatMap.2 ⟨b, List.mem_filter.2 ⟨mem_children.2 ⟨hbm, hbT.2⟩, by simpa using hbk⟩, ?_⟩
      exact (mem_triplesOf b hbT.1 t).2 ⟨h1, h2, h3, bs', by rw [h4', hcb], fun x hx => h5 x (by simp [hx])⟩

omit P in
theorem patternTriples_sorted (p : Red) : (patternTriples p).Pairwise (fun a b => a.stop ≤ b.start) := by
  unfold patternTriples tripleBlocks
  cases p.childOf [K.GroupGraphPatternSub] with
  | none => exact .nil
  | some sub =>
    exact flatMap_sorted (((children_sorted sub).filter _).filter _) (fun c _ => triplesOf_sorted c) (fun c _ t ht => triplesOf_within c t ht)

omit P in
/-- A triple is in one pattern. -/
theorem tripleOf_inj {p p' t : Red} (h : TripleOf p t) (h' : TripleOf p' t) : p = p' := by
  obtain ⟨-, -, -, bs, sub, rest, h1, h2, h3⟩ := h
  obtain ⟨-, -, -, bs', sub', rest', h1', h2', h3'⟩ := h'
  rw [h1] at h1'
  have key : ∀ (bs bs' : List Red), (∀ b ∈ bs, b.kind = K.TriplesBlock) → (∀ b ∈ bs', b.kind = K.TriplesBlock) →
      bs ++ sub :: p :: rest = bs' ++ sub' :: p' :: rest' → p = p' := by
    intro bs
    induction bs with
    | nil =>
      intro bs' _ hb' e
      cases bs' with
      | nil => simp only [List.nil_append, List.cons.injEq] at e; exact e.2.1
      | cons b bs' =>
        simp only [List.nil_append, List.cons_append, List.cons.injEq] at e
        have := hb' b (List.mem_cons_self ..)
        rw [← e.1, h3] at this
        exact absurd this (by decide)
    | cons b bs ih =>
      intro bs' hb hb' e
      cases bs' with
      | nil =>
        simp only [List.nil_append, List.cons_append, List.cons.injEq] at e
        have := hb b (List.mem_cons_self ..)
        rw [e.1, h3'] at this
        exact absurd this (by decide)
      | cons b' bs' =>
        simp only [List.cons_append, List.cons.injEq] at e
        exact ih bs' (fun x hx => hb x (List.mem_cons_of_mem _ hx)) (fun x hx => hb' x (List.mem_cons_of_mem _ hx)) e.2
  exact key bs bs' h2 h2' h1'

end

/-! ## The groups -/

theorem addGroup_mem {s : Text} {t : Red} {R : List (Text × List Red)} (hn : (R.map Prod.fst).Nodup) (s' : Text) (l : List Red) :
    (s', l) ∈ addGroup s t R ↔ (s' ≠ s ∧ (s', l) ∈ R) ∨ (s' = s ∧ ((∃ l', (s, l') ∈ R ∧ l = l' ++ [t]) ∨ ((∀ l', (s, l') ∉ R) ∧ l = [t]))) := by
  induction R with
  | nil => simp [addGroup]
  | cons x R ih =>
    obtain ⟨k, m⟩ := x
    simp only [List.map_cons, List.nodup_cons] at hn
    have ih := ih hn.2
    unfold addGroup
    by_cases hk : k = s
    · subst hk
      have hnot : ∀ l', (k, l') ∉ R := fun l' h => hn.1 (List.mem_map.2 ⟨_, h, rfl⟩)
      rw [if_pos rfl]
      simp only [List.mem_cons, Prod.mk.injEq]
      constructor
      · rintro (⟨rfl, rfl⟩ | h)
        · exact .inr ⟨rfl, .inl ⟨m, .inl ⟨trivial, rfl⟩, rfl⟩⟩
        · refine .inl ⟨?_, .inr h⟩
          rintro rfl; exact hnot _ h
      · rintro (⟨h, (⟨h', -⟩ | h')⟩ | ⟨rfl, (⟨l', (⟨-, rfl⟩ | h), rfl⟩ | ⟨h, -⟩)⟩)
        · exact absurd h' h
        · exact .inr h'
        · exact .inl ⟨rfl, rfl⟩
        · exact absurd h (hnot _)
        · exact absurd (.inl ⟨trivial, rfl⟩) (h m)
    · rw [if_neg hk]
      simp only [List.mem_cons, Prod.mk.injEq, ih]
      constructor
      · rintro (⟨rfl, rfl⟩ | ⟨h, h'⟩ | ⟨rfl, (⟨l', h, rfl⟩ | ⟨h, rfl⟩)⟩)
        · exact .inl ⟨hk, .inl ⟨rfl, rfl⟩⟩
        · exact .inl ⟨h, .inr h'⟩
        · exact .inr ⟨rfl, .inl ⟨l', .inr h, rfl⟩⟩
        · refine .inr ⟨rfl, .inr ⟨?_, rfl⟩⟩
          rintro l' (⟨e, -⟩ | h')
          · exact hk e.symm
          · exact h l' h'
      · rintro (⟨h, (⟨rfl, rfl⟩ | h')⟩ | ⟨rfl, (⟨l', (⟨e, -⟩ | h), rfl⟩ | ⟨h, rfl⟩)⟩)
        · exact .inl ⟨rfl, rfl⟩
        · exact .inr (.inl ⟨h, h'⟩)
        · exact absurd e.symm hk
        · exact .inr (.inr ⟨rfl, .inl ⟨l', h, rfl⟩⟩)
        · exact .inr (.inr ⟨rfl, .inr ⟨fun l' h' => h l' (.inr h'), rfl⟩⟩)

theorem addGroup_keys (s : Text) (t : Red) (R : List (Text × List Red)) (k : Text) :
    k ∈ (addGroup s t R).map Prod.fst ↔ k = s ∨ k ∈ R.map Prod.fst := by
  induction R with
  | nil => simp [addGroup]
  | cons x R ih =>
    obtain ⟨k', m⟩ := x
    unfold addGroup
    by_cases h : k' = s
    · subst h; simp
    · rw [if_neg h]
      simp only [List.map_cons, List.mem_cons, ih]
      constructor
      · rintro (h | h | h)
        · exact .inr (.inl h)
        · exact .inl h
        · exact .inr (.inr h)
      · rintro (h | h | h)
        · exact .inr (.inl h)
        · exact .inl h
        · exact .inr (.inr h)

theorem addGroup_nodup {s : Text} {t : Red} {R : List (Text × List Red)} (hn : (R.map Prod.fst).Nodup) :
    ((addGroup s t R).map Prod.fst).Nodup := by
  induction R with
  | nil => simp [addGroup]
  | cons x R ih =>
    obtain ⟨k', m⟩ := x
    simp only [List.map_cons, List.nodup_cons] at hn
    unfold addGroup
    by_cases h : k' = s
    · rw [if_pos h]; simpa using hn
    · rw [if_neg h]
      simp only [List.map_cons, List.nodup_cons]
      refine ⟨?_, ih hn.2⟩
      rw [addGroup_keys]
      rintro (e | e)
      · exact h e
      · exact hn.1 e

/-- The triples of a list with the subject `s` and without errors. -/
def withSubject (s : Text) (ts : List Red) : List Red :=
  ts.filter (fun t => !hasErrorNode t && decide (subjectText t = some s))

theorem groupTriples_spec (ts : List Red) : ((groupTriples ts).map Prod.fst).Nodup ∧
    ∀ s l, (s, l) ∈ groupTriples ts ↔ l = withSubject s ts ∧ l ≠ [] := by
  unfold groupTriples
  have key : ∀ (us pre : List Red) (R : List (Text × List Red)), (R.map Prod.fst).Nodup →
      (∀ s l, (s, l) ∈ R ↔ l = pre.filter (fun t => decide (subjectText t = some s)) ∧ l ≠ []) →
      ((us.foldl groupStep R).map Prod.fst).Nodup ∧
      ∀ s l, (s, l) ∈ us.foldl groupStep R ↔
        l = (pre ++ us).filter (fun t => decide (subjectText t = some s)) ∧ l ≠ [] := by
    intro us
    induction us with
    | nil => intro pre R h1 h2; simpa using ⟨h1, h2⟩
    | cons t us ih =>
      intro pre R h1 h2
      rw [List.foldl_cons, show pre ++ t :: us = (pre ++ [t]) ++ us by simp]
      cases ht : subjectText t with
      | none =>
        rw [show groupStep R t = R by simp [groupStep, ht]]
        refine ih (pre ++ [t]) R h1 ?_
        intro s l
        rw [h2, List.filter_append]
        simp [ht]
      | some s0 =>
        rw [show groupStep R t = addGroup s0 t R by simp [groupStep, ht]]
        refine ih (pre ++ [t]) (addGroup s0 t R) (addGroup_nodup h1) ?_
        intro s l
        rw [addGroup_mem h1, List.filter_append]
        by_cases hs : s = s0
        · subst hs
          have hf : [t].filter (fun t => decide (subjectText t = some s)) = [t] := by simp [ht]
          rw [hf]
          constructor
          · rintro (⟨h, -⟩ | ⟨-, (⟨l', h, rfl⟩ | ⟨h, rfl⟩)⟩)
            · exact absurd rfl h
            · exact ⟨by rw [((h2 _ _).1 h).1], by simp⟩
            · have : pre.filter (fun t => decide (subjectText t = some s)) = [] := Classical.byContradiction fun hne =>
                h _ ((h2 _ _).2 ⟨rfl, hne⟩)
              exact ⟨by rw [this]; rfl, by simp⟩
          · rintro ⟨rfl, -⟩
            refine .inr ⟨rfl, ?_⟩
            by_cases hne : pre.filter (fun t => decide (subjectText t = some s)) = []
            · refine .inr ⟨?_, by rw [hne]; rfl⟩
              intro l' h
              have := (h2 _ _).1 h
              exact this.2 (this.1.trans hne)
            · exact .inl ⟨_, (h2 _ _).2 ⟨rfl, hne⟩, rfl⟩
        · have hf : [t].filter (fun t => decide (subjectText t = some s)) = [] := by simp [ht]; exact fun h => hs h.symm
          rw [hf, List.append_nil, ← h2]
          constructor
          · rintro (⟨-, h⟩ | ⟨h, -⟩)
            · exact h
            · exact absurd h hs
          · intro h; exact .inl ⟨hs, h⟩
  have := key (ts.filter (fun t => !hasErrorNode t)) [] [] (by simp) (by simp)
  refine ⟨this.1, fun s l => ?_⟩
  rw [this.2]
  simp only [List.nil_append, List.filter_filter, withSubject, Bool.and_comm]

theorem noErr_iff {t : Red} : hasErrorNode t = false ↔ ∀ x ∈ t.descendants, x.kind ≠ K.Error := by
  unfold hasErrorNode
  rw [List.any_eq_false]
  simp

theorem subject_iff {t : Red} {s : Text} : subjectText t = some s ↔
    ∃ c, t.children.head? = some c ∧ (c.kind = K.VarOrTerm ∨ c.kind = K.TriplesNodePath) ∧ c.text = s := by
  unfold subjectText Red.firstChild
  cases t.children.head? with
  | none => simp
  | some c =>
    simp only [Option.some.injEq, exists_eq_left']
    split
    · next h => simp [h]
    · next h => simp [h]

section
variable {text : Text} {g : Green} (P : Parsed text g)
include P

theorem mem_withSubject {p : Red} (hp : InTree g p) (hn : p.isNode = true) (hk : p.kind = K.GroupGraphPattern) (s : Text) (t : Red) :
    t ∈ withSubject s (patternTriples p) ↔ SubjectIn g p s t := by
  unfold withSubject SubjectIn
  rw [List.mem_filter, mem_patternTriples P hp hn hk, Bool.and_eq_true, decide_eq_true_iff, subject_iff, Bool.not_eq_true', noErr_iff]
  exact ⟨fun ⟨⟨a, b⟩, c, d⟩ => ⟨a, b, c, d⟩, fun ⟨a, b, c, d⟩ => ⟨⟨a, b⟩, c, d⟩⟩

theorem subjectIn_pattern {p t : Red} {s : Text} (h : SubjectIn g p s t) : InTree g p ∧ p.isNode = true ∧ p.kind = K.GroupGraphPattern := by
  obtain ⟨h1, ⟨-, -, h2, bs, sub, rest, h3, -⟩, -⟩ := h
  have := h1.chain p (by rw [h3]; simp)
  exact ⟨this.1, this.2, h2⟩

theorem patternTriples_nodup {p : Red} (hp : InTree g p) (hn : p.isNode = true) (hk : p.kind = K.GroupGraphPattern) :
    (patternTriples p).Nodup := by
  refine List.Pairwise.imp_of_mem ?_ (patternTriples_sorted p)
  intro a b ha _ h e
  subst e
  obtain ⟨hT, hN, hK, -⟩ := (mem_patternTriples P hp hn hk a).1 ha
  obtain ⟨b, hb, -, hm, -⟩ := triple_block P hT hN hK
  have := P.node_nonempty hT hN (by rw [child_up hm]; simp)
  have h2 : a.stop = a.start + blen a.text := rfl
  have := blen_pos this
  omega

omit P in
/-- The graph patterns of a document. -/
theorem mem_patterns {p : Red} : p ∈ (Red.root g).descendants.filter (fun p => p.kind == K.GroupGraphPattern) ↔
    InTree g p ∧ p.isNode = true ∧ p.kind = K.GroupGraphPattern := by
  rw [List.mem_filter]
  unfold Red.descendants
  rw [List.mem_filter, mem_descendantsT_root]
  simp [and_assoc]

theorem mem_groups (s : Text) (l : List Red) : (s, l) ∈ tripleGroups g ↔
    ∃ p, (InTree g p ∧ p.isNode = true ∧ p.kind = K.GroupGraphPattern) ∧ l = withSubject s (patternTriples p) ∧ 2 ≤ l.length := by
  unfold tripleGroups
  rw [List.mem_flatMap]
  constructor
  · rintro ⟨p, hp, h⟩
    obtain ⟨h1, h2⟩ := List.mem_filter.1 h
    exact ⟨p, mem_patterns.1 hp, (((groupTriples_spec _).2 s l).1 h1).1, by simpa using h2⟩
  · rintro ⟨p, hp, h1, h2⟩
    refine ⟨p, mem_patterns.2 hp, List.mem_filter.2 ⟨((groupTriples_spec _).2 s l).2 ⟨h1, ?_⟩, by simpa using h2⟩⟩
    rintro rfl; simp at h2

omit P in
theorem two_le_of_ne {l : List Red} {a b : Red} (ha : a ∈ l) (hb : b ∈ l) (h : a ≠ b) : 2 ≤ l.length := by
  match l with
  | [] => cases ha
  | [x] => simp only [List.mem_singleton] at ha hb; exact absurd (ha.trans hb.symm) h
  | x :: y :: l => simp

omit P in
theorem exists_ne_of_two {l : List Red} (hn : l.Nodup) (h : 2 ≤ l.length) (a : Red) : ∃ b ∈ l, b ≠ a := by
  match l with
  | [] => simp at h
  | [x] => simp at h
  | x :: y :: l =>
    simp only [List.nodup_cons, List.mem_cons, not_or] at hn
    by_cases e : x = a
    · exact ⟨y, by simp, fun e' => hn.1.1 (e.trans e'.symm)⟩
    · exact ⟨x, by simp, e⟩

theorem groups_nodup : ((tripleGroups g).flatMap Prod.snd).Nodup := by
  unfold tripleGroups
  refine List.pairwise_flatMap.2 ⟨?_, ?_⟩
  · rintro ⟨s, l⟩ h
    obtain ⟨p, ⟨h1, h2, h3⟩, rfl, -⟩ := (mem_groups P s l).1 h
    exact (patternTriples_nodup P h1 h2 h3).filter _
  · refine List.pairwise_flatMap.2 ⟨?_, ?_⟩
    · intro p hp
      have hk : (groupTriples ((tripleBlocks p).flatMap triplesOf)).Pairwise (fun a b => a.1 ≠ b.1) :=
        List.pairwise_map.1 (groupTriples_spec _).1
      refine List.Pairwise.imp_of_mem ?_ (hk.filter _)
      rintro ⟨s, l⟩ ⟨s', l'⟩ ha hb hne x hx y hy rfl
      have ha := (((groupTriples_spec _).2 s l).1 (List.mem_filter.1 ha).1).1
      have hb := (((groupTriples_spec _).2 s' l').1 (List.mem_filter.1 hb).1).1
      dsimp only at hx hy hne
      rw [ha] at hx; rw [hb] at hy
      have e1 : subjectText x = some s := by have := (List.mem_filter.1 hx).2; simp at this; exact this.2
      have e2 : subjectText x = some s' := by have := (List.mem_filter.1 hy).2; simp at this; exact this.2
      rw [e1] at e2
      exact hne (Option.some.inj e2)
    · refine List.Pairwise.imp_of_mem ?_ (show ((Red.root g).descendants.filter (fun p => p.kind == K.GroupGraphPattern)).Pairwise (· ≠ ·) from
        (descendants_nodup _).filter _)
      rintro p p' hp hp' hne ⟨s, l⟩ ha ⟨s', l'⟩ hb x hx y hy rfl
      have hp := mem_patterns.1 hp
      have hp' := mem_patterns.1 hp'
      have ha := (((groupTriples_spec _).2 s l).1 (List.mem_filter.1 ha).1).1
      have hb := (((groupTriples_spec _).2 s' l').1 (List.mem_filter.1 hb).1).1
      dsimp only at hx hy
      rw [ha] at hx; rw [hb] at hy
      exact hne (tripleOf_inj ((mem_withSubject P hp.1 hp.2.1 hp.2.2 s x).1 hx).2.1 ((mem_withSubject P hp'.1 hp'.2.1 hp'.2.2 s' x).1 hy).2.1)

end

/-- `t` shares its subject with another triple of the same graph pattern. -/
def Shares (g : Green) (t : Red) : Prop := ∃ p s t', t' ≠ t ∧ SubjectIn g p s t ∧ SubjectIn g p s t'

/-- The report of a triple: it marks the triple, and its data are the byte ranges of all the triples of the pattern with that
subject, in the order of the text. -/
def SharedReport (text : Text) (g : Green) (t : Red) (d : TripleDiag) : Prop :=
  Covers text t d.range ∧ d.severity = .information ∧ d.code = .sameSubject ∧
  ∃ (p : Red) (s : Text) (l : List Red), SubjectIn g p s t ∧ d.data = l.map (fun x => (x.start, x.stop)) ∧ l.Pairwise (fun a b => a.stop ≤ b.start) ∧
    ∀ t', t' ∈ l ↔ SubjectIn g p s t'

/-- **C59** For every document, the same-subject check does not panic and reports exactly the error-free triples that share
their subject with another error-free triple written directly in the same `{ .. }`, each once, with the ranges of its group. -/
theorem c59_exact (errLen : Text → Nat) (text : Text) (g errs) (hp : parseSource errLen text = some (g, errs)) :
    ∃ ts ds, sameSubject text g = some ds ∧ ts.Nodup ∧ (∀ t, t ∈ ts ↔ Shares g t) ∧ List.Forall₂ (SharedReport text g) ts ds := by
  have P := parsed_of hp
  have hmem : ∀ t, t ∈ (tripleGroups g).flatMap Prod.snd ↔ Shares g t := by
    intro t
    rw [List.mem_flatMap]
    constructor
    · rintro ⟨⟨s, l⟩, h, ht⟩
      obtain ⟨p, ⟨h1, h2, h3⟩, rfl, h4⟩ := (mem_groups P s l).1 h
      obtain ⟨t', ht', hne⟩ := exists_ne_of_two ((patternTriples_nodup P h1 h2 h3).filter _) h4 t
      exact ⟨p, s, t', hne, (mem_withSubject P h1 h2 h3 s t).1 ht, (mem_withSubject P h1 h2 h3 s t').1 ht'⟩
    · rintro ⟨p, s, t', hne, h, h'⟩
      obtain ⟨h1, h2, h3⟩ := subjectIn_pattern P h
      have ht := (mem_withSubject P h1 h2 h3 s t).2 h
      have ht' := (mem_withSubject P h1 h2 h3 s t').2 h'
      exact ⟨(s, withSubject s (patternTriples p)), (mem_groups P s _).2 ⟨p, ⟨h1, h2, h3⟩, rfl, two_le_of_ne ht' ht hne⟩, ht⟩
  have key : ∀ (L : List (List Red × Red)), (∀ x ∈ L, ∃ p s, x.1 = withSubject s (patternTriples p) ∧ InTree g p ∧ p.isNode = true ∧
      p.kind = K.GroupGraphPattern ∧ x.2 ∈ x.1) →
      ∃ ds, unwrapAll (fun x : List Red × Red => (rangeOf text x.2).map (fun r => (⟨r, .information, .sameSubject, x.1.map span⟩ : TripleDiag))) L = some ds ∧
        List.Forall₂ (SharedReport text g) (L.map Prod.snd) ds := by
    intro L
    induction L with
    | nil => intro _; exact ⟨[], rfl, .nil⟩
    | cons x L ih =>
      intro h
      obtain ⟨ds, h1, h2⟩ := ih (fun y hy => h y (List.mem_cons_of_mem _ hy))
      obtain ⟨p, s, e, hp1, hp2, hp3, hx⟩ := h x (List.mem_cons_self ..)
      obtain ⟨l, t⟩ := x
      dsimp only at e hx; subst e
      have hs := (mem_withSubject P hp1 hp2 hp3 s t).1 hx
      obtain ⟨r, h3, h4⟩ := covers_rangeOf P hs.1
      refine ⟨⟨r, .information, .sameSubject, (withSubject s (patternTriples p)).map span⟩ :: ds, by simp [unwrapAll, h1, h3], .cons ?_ h2⟩
      exact ⟨h4, rfl, rfl, p, s, _, hs, rfl, (patternTriples_sorted p).filter _, mem_withSubject P hp1 hp2 hp3 s⟩
  obtain ⟨ds, h1, h2⟩ := key ((tripleGroups g).flatMap (fun x => x.2.map (fun t => (x.2, t)))) (by
    intro x hx
    obtain ⟨⟨s, l⟩, h, hx⟩ := List.mem_flatMap.1 hx
    obtain ⟨t, ht, rfl⟩ := List.mem_map.1 hx
    obtain ⟨p, ⟨h1, h2, h3⟩, h4, -⟩ := (mem_groups P s l).1 h
    exact ⟨p, s, h4, h1, h2, h3, ht⟩)
  refine ⟨(tripleGroups g).flatMap Prod.snd, ds, h1, groups_nodup P, hmem, ?_⟩
  have : ((tripleGroups g).flatMap (fun x => x.2.map (fun t => (x.2, t)))).map Prod.snd = (tripleGroups g).flatMap Prod.snd := by
    rw [List.map_flatMap]
    congr 1
    funext x
    simp
  rw [← this]; exact h2

/-! ## A concrete document

`ASK { ?s a 1 . ?x a [a] . ?s <b> 3 OPTIONAL { ?s a 4 } ?s <c> 5 . ?x a 2 }`: the three triples of `?s` outside of the nested
pattern are a group, over two blocks; one of the triples of `?x` has an error. -/

theorem c59_cases : (∃ errs, parseSource (fun _ => 1) shareText = some (shareTree, errs)) ∧
    sameSubject shareText shareTree = some (
      [(⟨⟨0, 6⟩, ⟨0, 12⟩⟩ : Range), ⟨⟨0, 26⟩, ⟨0, 34⟩⟩, ⟨⟨0, 55⟩, ⟨0, 63⟩⟩].map (fun r =>
        ⟨r, .information, .sameSubject, [(6, 12), (26, 34), (55, 63)]⟩)) :=
  ⟨⟨_, shareTree_parse⟩, by decide +kernel⟩

end Verif.Props
