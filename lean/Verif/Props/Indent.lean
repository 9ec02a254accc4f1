import Verif.Features.Braces
import Verif.Features.Demo
import Verif.Props.Tree
/-!
# Indentation depth (C40)
-/
namespace Verif.Props
open Verif Verif.Grammar Verif.Lexer Verif.Features
open Classical

/-! ## Specification -/

/-- The token is in the head of a `GRAPH` block of quads or of a `VALUES` block: in front of the `{` of the block. -/
def InHead (t : Red) : Prop :=
  ∃ a ∈ Red.chain t.up, a.kind ∈ [K.QuadsNotTriples, K.InlineDataOneVar, K.InlineDataFull] ∧
    ∀ c ∈ a.childrenT, c.kind = K.LCurly → t.start < c.start

/-- The token is directly between the braces of `CONSTRUCT WHERE { ... }`, or one of them. -/
def InShortForm (t : Red) : Prop :=
  ∃ p, t.parent = some p ∧ p.kind = K.ConstructQuery ∧
    (∃ c ∈ p.childrenT, c.kind = K.LCurly ∧ c.start ≤ t.start) ∧ (∀ c ∈ p.childrenT, c.kind = K.RCurly → t.start ≤ c.start)

/-! ## Proofs -/

/-- A child splits the children. -/
theorem child_split {r c : Red} (h : c ∈ r.childrenT) : ∃ k pre post, r.here.green = .node k (pre ++ c.green :: post) ∧
    c.here.idx = pre.length ∧ c.start = r.start + blen (pre.map Green.text).flatten := by
  unfold Red.childrenT at h
  cases hg : r.here.green with
  | tok k t => rw [hg] at h; cases h
  | node k cs =>
    rw [hg] at h
    obtain ⟨s, hs, rfl⟩ := List.mem_map.1 h
    obtain ⟨a, b, h1, h2, h3⟩ := mem_childSites hs
    exact ⟨k, a, b, by rw [h1]; rfl, by simpa using h2, h3⟩

theorem clsOf_bracket {k : Kind} (h : clsOf k = .bracket) : k ∈ braceKinds ∧ k ∉ headerKinds := by
  unfold clsOf at h
  split at h
  · cases h
  · next h1 =>
    split at h
    · next h2 => exact ⟨h2, h1⟩
    · split at h <;> cases h

theorem clsOf_header {k : Kind} (h : clsOf k = .header) : k ∈ headerKinds := by
  unfold clsOf at h
  split at h
  · next h1 => exact h1
  · split at h
    · cases h
    · split at h <;> cases h

theorem clsOf_construct {k : Kind} (h : clsOf k = .construct) : k = K.ConstructQuery := by
  unfold clsOf at h
  split at h
  · cases h
  · split at h
    · cases h
    · split at h
      · next h3 => exact h3
      · cases h

theorem clsOf_plain {k : Kind} (h : clsOf k = .plain) : k ∉ braceKinds ∧ k ∉ headerKinds ∧ k ≠ K.ConstructQuery := by
  unfold clsOf at h
  split at h
  · cases h
  · next h1 =>
    split at h
    · cases h
    · next h2 =>
      split at h
      · cases h
      · next h3 => exact ⟨h2, h1, h3⟩

/-- The symbols in front of a child: the phase before it, and what may come there. -/
theorem run_split {k : Kind} {pre post : List Green} {x : Green} (h : Complete sparqlRules (.node k (pre ++ x :: post))) :
    ∃ p, p ≤ 2 ∧ phaseRun (clsOf k) 0 (pre.filterMap Green.sym) = some p ∧
      (∀ s, x.sym = some s → symOk (clsOf k) p s = true) ∧
      ∃ q ∈ finals (clsOf k), phaseRun (clsOf k) p ((x :: post).filterMap Green.sym) = some q := by
  obtain ⟨q, hq, e⟩ := complete_run h
  rw [List.filterMap_append, phaseRun_append, Option.bind_eq_some_iff] at e
  obtain ⟨p, e1, e2⟩ := e
  refine ⟨p, (run_counts (by omega) e1).1, e1, ?_, q, hq, e2⟩
  intro s hs
  rw [List.filterMap_cons_some hs] at e2
  simp only [phaseRun] at e2
  split at e2
  · next h => exact h
  · cases e2

theorem childSites_get {idx off : Nat} : ∀ {gs : List Green} {i : Nat} {x : Green}, gs[i]? = some x →
    ∃ o, (⟨x, idx + i, o⟩ : Site) ∈ childSites idx off gs := by
  intro gs
  induction gs generalizing idx off with
  | nil => intro i x h; cases h
  | cons g gs ih =>
    intro i x h
    cases i with
    | zero => cases h; exact ⟨off, by simp [childSites]⟩
    | succ i =>
      simp only [List.getElem?_cons_succ] at h
      obtain ⟨o, ho⟩ := ih (idx := idx + 1) (off := off + blen g.text) h
      refine ⟨o, List.mem_cons_of_mem _ ?_⟩
      rw [show idx + (i + 1) = idx + 1 + i by omega]
      exact ho

/-- The children in front of a child. -/
theorem pre_iff {r c : Red} {k : Kind} {pre post : List Green} (hg : r.here.green = .node k (pre ++ c.green :: post))
    (hi : c.here.idx = pre.length) (x : Green) : x ∈ pre ↔ ∃ d ∈ r.childrenT, d.here.idx < c.here.idx ∧ d.green = x := by
  have hch : r.childrenT = (childSites 0 r.here.off (pre ++ c.green :: post)).map (⟨·, r.here :: r.up⟩) := by
    unfold Red.childrenT; rw [hg]
  constructor
  · intro hx
    obtain ⟨i, hl, e⟩ := List.getElem_of_mem hx
    have : (pre ++ c.green :: post)[i]? = some x := by
      rw [List.getElem?_append_left hl, List.getElem?_eq_getElem hl, e]
    obtain ⟨o, ho⟩ := childSites_get (idx := 0) (off := r.here.off) this
    refine ⟨⟨⟨x, 0 + i, o⟩, r.here :: r.up⟩, ?_, ?_, rfl⟩
    · rw [hch]; exact List.mem_map.2 ⟨_, ho, rfl⟩
    · rw [hi]; show 0 + i < _; omega
  · rintro ⟨d, hd, hlt, rfl⟩
    rw [hch] at hd
    obtain ⟨s, hs, rfl⟩ := List.mem_map.1 hd
    obtain ⟨a, b, h1, h2, -⟩ := mem_childSites hs
    have hlt : s.idx < pre.length := by rw [← hi]; exact hlt
    have hget : (pre ++ c.green :: post)[a.length]? = some s.green := by rw [h1]; simp
    rw [List.getElem?_append_left (by omega)] at hget
    exact List.mem_of_getElem? hget

/-- Siblings come in the order of their offsets. -/
theorem sibling_lt {r c d : Red} (hc : c ∈ r.childrenT) (hd : d ∈ r.childrenT) (hcn : c.text ≠ []) (hdn : d.text ≠ []) :
    d.start < c.start ↔ d.here.idx < c.here.idx := by
  have pos : ∀ t : Text, t ≠ [] → 0 < blen t := by
    intro t ht
    cases t with
    | nil => exact absurd rfl ht
    | cons a t => have e : blen (a :: t) = u8 a + blen t := by simp [blen]
                  have := u8_pos a; omega
  have key : ∀ {c d : Red}, c ∈ r.childrenT → d ∈ r.childrenT → d.here.idx < c.here.idx → d.stop ≤ c.start := by
    intro c d hc hd h
    have h1 := childrenT_get hc
    have h2 := childrenT_get hd
    obtain ⟨l1, e1⟩ := List.getElem?_eq_some_iff.1 h1
    obtain ⟨l2, e2⟩ := List.getElem?_eq_some_iff.1 h2
    have := List.pairwise_iff_getElem.1 (childrenT_pairwise r) _ _ l2 l1 h
    rw [e1, e2] at this
    exact this
  have hcs : c.stop = c.start + blen c.text := rfl
  have hds : d.stop = d.start + blen d.text := rfl
  have p1 := pos _ hcn
  have p2 := pos _ hdn
  constructor
  · intro h
    rcases Nat.lt_trichotomy d.here.idx c.here.idx with h' | h' | h'
    · exact h'
    · exfalso
      have h1 := childrenT_get hc
      have h2 := childrenT_get hd
      rw [h', h1] at h2
      cases h2; omega
    · have := key hd hc h'; omega
  · intro h
    have := key hc hd h; omega

/-- The step from a node to its child. -/
structure Step (g : Green) (r c : Red) (k : Kind) (pre post : List Green) (p q : Nat) : Prop where
  green : r.here.green = .node k (pre ++ c.green :: post)
  idx : c.here.idx = pre.length
  ph : p ≤ 2
  before : phaseRun (clsOf k) 0 (pre.filterMap Green.sym) = some p
  ok : ∀ s, c.green.sym = some s → symOk (clsOf k) p s = true
  fin : q ∈ finals (clsOf k)
  after : phaseRun (clsOf k) p ((c.green :: post).filterMap Green.sym) = some q

section
variable {text : Text} {g : Green} (P : Parsed text g) (hC : ∀ n ∈ g.nodes, Complete sparqlRules n)
include hC

theorem step_of {r c : Red} (hr : InTree g r) (hc : c ∈ r.childrenT) :
    ∃ k pre post p q, Step g r c k pre post p q ∧ c.start = r.start + blen (pre.map Green.text).flatten := by
  obtain ⟨k, pre, post, h1, h2, h3⟩ := child_split hc
  have hcomp := hC _ (hr.green_mem (child_isNode hc))
  have e : r.green = .node k (pre ++ c.green :: post) := h1
  rw [e] at hcomp
  obtain ⟨p, hp, a, b, q, hq, d⟩ := run_split hcomp
  exact ⟨k, pre, post, p, q, ⟨h1, h2, hp, a, b, hq, d⟩, h3⟩

/-- An element of the tree without symbol is trivia. -/
theorem no_sym {x : Red} (hx : InTree g x) (h : x.green.sym = none) : x.isNode = false ∧ triviaKind x.kind = true := by
  have hg : x.green = x.here.green := rfl
  cases hn : x.isNode with
  | true =>
    exfalso
    have := hC _ (hx.green_mem hn)
    rw [hg] at this h
    unfold Red.isNode at hn
    cases he : x.here.green with
    | tok k t => rw [he] at hn; cases hn
    | node k cs =>
      rw [he] at this h
      obtain ⟨h1, -⟩ := this
      simp [Green.sym, h1] at h
  | false =>
    refine ⟨rfl, ?_⟩
    unfold Red.isNode at hn
    rw [hg] at h
    unfold Red.kind
    cases he : x.here.green with
    | node k t => rw [he] at hn; cases hn
    | tok k cs =>
      rw [he] at h
      simp only [Green.sym] at h
      split at h
      · next hh => exact hh
      · cases h

/-- The kind of a brace belongs to tokens only. -/
theorem brace_token {x : Red} (hx : InTree g x) {k : Kind} (hk : k = K.LCurly ∨ k = K.RCurly) :
    x.kind = k ↔ x.green.sym = some (.tok k) := by
  have hg : x.green = x.here.green := rfl
  unfold Red.kind
  cases hn : x.isNode with
  | true =>
    have := hC _ (hx.green_mem hn)
    rw [hg] at this ⊢
    unfold Red.isNode at hn
    cases he : x.here.green with
    | tok k t => rw [he] at hn; cases hn
    | node k' cs =>
      rw [he] at this
      obtain ⟨h1, rule, h2, -⟩ := this
      constructor
      · intro h
        have h : k' = k := h
        subst h
        exfalso
        rcases hk with rfl | rfl
        · exact absurd h2 (by rw [show sparqlRules K.LCurly = none by decide +kernel]; simp)
        · exact absurd h2 (by rw [show sparqlRules K.RCurly = none by decide +kernel]; simp)
      · intro h; simp [Green.sym, h1] at h
  | false =>
    unfold Red.isNode at hn
    rw [hg]
    cases he : x.here.green with
    | node k t => rw [he] at hn; cases hn
    | tok k' cs =>
      show k' = k ↔ _
      simp only [Green.sym]
      constructor
      · rintro rfl
        rcases hk with rfl | rfl <;> rfl
      · intro h
        split at h
        · cases h
        · cases h; rfl

include P in
theorem elem_nonempty {r c : Red} (hr : InTree g r) (hc : c ∈ r.childrenT) : c.text ≠ [] := by
  cases hn : c.isNode with
  | true => exact P.node_nonempty (hr.child hc) hn (by rw [child_up hc]; simp)
  | false => exact P.leaf_nonempty _ (Parsed.token_leaf (hr.child hc) hn)

variable {r c : Red} {k : Kind} {pre post : List Green} {p q : Nat}

include P in
/-- A brace in front of the child. -/
theorem step_brace (hr : InTree g r) (hc : c ∈ r.childrenT) (S : Step g r c k pre post p q) {b : Kind}
    (hb : b = K.LCurly ∨ b = K.RCurly) :
    (∃ d ∈ r.childrenT, d.kind = b ∧ d.start < c.start) ↔ 1 ≤ (pre.filterMap Green.sym).count (.tok b) := by
  rw [show (1 ≤ (pre.filterMap Green.sym).count (.tok b)) ↔ (.tok b) ∈ pre.filterMap Green.sym from List.one_le_count_iff,
    List.mem_filterMap]
  constructor
  · rintro ⟨d, hd, hk, hlt⟩
    have := (sibling_lt hc hd (elem_nonempty P hC hr hc) (elem_nonempty P hC hr hd)).1 hlt
    exact ⟨d.green, (pre_iff S.green S.idx _).2 ⟨d, hd, this, rfl⟩, (brace_token hC (hr.child hd) hb).1 hk⟩
  · rintro ⟨x, hx, hs⟩
    obtain ⟨d, hd, hlt, rfl⟩ := (pre_iff S.green S.idx _).1 hx
    exact ⟨d, hd, (brace_token hC (hr.child hd) hb).2 hs,
      (sibling_lt hc hd (elem_nonempty P hC hr hc) (elem_nonempty P hC hr hd)).2 hlt⟩

/-- The leaves in front of the child. -/
theorem step_counts (hr : InTree g r) (S : Step g r c k pre post p q) :
    opens (Green.leavesL pre) + (if 2 ≤ p then 1 else 0) = closes (Green.leavesL pre) + (if 1 ≤ p then 1 else 0) ∧
      (pre.filterMap Green.sym).count (.tok K.LCurly) = (if 1 ≤ p then 1 else 0) ∧
      (pre.filterMap Green.sym).count (.tok K.RCurly) = (if 2 ≤ p then 1 else 0) := by
  obtain ⟨-, -, c1, c2⟩ := run_counts (by omega) S.before
  simp only [show ¬ (1 ≤ 0) by omega, show ¬ (2 ≤ 0) by omega, if_false, Nat.add_zero] at c1 c2
  refine ⟨?_, c1, c2⟩
  rw [← c1, ← c2]
  apply leavesL_counts
  intro k' ds hm
  obtain ⟨d, hd, -, he⟩ := (pre_iff S.green S.idx _).1 hm
  have hdn : d.isNode = true := by
    unfold Red.isNode
    have : d.here.green = .node k' ds := he
    rw [this]
  refine balanced (g := Green.node k' ds) ?_ k' ds rfl
  intro n hn
  have hmem := (hr.child hd).green_mem hdn
  rw [he] at hmem
  exact hC n (nodes_trans hmem hn)

/-- Children without symbol have only trivia below them. -/
theorem trivia_leaves (hr : InTree g r) {l cs : List Green} (hg : r.here.green = .node k cs) (hl : ∀ x ∈ l, x ∈ cs)
    (hs : l.filterMap Green.sym = []) : ∀ y ∈ Green.leavesL l, triviaKind y.1 = true := by
  intro y hy
  obtain ⟨x, hx, hyx⟩ := leavesL_mem.1 hy
  have hsx : x.sym = none := by
    cases h : x.sym with
    | none => rfl
    | some s =>
      have : s ∈ l.filterMap Green.sym := List.mem_filterMap.2 ⟨x, hx, h⟩
      rw [hs] at this; cases this
  obtain ⟨i, hi⟩ := List.getElem?_of_mem (hl x hx)
  obtain ⟨o, ho⟩ := childSites_get (idx := 0) (off := r.here.off) hi
  have hd : (⟨⟨x, 0 + i, o⟩, r.here :: r.up⟩ : Red) ∈ r.childrenT := by
    unfold Red.childrenT; rw [hg]; exact List.mem_map.2 ⟨_, ho, rfl⟩
  obtain ⟨h1, h2⟩ := no_sym hC (hr.child hd) hsx
  have h2 : triviaKind x.kind = true := h2
  cases x with
  | node k' ds => cases h1
  | tok k' t =>
    simp only [Green.leaves, List.mem_singleton] at hyx
    subst hyx; exact h2

include P in
/-- A node with braces starts and ends with them. -/
theorem trivia_inside (hr : InTree g r) (hcc : c ∈ r.childrenT) (S : Step g r c k pre post p q) (hc : c.green.sym = none)
    (hk : clsOf k = .bracket ∨ clsOf k = .header) : p ≠ 2 ∧ (clsOf k = .bracket → p ≠ 0) := by
  have hup : r.up ≠ [] := by
    intro h
    have := hr.root_of_up h
    subst this
    have hgk : g.kind = k := by
      have := S.green
      simp only [Red.root] at this
      rw [this]; rfl
    rcases P.root with h | h <;> rw [← hgk, h] at hk <;> exact absurd hk (by decide +kernel)
  have hn : r.isNode = true := by unfold Red.isNode; rw [S.green]
  obtain ⟨⟨a1, t1, l1, e1, n1⟩, ⟨a2, t2, l2, e2, n2⟩⟩ := P.tight _ (P.inner_of hr hn hup)
  have hleaves : r.green.leaves = Green.leavesL (pre ++ c.green :: post) := by
    have : r.green = .node k (pre ++ c.green :: post) := S.green
    rw [this]; rfl
  rw [hleaves] at e1 e2
  have hcne : c.green.leaves ≠ [] := by
    intro h
    apply elem_nonempty P hC hr hcc
    rw [← flat_leaves, h]; rfl
  constructor
  · rintro rfl
    have hpost : (c.green :: post).filterMap Green.sym = [] := by
      have := S.after
      generalize (c.green :: post).filterMap Green.sym = w at this
      cases w with
      | nil => rfl
      | cons s w =>
        simp only [phaseRun] at this
        rcases hk with h | h <;> rw [h] at this <;> simp [symOk] at this
    have htr := trivia_leaves hC hr S.green (l := c.green :: post) (fun x hx => List.mem_append_right _ hx) hpost
    rw [leavesL_append] at e2
    have hne : Green.leavesL (c.green :: post) ≠ [] := by
      simp only [Green.leavesL]
      intro h
      exact hcne (List.append_eq_nil_iff.1 h).1
    have hlast : (a2, t2) ∈ Green.leavesL (c.green :: post) := by
      have := congrArg List.getLast? e2
      rw [List.getLast?_append_of_ne_nil _ hne, List.getLast?_append_of_ne_nil _ (by simp)] at this
      exact List.mem_of_getLast? this
    rw [htr _ hlast] at n2; cases n2
  · rintro hb rfl
    have hpre : pre.filterMap Green.sym = [] := by
      have := S.before
      obtain ⟨-, -, c1, -⟩ := run_counts (by omega) this
      generalize pre.filterMap Green.sym = w at this c1
      cases w with
      | nil => rfl
      | cons s w =>
        simp only [phaseRun] at this
        split at this
        · next h =>
          rw [hb] at h
          simp only [symOk, beq_iff_eq] at h
          subst h
          simp at c1
        · cases this
    have hpre' : (pre ++ [c.green]).filterMap Green.sym = [] := by
      rw [List.filterMap_append, hpre]; simp [hc]
    have htr := trivia_leaves hC hr S.green (l := pre ++ [c.green]) (fun x hx => by
      rw [List.mem_append, List.mem_singleton] at hx
      rcases hx with h | rfl
      · exact List.mem_append_left _ h
      · simp) hpre'
    rw [show pre ++ c.green :: post = (pre ++ [c.green]) ++ post by simp, leavesL_append] at e1
    have hne : Green.leavesL (pre ++ [c.green]) ≠ [] := by
      rw [leavesL_append]
      intro h
      have := (List.append_eq_nil_iff.1 h).2
      simp only [Green.leavesL, List.append_nil] at this
      exact hcne this
    have hfirst : (a1, t1) ∈ Green.leavesL (pre ++ [c.green]) := by
      generalize Green.leavesL (pre ++ [c.green]) = w at e1 hne
      cases w with
      | nil => exact absurd rfl hne
      | cons x w => simp only [List.cons_append, List.cons.injEq] at e1; rw [e1.1]; exact List.mem_cons_self ..
    rw [htr _ hfirst] at n1; cases n1

/-- A `{` at or in front of the child. -/
def opened (c : Red) (p : Nat) : Prop := 1 ≤ p ∨ c.kind = K.LCurly

instance (c : Red) (p : Nat) : Decidable (opened c p) := inferInstanceAs (Decidable (_ ∨ _))

include P in
theorem opened_iff (hr : InTree g r) (hc : c ∈ r.childrenT) (S : Step g r c k pre post p q) :
    opened c p ↔ ∃ d ∈ r.childrenT, d.kind = K.LCurly ∧ d.start ≤ c.start := by
  obtain ⟨-, c1, -⟩ := step_counts hC hr S
  have hb := step_brace P hC hr hc S (Or.inl (rfl : K.LCurly = K.LCurly))
  rw [c1] at hb
  have hb : (∃ d ∈ r.childrenT, d.kind = K.LCurly ∧ d.start < c.start) ↔ 1 ≤ p := by
    rw [hb]; split <;> omega
  unfold opened
  rw [← hb]
  constructor
  · rintro (⟨d, h1, h2, h3⟩ | h)
    · exact ⟨d, h1, h2, by omega⟩
    · exact ⟨c, hc, h, Nat.le_refl _⟩
  · rintro ⟨d, h1, h2, h3⟩
    by_cases hlt : d.start < c.start
    · exact Or.inl ⟨d, h1, h2, hlt⟩
    · right
      have e : d.start = c.start := by omega
      have i1 := (sibling_lt hc h1 (elem_nonempty P hC hr hc) (elem_nonempty P hC hr h1)).not
      have i2 := (sibling_lt h1 hc (elem_nonempty P hC hr h1) (elem_nonempty P hC hr hc)).not
      have j1 := i1.1 (by omega)
      have j2 := i2.1 (by omega)
      have he : d.here.idx = c.here.idx := by omega
      have g1 := childrenT_get h1
      have g2 := childrenT_get hc
      rw [he, g2] at g1
      cases g1; exact h2

include P in
theorem closed_iff (hr : InTree g r) (hc : c ∈ r.childrenT) (S : Step g r c k pre post p q) :
    p ≠ 2 ↔ ∀ d ∈ r.childrenT, d.kind = K.RCurly → c.start ≤ d.start := by
  obtain ⟨-, -, c2⟩ := step_counts hC hr S
  have hb := step_brace P hC hr hc S (Or.inr (rfl : K.RCurly = K.RCurly))
  rw [c2] at hb
  have hph := S.ph
  have hb : (∃ d ∈ r.childrenT, d.kind = K.RCurly ∧ d.start < c.start) ↔ p = 2 := by
    rw [hb]; split <;> omega
  rw [Ne, ← hb]
  constructor
  · intro h d h1 h2
    exact Nat.le_of_not_lt (fun hlt => h ⟨d, h1, h2, hlt⟩)
  · rintro h ⟨d, h1, h2, h3⟩
    have := h d h1 h2; omega

/-- `prev_kind` below a parent. -/
def prevOf (c : Red) : Option Kind := if c.isNode then some c.kind else none

/-- The symbol of an element. -/
theorem sym_cases (hc : InTree g c) : (c.green.sym = none ∧ c.isNode = false) ∨
    (c.green.sym = some (.node c.kind) ∧ c.isNode = true) ∨ (c.green.sym = some (.tok c.kind) ∧ c.isNode = false) := by
  cases h : c.green.sym with
  | none => exact Or.inl ⟨rfl, (no_sym hC hc h).1⟩
  | some s =>
    right
    have hg : c.green = c.here.green := rfl
    rw [hg] at h
    unfold Red.isNode Red.kind
    cases he : c.here.green with
    | tok k t =>
      rw [he] at h
      simp only [Green.sym] at h
      split at h
      · cases h
      · cases h; exact Or.inr ⟨rfl, rfl⟩
    | node k t =>
      rw [he] at h
      simp only [Green.sym] at h
      split at h
      · cases h
      · cases h; exact Or.inl ⟨rfl, rfl⟩

include P in
/-- What one level adds. -/
theorem step_depth (hr : InTree g r) (hc : c ∈ r.childrenT) (S : Step g r c k pre post p q) :
    depthOf (prevOf c) k + closes (Green.leavesL pre) +
        (if k = K.ConstructQuery ∧ c.isNode = false ∧ opened c p ∧ p ≠ 2 then 1 else 0) =
      opens (Green.leavesL pre) + (if c.kind = K.LCurly then 1 else 0) +
        (if k ∈ headerKinds ∧ ¬ opened c p then 1 else 0) := by
  obtain ⟨c0, -, -⟩ := step_counts hC hr S
  have hin := hr.child hc
  have hL := brace_token hC hin (Or.inl (rfl : K.LCurly = K.LCurly))
  have hR := brace_token hC hin (Or.inr (rfl : K.RCurly = K.RCurly))
  have hph := S.ph
  have hok := S.ok
  have hsc := sym_cases hC hin
  have hcase : p = 0 ∨ p = 1 ∨ p = 2 := by omega
  cases hcl : clsOf k with
  | bracket =>
    obtain ⟨h1, h2⟩ := clsOf_bracket hcl
    have h3 : k ≠ K.ConstructQuery := by rintro rfl; exact absurd h1 (by decide)
    have hd : depthOf (prevOf c) k = 1 := by unfold depthOf; rw [if_pos h1]
    rw [hd, if_neg (fun h => h3 h.1), if_neg (fun h : k ∈ headerKinds ∧ _ => h2 h.1)]
    rw [hcl] at hok
    rcases hsc with ⟨hs, -⟩ | ⟨hs, -⟩ | ⟨hs, -⟩
    · obtain ⟨a, b⟩ := trivia_inside P hC hr hc S hs (Or.inl hcl)
      have b := b hcl
      have : p = 1 := by omega
      subst this
      rw [if_neg (fun h => by rw [hL, hs] at h; cases h)]
      simp only [show ¬ (2 ≤ 1) by omega, Nat.le_refl, if_false, if_true] at c0
      omega
    · have := hok _ hs
      rw [if_neg (fun h => by rw [hL, hs] at h; cases h)]
      rcases hcase with rfl | rfl | rfl
      · simp [symOk] at this
      · simp only [show ¬ (2 ≤ 1) by omega, Nat.le_refl, if_false, if_true] at c0; omega
      · simp [symOk] at this
    · have := hok _ hs
      rcases hcase with rfl | rfl | rfl
      · have hk : c.kind = K.LCurly := by simpa [symOk] using this
        rw [if_pos hk]
        simp at c0; omega
      · have hk : c.kind ≠ K.LCurly := by simpa [symOk] using this
        rw [if_neg hk]
        simp only [show ¬ (2 ≤ 1) by omega, Nat.le_refl, if_false, if_true] at c0; omega
      · simp [symOk] at this
  | header =>
    have h1 := clsOf_header hcl
    have h3 : k ≠ K.ConstructQuery := by rintro rfl; exact absurd h1 (by decide)
    have hd : depthOf (prevOf c) k = 1 := by
      unfold depthOf; rw [if_pos]
      revert h1; simp only [headerKinds, braceKinds, List.mem_cons, List.not_mem_nil, or_false]
      rintro (h | h | h) <;> simp [h]
    rw [hd, if_neg (fun h => h3 h.1)]
    rw [hcl] at hok
    have hp2 : p ≠ 2 := by
      rintro rfl
      rcases hsc with ⟨hs, -⟩ | ⟨hs, -⟩ | ⟨hs, -⟩
      · exact (trivia_inside P hC hr hc S hs (Or.inr hcl)).1 rfl
      · have := hok _ hs; simp [symOk] at this
      · have := hok _ hs; simp [symOk] at this
    have hcase : p = 0 ∨ p = 1 := by omega
    rcases hcase with rfl | rfl
    · simp at c0
      by_cases hk : c.kind = K.LCurly
      · have ho : opened c 0 := Or.inr hk
        rw [if_pos hk, if_neg (show ¬ (k ∈ headerKinds ∧ ¬ opened c _) from fun h => h.2 ho)]; omega
      · have ho : ¬ opened c 0 := by rintro (h | h); omega; exact hk h
        rw [if_neg hk, if_pos ⟨h1, ho⟩]; omega
    · simp only [show ¬ (2 ≤ 1) by omega, Nat.le_refl, if_false, if_true] at c0
      have ho : opened c 1 := Or.inl (Nat.le_refl _)
      have hk : c.kind ≠ K.LCurly := by
        intro h
        have := hok _ (hL.1 h)
        simp [symOk] at this
      rw [if_neg hk, if_neg (show ¬ (k ∈ headerKinds ∧ ¬ opened c _) from fun h => h.2 ho)]; omega
  | construct =>
    have h1 := clsOf_construct hcl
    subst h1
    rw [if_neg (fun h : K.ConstructQuery ∈ headerKinds ∧ _ => absurd h.1 (by decide))]
    rw [hcl] at hok
    have hdt : c.isNode = false → depthOf (prevOf c) K.ConstructQuery = 0 := by
      intro h; unfold prevOf; rw [h, if_neg (by simp)]; decide
    rcases hsc with ⟨hs, hn⟩ | ⟨hs, hn⟩ | ⟨hs, hn⟩
    · have hk : c.kind ≠ K.LCurly := fun h => by rw [hL, hs] at h; cases h
      rw [hdt hn, if_neg hk]
      rcases hcase with rfl | rfl | rfl
      · rw [if_neg (fun h => h.2.2.1.elim (by omega) hk)]; simp at c0; omega
      · rw [if_pos ⟨rfl, hn, Or.inl (Nat.le_refl _), by omega⟩]
        simp only [show ¬ (2 ≤ 1) by omega, Nat.le_refl, if_false, if_true] at c0; omega
      · rw [if_neg (fun h => h.2.2.2 rfl)]
        simp at c0; omega
    · have hk : c.kind ≠ K.LCurly := fun h => by rw [hL, hs] at h; cases h
      have ho := hok _ hs
      have hd : depthOf (prevOf c) K.ConstructQuery = if c.kind = K.TriplesTemplate then 1 else 0 := by
        unfold prevOf depthOf
        rw [hn, if_neg (by decide)]
        by_cases h : c.kind = K.TriplesTemplate <;> simp [h]
      rw [hd, if_neg hk, if_neg (show ¬ (K.ConstructQuery = K.ConstructQuery ∧ c.isNode = false ∧ opened c p ∧ p ≠ 2) from fun h => by rw [hn] at h; cases h.2.1)]
      rcases hcase with rfl | rfl | rfl
      · have : c.kind ≠ K.TriplesTemplate := by simpa [symOk] using ho
        rw [if_neg this]; simp at c0; omega
      · have : c.kind = K.TriplesTemplate := by simpa [symOk] using ho
        rw [if_pos this]
        simp only [show ¬ (2 ≤ 1) by omega, Nat.le_refl, if_false, if_true] at c0; omega
      · have : c.kind ≠ K.TriplesTemplate := by simpa [symOk] using ho
        rw [if_neg this]; simp at c0; omega
    · have ho := hok _ hs
      rw [hdt hn]
      rcases hcase with rfl | rfl | rfl
      · simp at c0
        by_cases hk : c.kind = K.LCurly
        · rw [if_pos hk, if_pos ⟨rfl, hn, Or.inr hk, by omega⟩]; omega
        · rw [if_neg hk, if_neg (fun h => h.2.2.1.elim (by omega) hk)]; omega
      · have hk : c.kind = K.RCurly := by simpa [symOk] using ho
        have hk' : c.kind ≠ K.LCurly := by rw [hk]; decide
        rw [if_neg hk', if_pos ⟨rfl, hn, Or.inl (Nat.le_refl _), by omega⟩]
        simp only [show ¬ (2 ≤ 1) by omega, Nat.le_refl, if_false, if_true] at c0; omega
      · have hk : c.kind ≠ K.LCurly := by
          intro h; rw [h] at ho; exact absurd ho (by decide)
        rw [if_neg hk, if_neg (fun h => h.2.2.2 rfl)]
        simp at c0; omega
  | plain =>
    obtain ⟨h1, h2, h3⟩ := clsOf_plain hcl
    have hd : depthOf (prevOf c) k = 0 := by unfold depthOf; rw [if_neg h1, if_neg (fun h => h3 h.1)]
    have hk : c.kind ≠ K.LCurly := by
      intro h
      have := hok _ (hL.1 h)
      rw [hcl] at this
      simp [symOk] at this
    rw [hd, if_neg (fun h => h3 h.1), if_neg (fun h : k ∈ headerKinds ∧ _ => h2 h.1), if_neg hk]
    have hp : p = 0 := by
      have hb := S.before
      rw [hcl] at hb
      have : ∀ (w : List Sym) p', phaseRun .plain 0 w = some p' → p' = 0 := by
        intro w
        induction w with
        | nil => intro p' h; cases h; rfl
        | cons s w ih =>
          intro p' h
          simp only [phaseRun] at h
          split at h
          · next hs =>
            simp only [symOk, Bool.and_eq_true, bne_iff_ne] at hs
            have : phaseStep 0 s = 0 := by simp [phaseStep, hs.1, hs.2]
            rw [this] at h; exact ih p' h
          · cases h
      exact this _ _ hb
    subst hp
    simp at c0; omega

omit hC in
theorem chain_child {x a : Red} (hx : InTree g x) (ha : a ∈ Red.chain x.up) : ∃ e ∈ a.childrenT, e ∈ x.ancestors := by
  induction hx with
  | root => cases ha
  | @child r c hr hc ih =>
    rw [parent_chain (child_parent hc)] at ha
    have hanc : c.ancestors = c :: r.ancestors := by
      unfold Red.ancestors; rw [parent_chain (child_parent hc)]
    rw [hanc]
    rcases List.mem_cons.1 ha with rfl | ha
    · exact ⟨c, hc, List.mem_cons_self ..⟩
    · obtain ⟨e, h1, h2⟩ := ih ha
      exact ⟨e, h1, List.mem_cons_of_mem _ h2⟩

include P in
/-- Being in front of a brace of an outer node. -/
theorem outer_brace (hr : InTree g r) (hc : c ∈ r.childrenT) {a d : Red} (ha : a ∈ Red.chain r.up) (hd : d ∈ a.childrenT)
    (hk : d.kind = K.LCurly) : c.start < d.start ↔ r.start < d.start := by
  have hat := (hr.chain a ha).1
  obtain ⟨e, he1, he2⟩ := chain_child hr ha
  have hen : e.isNode = true := by
    rcases List.mem_cons.1 he2 with rfl | h
    · exact child_isNode hc
    · exact (hr.chain e h).2
  have hdn : d.isNode = false := by
    have := (brace_token hC (hat.child hd) (Or.inl (rfl : K.LCurly = K.LCurly))).1 hk
    rcases sym_cases hC (hat.child hd) with ⟨_, h⟩ | ⟨h, _⟩ | ⟨_, h⟩
    · exact h
    · rw [h] at this; cases this
    · exact h
  have hne : d.here.idx ≠ e.here.idx := by
    intro h
    have g1 := childrenT_get hd
    have g2 := childrenT_get he1
    rw [h, g2] at g1
    cases g1
    rw [hen] at hdn; cases hdn
  have w1 := hr.anc_within e he2
  have w2 := child_within hc
  have s1 := sibling_lt he1 hd (elem_nonempty P hC hat he1) (elem_nonempty P hC hat hd)
  have s2 := sibling_lt hd he1 (elem_nonempty P hC hat hd) (elem_nonempty P hC hat he1)
  have hpw := childrenT_pairwise a
  have key : ∀ {c d : Red}, c ∈ a.childrenT → d ∈ a.childrenT → d.here.idx < c.here.idx → d.stop ≤ c.start := by
    intro c d hc hd h
    obtain ⟨l1, e1⟩ := List.getElem?_eq_some_iff.1 (childrenT_get hc)
    obtain ⟨l2, e2⟩ := List.getElem?_eq_some_iff.1 (childrenT_get hd)
    have := List.pairwise_iff_getElem.1 hpw _ _ l2 l1 h
    rw [e1, e2] at this
    exact this
  have hcpos : c.start < c.stop := by
    have := elem_nonempty P hC hr hc
    show c.start < c.start + blen c.text
    cases ht : c.text with
    | nil => exact absurd ht this
    | cons x t => have e : blen (x :: t) = u8 x + blen t := by simp [blen]
                  have := u8_pos x; omega
  unfold Within at w1 w2
  rcases Nat.lt_or_gt_of_ne hne with h | h
  · have := s1.2 h; omega
  · have := key hd he1 h
    constructor <;> intro <;> omega

include P in
theorem inHead_child (hr : InTree g r) (hc : c ∈ r.childrenT) (S : Step g r c k pre post p q) :
    InHead c ↔ InHead r ∨ (k ∈ headerKinds ∧ ¬ opened c p) := by
  have hk : r.kind = k := by show r.here.green.kind = k; rw [S.green]; rfl
  unfold InHead
  rw [parent_chain (child_parent hc), opened_iff P hC hr hc S]
  constructor
  · rintro ⟨a, ha, h1, h2⟩
    rcases List.mem_cons.1 ha with rfl | ha
    · refine Or.inr ⟨by rw [← hk]; exact h1, ?_⟩
      rintro ⟨d, hd, hdk, hle⟩
      have := h2 d hd hdk; omega
    · exact Or.inl ⟨a, ha, h1, fun d hd hdk => (outer_brace P hC hr hc ha hd hdk).1 (h2 d hd hdk)⟩
  · rintro (⟨a, ha, h1, h2⟩ | ⟨h1, h2⟩)
    · exact ⟨a, List.mem_cons_of_mem _ ha, h1, fun d hd hdk => (outer_brace P hC hr hc ha hd hdk).2 (h2 d hd hdk)⟩
    · refine ⟨r, List.mem_cons_self .., by rw [hk]; exact h1, fun d hd hdk => ?_⟩
      exact Nat.lt_of_not_le (fun hle => h2 ⟨d, hd, hdk, hle⟩)

include P in
theorem inShort_child (hr : InTree g r) (hc : c ∈ r.childrenT) (S : Step g r c k pre post p q) :
    InShortForm c ↔ k = K.ConstructQuery ∧ opened c p ∧ p ≠ 2 := by
  have hk : r.kind = k := by show r.here.green.kind = k; rw [S.green]; rfl
  unfold InShortForm
  rw [opened_iff P hC hr hc S, closed_iff P hC hr hc S, child_parent hc]
  constructor
  · rintro ⟨_, ⟨⟩, h1, h2, h3⟩; exact ⟨by rw [← hk]; exact h1, h2, h3⟩
  · rintro ⟨h1, h2, h3⟩; exact ⟨r, rfl, by rw [hk]; exact h1, h2, h3⟩

include P in
theorem depth_inv {x : Red} (hx : InTree g x) : ∃ A B h s, g.leaves = A ++ x.green.leaves ++ B ∧ x.start = blen (flat A) ∧
    ((h = 1 ∧ InHead x) ∨ (h = 0 ∧ ¬ InHead x)) ∧
    ((s = 1 ∧ x.isNode = false ∧ InShortForm x) ∨ (s = 0 ∧ ¬ (x.isNode = false ∧ InShortForm x))) ∧
    (InHead x → x.isNode = true → x.kind ∈ headKinds) ∧
    depthLoop (prevOf x) (Red.chain x.up) + closes A + s = opens A + (if x.kind = K.LCurly then 1 else 0) + h := by
  induction hx with
  | root =>
    have hnh : ¬ InHead (Red.root g) := by rintro ⟨a, ha, -⟩; cases ha
    have hns : ¬ InShortForm (Red.root g) := by rintro ⟨a, ha, -⟩; cases ha
    refine ⟨[], [], 0, 0, by simp [Red.green, Red.root], rfl, Or.inr ⟨rfl, hnh⟩, Or.inr ⟨rfl, fun h => hns h.2⟩, fun h => absurd h hnh, ?_⟩
    have : (Red.root g).kind ≠ K.LCurly := by
      show g.kind ≠ _
      rcases P.root with h | h <;> rw [h] <;> decide
    rw [if_neg this]; rfl
  | @child r c hr hc ih =>
    obtain ⟨A, B, h, s, e1, e2, hh, hs, hhk, e3⟩ := ih
    obtain ⟨k, pre, post, p, q, S, hst⟩ := step_of hC hr hc
    have hrn := child_isNode hc
    have hk : r.kind = k := by show r.here.green.kind = k; rw [S.green]; rfl
    have hs0 : s = 0 := by
      rcases hs with ⟨-, h1, -⟩ | ⟨h1, -⟩
      · rw [hrn] at h1; cases h1
      · exact h1
    have hrk : r.kind ≠ K.LCurly := by
      intro h
      have := (brace_token hC hr (Or.inl (rfl : K.LCurly = K.LCurly))).1 h
      rcases sym_cases hC hr with ⟨h1, _⟩ | ⟨h1, _⟩ | ⟨_, h1⟩
      · rw [h1] at this; cases this
      · rw [h1] at this; cases this
      · rw [hrn] at h1; cases h1
    subst hs0
    rw [if_neg hrk] at e3
    have hd := step_depth P hC hr hc S
    have hprev : prevOf r = some r.kind := by unfold prevOf; rw [hrn]; rfl
    have hflat : flat (Green.leavesL pre) = (pre.map Green.text).flatten := by
      clear * -
      induction pre with
      | nil => rfl
      | cons x xs ih => rw [Green.leavesL, flat_append, ih]; rfl
    have hexcl : InHead r → k ∉ headerKinds := by
      intro h1 h2
      have := hhk h1 hrn
      rw [hk] at this
      revert this h2
      simp only [headKinds, headerKinds, List.mem_cons, List.not_mem_nil, or_false]
      rintro (h | h | h) <;> subst h <;> decide
    have hhd := inHead_child P hC hr hc S
    refine ⟨A ++ Green.leavesL pre, Green.leavesL post ++ B, if InHead c then 1 else 0,
      if k = K.ConstructQuery ∧ c.isNode = false ∧ opened c p ∧ p ≠ 2 then 1 else 0, ?_, ?_, ?_, ?_, ?_, ?_⟩
    · rw [e1]
      have : r.green = .node k (pre ++ c.green :: post) := S.green
      rw [this, Green.leaves, leavesL_append]
      simp [Green.leavesL]
    · rw [hst, e2, flat_append, blen_append, hflat]
    · by_cases h : InHead c <;> simp [h]
    · have := inShort_child P hC hr hc S
      by_cases hx : k = K.ConstructQuery ∧ c.isNode = false ∧ opened c p ∧ p ≠ 2
      · rw [if_pos hx]; exact Or.inl ⟨rfl, hx.2.1, this.2 ⟨hx.1, hx.2.2⟩⟩
      · rw [if_neg hx]
        refine Or.inr ⟨rfl, fun hy => hx ?_⟩
        obtain ⟨a, b⟩ := this.1 hy.2
        exact ⟨a, hy.1, b⟩
    · intro h1 h2
      have hsym : c.green.sym = some (.node c.kind) := by
        rcases sym_cases hC (hr.child hc) with ⟨_, h⟩ | ⟨h, _⟩ | ⟨_, h⟩
        · rw [h2] at h; cases h
        · exact h
        · rw [h2] at h; cases h
      rcases hhd.1 h1 with h3 | ⟨h3, h4⟩
      · have hrh := hhk h3 hrn
        have hE : r.kind ≠ K.Error := by rw [hk]; exact (by
          have := hC _ (hr.green_mem hrn)
          have e : r.green = .node k (pre ++ c.green :: post) := S.green
          rw [e] at this; exact this.1)
        have hcs := P.child_sym hr hc
        rw [if_neg hE] at hcs
        rcases hcs with hcs | ⟨R, s, hR, hsy, hmem⟩
        · rw [hcs] at hsym; cases hsym
        · rw [hsym] at hsy; cases hsy
          have := List.all_eq_true.1 headKinds_closed _ (KTree.find_mem _ _ _ hR)
          dsimp only at this
          rw [Bool.or_eq_true] at this
          rcases this with h | h
          · rw [Bool.not_eq_true', ← Bool.not_eq_true, List.contains_iff_mem] at h
            exact absurd hrh h
          · have := List.all_eq_true.1 h _ hmem
            exact List.contains_iff_mem.1 this
      · have hcl : clsOf k = .header := by unfold clsOf; rw [if_pos h3]
        have hp0 : p = 0 := by
          unfold opened at h4; omega
        have := S.ok _ hsym
        rw [hcl, hp0] at this
        exact List.contains_iff_mem.1 this
    · have ec : Red.chain c.up = r :: Red.chain r.up := parent_chain (child_parent hc)
      rw [ec]
      simp only [depthLoop]
      rw [hprev] at e3
      rw [closes_append, opens_append, hk]
      rw [hk] at e3
      have hhc : (if InHead c then 1 else 0) = h + (if k ∈ headerKinds ∧ ¬ opened c p then 1 else 0) := by
        rcases hh with ⟨rfl, h1⟩ | ⟨rfl, h1⟩
        · rw [if_pos (hhd.2 (Or.inl h1)), if_neg (fun h => hexcl h1 h.1)]
        · by_cases hy : k ∈ headerKinds ∧ ¬ opened c p
          · rw [if_pos (hhd.2 (Or.inr hy)), if_pos hy]
          · rw [if_neg (fun h => (hhd.1 h).elim h1 hy), if_neg hy]
      rw [hhc]
      omega

end

/-! ## Theorems -/

/-- Number of `{` tokens that start at or before the offset. -/
def openedAt (tokens : List Tok) (o : Nat) : Nat := tokens.countP (fun x => x.kind == K.LCurly && decide (x.start ≤ o))
/-- Number of `}` tokens that start before the offset. -/
def closedAt (tokens : List Tok) (o : Nat) : Nat := tokens.countP (fun x => x.kind == K.RCurly && decide (x.start < o))

/-- The trees of valid documents are complete. -/
theorem complete_of {errLen : Text → Nat} {text : Text} {g errs} (hp : parseSource errLen text = some (g, errs))
    (hd : Derives sparqlRules (.node g.kind) (kinds (lex errLen text))) : ∀ n ∈ g.nodes, Complete sparqlRules n := by
  have key : ∀ e : Entry, parseText e (lex errLen text) = some (g, errs) → g.kind = e.kind := by
    intro e h
    obtain ⟨F0, cs, h1, h2, hg, -⟩ := parseText_some (c47_lossless errLen text) h
    rw [hg]; rfl
  unfold parseSource parseDocument at hp
  split at hp <;>
  · have hk := key _ hp
    rw [hk] at hd
    exact c49_complete _ text _ (c47_lossless errLen text) hd g errs hp

theorem count_at {P Q : Tok → Bool} : ∀ {o : Nat} {A : List Tok} {x : Tok} {B : List Tok}, TilesFrom o (A ++ x :: B) →
    (∀ t ∈ A ++ x :: B, t.text ≠ []) →
    (A ++ x :: B).countP (fun y => P y && decide (y.start ≤ x.start)) = A.countP P + (if P x then 1 else 0) ∧
    (A ++ x :: B).countP (fun y => Q y && decide (y.start < x.start)) = A.countP Q := by
  have pos : ∀ t : Text, t ≠ [] → 0 < blen t := by
    intro t ht
    cases t with
    | nil => exact absurd rfl ht
    | cons a t => have e : blen (a :: t) = u8 a + blen t := by simp [blen]
                  have := u8_pos a; omega
  have le : ∀ {B : List Tok} {o}, TilesFrom o B → ∀ y ∈ B, o ≤ y.start := by
    intro B
    induction B with
    | nil => intro o _ y hy; cases hy
    | cons b B ih =>
      intro o h y hy
      obtain ⟨h1, h2, h3⟩ := h
      rcases List.mem_cons.1 hy with rfl | hy
      · omega
      · have := ih h3 y hy; omega
  intro o A x B h hne
  induction A generalizing o with
  | nil =>
    obtain ⟨h1, h2, h3⟩ := h
    have hx := pos _ (hne x (by simp))
    have hB : ∀ y ∈ B, x.start < y.start := fun y hy => by have := le h3 y hy; omega
    simp only [List.nil_append, List.countP_nil, List.countP_cons]
    constructor
    · rw [List.countP_eq_zero.2]
      · simp
      · intro y hy
        have := hB y hy
        simp; omega
    · rw [List.countP_eq_zero.2]
      · simp
      · intro y hy
        have := hB y hy
        simp; omega
  | cons a A ih =>
    obtain ⟨h1, h2, h3⟩ := h
    obtain ⟨i1, i2⟩ := ih h3 (fun t ht => hne t (List.mem_cons_of_mem _ ht))
    have ha := pos _ (hne a (by simp))
    have hx : a.start < x.start := by have := le h3 x (by simp); omega
    simp only [List.cons_append, List.countP_cons, i1, i2]
    have d1 : decide (a.start ≤ x.start) = true := by simp; omega
    have d2 : decide (a.start < x.start) = true := by simp; omega
    rw [d1, d2]
    simp only [Bool.and_true]
    constructor
    · omega
    · trivial

/-- **C40.** In a valid document the indentation depth of a token is the number of blocks open at it (`{` up to and
including the token, minus `}` in front of it), except: in the head of a `GRAPH` block of quads or of a `VALUES` block, in
front of its `{`, it is one more; and between the braces of `CONSTRUCT WHERE { }` but outside the triples it is one less. -/
theorem c40_depth (errLen : Text → Nat) (text : Text) (g errs) (hp : parseSource errLen text = some (g, errs))
    (hd : Derives sparqlRules (.node g.kind) (kinds (lex errLen text))) (t : Red) (ht : InTree g t) (hn : t.isNode = false) :
    (¬ InHead t → ¬ InShortForm t →
      braceDepth t + closedAt (lex errLen text) t.start = openedAt (lex errLen text) t.start) ∧
    (InHead t → braceDepth t + closedAt (lex errLen text) t.start = openedAt (lex errLen text) t.start + 1) ∧
    (InShortForm t → braceDepth t + closedAt (lex errLen text) t.start + 1 = openedAt (lex errLen text) t.start) := by
  have P := parsed_of hp
  have hC := complete_of hp hd
  obtain ⟨A, B, h, s, e1, e2, hh, hs, -, e3⟩ := depth_inv P hC ht
  have hprev : prevOf t = none := by unfold prevOf; rw [hn]; rfl
  rw [hprev] at e3
  have hbd : depthLoop none (Red.chain t.up) = braceDepth t := rfl
  rw [hbd] at e3
  have htl : t.green.leaves = [(t.kind, t.text)] := by
    have hg : t.green = t.here.green := rfl
    unfold Red.isNode at hn
    cases he : t.here.green with
    | node k cs => rw [he] at hn; cases hn
    | tok k x =>
      have h1 : t.kind = k := by show t.here.green.kind = k; rw [he]; rfl
      have h2 : t.text = x := by show t.here.green.text = x; rw [he]; exact Green.text_tok k x
      rw [hg, he, h1, h2]; rfl
  rw [htl, source_leaves hp, List.append_assoc, List.singleton_append] at e1
  obtain ⟨A', R, eL, eA, eR⟩ := List.map_eq_append_iff.1 e1
  obtain ⟨x, B', rfl, ex, eB⟩ := List.map_eq_cons_iff.1 eR
  have htiles := (c47_lossless errLen text).tiles.1
  rw [eL] at htiles
  have hxs : x.start = t.start := by
    have : ∀ {o : Nat} {A : List Tok}, TilesFrom o (A ++ x :: B') → x.start = o + blen (A.map (·.text)).flatten := by
      intro o A
      induction A generalizing o with
      | nil => intro h; simp only [List.nil_append, TilesFrom] at h; simp [h.1, blen]
      | cons a A ih =>
        intro h
        obtain ⟨h1, h2, h3⟩ := h
        rw [ih h3, h2, List.map_cons, List.flatten_cons, blen_append]; omega
    rw [this htiles, e2, ← eA]
    simp [flat, List.map_map, Function.comp_def]
  have hxk : x.kind = t.kind := congrArg Prod.fst ex
  have hne := c47_nonempty errLen text
  rw [eL] at hne
  obtain ⟨c1, c2⟩ := count_at (P := fun y => y.kind == K.LCurly) (Q := fun y => y.kind == K.RCurly) htiles hne
  have ho : openedAt (lex errLen text) t.start = opens A + (if t.kind = K.LCurly then 1 else 0) := by
    unfold openedAt
    rw [eL, ← hxs, c1, ← eA, hxk]
    unfold opens
    rw [List.countP_map]
    simp [Function.comp_def]
  have hcl : closedAt (lex errLen text) t.start = closes A := by
    unfold closedAt
    rw [eL, ← hxs, c2, ← eA]
    unfold closes
    rw [List.countP_map]
    rfl
  rw [ho, hcl]
  have hexcl : InHead t → ¬ InShortForm t := by
    intro h1 h2
    cases ht with
    | root => obtain ⟨a, ha, -⟩ := h1; cases ha
    | @child r c hr hc =>
      obtain ⟨k, pre, post, p, q, S, -⟩ := step_of hC hr hc
      have hk : r.kind = k := by show r.here.green.kind = k; rw [S.green]; rfl
      obtain ⟨hkc, -⟩ := (inShort_child P hC hr hc S).1 h2
      rcases (inHead_child P hC hr hc S).1 h1 with h3 | ⟨h3, -⟩
      · obtain ⟨_, _, _, _, _, _, _, _, hhk, _⟩ := depth_inv P hC hr
        have := hhk h3 (child_isNode hc)
        rw [hk, hkc] at this
        exact absurd this (by decide)
      · rw [hkc] at h3; exact absurd h3 (by decide)
  refine ⟨fun h1 h2 => ?_, fun h1 => ?_, fun h1 => ?_⟩
  · rcases hh with ⟨-, h3⟩ | ⟨rfl, -⟩
    · exact absurd h3 h1
    · rcases hs with ⟨-, -, h4⟩ | ⟨rfl, -⟩
      · exact absurd h4 h2
      · omega
  · rcases hh with ⟨rfl, -⟩ | ⟨-, h3⟩
    · rcases hs with ⟨-, -, h4⟩ | ⟨rfl, -⟩
      · exact absurd h4 (hexcl h1)
      · omega
    · exact absurd h1 h3
  · rcases hh with ⟨-, h3⟩ | ⟨rfl, -⟩
    · exact absurd h1 (hexcl h3)
    · rcases hs with ⟨rfl, -⟩ | ⟨-, h4⟩
      · omega
      · exact absurd ⟨hn, h1⟩ h4

/-! ## Examples -/

theorem cons_derives : Derives sparqlRules (.node consTree.kind) (kinds (lex (fun _ => 1) consText)) :=
  (c42_accept_iff .query _ (by decide +kernel) (by decide +kernel)).mp
    ⟨_, (Option.some_get (x := parseTokens .query (kinds (lex (fun _ => 1) consText))) (by decide +kernel)).symm, by
      have : ((parseTokens .query (kinds (lex (fun _ => 1) consText))).get (by decide +kernel)).all
        (fun e => match e with | .error _ => false | _ => true) = true := by decide +kernel
      intro x hx
      have := List.all_eq_true.mp this _ hx
      simp at this, by decide +kernel⟩

theorem deep_derives : Derives sparqlRules (.node deepTree.kind) (kinds (lex (fun _ => 1) deepText)) :=
  (c42_accept_iff .query _ (by decide +kernel) (by decide +kernel)).mp
    ⟨_, (Option.some_get (x := parseTokens .query (kinds (lex (fun _ => 1) deepText))) (by decide +kernel)).symm, by
      have : ((parseTokens .query (kinds (lex (fun _ => 1) deepText))).get (by decide +kernel)).all
        (fun e => match e with | .error _ => false | _ => true) = true := by decide +kernel
      intro x hx
      have := List.all_eq_true.mp this _ hx
      simp at this, by decide +kernel⟩

/-- Offset and depth of each token, and the number of blocks open at it. -/
def depthTable (text : Text) (g : Green) : List (Nat × Nat × Nat) :=
  (Red.root g).tokens.map (fun t => (t.start, braceDepth t,
    openedAt (lex (fun _ => 1) text) t.start - closedAt (lex (fun _ => 1) text) t.start))

/-- `SELECT * {{?s ?p ?o} VALUES ?x {<a>}}`: the `?x` (28) in the head of `VALUES` and the blank behind it (30) have depth 2,
although only one block is open. -/
theorem c40_example :
    parseSource (fun _ => 1) deepText = some (deepTree, []) ∧
    Derives sparqlRules (.node deepTree.kind) (kinds (lex (fun _ => 1) deepText)) ∧
    depthTable deepText deepTree = [(0, 0, 0), (6, 0, 0), (7, 0, 0), (8, 0, 0), (9, 1, 1), (10, 2, 2), (11, 2, 2), (13, 2, 2),
      (14, 2, 2), (16, 2, 2), (17, 2, 2), (19, 2, 2), (20, 1, 1), (21, 1, 1), (27, 1, 1),
      (28, 2, 1), (30, 2, 1), (31, 2, 2), (32, 2, 2), (35, 2, 2), (36, 1, 1)] :=
  ⟨deepTree_parse, deep_derives, by decide +kernel⟩

/-- **C40, negative result.** `CONSTRUCT WHERE {?s ?p ?o}`: the braces of the short form have depth 0, although the block is
open there. -/
theorem c40_short_form_example :
    parseSource (fun _ => 1) consText = some (consTree, []) ∧
    Derives sparqlRules (.node consTree.kind) (kinds (lex (fun _ => 1) consText)) ∧
    depthTable consText consTree = [(0, 0, 0), (9, 0, 0), (10, 0, 0), (15, 0, 0), (16, 0, 1), (17, 1, 1), (19, 1, 1),
      (20, 1, 1), (22, 1, 1), (23, 1, 1), (25, 0, 1)] :=
  ⟨consTree_parse, cons_derives, by decide +kernel⟩

end Verif.Props
