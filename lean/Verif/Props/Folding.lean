import Verif.Features.Folding
import Verif.Features.Parsed
import Verif.Features.Demo
/-!
# Folding ranges (C28)

Specification (Features/Folding.lean): `StartsOnLine`, `EndsOnLine` count line feeds; `Block text g n s e`: `n` is a group
graph pattern of the tree delimited by braces on lines `s` and `e`.
-/
namespace Verif.Props
open Verif Verif.Grammar Verif.Lexer Verif.Features

theorem pos_start {text g} (P : Parsed text g) {r : Red} (h : InTree g r) :
    ∃ pre post, text = pre ++ r.text ++ post ∧ blen pre = r.start ∧ fromByteIndex r.start text = some (posOf pre) ∧
      fromByteIndex r.stop text = some (posOf (pre ++ r.text)) := by
  obtain ⟨a, b, h1, h2⟩ := P.at_ h
  refine ⟨a, b, h1, h2.symm, ?_, ?_⟩
  · rw [h2, h1, List.append_assoc]; exact fromByteIndex_of_prefix a _
  · have : r.stop = blen (a ++ r.text) := by rw [blen_append]; show r.start + _ = _; rw [h2]
    rw [this, h1]; exact fromByteIndex_of_prefix _ b

theorem startsOnLine_iff {text g} (P : Parsed text g) {r : Red} (h : InTree g r) (k : Nat) :
    StartsOnLine text r k ↔ ∃ p, fromByteIndex r.start text = some p ∧ p.line = k := by
  obtain ⟨a, b, h1, h2, h3, -⟩ := pos_start P h
  constructor
  · rintro ⟨a', b', h1', h2', rfl⟩
    refine ⟨_, h3, ?_⟩
    have := (prefix_eq_of_blen (a := a) (b := r.text ++ b) (c := a') (d := r.text ++ b')
      (by rw [← List.append_assoc, ← List.append_assoc, ← h1, ← h1']) (by omega)).1
    rw [this]; rfl
  · rintro ⟨p, hp, rfl⟩
    rw [h3] at hp; cases hp
    exact ⟨a, b, h1, h2, rfl⟩

theorem endsOnLine_iff {text g} (P : Parsed text g) {r : Red} (h : InTree g r) (k : Nat) :
    EndsOnLine text r k ↔ ∃ p, fromByteIndex r.stop text = some p ∧ p.line = k := by
  obtain ⟨a, b, h1, h2, h3, h4⟩ := pos_start P h
  constructor
  · rintro ⟨a', b', h1', h2', rfl⟩
    refine ⟨_, h4, ?_⟩
    have := (prefix_eq_of_blen (a := a) (b := r.text ++ b) (c := a') (d := r.text ++ b')
      (by rw [← List.append_assoc, ← List.append_assoc, ← h1, ← h1']) (by omega)).1
    rw [this]; rfl
  · rintro ⟨p, hp, rfl⟩
    rw [h4] at hp; cases hp
    exact ⟨a, b, h1, h2, rfl⟩

theorem starts_mono {text} {x y : Red} {i j : Nat} (hi : StartsOnLine text x i)
    (hj : StartsOnLine text y j) (h : x.start ≤ y.start) : i ≤ j := by
  obtain ⟨a, b, h1, h2, rfl⟩ := hi
  obtain ⟨a', b', h1', h2', rfl⟩ := hj
  rw [List.append_assoc] at h1 h1'
  obtain ⟨m, hm, -⟩ := prefix_of_blen h1 h1' (by omega)
  rw [hm]; unfold lineNo; simp

theorem tokenOfKind_some {k : Kind} {o : Option Red} {t : Red} (h : tokenOfKind k o = some t) :
    o = some t ∧ t.kind = k ∧ t.isNode = false := by
  unfold tokenOfKind at h
  split at h
  · split at h
    · rename_i h'; cases h; exact ⟨rfl, h'⟩
    · cases h
  · cases h

theorem tokenOfKind_of {k : Kind} {t : Red} (h : t.kind = k) (h' : t.isNode = false) : tokenOfKind k (some t) = some t := by
  simp [tokenOfKind, h, h']

theorem mem_head {l : List Red} {a : Red} (h : l.head? = some a) : a ∈ l := List.mem_of_head? h

theorem braceFold_iff {text g} (P : Parsed text g) {n : Red} (hn : InTree g n) (hi : n.isNode = true)
    (hk : n.kind = K.GroupGraphPattern) (f : Fold) :
    braceFold text n = some f ↔ ∃ e, Block text g n f.startLine e ∧ e = f.endLine + 1 ∧ f.startLine < f.endLine ∧
      f.imports = false ∧ f.collapsed = none := by
  constructor
  · intro h
    unfold braceFold at h
    split at h
    · rename_i o c ho hc
      obtain ⟨ho1, ho2, ho3⟩ := tokenOfKind_some ho
      obtain ⟨hc1, hc2, hc3⟩ := tokenOfKind_some hc
      split at h
      · rename_i op cp hop hcp
        split at h
        · cases h
        · split at h
          · cases h
          · cases h
            refine ⟨cp.line, ⟨hn, hi, hk, ⟨o, ho1, ho3, ho2, ?_⟩, ⟨c, hc1, hc3, hc2, ?_⟩⟩, ?_, ?_, rfl, rfl⟩
            · exact (startsOnLine_iff P (hn.child (mem_head ho1)) _).2 ⟨op, hop, rfl⟩
            · exact (startsOnLine_iff P (hn.child (List.mem_of_getLast? hc1)) _).2 ⟨cp, hcp, rfl⟩
            · simp only; omega
            · simp only; omega
      · cases h
    · cases h
  · rintro ⟨e, ⟨-, -, -, ⟨o, ho1, ho3, ho2, ho4⟩, ⟨c, hc1, hc3, hc2, hc4⟩⟩, rfl, hlt, hf1, hf2⟩
    obtain ⟨op, hop, hol⟩ := (startsOnLine_iff P (hn.child (mem_head ho1)) _).1 ho4
    obtain ⟨cp, hcp, hcl⟩ := (startsOnLine_iff P (hn.child (List.mem_of_getLast? hc1)) _).1 hc4
    unfold braceFold
    have e1 : n.firstChildT = some o := ho1
    have e2 : n.lastChildT = some c := hc1
    rw [e1, e2, tokenOfKind_of ho2 ho3, tokenOfKind_of hc2 hc3]
    simp only [hop, hcp]
    rw [if_neg (by omega), if_neg (by omega)]
    obtain ⟨s, e, i, t⟩ := f
    simp only at hf1 hf2 hol hcl
    subst hf1 hf2 hol
    rw [hcl]
    simp

theorem prologue_inTree {g : Green} {p : Red} (h : prologueNode g = some p) :
    InTree g p ∧ p.isNode = true ∧ p.kind = K.Prologue := by
  unfold prologueNode at h
  split at h
  · cases h
  · rename_i c hc
    split at h
    · cases h
    · rename_i q hq
      split at h
      · rename_i hk
        cases h
        have h1 := List.mem_of_head? hc
        have h2 := List.mem_of_head? hq
        unfold Red.children at h1 h2
        rw [List.mem_filter] at h1 h2
        exact ⟨(InTree.root.child h1.1).child h2.1, h2.2, hk⟩
      · cases h

/-- **C28.** Computing the folding ranges never panics. -/
theorem c28_no_panic (errLen : Text → Nat) (text : Text) (g errs) (hp : parseSource errLen text = some (g, errs)) :
    foldings text g ≠ none := by
  have P := parsed_of hp
  unfold foldings
  dsimp only
  split
  · simp
  · rename_i p hq
    obtain ⟨h1, -⟩ := prologue_inTree hq
    obtain ⟨a, b, h1, h2, h3, h4⟩ := pos_start P h1
    unfold rangeOf Range.fromByteOffsetRange
    rw [h3, h4]
    simp

/-- The non-import part of the response. -/
theorem foldings_braces {text g folds} (h : foldings text g = some folds) :
    folds.filter (fun f => !f.imports) =
      ((Red.root g).descendants.filter (fun n => n.kind == K.GroupGraphPattern)).filterMap (braceFold text) := by
  have hb : (((Red.root g).descendants.filter (fun n => n.kind == K.GroupGraphPattern)).filterMap (braceFold text)).filter
      (fun f => !f.imports) =
      ((Red.root g).descendants.filter (fun n => n.kind == K.GroupGraphPattern)).filterMap (braceFold text) := by
    rw [List.filter_eq_self]
    intro f hf
    obtain ⟨n, -, hn⟩ := List.mem_filterMap.1 hf
    unfold braceFold at hn
    split at hn
    · split at hn
      · split at hn
        · cases hn
        · split at hn
          · cases hn
          · cases hn; rfl
      · cases hn
    · cases hn
  unfold foldings at h
  dsimp only at h
  split at h
  · cases h; exact hb
  · split at h
    · cases h
    · cases h
      simp [hb]

/-- **C28.** The response contains a fold of the lines `s..e` that is not an import fold iff some brace-delimited group
graph pattern opens on line `s` and closes on line `e + 1`, and more than one line is folded. In particular the line of the
closing brace stays visible, and every such fold is a proper range of lines. -/
theorem c28_exact (errLen : Text → Nat) (text : Text) (g errs) (hp : parseSource errLen text = some (g, errs)) (folds)
    (h : foldings text g = some folds) (s e : Nat) :
    (∃ f ∈ folds, f.imports = false ∧ f.startLine = s ∧ f.endLine = e) ↔ s < e ∧ ∃ n, Block text g n s (e + 1) := by
  have P := parsed_of hp
  have hf := foldings_braces h
  have hm : ∀ f, (f ∈ folds ∧ f.imports = false) ↔ ∃ n, InTree g n ∧ n.isNode = true ∧ n.kind = K.GroupGraphPattern ∧
      braceFold text n = some f := by
    intro f
    have := congrArg (f ∈ ·) hf
    simp only [List.mem_filter, List.mem_filterMap, eq_iff_iff, Bool.not_eq_true', Red.descendants, mem_descendantsT_root,
      beq_iff_eq] at this
    rw [this]
    constructor
    · rintro ⟨n, ⟨⟨h1, h2⟩, h3⟩, h4⟩; exact ⟨n, h1, h2, h3, h4⟩
    · rintro ⟨n, h1, h2, h3, h4⟩; exact ⟨n, ⟨⟨h1, h2⟩, h3⟩, h4⟩
  constructor
  · rintro ⟨f, hfm, hi, rfl, rfl⟩
    obtain ⟨n, h1, h2, h3, h4⟩ := (hm f).1 ⟨hfm, hi⟩
    obtain ⟨e, hB, rfl, hlt, -⟩ := (braceFold_iff P h1 h2 h3 f).1 h4
    exact ⟨hlt, n, hB⟩
  · rintro ⟨hlt, n, hB⟩
    have h4 := (braceFold_iff P hB.1 hB.2.1 hB.2.2.1 ⟨s, e, false, none⟩).2 ⟨e + 1, hB, rfl, hlt, rfl, rfl⟩
    have := (hm _).2 ⟨n, hB.1, hB.2.1, hB.2.2.1, h4⟩
    exact ⟨_, this.1, rfl, rfl, rfl⟩

/-- An element below `a` lies in a child of `a`. -/
theorem below_child {g : Green} {a x : Red} (h : InTree g x) (hx : a ∈ Red.chain x.up) :
    ∃ c ∈ a.childrenT, c ∈ x.ancestors := by
  induction h with
  | root => cases hx
  | @child p c hp hc ih =>
    have e := parent_chain (child_parent hc)
    rw [e] at hx
    rcases List.mem_cons.1 hx with rfl | hx
    · exact ⟨c, hc, by simp [Red.ancestors]⟩
    · obtain ⟨d, hd, hd'⟩ := ih hx
      refine ⟨d, hd, ?_⟩
      show d ∈ c :: Red.chain c.up
      rw [e]
      exact List.mem_cons_of_mem _ hd'

/-- **C28.** Any two of these folds are nested or have no line in common; an enclosing fold comes before the enclosed one,
and disjoint ones are in document order. -/
theorem c28_laminar (errLen : Text → Nat) (text : Text) (g errs) (hp : parseSource errLen text = some (g, errs)) (folds)
    (h : foldings text g = some folds) :
    (folds.filter (fun f => !f.imports)).Pairwise (fun a b =>
      (a.startLine ≤ b.startLine ∧ b.endLine ≤ a.endLine) ∨ a.endLine < b.startLine) := by
  have P := parsed_of hp
  rw [foldings_braces h, List.pairwise_filterMap]
  have ho : ((Red.root g).descendants.filter (fun n => n.kind == K.GroupGraphPattern)).Pairwise
      (fun a b => (a ∈ Red.chain b.up ∨ a.stop ≤ b.start) ∧
        (InTree g a ∧ a.isNode = true ∧ a.kind = K.GroupGraphPattern) ∧
        (InTree g b ∧ b.isNode = true ∧ b.kind = K.GroupGraphPattern)) := by
    have h1 := ((descendantsT_order (Red.root g)).filter Red.isNode).filter (fun n => n.kind == K.GroupGraphPattern)
    refine List.Pairwise.imp_of_mem ?_ h1
    intro a b ha hb hab
    simp only [Red.descendants, List.mem_filter, mem_descendantsT_root, beq_iff_eq] at ha hb
    exact ⟨hab, ⟨ha.1.1, ha.1.2, ha.2⟩, ⟨hb.1.1, hb.1.2, hb.2⟩⟩
  refine ho.imp ?_
  rintro a b ⟨hab, ⟨ha1, ha2, ha3⟩, ⟨hb1, hb2, hb3⟩⟩ x hx y hy
  obtain ⟨ex, hBx, hex, -⟩ := (braceFold_iff P ha1 ha2 ha3 x).1 hx
  obtain ⟨ey, hBy, hey, -⟩ := (braceFold_iff P hb1 hb2 hb3 y).1 hy
  obtain ⟨-, -, -, ⟨ao, ao1, -, -, ao4⟩, ⟨ac, ac1, ac3, -, ac4⟩⟩ := hBx
  obtain ⟨-, -, -, ⟨bo, bo1, -, -, bo4⟩, ⟨bc, bc1, -, -, bc4⟩⟩ := hBy
  have wao := child_within (mem_head ao1)
  have wac := child_within (List.mem_of_getLast? ac1)
  have wbo := child_within (mem_head bo1)
  have wbc := child_within (List.mem_of_getLast? bc1)
  -- the first child starts where the node starts
  have first : ∀ {n o : Red}, n.childrenT.head? = some o → o.start = n.start := by
    intro n o h
    unfold Red.childrenT at h
    split at h
    · cases h
    · rename_i k cs hg
      cases cs with
      | nil => cases h
      | cons c cs => simp only [childSites, List.map_cons, List.head?_cons, Option.some.injEq] at h; subst h; rfl
  have h1 := first ao1
  have h2 := first bo1
  rcases hab with hab | hab
  · left
    have hw := hb1.anc_within a (List.mem_cons_of_mem _ hab)
    refine ⟨starts_mono ao4 bo4 (by have := hw.1; omega), ?_⟩
    have hle : bc.start ≤ ac.start := by
      obtain ⟨c, hc, hca⟩ := below_child hb1 hab
      have hwc := hb1.anc_within c hca
      have hcn : c.isNode = true := by
        rcases List.mem_cons.1 hca with rfl | hca
        · exact hb2
        · exact (hb1.chain c hca).2
      rcases List.getLast?_eq_some_iff.1 ac1 with ⟨l, hl⟩
      have hpw := childrenT_pairwise a
      rw [hl] at hpw hc
      rcases List.mem_append.1 hc with hc | hc
      · have := (List.pairwise_append.1 hpw).2.2 c hc ac (by simp)
        have : bc.start ≤ bc.stop := by unfold Red.stop Red.start; omega
        have := wbc.2
        have := hwc.2
        omega
      · rw [List.mem_singleton] at hc; subst hc
        rw [hcn] at ac3; cases ac3
    have := starts_mono bc4 ac4 hle
    omega
  · right
    have : ac.start ≤ bo.start := by
      have := wac.2
      have : ac.start ≤ ac.stop := by unfold Red.stop Red.start; omega
      omega
    have := starts_mono ac4 bo4 this
    omega

/-- **C28.** There is an import fold iff the operation starts with a prologue (the first node inside the first node below
the root), there is at most one, it comes first, it covers the lines from the start to the end of the prologue, and its
collapsed text is the text of the prologue. -/
theorem c28_imports (errLen : Text → Nat) (text : Text) (g errs) (hp : parseSource errLen text = some (g, errs)) (folds)
    (h : foldings text g = some folds) :
    match prologueNode g with
    | none => folds.filter (·.imports) = []
    | some p => InTree g p ∧ p.kind = K.Prologue ∧ ∃ f rest, folds = f :: rest ∧ folds.filter (·.imports) = [f] ∧
        StartsOnLine text p f.startLine ∧ EndsOnLine text p f.endLine ∧ f.startLine ≤ f.endLine ∧
        f.collapsed = some p.text := by
  have P := parsed_of hp
  have hb := foldings_braces h
  have hb' : ∀ f ∈ ((Red.root g).descendants.filter (fun n => n.kind == K.GroupGraphPattern)).filterMap (braceFold text),
      f.imports = false := by
    intro f hf
    rw [← hb, List.mem_filter] at hf
    simpa using hf.2
  unfold foldings at h
  dsimp only at h
  split
  · rename_i hq
    rw [hq] at h
    cases h
    rw [List.filter_eq_nil_iff]
    intro f hf
    simp [hb' f hf]
  · rename_i p hq
    rw [hq] at h
    dsimp only at h
    obtain ⟨i1, i2, i3⟩ := prologue_inTree hq
    obtain ⟨a, b, h1, h2, h3, h4⟩ := pos_start P i1
    have hr : rangeOf text p = some ⟨posOf a, posOf (a ++ p.text)⟩ := by
      unfold rangeOf Range.fromByteOffsetRange; rw [h3, h4]
    rw [hr] at h
    cases h
    refine ⟨i1, i3, _, _, rfl, ?_, ⟨a, b, h1, h2, rfl⟩, ⟨a, b, h1, h2, rfl⟩, ?_, rfl⟩
    · rw [List.filter_cons]
      simp only [if_true]
      congr 1
      rw [List.filter_eq_nil_iff]
      intro f hf
      simp [hb' f hf]
    · simp [posOf, lineNo]

/-- The import fold of a prologue on one line folds nothing (start and end line agree). -/
theorem c28_single_line_imports :
    foldings foldText foldTree = some [⟨0, 0, true, some ['P','R','E','F','I','X',' ','a',':',' ','<','b','>']⟩, ⟨1, 5, false, none⟩, ⟨2, 3, false, none⟩] := by
  decide +kernel

/-- Hypotheses are met by a document with a prologue, two nested blocks over several lines and one on a single line. -/
example : parseSource (fun _ => 1) foldText = some (foldTree, []) ∧
    foldings foldText foldTree =
      some [⟨0, 0, true, some ['P','R','E','F','I','X',' ','a',':',' ','<','b','>']⟩, ⟨1, 5, false, none⟩, ⟨2, 3, false, none⟩] :=
  ⟨foldTree_parse, by decide +kernel⟩

end Verif.Props
