import Verif.Format.TreePlan
/-!
# The ranges of the edits

For every document, also one with comments the formatter cannot place: if it returns edits, their ranges are ranges of the
document and do not overlap.
-/
namespace Verif.Format
open Verif Verif.Grammar Verif.Lexer Verif.Features Verif.Props

/-- Edits in document order. -/
structure Asc (F : List TextEdit) : Prop where
  each : ∀ e ∈ F, e.range.start.le e.range.stop = true
  pair : F.Pairwise (fun a b => a.range.stop.le b.range.start = true)

theorem le_antisymm {a b : Position} (h : a.le b = true) (k : b.le a = true) : a = b := by
  rcases (le_iff a b).1 h with h | h
  · rw [not_le_of_lt h] at k; cases k
  · exact h

theorem Asc.sub {F G : List TextEdit} (h : Asc G) (hs : F.Sublist G) : Asc F :=
  ⟨fun e he => h.each e (hs.subset he), h.pair.sublist hs⟩

/-! ## Chains -/

theorem consolidateStep_asc {acc : List (List TextEdit)} {e : TextEdit} (hne : ∀ ch ∈ acc, ch ≠ []) (he : e.isEmpty = false)
    (h : Asc (e :: acc.flatten)) :
    (consolidateStep acc e).flatten = e :: acc.flatten ∧ ∀ ch ∈ consolidateStep acc e, ch ≠ [] := by
  cases acc with
  | nil => rw [consolidateStep_nil he]; simp
  | cons ch rest =>
    cases ch with
    | nil => exact absurd rfl (hne [] List.mem_cons_self)
    | cons n ns =>
      rw [consolidateStep_cons he]
      have hr : ∀ ch ∈ rest, ch ≠ [] := fun ch hc => hne ch (List.mem_cons_of_mem _ hc)
      split
      · refine ⟨by simp, ?_⟩
        intro ch hc
        rcases List.mem_cons.1 hc with rfl | hc
        · simp
        · exact hr ch hc
      · next h1 =>
        split
        · next h2 =>
          exfalso
          have h3 := (List.pairwise_cons.1 h.pair).1 n (by simp)
          have h4 := h.each e List.mem_cons_self
          rw [h2.2] at h3
          exact h1 (h2.2.trans (le_antisymm h4 h3))
        · refine ⟨by simp, ?_⟩
          intro ch hc
          rcases List.mem_cons.1 hc with rfl | hc
          · simp
          · exact hne ch hc

theorem chains_flatten {F : List TextEdit} (h : Asc F) (hne : ∀ e ∈ F, e.isEmpty = false) :
    (chainsOf F).flatten = F ∧ ∀ ch ∈ chainsOf F, ch ≠ [] := by
  induction F with
  | nil => exact ⟨rfl, by simp [chainsOf]⟩
  | cons e F ih =>
    have h1 := ih (h.sub (List.sublist_cons_self _ _)) (fun x hx => hne x (List.mem_cons_of_mem _ hx))
    rw [chainsOf_cons]
    have := consolidateStep_asc h1.2 (hne e List.mem_cons_self) (by rw [h1.1]; exact h)
    rw [h1.1] at this
    exact this

/-- The range of a chain. -/
def Spans (ch : List TextEdit) (r : Range) : Prop :=
  ∃ a b : TextEdit, ch.head? = some a ∧ ch.getLast? = some b ∧ r = ⟨a.range.start, b.range.stop⟩

theorem fuse_spans {ch : List TextEdit} {f : TextEdit} (h : fuse ch = some f) : Spans ch f.range := by
  cases ch with
  | nil => cases h
  | cons e es =>
    rw [fuse_cons] at h
    cases h
    exact ⟨e, _, rfl, List.getLast?_eq_some_getLast _, rfl⟩

theorem spans_le {ch : List TextEdit} {r : Range} (h : Asc ch) (hs : Spans ch r) : r.start.le r.stop = true ∧
    ∀ e ∈ ch, r.start.le e.range.start = true ∧ e.range.stop.le r.stop = true := by
  obtain ⟨a, b, h1, h2, rfl⟩ := hs
  have key : ∀ e ∈ ch, a.range.start.le e.range.start = true ∧ e.range.stop.le b.range.stop = true := by
    intro e he
    constructor
    · cases ch with
      | nil => cases he
      | cons x xs =>
        cases h1
        rcases List.mem_cons.1 he with rfl | he
        · exact le_of_eq rfl
        · exact le_trans (h.each _ List.mem_cons_self) ((List.pairwise_cons.1 h.pair).1 e he)
    · rcases List.eq_nil_or_concat ch with rfl | ⟨xs, x, rfl⟩
      · cases he
      · rw [List.concat_eq_append] at *
        have hx : x = b := by simpa using h2
        subst hx
        rcases List.mem_append.1 he with he | he
        · exact le_trans ((List.pairwise_append.1 h.pair).2.2 e he x (by simp)) (h.each x (by simp))
        · simp at he; rw [he]; exact le_of_eq rfl
  have ha : a ∈ ch := List.mem_of_head? h1
  exact ⟨le_trans (h.each a ha) (key a ha).2, key⟩

/-- The edits that go before a position come first. -/
theorem split_prefix {ch : List TextEdit} (h : Asc ch) (p : Position) : ch = (splitAt ch p).1 ++ (splitAt ch p).2 := by
  induction ch with
  | nil => rfl
  | cons e ch ih =>
    have ih := ih (h.sub (List.sublist_cons_self _ _))
    cases hb : goesBefore p e with
    | true =>
      rw [splitAt_cons_pos hb, List.cons_append, ← ih]
    | false =>
      have : ∀ x ∈ ch, goesBefore p x = false := by
        intro x hx
        cases hx2 : goesBefore p x with
        | false => rfl
        | true =>
          exfalso
          unfold goesBefore at hx2 hb
          simp only [Bool.and_eq_true, lt_iff] at hx2
          have h1 := (List.pairwise_cons.1 h.pair).1 x hx
          have h2 := h.each e List.mem_cons_self
          have h3 : e.range.start.Before p := lt_of_le_of_lt (le_trans h2 h1) hx2.1
          have h4 : e.range.stop.le p = true := le_of_lt (lt_of_le_of_lt h1 hx2.1)
          rw [(lt_iff _ _).2 h3, h4] at hb
          cases hb
      unfold splitAt
      rw [List.filter_eq_nil_iff.2 (by
        intro x hx
        rcases List.mem_cons.1 hx with rfl | hx
        · rw [hb]; simp
        · rw [this x hx]; simp)]
      rw [List.filter_eq_self.2 (by
        intro x hx
        rcases List.mem_cons.1 hx with rfl | hx
        · rw [hb]; rfl
        · rw [this x hx]; rfl)]
      rfl

theorem insertComments_range {text indent : Text} {start : Position} : ∀ (cs : List CMarker) {ch ch' : List TextEdit} {rest : List CMarker}
    {r : Range}, Asc ch → Spans ch r → insertComments text indent start cs ch = some (ch', rest) →
    Spans ch' r ∧ rest <:+ cs ∧ ∀ c, rest.head? = some c → start.le c.pos = false := by
  intro cs
  induction cs with
  | nil =>
    intro ch ch' rest r _ hs h
    simp only [insertComments, Option.some.injEq, Prod.mk.injEq] at h
    obtain ⟨rfl, rfl⟩ := h
    exact ⟨hs, List.suffix_refl _, by simp⟩
  | cons c cs ih =>
    intro ch ch' rest r ha hs h
    rw [insertComments_step] at h
    split at h
    · split at h
      · cases h
      · next next hf =>
        split at h
        · cases h
        · next new hw =>
          have hsp := split_prefix ha c.pos
          have hB := fuse_spans hf
          generalize hA : (splitAt ch c.pos).1 = A at *
          generalize hBe : (splitAt ch c.pos).2 = B at *
          have haB : Asc B := ha.sub (by rw [hsp]; exact List.sublist_append_right _ _)
          have haA : Asc A := ha.sub (by rw [hsp]; exact List.sublist_append_left _ _)
          have hle := spans_le haB hB
          obtain ⟨b1, b2, k1, k2, k3⟩ := hB
          have hb1 : b1 ∈ B := List.mem_of_head? k1
          have hnew : Asc (A ++ [⟨next.range, new⟩]) := by
            refine ⟨?_, ?_⟩
            · intro e he
              rcases List.mem_append.1 he with he | he
              · exact haA.each e he
              · simp at he; rw [he]; exact hle.1
            · rw [List.pairwise_append]
              refine ⟨haA.pair, by simp, ?_⟩
              intro a ha' b hb
              simp at hb
              rw [hb]
              show a.range.stop.le next.range.start = true
              rw [k3]
              have := ha.pair
              rw [hsp] at this
              exact (List.pairwise_append.1 this).2.2 a ha' b1 hb1
          have hspan : Spans (A ++ [⟨next.range, new⟩]) r := by
            obtain ⟨a, b, h1, h2, rfl⟩ := hs
            have hBne : B ≠ [] := by rintro rfl; cases hb1
            have hb : b = b2 := by
              rw [hsp, List.getLast?_append_of_ne_nil _ hBne, k2] at h2
              exact (Option.some.inj h2).symm
            subst hb
            cases A with
            | nil =>
              have : a = b1 := by
                rw [hsp, List.nil_append, k1] at h1
                exact (Option.some.inj h1).symm
              subst this
              exact ⟨⟨next.range, new⟩, ⟨next.range, new⟩, rfl, rfl, by show _ = (⟨next.range.start, next.range.stop⟩ : Range); rw [k3]⟩
            | cons x A =>
              have : a = x := by
                rw [hsp] at h1
                exact (Option.some.inj h1).symm
              subst this
              exact ⟨a, ⟨next.range, new⟩, rfl, by rw [List.getLast?_append_of_ne_nil _ (by simp)]; rfl,
                by show _ = (⟨a.range.start, next.range.stop⟩ : Range); rw [k3]⟩
          obtain ⟨r1, r2, r3⟩ := ih hnew hspan h
          exact ⟨r1, r2.trans (List.suffix_cons _ _), r3⟩
    · next hle =>
      cases h
      exact ⟨hs, List.suffix_refl _, fun x hx => by cases hx; simpa using hle⟩

theorem spans_unique {ch : List TextEdit} {r r' : Range} (h : Spans ch r) (h' : Spans ch r') : r = r' := by
  obtain ⟨a, b, h1, h2, rfl⟩ := h
  obtain ⟨a', b', h1', h2', rfl⟩ := h'
  rw [h1] at h1'; rw [h2] at h2'
  cases h1'; cases h2'
  rfl

theorem mergeLoop_range {text indent : Text} : ∀ (X : List (List TextEdit)) {cs rest : List CMarker} {out : List TextEdit},
    (∀ ch ∈ X, Asc ch) → cs.Pairwise (fun a b => b.pos.le a.pos = true) → mergeLoop text indent X cs = some (out, rest) →
    List.Forall₂ (fun ch e => Spans ch e.range) X out ∧ rest <:+ cs ∧ ∀ c ∈ rest, ∀ e ∈ out, c.pos.Before e.range.start := by
  intro X
  induction X with
  | nil =>
    intro cs rest out _ _ h
    simp only [mergeLoop, Option.some.injEq, Prod.mk.injEq] at h
    obtain ⟨rfl, rfl⟩ := h
    exact ⟨.nil, List.suffix_refl _, by simp⟩
  | cons ch X ih =>
    intro cs rest out ha hcs h
    rw [mergeLoop_step] at h
    split at h
    · cases h
    · next f hf =>
      split at h
      · cases h
      · next ch' cs' hins =>
        split at h
        · cases h
        · next e he =>
          split at h
          · cases h
          · next es rest' hm =>
            cases h
            have hch := ha ch List.mem_cons_self
            obtain ⟨k1, k2, k3⟩ := insertComments_range cs hch (fuse_spans hf) hins
            have hre : e.range = f.range := spans_unique (fuse_spans he) k1
            have hcs' := hcs.sublist k2.sublist
            obtain ⟨r1, r2, r3⟩ := ih (fun c hc => ha c (List.mem_cons_of_mem _ hc)) hcs' hm
            refine ⟨.cons (by rw [hre]; exact fuse_spans hf) r1, r2.trans k2, ?_⟩
            intro c hc x hx
            rcases List.mem_cons.1 hx with rfl | hx
            · rw [hre]
              have hc' : c ∈ cs' := r2.subset hc
              cases hcs0 : cs' with
              | nil => rw [hcs0] at hc'; cases hc'
              | cons c0 cs0 =>
                have h0 := k3 c0 (by rw [hcs0]; rfl)
                have hlt : c0.pos.Before f.range.start := by
                  rcases Before.total c0.pos f.range.start with h1 | h1 | h1
                  · exact h1
                  · rw [le_of_eq h1.symm] at h0; cases h0
                  · rw [le_of_lt h1] at h0; cases h0
                rw [hcs0] at hc' hcs'
                rcases List.mem_cons.1 hc' with rfl | hc'
                · exact hlt
                · exact lt_of_le_of_lt ((List.pairwise_cons.1 hcs').1 c hc') hlt
            · exact r3 c hc x hx

/-! ## All documents -/

theorem fits_apart {P : Pieces} {E : List SEdit} (hn : ∀ x ∈ P, x.2 ≠ []) (hf : ∀ e ∈ E, ∃ i j, Fits P e i j)
    (hd : E.Pairwise (fun a b => a.start < a.stop → b.start < b.stop → a.start ≠ b.start)) :
    E.Pairwise (fun a b => a.stop ≤ b.start ∨ b.stop ≤ a.start) := by
  refine hd.imp_of_mem ?_
  intro a b ha hb hd
  obtain ⟨i, j, f1⟩ := hf a ha
  obtain ⟨i', j', f2⟩ := hf b hb
  rw [f1.start, f1.stop, f2.start, f2.stop] at hd
  rw [f1.start, f1.stop, f2.start, f2.stop]
  have := shape_apart f1.shape f2.shape (fun h1 h2 heq => hd (off_lt hn h1 f1.hj) (off_lt hn h2 f2.hj) (by rw [heq]))
  rcases this with h3 | h3
  · exact .inl (off_mono P h3)
  · exact .inr (off_mono P h3)

/-- Where the edits of any document stand. -/
theorem collected_sites {σ : Bool} {w : Walker} {text : Text} {g : Green} (W : Walks σ w text g) :
    collected w ≠ [] ∧ (∀ e ∈ collected w, ∃ i j, i ≤ j ∧ j ≤ (PL σ g.leaves).length ∧ e.start = off (PL σ g.leaves) i ∧ e.stop = off (PL σ g.leaves) j) ∧
    (collected w).Pairwise (fun a b => a.stop ≤ b.start ∨ b.stop ≤ a.start) := by
  have hfit : ∀ e ∈ (walked g).flatMap (elemEdits w), ∃ i j, Fits (PL σ g.leaves) e i j := by
    intro e he
    obtain ⟨r, hr, he⟩ := List.mem_flatMap.1 he
    obtain ⟨i, j, h, -⟩ := made_fits W.parsed (elem_made W (mem_walked.1 hr) e he)
    exact ⟨i, j, h⟩
  have hap := fits_apart (PL_nonempty (good_of W.parsed)) hfit (all_distinct W)
  have hsite : ∀ e ∈ (walked g).flatMap (elemEdits w), ∃ i j, i ≤ j ∧ j ≤ (PL σ g.leaves).length ∧ e.start = off (PL σ g.leaves) i ∧
      e.stop = off (PL σ g.leaves) j := by
    intro e he
    obtain ⟨i, j, h⟩ := hfit e he
    exact ⟨i, j, h.le, h.hj, h.start, h.stop⟩
  have hne : (walked g).flatMap (elemEdits w) ≠ [] := by
    intro h0
    have h1 := List.flatMap_eq_nil_iff.1 h0 (Red.root g) (mem_walked.2 .root)
    have : ∃ e, e ∈ elemEdits w (Red.root g) := by
      rcases unitEdits_cases (Red.root g) (fmtChildren (Red.root g)) with ⟨a, b, -, -, h3⟩ | ⟨-, h3⟩
      · exact ⟨_, unit_mem (r := Red.root g) W.parsed.root (by rw [h3]; exact List.mem_cons_self)⟩
      · exact ⟨_, unit_mem (r := Red.root g) W.parsed.root (by rw [h3]; exact List.mem_cons_self)⟩
    obtain ⟨e, he⟩ := this
    rw [h1] at he
    cases he
  unfold collected
  rw [W.tree]
  dsimp only
  split
  · obtain ⟨D, h1, h2, h3⟩ := markLoop_pairs (((walked g).flatMap (elemEdits w)).insertionSort byStart)
      (((walked g).flatMap (elemEmptyLines w)).insertionSort (· ≤ ·))
    have hp : (D.map Prod.fst).Perm ((walked g).flatMap (elemEdits w)) := by rw [h1]; exact List.perm_insertionSort _ _
    unfold mergeEmptyLines
    rw [← h2]
    refine ⟨?_, ?_, ?_⟩
    · intro h0
      rw [List.map_eq_nil_iff] at h0
      rw [h0] at hp
      exact hne (List.nil_perm.1 hp)
    · intro e he
      obtain ⟨d, hd, rfl⟩ := List.mem_map.1 he
      obtain ⟨k1, k2, -⟩ := h3 d hd
      rw [k1, k2]
      exact hsite _ (hp.mem_iff.1 (List.mem_map_of_mem hd))
    · have hd : D.Pairwise (fun a b => a.1.stop ≤ b.1.start ∨ b.1.stop ≤ a.1.start) := by
        rw [← List.pairwise_map (f := Prod.fst) (R := fun a b : SEdit => a.stop ≤ b.start ∨ b.stop ≤ a.start)]
        exact (List.Perm.pairwise_iff (fun {a b} h => Or.symm h) hp).2 hap
      rw [List.pairwise_map]
      refine hd.imp_of_mem ?_
      intro a b ha hb hab
      rw [(h3 a ha).1, (h3 a ha).2.1, (h3 b hb).1, (h3 b hb).2.1]
      exact hab
  · exact ⟨hne, hsite, hap⟩

theorem posAt_mono {text : Text} {a b : Nat} (ha : Boundary text a) (hb : Boundary text b) (h : a ≤ b) :
    (posAt text a).le (posAt text b) = true := by
  obtain ⟨u, v, h1, rfl⟩ := ha
  obtain ⟨u', v', h2, rfl⟩ := hb
  have e1 : posAt text (blen u) = posOf u := by rw [h1]; exact posAt_append _ _
  have e2 : posAt text (blen u') = posOf u' := by rw [h2]; exact posAt_append _ _
  rw [e1, e2]
  rcases List.append_eq_append_iff.1 (h1.symm.trans h2) with ⟨m, h3, -⟩ | ⟨m, h3, -⟩
  · rw [h3]; exact posOf_le _ _
  · rw [h3, blen_append] at h
    have : m = [] := by
      by_contra hm
      have := blen_pos hm
      omega
    rw [h3, this, List.append_nil]
    exact le_of_eq rfl

theorem posAt_valid {text : Text} {a b : Nat} (ha : Boundary text a) (hb : Boundary text b) (h : (posAt text a).le (posAt text b) = true) :
    ValidIn text ⟨posAt text a, posAt text b⟩ := by
  obtain ⟨u, v, h1, rfl⟩ := ha
  obtain ⟨u', v', h2, rfl⟩ := hb
  have e1 : posAt text (blen u) = posOf u := by rw [h1]; exact posAt_append _ _
  have e2 : posAt text (blen u') = posOf u' := by rw [h2]; exact posAt_append _ _
  rw [e1, e2] at h ⊢
  rcases List.append_eq_append_iff.1 (h1.symm.trans h2) with ⟨m, h3, h4⟩ | ⟨m, h3, h4⟩
  · exact ⟨u, m, v', by rw [h2, h3], rfl, by rw [h3]⟩
  · have : m = [] := by
      by_contra hm
      have := not_le_of_lt (posOf_before u' m hm)
      rw [← h3, h] at this
      cases this
    rw [this, List.append_nil] at h3
    exact ⟨u, [], v, by rw [h1]; simp, rfl, by rw [List.append_nil, h3]⟩

theorem sorted_asc {L : List TextEdit} (hs : L.Pairwise editOrder) (he : ∀ e ∈ L, e.range.start.le e.range.stop = true)
    (ha : L.Pairwise (fun a b => a.range.stop.le b.range.start = true ∨ b.range.stop.le a.range.start = true)) : Asc L.reverse := by
  refine ⟨fun e h => he e (List.mem_reverse.1 h), ?_⟩
  rw [List.pairwise_reverse]
  refine (hs.and ha).imp_of_mem ?_
  intro a b hma hmb hab
  obtain ⟨h1, h2⟩ := hab
  rcases h2 with h2 | h2
  · have ea := he a hma
    rw [editOrder_iff] at h1
    rcases h1 with h1 | ⟨h1, h3⟩
    · have := not_le_of_lt h1
      rw [le_trans ea h2] at this
      cases this
    · have h4 : a.range.stop = a.range.start := by
        refine le_antisymm ?_ ea
        rw [← h1]; exact h2
      rcases h3 with h3 | h3
      · rw [← h4]; exact le_of_lt h3
      · rw [← h4]; exact le_of_eq h3
  · exact h2

theorem forall₂_pairwise {α β : Type} {R : α → β → Prop} {S : α → α → Prop} {T : β → β → Prop}
    (hST : ∀ a b c d, R a c → R b d → S a b → T c d) : ∀ {X : List α} {Y : List β}, List.Forall₂ R X Y → X.Pairwise S → Y.Pairwise T := by
  intro X Y h
  induction h with
  | nil => intro _; exact .nil
  | @cons a c X Y hR h ih =>
    intro hp
    rw [List.pairwise_cons] at hp ⊢
    refine ⟨?_, ih hp.2⟩
    intro d hd
    obtain ⟨b, hb, hRb⟩ : ∃ b ∈ X, R b d := by
      clear ih hp
      induction h with
      | nil => cases hd
      | @cons b d' X Y hR' h ih =>
        rcases List.mem_cons.1 hd with rfl | hd
        · exact ⟨b, List.mem_cons_self, hR'⟩
        · obtain ⟨b', hb', h2⟩ := ih hd
          exact ⟨b', List.mem_cons_of_mem _ hb', h2⟩
    exact hST _ _ _ _ hR hRb (hp.1 b hb)

theorem not_overlaps {a b : TextEdit} (h : b.range.stop.le a.range.start = true) : a.overlaps b = false := by
  unfold TextEdit.overlaps Range.overlaps
  rw [not_lt_of_le h, Bool.false_and]

/-- If the formatter returns edits, their ranges are ranges of the document that do not overlap. -/
theorem format_ranges {σ : Bool} {w : Walker} {text : Text} {g : Green} (W : Walks σ w text g) {out : List TextEdit} (h : formatCore w = some out) :
    (∀ e ∈ out, ValidIn text e.range) ∧ out.Pairwise (fun a b => a.overlaps b = false) := by
  have P := W.parsed
  have htext : flat (PL σ g.leaves) = text := by rw [flat_PL (good_of P), ← P.text_eq]; rfl
  obtain ⟨hne, hsite, hap⟩ := collected_sites W
  generalize hPL : PL σ g.leaves = Q at *
  have hbound : ∀ e ∈ collected w, Boundary text e.start ∧ Boundary text e.stop ∧ e.start ≤ e.stop := by
    intro e he
    obtain ⟨i, j, h1, h2, h3, h4⟩ := hsite e he
    rw [h3, h4, ← htext]
    exact ⟨boundary_off Q i, boundary_off Q j, off_mono Q h1⟩
  obtain ⟨L, hL, hedits⟩ := transformEdits_ok (collected w) hne hbound hap
  have hcb : ∀ c ∈ (walked g).flatMap (elemComments w), Boundary text c.pos := by
    intro c hc
    obtain ⟨r, hr, hc⟩ := List.mem_flatMap.1 hc
    have hr' := mem_walked.1 hr
    obtain ⟨-, c', X, T, Y, -, -, hg, hT, hp⟩ := marker_gap W hr' hc
    obtain ⟨t, -, h1, -, h3, -⟩ := gap_head W hr' hg hT
    obtain ⟨A, B, -, -, -, hs, hPl, -⟩ := placed P (.child hr' h1)
    rw [hp, ← h3, hs]
    exact ⟨flat (PL σ A), flat (PL σ t.green.leaves ++ PL σ B), by rw [← htext, ← hPL, hPl, flat_app], rfl⟩
  have hcom := transformComments_ok (text := text) _ hcb
  unfold formatCore at h
  rw [W.tree, W.text, hcom, hedits] at h
  dsimp only at h
  obtain ⟨L', hL', hsort⟩ := perm_map_inv (sortEdits_perm (L.map (SEdit.toPos text)))
  have hLE : L'.Perm (collected w) := hL'.trans hL
  have hasc : Asc (L'.map (SEdit.toPos text)).reverse := by
    refine sorted_asc (by rw [← hsort]; exact sortEdits_sorted _) ?_ ?_
    · intro e he
      obtain ⟨x, hx, rfl⟩ := List.mem_map.1 he
      obtain ⟨b1, b2, b3⟩ := hbound x (hLE.mem_iff.1 hx)
      exact posAt_mono b1 b2 b3
    · rw [List.pairwise_map]
      have h2 : L'.Pairwise (fun a b => a.stop ≤ b.start ∨ b.stop ≤ a.start) :=
        (List.Perm.pairwise_iff (fun {a b} h => Or.symm h) hLE).2 hap
      refine h2.imp_of_mem ?_
      intro a b ha hb hab
      have b1 := hbound a (hLE.mem_iff.1 ha)
      have b2 := hbound b (hLE.mem_iff.1 hb)
      rcases hab with hab | hab
      · exact .inl (posAt_mono b1.2.1 b2.1 hab)
      · exact .inr (posAt_mono b2.2.1 b1.1 hab)
  let f : SEdit → Bool := fun e => !(e.toPos text).isEmpty
  have hcons : consolidate (sortEdits (L.map (SEdit.toPos text))) =
      (chainsOf ((L'.filter f).map (SEdit.toPos text)).reverse).reverse := by
    unfold consolidate chainsOf
    rw [hsort, foldl_consolidate, List.filter_map, List.foldr_reverse]
    rfl
  have hsub : ((L'.filter f).map (SEdit.toPos text)).reverse.Sublist (L'.map (SEdit.toPos text)).reverse :=
    List.reverse_sublist.2 (List.filter_sublist.map _)
  have hascF := hasc.sub hsub
  have hch := chains_flatten hascF (by
    intro e he
    obtain ⟨x, hx, rfl⟩ := List.mem_map.1 (List.mem_reverse.1 he)
    have := (List.mem_filter.1 hx).2
    simpa [f] using this)
  have hE : ∀ e ∈ ((L'.filter f).map (SEdit.toPos text)).reverse, ∃ x ∈ collected w, e = x.toPos text := by
    intro e he
    obtain ⟨x, hx, rfl⟩ := List.mem_map.1 (List.mem_reverse.1 he)
    exact ⟨x, hLE.mem_iff.1 (List.mem_filter.1 hx).1, rfl⟩
  rw [hcons] at h
  generalize ((L'.filter f).map (SEdit.toPos text)).reverse = F at *
  unfold mergeComments at h
  split at h
  · cases h
  · next es rest hm =>
    cases h
    have hsubch : ∀ ch ∈ chainsOf F, ch.Sublist F := by
      intro ch hc
      have := List.sublist_flatten_of_mem hc
      rwa [hch.1] at this
    have hascC : ∀ ch ∈ (chainsOf F).reverse, Asc ch := fun ch hc => hascF.sub (hsubch ch (List.mem_reverse.1 hc))
    have hsortC : (sortComments ((walked g).flatMap (elemComments w))).Pairwise (fun a b => a.pos ≤ b.pos) := by
      have : Std.Total (fun a b : SComment => a.pos ≤ b.pos) := ⟨fun a b => Nat.le_total _ _⟩
      have : IsTrans SComment (fun a b : SComment => a.pos ≤ b.pos) := ⟨fun a b c => Nat.le_trans⟩
      exact List.pairwise_insertionSort _ _
    have hmemC : ∀ c ∈ sortComments ((walked g).flatMap (elemComments w)), Boundary text c.pos :=
      fun c hc => hcb c ((List.perm_insertionSort _ _).mem_iff.1 hc)
    have hpos : ∀ c : SComment, (c.toPos text).pos = posAt text c.pos := fun _ => rfl
    have hdescC : ((sortComments ((walked g).flatMap (elemComments w))).map (SComment.toPos text)).reverse.Pairwise
        (fun a b => b.pos.le a.pos = true) := by
      rw [List.pairwise_reverse, List.pairwise_map]
      refine hsortC.imp_of_mem ?_
      intro a b ha hb hab
      exact posAt_mono (hmemC a ha) (hmemC b hb) hab
    obtain ⟨r1, r2, r3⟩ := mergeLoop_range _ hascC hdescC hm
    have hrest : ∀ c ∈ rest, ∃ b, Boundary text b ∧ c.pos = posAt text b := by
      intro c hc
      have := r2.subset hc
      obtain ⟨x, hx, rfl⟩ := List.mem_map.1 (List.mem_reverse.1 this)
      exact ⟨x.pos, hmemC x hx, rfl⟩
    have h0 : Boundary text 0 := ⟨[], text, rfl, rfl⟩
    have hp0 : posAt text 0 = ⟨0, 0⟩ := by
      have := posAt_append [] text
      rw [List.nil_append] at this
      exact this
    constructor
    · intro e he
      rcases List.mem_append.1 he with he | he
      · have key : ∀ {X : List (List TextEdit)} {Y : List TextEdit}, List.Forall₂ (fun ch e => Spans ch e.range) X Y →
            ∀ e ∈ Y, ∃ ch ∈ X, Spans ch e.range := by
          intro X Y h
          induction h with
          | nil => intro e he; cases he
          | cons hR _ ih =>
            intro e he
            rcases List.mem_cons.1 he with rfl | he
            · exact ⟨_, List.mem_cons_self, hR⟩
            · obtain ⟨ch, k1, k2⟩ := ih e he
              exact ⟨ch, List.mem_cons_of_mem _ k1, k2⟩
        obtain ⟨ch, hc, hs⟩ := key r1 e he
        have hle := (spans_le (hascC ch hc) hs).1
        obtain ⟨a, b, k1, k2, k3⟩ := hs
        have hs' := (hsubch ch (List.mem_reverse.1 hc)).subset
        obtain ⟨x, hx, rfl⟩ := hE a (hs' (List.mem_of_head? k1))
        obtain ⟨y, hy, rfl⟩ := hE b (hs' (List.mem_of_getLast? k2))
        rw [k3] at hle ⊢
        exact posAt_valid (hbound x hx).1 (hbound y hy).2.1 hle
      · obtain ⟨c, hc, he⟩ := List.mem_flatMap.1 he
        unfold leftover at he
        simp only [List.mem_cons, List.not_mem_nil, or_false] at he
        rcases he with rfl | rfl
        · have := posAt_valid h0 h0 (le_of_eq rfl)
          rw [hp0] at this
          exact this
        · obtain ⟨b, hb, hcp⟩ := hrest c hc
          show ValidIn text ⟨c.pos, c.pos⟩
          rw [hcp]
          exact posAt_valid hb hb (le_of_eq rfl)
    · have hins : ∀ e ∈ rest.flatMap (leftover w.indent), e.range.start = e.range.stop ∧
          ((e.range.start = ⟨0, 0⟩) ∨ ∃ c ∈ rest, e.range.start = c.pos) := by
        intro e he
        obtain ⟨c, hc, he⟩ := List.mem_flatMap.1 he
        unfold leftover at he
        simp only [List.mem_cons, List.not_mem_nil, or_false] at he
        rcases he with rfl | rfl
        · exact ⟨rfl, .inl rfl⟩
        · exact ⟨rfl, .inr ⟨c, hc, rfl⟩⟩
      rw [List.pairwise_append]
      refine ⟨?_, ?_, ?_⟩
      · have hpw : (chainsOf F).reverse.Pairwise (fun a b => ∀ x ∈ a, ∀ y ∈ b, y.range.stop.le x.range.start = true) := by
          rw [List.pairwise_reverse]
          have := hascF.pair
          rw [← hch.1, List.pairwise_flatten] at this
          exact this.2.imp (fun h x hx y hy => h y hy x hx)
        refine forall₂_pairwise ?_ r1 hpw
        intro a b c d ha hb hS
        obtain ⟨a1, a2, k1, k2, k3⟩ := ha
        obtain ⟨b1, b2, m1, m2, m3⟩ := hb
        refine not_overlaps ?_
        rw [k3, m3]
        exact hS _ (List.mem_of_head? k1) _ (List.mem_of_getLast? m2)
      · have hall : ∀ a ∈ rest.flatMap (leftover w.indent), ∀ b ∈ rest.flatMap (leftover w.indent), a.overlaps b = false := by
          intro a ha b hb
          unfold TextEdit.overlaps Range.overlaps
          rw [← (hins a ha).1, ← (hins b hb).1]
          cases hx : a.range.start.lt b.range.start with
          | false => rfl
          | true =>
            rw [not_lt_of_le (le_of_lt ((lt_iff _ _).1 hx)), Bool.and_false]
        exact List.Pairwise.imp_of_mem (fun ha hb _ => hall _ ha _ hb) (List.pairwise_of_forall (R := fun _ _ => True) (by simp))
      · intro a ha b hb
        obtain ⟨k1, k2⟩ := hins b hb
        unfold TextEdit.overlaps Range.overlaps
        rw [← k1]
        rcases k2 with k2 | ⟨c, hc, k2⟩
        · have : a.range.start.lt b.range.start = false := by
            rw [k2]
            cases hx : a.range.start.lt ⟨0, 0⟩ with
            | false => rfl
            | true =>
              have := (lt_iff _ _).1 hx
              unfold Position.Before at this
              dsimp only at this
              omega
          rw [this, Bool.false_and]
        · have := r3 c hc a ha
          rw [k2, not_lt_of_le (le_of_lt this), Bool.false_and]

end Verif.Format
