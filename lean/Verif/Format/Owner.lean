import Verif.Format.Rules
/-!
# Which element an edit or a comment marker belongs to
-/
namespace Verif.Format
open Verif Verif.Grammar Verif.Lexer Verif.Features Verif.Props

theorem pairwise_or {α : Type} {R : α → α → Prop} : ∀ {l : List α}, l.Pairwise R → ∀ a ∈ l, ∀ b ∈ l, a ≠ b → R a b ∨ R b a := by
  intro l
  induction l with
  | nil => intro _ a ha; cases ha
  | cons x l ih =>
    intro h a ha b hb hne
    obtain ⟨h1, h2⟩ := List.pairwise_cons.1 h
    rcases List.mem_cons.1 ha with rfl | ha'
    · rcases List.mem_cons.1 hb with rfl | hb
      · exact absurd rfl hne
      · exact .inl (h1 b hb)
    · rcases List.mem_cons.1 hb with rfl | hb
      · exact .inr (h1 a ha')
      · exact ih h2 a ha' b hb hne

section
variable {text : Text} {g : Green} (P : Parsed text g)
include P

omit P in
/-- At most one token contains an offset. -/
theorem token_unique {t t' : Red} {p : Nat} (h : InTree g t) (h' : InTree g t') (hn : t.isNode = false) (hn' : t'.isNode = false)
    (h1 : t.start ≤ p) (h2 : p < t.stop) (h3 : t'.start ≤ p) (h4 : p < t'.stop) : t = t' := by
  by_contra hne
  have key : ∀ a b : Red, InTree g a → InTree g b → a.isNode = false → a.start ≤ p → p < a.stop → b.start ≤ p →
      ¬ (a ∈ Red.chain b.up ∨ a.stop ≤ b.start) := by
    intro a b ha hb hn h1 h2 h3 h
    rcases h with h | h
    · have := (hb.chain a h).2; rw [hn] at this; cases this
    · omega
  rcases pairwise_or (descendantsT_order (Red.root g)) t (mem_descendantsT_root.2 h) t' (mem_descendantsT_root.2 h') hne with h5 | h5
  · exact key t t' h h' hn h1 h2 h3 h5
  · exact key t' t h' h hn' h3 h4 h1 h5

omit P in
theorem same_parent {r r' c : Red} (h : c ∈ r.childrenT) (h' : c ∈ r'.childrenT) : r = r' := by
  have h1 := child_parent h
  rw [child_parent h'] at h1
  exact (Option.some.inj h1).symm

/-- The owner of an edit that is not an insertion is determined by its start. -/
theorem owner_unique {r r' : Red} {e e' : SEdit} {M M' : Pieces} (h : Anchor g r e M) (h' : Anchor g r' e' M')
    (he : e.start = e'.start) : r = r' := by
  obtain ⟨t, h1, h2, h3, h4, h5⟩ := h
  obtain ⟨t', h1', h2', h3', h4', h5'⟩ := h'
  have htt : t = t' := token_unique h1 h1' h2 h2' h3 h4 (by omega) (by omega)
  subst htt
  have hcomma : triviaKind K.Comma = false := by decide
  rcases h5 with ⟨rfl, a1, a2, -⟩ | ⟨a1, a2, -⟩ | ⟨a1, a2, -⟩ <;> rcases h5' with ⟨rfl, b1, b2, -⟩ | ⟨b1, b2, -⟩ | ⟨b1, b2, -⟩
  · rfl
  · exact absurd b2 a2
  · rw [a1] at b2; cases b2
  · exact absurd a2 b2
  · exact same_parent a1 b1
  · exact same_parent a1 b1
  · rw [a2] at b1; cases b1
  · exact same_parent a1 b1
  · exact same_parent a1 b1

/-! ## The walk -/

omit P in
mutual
theorem walkFrom_perm : ∀ (g : Green) (idx off : Nat) (up : List Site), (walkFrom g idx off up).Perm (elems g idx off up)
  | .tok k t, idx, off, up => by
    simp only [walkFrom, elems]
    exact List.Perm.refl _
  | .node k cs, idx, off, up => by
    simp only [walkFrom, elems]
    exact .cons _ (walkFromL_perm cs 0 off _)
theorem walkFromL_perm : ∀ (cs : List Green) (idx off : Nat) (up : List Site), (walkFromL cs idx off up).Perm (elemsL cs idx off up)
  | [], idx, off, up => by simp only [walkFromL, elemsL]; exact List.Perm.refl _
  | g :: gs, idx, off, up => by
    simp only [walkFromL, elemsL]
    exact (List.perm_append_comm).trans ((walkFrom_perm g idx off up).append (walkFromL_perm gs (idx + 1) (off + blen g.text) up))
end

omit P in
theorem walked_perm (g : Green) : (walked g).Perm (Red.root g).descendantsT := walkFrom_perm g 0 0 []

omit P in
theorem mem_walked {r : Red} : r ∈ walked g ↔ InTree g r := by
  rw [(walked_perm g).mem_iff]; exact mem_descendantsT_root

/-- Elements below the root are not empty. -/
theorem below_pos {r : Red} (h : InTree g r) (hu : r.up ≠ []) : r.start < r.stop := by
  have : r.text ≠ [] := by
    cases hn : r.isNode with
    | true => exact P.node_nonempty h hn hu
    | false => exact P.leaf_nonempty _ (Parsed.token_leaf h hn)
  have := blen_pos this
  show r.start < r.start + blen r.text
  omega

theorem child_pos {r c : Red} (hr : InTree g r) (h : c ∈ r.childrenT) : c.start < c.stop :=
  below_pos P (.child hr h) (by rw [child_up h]; simp)

omit P in
theorem chain_shorter : ∀ (up : List Site) (x : Red), x ∈ Red.chain up → x.up.length < up.length := by
  intro up
  induction up with
  | nil => intro x hx; cases hx
  | cons s up ih =>
    intro x hx
    rcases List.mem_cons.1 hx with rfl | hx
    · simp
    · have := ih x hx
      simp only [List.length_cons]; omega

theorem walked_nodup : (walked g).Nodup := by
  rw [(walked_perm g).nodup_iff]
  have h := descendantsT_order (Red.root g)
  have hin : ∀ x ∈ (Red.root g).descendantsT, InTree g x := fun x hx => mem_descendantsT_root.1 hx
  rw [descendantsT_eq] at h hin ⊢
  obtain ⟨-, h2⟩ := List.pairwise_cons.1 h
  refine List.nodup_cons.2 ⟨?_, ?_⟩
  · intro hx
    obtain ⟨c, hc, hx⟩ := List.mem_flatMap.1 hx
    have h3 := chain_shorter _ _ (chain_parent hc (descendantsT_anc hx))
    omega
  · refine List.Pairwise.imp_of_mem ?_ h2
    rintro a b ha hb hab rfl
    rcases hab with hab | hab
    · exact absurd (chain_shorter _ _ hab) (Nat.lt_irrefl _)
    · obtain ⟨c, hc, hx⟩ := List.mem_flatMap.1 ha
      have hai := hin a (List.mem_cons_of_mem _ ha)
      have hu : a.up ≠ [] := by
        intro hu
        have h3 := chain_parent hc (descendantsT_anc hx)
        rw [hu] at h3; cases h3
      have := below_pos P hai hu
      omega

/-! ## Runs of trivia -/

omit P in
theorem child_idx {r c : Red} {k : Nat} (h : r.childrenT[k]? = some c) : c.here.idx = k := by
  unfold Red.childrenT at h
  cases hg : r.here.green with
  | tok k t => rw [hg] at h; cases h
  | node kd cs =>
    rw [hg] at h
    have key : ∀ (gs : List Green) (i o n : Nat) (s : Site), (childSites i o gs)[n]? = some s → s.idx = i + n := by
      intro gs
      induction gs with
      | nil => intro i o n s h; cases h
      | cons x gs ih =>
        intro i o n s h
        cases n with
        | zero => simp only [childSites, List.getElem?_cons_zero, Option.some.injEq] at h; rw [← h]; rfl
        | succ n =>
          simp only [childSites, List.getElem?_cons_succ] at h
          rw [ih _ _ _ _ h]; omega
    simp only [List.getElem?_map, Option.map_eq_some_iff] at h
    obtain ⟨s, hs, rfl⟩ := h
    have := key _ _ _ _ _ hs
    simpa using this

omit P in
theorem elder_eq {r c : Red} {L R : List Red} (h : r.childrenT = L ++ c :: R) : elder c = L ∧ younger c = R := by
  have hc : c ∈ r.childrenT := by rw [h]; simp
  have hi : c.here.idx = L.length := child_idx (r := r) (by rw [h]; simp)
  unfold elder younger siblings
  rw [child_parent hc, hi]
  dsimp only
  rw [h]
  constructor
  · rw [List.take_left' rfl]
  · rw [List.append_cons, List.drop_left' (by simp)]

theorem find_trivia (X T : List Red) (hT : ∀ t ∈ T, triviaKind t.kind = true) :
    (X ++ T).reverse.find? (fun x => !triviaKind x.kind) = X.reverse.find? (fun x => !triviaKind x.kind) := by
  rw [List.reverse_append, List.find?_append]
  have : T.reverse.find? (fun x => !triviaKind x.kind) = none := by
    rw [List.find?_eq_none]
    intro x hx
    simp [hT x (List.mem_reverse.1 hx)]
  rw [this]; rfl

omit P in
/-- Every trivia child is in a run. -/
theorem runs_of (l : List Red) {c : Red} (hc : c ∈ l) (hk : triviaKind c.kind = true) : ∃ X T Y, l = X ++ (T ++ Y) ∧ c ∈ T ∧
    (∀ t ∈ T, triviaKind t.kind = true) ∧ (X = [] ∨ ∃ X' a, X = X' ++ [a] ∧ triviaKind a.kind = false) ∧
    (Y = [] ∨ ∃ b Y', Y = b :: Y' ∧ triviaKind b.kind = false) := by
  obtain ⟨L, R, rfl⟩ := List.append_of_mem hc
  let q : Red → Bool := fun x => triviaKind x.kind
  let T1 := (L.reverse.takeWhile q).reverse
  let X := (L.reverse.dropWhile q).reverse
  let T2 := R.takeWhile q
  let Y := R.dropWhile q
  have e1 : L = X ++ T1 := by
    have := List.takeWhile_append_dropWhile (p := q) (l := L.reverse)
    have := congrArg List.reverse this
    rw [List.reverse_append, List.reverse_reverse] at this
    exact this.symm
  have e2 : R = T2 ++ Y := (List.takeWhile_append_dropWhile (p := q) (l := R)).symm
  refine ⟨X, T1 ++ c :: T2, Y, ?_, by simp, ?_, ?_, ?_⟩
  · conv => lhs; rw [e1, e2]
    simp only [List.append_assoc, List.cons_append]
  · intro t ht
    rcases List.mem_append.1 ht with ht | ht
    · exact List.all_eq_true.1 List.all_takeWhile t (List.mem_reverse.1 ht)
    · rcases List.mem_cons.1 ht with rfl | ht
      · exact hk
      · exact List.all_eq_true.1 List.all_takeWhile t ht
  · have hh := List.head?_dropWhile_not (p := q) (l := L.reverse)
    cases hd : L.reverse.dropWhile q with
    | nil => left; show (L.reverse.dropWhile q).reverse = []; rw [hd]; rfl
    | cons a X' =>
      right
      rw [hd] at hh
      refine ⟨X'.reverse, a, ?_, ?_⟩
      · show (L.reverse.dropWhile q).reverse = _; rw [hd]; simp
      · simpa [q] using hh
  · have hh := List.head?_dropWhile_not (p := q) (l := R)
    cases hd : R.dropWhile q with
    | nil => exact .inl hd
    | cons b Y' =>
      right
      rw [hd] at hh
      exact ⟨b, Y', hd, by simpa [q] using hh⟩

/-- The run of a trivia child. -/
theorem gap_of {r c : Red} (hr : InTree g r) (hc : c ∈ r.childrenT) (hk : triviaKind c.kind = true) :
    ∃ X T Y, Gap g r X T Y ∧ c ∈ T := by
  obtain ⟨X, T, Y, e, hcT, hT, hX, hY⟩ := runs_of r.childrenT hc hk
  have hn := child_isNode hc
  have hcl := children_leaves hn
  have hTne : ∃ t T', T = t :: T' ∧ ∃ p l, t.green.leaves = p :: l ∧ triviaKind p.1 = true := by
    cases hT' : T with
    | nil => rw [hT'] at hcT; cases hcT
    | cons t T' =>
      have ht : triviaKind t.kind = true := hT t (by rw [hT']; simp)
      refine ⟨t, T', rfl, t.kt, [], token_leaves (trivia_token P (.child hr (by rw [e, hT']; simp)) ht), ht⟩
  have hTend : ∃ t T', T = T' ++ [t] ∧ ∃ p l, t.green.leaves = l ++ [p] ∧ triviaKind p.1 = true := by
    obtain ⟨t, T0, hT0, -⟩ := hTne
    have hne : T ≠ [] := by rw [hT0]; simp
    refine ⟨T.getLast hne, T.dropLast, (List.dropLast_append_getLast hne).symm, (T.getLast hne).kt, [], ?_, ?_⟩
    · exact token_leaves (trivia_token P (.child hr (by rw [e]; exact List.mem_append_right _ (List.mem_append_left _ (List.getLast_mem hne)))) (hT _ (List.getLast_mem hne)))
    · exact hT _ (List.getLast_mem hne)
  have hroot : X = [] ∨ Y = [] → r = Red.root g := by
    intro hXY
    by_contra hne
    have htight := P.tight _ (P.inner_of hr hn (fun hu => hne (hr.root_of_up hu)))
    rcases hXY with hX0 | hY0
    · obtain ⟨k, t, l, e1, e2⟩ := htight.1
      obtain ⟨t', T', hT', p, l', h1, h2⟩ := hTne
      rw [hcl, e, hX0, hT'] at e1
      have : lv ([] ++ (t' :: T' ++ Y)) = t'.green.leaves ++ lv (T' ++ Y) := rfl
      rw [this, h1] at e1
      simp only [List.cons_append, List.cons.injEq] at e1
      rw [e1.1] at h2
      rw [e2] at h2; cases h2
    · obtain ⟨k, t, l, e1, e2⟩ := htight.2
      obtain ⟨t', T', hT', p, l', h1, h2⟩ := hTend
      rw [hcl, e, hY0, hT', List.append_nil, ← List.append_assoc, lv_append] at e1
      have : lv [t'] = t'.green.leaves := by simp [lv]
      rw [this, h1, ← List.append_assoc] at e1
      have := List.append_inj_right' e1 rfl
      simp only [List.cons.injEq, and_true] at this
      rw [this] at h2
      rw [e2] at h2; cases h2
  refine ⟨X, T, Y, ⟨e, hT, ?_, ?_⟩, hcT⟩
  · rcases hX with h | h
    · exact .inl ⟨h, hroot (.inl h)⟩
    · exact .inr h
  · rcases hY with h | h
    · exact .inl ⟨h, hroot (.inr h)⟩
    · exact .inr h

omit P in
/-- Places of the children in front of, in and behind a run. -/
theorem gap_order {r : Red} {X T Y : List Red} (hg : Gap g r X T Y) :
    (∀ x ∈ X, x.stop ≤ r.start + blen (flat (lv X))) ∧ (∀ t ∈ T, r.start + blen (flat (lv X)) ≤ t.start) ∧
    (∀ t ∈ T, t.stop ≤ r.start + blen (flat (lv X)) + blen (flat (lv T))) := by
  have hpre : ∀ (A B : List Red), r.childrenT = A ++ B → ∀ x ∈ A, x.stop ≤ r.start + blen (flat (lv A)) := by
    intro A B hAB x hx
    obtain ⟨L, R, rfl⟩ := List.append_of_mem hx
    have h1 : r.childrenT = (L ++ [x]) ++ (R ++ B) := by rw [hAB]; simp
    rw [(child_places h1).1 L x rfl]
    have h2 : lv (L ++ x :: R) = lv (L ++ [x]) ++ lv R := by rw [List.append_cons, lv_append]
    rw [h2, flat_app, blen_append]; omega
  refine ⟨hpre X _ hg.split, ?_, ?_⟩
  · intro t ht
    obtain ⟨L, R, hT⟩ := List.append_of_mem ht
    have h1 : r.childrenT = (X ++ L) ++ (t :: (R ++ Y)) := by rw [hg.split, hT]; simp
    rw [(child_places h1).2 t _ rfl, lv_append, flat_app, blen_append]; omega
  · intro t ht
    have h1 : r.childrenT = (X ++ T) ++ Y := by rw [hg.split, List.append_assoc]
    have := hpre _ _ h1 t (List.mem_append_right _ ht)
    rw [lv_append, flat_app, blen_append] at this
    omega

omit P in
theorem prefix_width (hne : ∀ l : List Red, l ≠ [] → (∀ x ∈ l, x.text ≠ []) → 0 < blen (flat (lv l))) {l X Y X' Y' : List Red} (hl : ∀ x ∈ l, x.text ≠ [])
    (h : l = X ++ Y) (h' : l = X' ++ Y') (hw : blen (flat (lv X)) = blen (flat (lv X'))) : X = X' ∧ Y = Y' := by
  have h2 := h.symm.trans h'
  rcases List.append_eq_append_iff.1 h2 with ⟨a, h3, h4⟩ | ⟨a, h3, h4⟩
  · by_cases ha : a = []
    · subst ha; simp at h3 h4; exact ⟨h3.symm, h4⟩
    · have := hne a ha (fun x hx => hl x (by rw [h', h3]; simp [hx]))
      rw [h3, lv_append, flat_app, blen_append] at hw; omega
  · by_cases ha : a = []
    · subst ha; simp at h3 h4; exact ⟨h3, h4.symm⟩
    · have := hne a ha (fun x hx => hl x (by rw [h, h3]; simp [hx]))
      rw [h3, lv_append, flat_app, blen_append] at hw; omega

omit P in
theorem lv_pos : ∀ l : List Red, l ≠ [] → (∀ x ∈ l, x.text ≠ []) → 0 < blen (flat (lv l)) := by
  intro l hl hx
  cases l with
  | nil => exact absurd rfl hl
  | cons x l =>
    have e : lv (x :: l) = x.green.leaves ++ lv l := rfl
    rw [e, flat_app, blen_append, blen_leaves]
    have := blen_pos (hx x List.mem_cons_self)
    omega

/-- Runs at the same place are the same. -/
theorem gap_unique {r : Red} {X T Y X' T' Y' : List Red} (hr : InTree g r) (h : Gap g r X T Y) (h' : Gap g r X' T' Y')
    (hw : blen (flat (lv X)) = blen (flat (lv X'))) : X = X' ∧ T = T' ∧ Y = Y' := by
  have hne : ∀ x ∈ r.childrenT, x.text ≠ [] := by
    intro x hx h0
    have := child_pos P hr hx
    have h2 : x.stop = x.start + blen x.text := rfl
    rw [h0] at h2
    simp only [blen] at h2
    omega
  obtain ⟨e1, e2⟩ := prefix_width lv_pos hne h.split h'.split hw
  have htw : ∀ {T Y : List Red}, (∀ t ∈ T, triviaKind t.kind = true) → (Y = [] ∨ ∃ b Y', Y = b :: Y' ∧ triviaKind b.kind = false) →
      (T ++ Y).takeWhile (fun x => triviaKind x.kind) = T := by
    intro T Y hT hY
    rw [List.takeWhile_append_of_pos hT]
    rcases hY with rfl | ⟨b, Y', rfl, hb⟩
    · simp
    · rw [List.takeWhile_cons, hb]; simp
  have hT : T = T' := by
    rw [← htw h.trivia (h.right.imp (·.1) id), e2, htw h'.trivia (h'.right.imp (·.1) id)]
  subst hT
  exact ⟨e1, rfl, List.append_cancel_left e2⟩

end
end Verif.Format
