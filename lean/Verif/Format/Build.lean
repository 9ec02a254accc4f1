import Verif.Format.Plan
/-!
# Every plan is a script, and what the formatter makes of it
-/
namespace Verif.Format
open Verif Verif.Grammar Verif.Lexer Verif.Features

/-- What the induction needs to know about the sorted edits and markers. -/
structure Sorted (P : Pieces) (E : List SEdit) (C : List SComment) (D : List SEdit) (Cs : List SComment) : Prop where
  plan : Plan P E C
  mem : ∀ e ∈ D, e ∈ E ∧ (e.toPos (flat P)).isEmpty = false
  all : ∀ e ∈ E, e.start < e.stop → e ∈ D
  asc : D.Pairwise (fun a b => a.stop ≤ b.start)
  sorted : Cs.Pairwise (fun a b => a.pos ≤ b.pos)
  memC : ∀ c ∈ Cs, c ∈ C
  stable : ∀ p, Cs.filter (fun c => decide (c.pos = p)) = C.filter (fun c => decide (c.pos = p))

theorem Fits.indices {P : Pieces} (hn : ∀ x ∈ P, x.2 ≠ []) {e : SEdit} {i j k m : Nat} (h : Fits P e i j) (hk : k ≤ P.length)
    (hm : m ≤ P.length) (h1 : e.start = off P k) (h2 : e.stop = off P m) : i = k ∧ j = m := by
  have hi : i ≤ P.length := Nat.le_trans h.le h.hj
  have a1 := (off_le_iff hn hi hk).1 (by rw [← h.start, h1])
  have a2 := (off_le_iff hn hk hi).1 (by rw [← h.start, h1])
  have b1 := (off_le_iff hn h.hj hm).1 (by rw [← h.stop, h2])
  have b2 := (off_le_iff hn hm h.hj).1 (by rw [← h.stop, h2])
  omega

/-- The places of certain white space in the pieces from `n` on: at the edits `D` that begin with white space or have comments, and
where white space is kept. -/
structure Marks (P : Pieces) (E D : List SEdit) (n : Nat) (l : Pieces) : Prop where
  toks : solid l = solid (P.drop n)
  edits : ∀ x ∈ D, ∀ i j, Fits P x i j → 0 < i → (lead x.text ≠ [] ∨ comsOf (slice P i j) ≠ []) → Marked l (solid (slice P n i))
  kept : ∀ k y, n ≤ k → P[k]? = some y → y.1 = K.WHITESPACE → (∀ e ∈ E, ¬ (e.start ≤ off P k ∧ off P (k + 1) ≤ e.stop)) →
    Marked l (solid (slice P n k))

theorem slice_slice (P : Pieces) {n i k : Nat} (h : n ≤ i) (h2 : i ≤ k) : slice P n k = slice P n i ++ slice P i k := by
  unfold slice
  have h1 : P.take k = P.take i ++ (P.take k).drop i := by
    have := (List.take_append_drop i (P.take k)).symm
    rwa [List.take_take, Nat.min_eq_left h2] at this
  by_cases hn : n ≤ (P.take i).length
  · conv => lhs; rw [h1]
    rw [List.drop_append_of_le_length hn]
  · rw [List.length_take] at hn
    have : P.length ≤ n := by omega
    rw [List.drop_eq_nil_of_le (by rw [List.length_take]; omega), List.drop_eq_nil_of_le (by rw [List.length_take]; omega),
      List.drop_eq_nil_of_le (by rw [List.length_take]; omega)]
    rfl

theorem slice_self (P : Pieces) (i : Nat) : slice P i i = [] := by unfold slice; simp

/-- White space among the pieces is a mark. -/
theorem marked_slice {P : Pieces} {n k i : Nat} {y : Kind × Text} (h1 : n ≤ k) (h2 : k < i) (hy : P[k]? = some y)
    (hw : y.1 = K.WHITESPACE) (l : Pieces) : Marked (slice P n i ++ l) (solid (slice P n k)) := by
  refine ⟨slice P n k, y, slice P (k + 1) i ++ l, ?_, hw, rfl⟩
  rw [slice_slice P h1 (Nat.le_of_lt h2), slice_slice P (Nat.le_succ k) h2]
  have : slice P k (k + 1) = [y] := by
    have hk : k < P.length := (List.getElem?_eq_some_iff.1 hy).1
    unfold slice
    rw [List.take_succ_eq_append_getElem hk, List.drop_append_of_le_length (by rw [List.length_take]; omega),
      List.drop_eq_nil_of_le (by rw [List.length_take]; omega)]
    rw [List.getElem?_eq_getElem hk] at hy
    rw [Option.some.inj hy]; rfl
  rw [this]
  simp

theorem Marks.after {P : Pieces} {E D : List SEdit} {n i : Nat} {l : Pieces} (hni : n ≤ i) (h : Marks P E D i l)
    (hD : ∀ x ∈ D, ∀ a b, Fits P x a b → i ≤ a) : Marks P E D n (slice P n i ++ l) := by
  refine ⟨?_, ?_, ?_⟩
  · rw [solid_append, h.toks, ← solid_append, ← drop_slice P hni]
  · intro x hx a b hf ha hx2
    have hia := hD x hx a b hf
    rw [slice_slice P hni hia, solid_append]
    exact (h.edits x hx a b hf ha hx2).after _
  · intro k y hk hy hw hE
    by_cases hki : k < i
    · exact marked_slice hk hki hy hw l
    · rw [slice_slice P (k := k) hni (by omega), solid_append]
      exact (h.kept k y (by omega) hy hw hE).after _

theorem script_build {P E C D Cs} (S : Sorted P E C D Cs) : ∀ m D0 D1 n, D1.length ≤ m → D = D0 ++ D1 → n ≤ P.length →
    (∀ e ∈ D0, e.stop ≤ off P n) → (∀ e ∈ D1, off P n ≤ e.start) →
    ∃ l, Script (flat (P.take n)) (P.drop n) (D1.map (SEdit.toPos (flat P)))
      ((Cs.filter (fun c => decide (off P n ≤ c.pos))).map (SComment.toPos (flat P))) l ∧ Marks P E D1 n l := by
  have hn := S.plan.nonempty
  have hSE : ∀ e ∈ E, e.start ≤ e.stop := by
    intro e he
    obtain ⟨i, j, hf⟩ := S.plan.fits e he
    rw [hf.start, hf.stop]
    exact off_mono P hf.le
  intro m
  induction m with
  | zero =>
    intro D0 D1 n hl hD hn' h0 h1
    have : D1 = [] := List.eq_nil_of_length_eq_zero (by omega)
    subst this
    rw [List.append_nil] at hD
    have hC : Cs.filter (fun c => decide (off P n ≤ c.pos)) = [] := by
      rw [List.filter_eq_nil_iff]
      intro c hc hle
      obtain ⟨e, he, hlt, hp⟩ := S.plan.has c (S.memC c hc)
      have := h0 e (hD ▸ S.all e he hlt)
      simp only [decide_eq_true_eq] at hle
      omega
    rw [hC]
    refine ⟨slice P n P.length ++ [], script_keep hn (Nat.le_refl _) (P.length - n) n (by omega) ?_ ?_,
      Marks.after (i := P.length) hn' ⟨by rw [List.drop_length], by simp, ?_⟩ (by simp)⟩
    · intro k x hk1 hk2 hx
      rcases S.plan.covered k x hx with h | ⟨e, he, h2, h3⟩
      · exact h
      · exfalso
        have h4 := off_lt hn (show k < k + 1 by omega) (by omega)
        have h5 := h0 e (hD ▸ S.all e he (by omega))
        have h6 := off_mono P (show n ≤ k by omega)
        omega
    · rw [List.drop_length, List.map_nil, List.map_nil]
      exact .done
    · intro k y hk hy
      have := (List.getElem?_eq_some_iff.1 hy).1
      omega
  | succ m ih =>
    intro D0 D1 n hl hD hn' h0 h1
    cases hD1 : D1 with
    | nil =>
      rw [hD1] at hD
      have := ih D0 [] n (by simp) hD hn' h0 (by simp)
      exact this
    | cons e D1' =>
      have heD1 : e ∈ D1 := by rw [hD1]; exact List.mem_cons_self
      have hmemD : ∀ x ∈ D1, x ∈ D := fun x hx => by rw [hD]; exact List.mem_append_right _ hx
      have heE := (S.mem e (hmemD e heD1)).1
      obtain ⟨i, j, hf⟩ := S.plan.fits e heE
      have hi : i ≤ P.length := Nat.le_trans hf.le hf.hj
      have hni : n ≤ i := (off_le_iff hn hn' hi).1 (by rw [← hf.start]; exact h1 e heD1)
      have hasc1 : D1.Pairwise (fun a b => a.stop ≤ b.start) := by
        have := S.asc
        rw [hD] at this
        exact (List.pairwise_append.1 this).2.1
      have hge : ∀ x ∈ D1, off P i ≤ x.start := by
        intro x hx
        rw [hD1] at hx hasc1
        rcases List.mem_cons.1 hx with rfl | hx
        · rw [hf.start]
        · have h2 := (List.pairwise_cons.1 hasc1).1 x hx
          have h3 := hSE e heE
          rw [hf.start] at h3
          omega
      -- the owner of a marker
      have F1 : ∀ c ∈ Cs, off P n ≤ c.pos → ∃ x ∈ D1, x.start < x.stop ∧ x.start = c.pos := by
        intro c hc hle
        obtain ⟨x, hx, hlt, hp⟩ := S.plan.has c (S.memC c hc)
        have hxD := S.all x hx hlt
        rw [hD] at hxD
        rcases List.mem_append.1 hxD with h2 | h2
        · have := h0 x h2; omega
        · exact ⟨x, h2, hlt, hp⟩
      -- up to the first edit
      have hfilter : Cs.filter (fun c => decide (off P n ≤ c.pos)) = Cs.filter (fun c => decide (off P i ≤ c.pos)) := by
        refine List.filter_congr ?_
        intro c hc
        have h2 := off_mono P hni
        by_cases h3 : off P n ≤ c.pos
        · obtain ⟨x, hx, hlt, hp⟩ := F1 c hc h3
          have := hge x hx
          rw [decide_eq_true h3, decide_eq_true (show off P i ≤ c.pos by omega)]
        · rw [decide_eq_false h3, decide_eq_false (show ¬ off P i ≤ c.pos by omega)]
      rw [hfilter]
      have hgo : (∃ l, Script (flat (P.take i)) (P.drop i) (D1.map (SEdit.toPos (flat P)))
          ((Cs.filter (fun c => decide (off P i ≤ c.pos))).map (SComment.toPos (flat P))) l ∧ Marks P E D1 i l) →
          ∃ l, Script (flat (P.take n)) (P.drop n) (D1.map (SEdit.toPos (flat P)))
            ((Cs.filter (fun c => decide (off P i ≤ c.pos))).map (SComment.toPos (flat P))) l ∧ Marks P E D1 n l := by
        rintro ⟨l, hl1, hl2⟩
        refine ⟨slice P n i ++ l, script_keep hn hi (i - n) n (by omega) ?_ hl1, hl2.after hni ?_⟩
        rotate_left
        · intro x hx a b hfx
          have h2 := hge x hx
          rw [hfx.start] at h2
          exact (off_le_iff hn hi (Nat.le_trans hfx.le hfx.hj)).1 h2
        · intro k x hk1 hk2 hx
          rcases S.plan.covered k x hx with h | ⟨y, hy, h2, h3⟩
          · exact h
          · exfalso
            have h4 := off_lt hn (show k < k + 1 by omega) (by omega)
            have h5 := S.all y hy (by omega)
            rw [hD] at h5
            rcases List.mem_append.1 h5 with h6 | h6
            · have := h0 y h6
              have h7 := off_mono P (show n ≤ k by omega)
              omega
            · have := hge y h6
              have h7 := off_lt hn hk2 hi
              omega
      rw [← hD1]
      refine hgo ?_
      clear hgo
      -- the insertions at this place
      let q : SEdit → Bool := fun x => decide (x.start = e.start) && decide (x.stop = e.start)
      have hsplit : D1 = D1.takeWhile q ++ D1.dropWhile q := (List.takeWhile_append_dropWhile).symm
      generalize hI : D1.takeWhile q = I at hsplit
      generalize hR : D1.dropWhile q = R at hsplit
      have hIm : ∀ x ∈ I, x.start = off P i ∧ x.stop = off P i ∧ Fits P x i i ∧ (x.toPos (flat P)).isEmpty = false := by
        intro x hx
        have h2 : q x = true := List.all_eq_true.1 (List.all_takeWhile (l := D1) (p := q)) x (hI ▸ hx)
        have hxD := hmemD x (by rw [hsplit]; exact List.mem_append_left _ hx)
        simp only [q, Bool.and_eq_true, decide_eq_true_eq, hf.start] at h2
        obtain ⟨a, b, hfx⟩ := S.plan.fits x (S.mem x hxD).1
        obtain ⟨rfl, rfl⟩ := hfx.indices hn hi hi h2.1 h2.2
        exact ⟨h2.1, h2.2, hfx, (S.mem x hxD).2⟩
      have hRm : ∀ x ∈ R, x ∈ D1 := fun x hx => by rw [hsplit]; exact List.mem_append_right _ hx
      have hascR : R.Pairwise (fun a b => a.stop ≤ b.start) := by
        rw [hsplit] at hasc1
        exact (List.pairwise_append.1 hasc1).2.1
      have hlen : I.length + R.length = D1.length := by rw [hsplit]; simp
      have hslice : slice P i i = [] := by unfold slice; simp
      have case2 : (∀ r R', R = r :: R' → r.start ≠ off P i) → I ≠ [] → ∃ l, Script (flat (P.take i)) (P.drop i) (D1.map (SEdit.toPos (flat P)))
          ((Cs.filter (fun c => decide (off P i ≤ c.pos))).map (SComment.toPos (flat P))) l ∧ Marks P E D1 i l := by
        intro hr hI0
        have hgt : ∀ x ∈ R, off P i < x.start := by
          intro x hx
          cases hR' : R with
          | nil => rw [hR'] at hx; cases hx
          | cons r R' =>
            have h2 := hr r R' hR'
            have h3 := hge r (hRm r (by rw [hR']; exact List.mem_cons_self))
            rw [hR'] at hx hascR
            rcases List.mem_cons.1 hx with rfl | hx
            · omega
            · have h4 := (List.pairwise_cons.1 hascR).1 x hx
              have h5 := hSE r (S.mem r (hmemD r (hRm r (by rw [hR']; exact List.mem_cons_self)))).1
              omega
        obtain ⟨l2, h2, hm2⟩ := ih (D0 ++ I) R i (by
            have : I.length ≠ 0 := fun h => hI0 (List.eq_nil_of_length_eq_zero h)
            omega) (by rw [hD, hsplit, List.append_assoc]) hi
          (by
            intro x hx
            rcases List.mem_append.1 hx with hx | hx
            · have := h0 x hx
              have := off_mono P hni
              omega
            · rw [(hIm x hx).2.1])
          (fun x hx => Nat.le_of_lt (hgt x hx))
        have h3 := script_insert I (fun x hx => ⟨(hIm x hx).2.2.1, (hIm x hx).2.2.2⟩) (by
          intro c hc
          obtain ⟨c', hc', rfl⟩ := List.mem_map.1 hc
          obtain ⟨hc1, hc2⟩ := List.mem_filter.1 hc'
          simp only [decide_eq_true_eq] at hc2
          obtain ⟨x, hx, hlt, hp⟩ := F1 c' hc1 (Nat.le_trans (off_mono P hni) hc2)
          have hxR : x ∈ R := by
            rw [hsplit] at hx
            rcases List.mem_append.1 hx with hx | hx
            · have := hIm x hx; omega
            · exact hx
          have h4 := hgt x hxR
          obtain ⟨a, b, hfx⟩ := S.plan.fits x (S.mem x (hmemD x (hRm x hxR))).1
          have ha : a ≤ P.length := Nat.le_trans hfx.le hfx.hj
          have hia : i < a := by
            by_cases hia : i < a
            · exact hia
            · have := off_mono P (show a ≤ i by omega)
              rw [← hfx.start] at this; omega
          have := posAt_lt hn hia ha
          unfold SComment.toPos
          dsimp only
          rw [← hp, hfx.start]
          exact this) h2
        refine ⟨I.flatMap (fun e => lead e.text) ++ l2, ?_, ?_, ?_, ?_⟩
        · rw [hsplit, List.map_append]
          exact h3
        · rw [solid_append, solid_leads, hm2.toks]; rfl
        · intro x hx a b hfx ha hx2
          rw [hsplit] at hx
          rcases List.mem_append.1 hx with hx | hx
          · obtain ⟨rfl, rfl⟩ := hfx.indices hn hi hi (hIm x hx).1 (hIm x hx).2.1
            rw [slice_self] at hx2 ⊢
            have hx3 : lead x.text ≠ [] := hx2.elim id (fun h => absurd rfl h)
            obtain ⟨I1, I2, hI12⟩ := List.append_of_mem hx
            refine ⟨I1.flatMap (fun e => lead e.text), gapMark, I2.flatMap (fun e => lead e.text) ++ l2, ?_, rfl, solid_leads I1⟩
            rw [hI12, List.flatMap_append, List.flatMap_cons, lead_eq hx3]
            simp
          · have := (hm2.edits x hx a b hfx ha hx2).after (I.flatMap (fun e => lead e.text))
            rwa [solid_leads, List.nil_append] at this
        · intro k y hk hy hw hE
          have := (hm2.kept k y hk hy hw hE).after (I.flatMap (fun e => lead e.text))
          rwa [solid_leads, List.nil_append] at this
      cases hRc : R with
      | nil =>
        refine case2 ?_ ?_
        · intro r R' h; rw [hRc] at h; cases h
        · intro hI0
          rw [hI0, hRc] at hsplit
          rw [hsplit] at heD1; cases heD1
      | cons r R' =>
        by_cases hrs : r.start = off P i
        · -- a replacement at this place
          have hrD1 := hRm r (by rw [hRc]; exact List.mem_cons_self)
          have hrE := (S.mem r (hmemD r hrD1)).1
          have hrq : q r = false := by
            have h2 : (D1.dropWhile q).head? = some r := by rw [hR, hRc]; rfl
            have := List.head?_dropWhile_not q D1
            rw [h2] at this
            simpa using this
          have hrlt : r.start < r.stop := by
            have h2 := hSE r hrE
            simp only [q, hf.start, Bool.and_eq_false_iff, decide_eq_false_iff_not] at hrq
            omega
          obtain ⟨a, b, hfr⟩ := S.plan.fits r hrE
          obtain ⟨rfl, -⟩ := hfr.indices hn hi hfr.hj hrs hfr.stop
          have hab : a < b := by
            by_cases hab : a < b
            · exact hab
            · have := off_mono P (show b ≤ a by omega)
              rw [← hfr.start, ← hfr.stop] at this; omega
          rw [hRc] at hascR
          have hascR' := List.pairwise_cons.1 hascR
          obtain ⟨l2, h2, hm2⟩ := ih (D0 ++ I ++ [r]) R' b (by rw [hRc, List.length_cons] at hlen; omega)
            (by rw [hD, hsplit, hRc]; simp) hfr.hj
            (by
              intro x hx
              rcases List.mem_append.1 hx with hx | hx
              · have h5 := off_mono P (show a ≤ b by omega)
                rcases List.mem_append.1 hx with hx | hx
                · have := h0 x hx
                  have := off_mono P hni
                  omega
                · rw [(hIm x hx).2.1]; exact h5
              · rw [List.mem_singleton.1 hx, hfr.stop])
            (by
              intro x hx
              rw [← hfr.stop]
              exact hascR'.1 x hx)
          have hcsplit := filter_split (p := off P a) (b := off P a) (b' := off P b) Cs S.sorted (Nat.le_refl _)
            (off_lt hn hab hfr.hj) (by
              intro c hc hle
              obtain ⟨x, hx, hlt, hp⟩ := F1 c hc (Nat.le_trans (off_mono P hni) hle)
              rw [hsplit, hRc] at hx
              rcases List.mem_append.1 hx with hx | hx
              · have := hIm x hx; omega
              · rcases List.mem_cons.1 hx with rfl | hx
                · left; rw [← hp]; exact hrs
                · right
                  have := hascR'.1 x hx
                  rw [← hfr.stop]; omega)
          have hcoms := S.plan.coms r hrE a b hab hfr
          rw [hfr.start, ← S.stable] at hcoms
          rw [hcsplit, List.map_append]
          have hcs : ∀ c ∈ (Cs.filter (fun c => decide (c.pos = off P a))).map (SComment.toPos (flat P)),
              c.pos = posAt (flat P) (off P a) ∧ ∃ t, c.text = '#' :: t := by
            intro c hc
            obtain ⟨c', hc', rfl⟩ := List.mem_map.1 hc
            have h3 : (K.Comment, c'.text) ∈ comsOf (slice P a b) := by
              rw [← hcoms]
              exact List.mem_map.2 ⟨c', hc', rfl⟩
            have h4 := (List.mem_filter.1 h3).1
            obtain ⟨k, _, _, h5⟩ := mem_slice h4
            refine ⟨?_, S.plan.hash _ (List.mem_of_getElem? h5) rfl⟩
            have := (List.mem_filter.1 hc').2
            simp only [decide_eq_true_eq] at this
            unfold SComment.toPos
            rw [this]
          have hCb : ∀ c ∈ (Cs.filter (fun c => decide (off P b ≤ c.pos))).map (SComment.toPos (flat P)),
              (posAt (flat P) (off P a)).Before c.pos ∧ (posAt (flat P) (off P b)).le c.pos = true := by
            intro c hc
            obtain ⟨c', hc', rfl⟩ := List.mem_map.1 hc
            obtain ⟨hc1, hc2⟩ := List.mem_filter.1 hc'
            simp only [decide_eq_true_eq] at hc2
            obtain ⟨x, hx, hlt, hp⟩ := S.plan.has c' (S.memC c' hc1)
            obtain ⟨u, v, hfx⟩ := S.plan.fits x hx
            have hu : u ≤ P.length := Nat.le_trans hfx.le hfx.hj
            have hbu : b ≤ u := (off_le_iff hn hfr.hj hu).1 (by rw [← hfx.start, hp]; exact hc2)
            unfold SComment.toPos
            dsimp only
            rw [← hp, hfx.start]
            exact ⟨posAt_lt hn (by omega) hu, posAt_le hbu⟩
          have hmap : ((Cs.filter (fun c => decide (c.pos = off P a))).map (SComment.toPos (flat P))).map
              (fun c => (K.Comment, c.text)) = comsOf (slice P a b) := by
            rw [List.map_map, ← hcoms]
            rfl
          have hfinal : solid (P.drop a) = comsOf (slice P a b) ++ (firmOf (slice P a b) ++ solid (P.drop b)) := by
            rw [drop_slice P (Nat.le_of_lt hab), solid_append, solid_fits hfr.shape, List.append_assoc]
          have hre := (S.mem r (hmemD r hrD1)).2
          generalize hcsg : (Cs.filter (fun c => decide (c.pos = off P a))).map (SComment.toPos (flat P)) = cs at hcs hmap
          generalize hCg : (Cs.filter (fun c => decide (off P b ≤ c.pos))).map (SComment.toPos (flat P)) = C2 at hCb h2
          -- the script
          have hscr : Script (flat (P.take a)) (P.drop a) (D1.map (SEdit.toPos (flat P))) (cs ++ C2)
              (cs.flatMap comItems ++ (I.flatMap (fun e => lead e.text) ++ ((lead r.text ++ firmOf (slice P a b)) ++ l2))) := by
            cases hIc : I with
            | nil =>
              have h3 := script_edit hfr hre hcs hCb h2
              rw [hsplit, hIc, hRc]
              exact h3
            | cons i0 I' =>
              have h3 := script_edit hfr hre (cs := []) (by simp) hCb h2
              have h4 := script_insert I' (fun x hx => by
                have := hIm x (by rw [hIc]; exact List.mem_cons_of_mem _ hx)
                exact ⟨this.2.2.1, this.2.2.2⟩) (fun c hc => (hCb c (by simpa using hc)).1) h3
              have hi0 := hIm i0 (by rw [hIc]; exact List.mem_cons_self)
              have h5 := script_edit hi0.2.2.1 hi0.2.2.2 hcs (by
                intro c hc
                have := (hCb c (by simpa using hc)).1
                exact ⟨this, le_of_lt this⟩) h4
              rw [hslice] at h5
              have h6 : firmOf ([] : Pieces) = [] := rfl
              rw [h6] at h5
              rw [hsplit, hIc, hRc]
              simpa using h5
          have hsolid : ∀ l3, solid (cs.flatMap comItems ++ (I.flatMap (fun e => lead e.text) ++ ((lead r.text ++ firmOf (slice P a b)) ++ l3))) =
              solid (slice P a b) ++ solid l3 := by
            intro l3
            rw [solid_append, solid_append, solid_append, solid_append, solid_comItems, solid_leads, solid_lead, hmap, solid_firmOf,
              solid_fits hfr.shape]
            simp
          -- at this place
          have hhere : ∀ x : SEdit, (x ∈ I ∨ x = r) → 0 < a → (lead x.text ≠ [] ∨ comsOf (slice P a b) ≠ []) →
              Marked (cs.flatMap comItems ++ (I.flatMap (fun e => lead e.text) ++ ((lead r.text ++ firmOf (slice P a b)) ++ l2))) [] := by
            intro x hx ha hx2
            by_cases hcs0 : cs = []
            · have hx3 : lead x.text ≠ [] := by
                rcases hx2 with h | h
                · exact h
                · rw [hcs0] at hmap
                  exact absurd hmap.symm h
              rw [hcs0]
              rcases hx with hx | rfl
              · obtain ⟨I1, I2, hI12⟩ := List.append_of_mem hx
                refine ⟨I1.flatMap (fun e => lead e.text), gapMark,
                  I2.flatMap (fun e => lead e.text) ++ ((lead r.text ++ firmOf (slice P a b)) ++ l2), ?_, rfl, solid_leads I1⟩
                rw [hI12, List.flatMap_append, List.flatMap_cons, lead_eq hx3]
                simp
              · refine ⟨I.flatMap (fun e => lead e.text), gapMark, firmOf (slice P a b) ++ l2, ?_, rfl, solid_leads I⟩
                rw [lead_eq hx3]
                simp
            · obtain ⟨c, cs', hcc⟩ := List.exists_cons_of_ne_nil hcs0
              have hpos := (hcs c (by rw [hcc]; exact List.mem_cons_self)).1
              have hnz : ¬ (c.pos.line = 0 ∧ c.pos.character = 0) := by
                intro hz
                have hb : (posAt (flat P) (off P 0)).Before (posAt (flat P) (off P a)) := posAt_lt hn ha (Nat.le_trans hfr.le hfr.hj)
                rw [← hpos] at hb
                unfold Position.Before at hb
                omega
              refine ⟨[], gapMark, (K.Comment, c.text) :: cs'.flatMap comItems ++ (I.flatMap (fun e => lead e.text) ++ ((lead r.text ++ firmOf (slice P a b)) ++ l2)), ?_, rfl, rfl⟩
              rw [hcc, List.flatMap_cons]
              unfold comItems
              rw [if_neg hnz]
              simp
          refine ⟨_, hscr, ?_, ?_, ?_⟩
          · rw [hsolid, hm2.toks, ← solid_append, ← drop_slice P (Nat.le_of_lt hab)]
          · intro x hx a' b' hfx ha' hx2
            rw [hsplit, hRc] at hx
            rcases List.mem_append.1 hx with hx | hx
            · obtain ⟨rfl, rfl⟩ := hfx.indices hn hi hi (hIm x hx).1 (hIm x hx).2.1
              rw [slice_self] at hx2 ⊢
              exact hhere x (.inl hx) ha' (hx2.elim .inl (fun h => absurd rfl h))
            · rcases List.mem_cons.1 hx with rfl | hx
              · obtain ⟨rfl, rfl⟩ := hfx.indices hn hi hfr.hj hrs hfr.stop
                rw [slice_self]
                exact hhere x (.inr rfl) ha' hx2
              · have hba : b ≤ a' := by
                  have h7 := hascR'.1 x hx
                  rw [hfr.stop, hfx.start] at h7
                  exact (off_le_iff hn hfr.hj (Nat.le_trans hfx.le hfx.hj)).1 h7
                obtain ⟨l3, mk, l4, k1, k2, k3⟩ := hm2.edits x hx a' b' hfx ha' hx2
                refine ⟨cs.flatMap comItems ++ (I.flatMap (fun e => lead e.text) ++ ((lead r.text ++ firmOf (slice P a b)) ++ l3)), mk, l4, ?_, k2, ?_⟩
                · rw [k1]; simp
                · rw [hsolid, k3, ← solid_append, ← slice_slice P (Nat.le_of_lt hab) hba]
          · intro k y hk hy hw hE
            have hbk : b ≤ k := by
              by_cases hbk : b ≤ k
              · exact hbk
              · exfalso
                refine hE r hrE ⟨?_, ?_⟩
                · rw [hfr.start]; exact off_mono P hk
                · rw [hfr.stop]; exact off_mono P (by omega)
            obtain ⟨l3, mk, l4, k1, k2, k3⟩ := hm2.kept k y hbk hy hw hE
            refine ⟨cs.flatMap comItems ++ (I.flatMap (fun e => lead e.text) ++ ((lead r.text ++ firmOf (slice P a b)) ++ l3)), mk, l4, ?_, k2, ?_⟩
            · rw [k1]; simp
            · rw [hsolid, k3, ← solid_append, ← slice_slice P (Nat.le_of_lt hab) hbk]
        · refine case2 ?_ ?_
          · intro r' R'' h
            rw [hRc] at h
            injection h with h _
            rw [← h]; exact hrs
          · intro hI0
            rw [hI0, hRc, hD1] at hsplit
            injection hsplit with h _
            exact hrs (h ▸ hf.start)

/-- A permutation of mapped elements is a mapped permutation. -/
theorem perm_map_inv {α β : Type} {f : α → β} {M : List β} {L : List α} (h : M.Perm (L.map f)) :
    ∃ L' : List α, L'.Perm L ∧ M = L'.map f := by
  generalize hX : L.map f = X at h
  have key : ∀ {X M : List β}, X.Perm M → ∀ L : List α, L.map f = X → ∃ L' : List α, L'.Perm L ∧ M = L'.map f := by
    intro X M h
    induction h with
    | nil => intro L hL; exact ⟨L, .refl _, hL.symm⟩
    | cons x _ ih =>
      intro L hL
      cases L with
      | nil => cases hL
      | cons a L =>
        injection hL with h1 h2
        obtain ⟨L', k1, k2⟩ := ih L h2
        exact ⟨a :: L', k1.cons a, by rw [List.map_cons, h1, k2]⟩
    | swap x y l =>
      intro L hL
      cases L with
      | nil => cases hL
      | cons a L =>
        injection hL with h1 h2
        cases L with
        | nil => cases h2
        | cons b L =>
          injection h2 with h2 h3
          exact ⟨b :: a :: L, .swap a b L, by rw [List.map_cons, List.map_cons, h1, h2, h3]⟩
    | trans _ _ ih1 ih2 =>
      intro L hL
      obtain ⟨L1, k1, k2⟩ := ih1 L hL
      obtain ⟨L2, k3, k4⟩ := ih2 L1 k2.symm
      exact ⟨L2, k3.trans k1, k4⟩
  exact key h.symm L hX

theorem foldl_consolidate (L : List TextEdit) : ∀ acc, L.foldl consolidateStep acc =
    (L.filter (fun e => !e.isEmpty)).foldl consolidateStep acc := by
  induction L with
  | nil => intro acc; rfl
  | cons e L ih =>
    intro acc
    rw [List.foldl_cons, ih]
    cases he : e.isEmpty
    · rw [List.filter_cons_of_pos (by rw [he]; rfl), List.foldl_cons]
    · rw [List.filter_cons_of_neg (by rw [he]; simp)]
      have : consolidateStep acc e = acc := by unfold consolidateStep; rw [if_pos he]
      rw [this]

theorem stable_filter (C : List SComment) (p : Nat) :
    (sortComments C).filter (fun c => decide (c.pos = p)) = C.filter (fun c => decide (c.pos = p)) := by
  have hperm : (sortComments C).Perm C := List.perm_insertionSort _ C
  have h1 : (C.filter (fun c => decide (c.pos = p))).Sublist (sortComments C) := by
    refine List.sublist_insertionSort ?_ List.filter_sublist
    refine List.Pairwise.imp_of_mem (R := fun _ _ => True) ?_ (List.pairwise_of_forall (fun _ _ => trivial))
    intro a b ha hb _
    have h1 := (List.mem_filter.1 ha).2
    have h2 := (List.mem_filter.1 hb).2
    simp only [decide_eq_true_eq] at h1 h2
    omega
  have h2 := h1.filter (fun c => decide (c.pos = p))
  rw [List.filter_filter] at h2
  simp only [Bool.and_self] at h2
  exact (h2.eq_of_length (hperm.filter _).length_eq.symm).symm

/-- What the second half of the formatter makes of a plan. -/
theorem plan_result {P E C} {indent : Text} (hi : Spaces indent) (hne : E ≠ []) (h : Plan P E C) :
    ∃ comments edits out segs last, transformComments C (flat P) = some comments ∧ transformEdits E (flat P) = some edits ∧
      mergeComments (consolidate (sortEdits edits)) comments (flat P) indent = some out ∧ out.reverse = editsOf [] segs ∧
      (∀ s ∈ segs.tail, s.keep ≠ []) ∧ flat P = origOf segs ++ last ∧
      ∃ l, Marks P E E 0 l ∧ Lay Restyled false l (resultOf segs ++ last) := by
  have hbound : ∀ e ∈ E, Boundary (flat P) e.start ∧ Boundary (flat P) e.stop ∧ e.start ≤ e.stop := by
    intro e he
    obtain ⟨i, j, hf⟩ := h.fits e he
    rw [hf.start, hf.stop]
    exact ⟨boundary_off P i, boundary_off P j, off_mono P hf.le⟩
  obtain ⟨L, hL, hedits⟩ := transformEdits_ok E hne hbound h.apart
  have hcom := transformComments_ok (text := flat P) C (by
    intro c hc
    obtain ⟨e, he, _, hp⟩ := h.has c hc
    rw [← hp]; exact (hbound e he).1)
  obtain ⟨L', hL', hsort⟩ := perm_map_inv (sortEdits_perm (L.map (SEdit.toPos (flat P))))
  have hLE : L'.Perm E := hL'.trans hL
  have hn := h.nonempty
  -- descending order
  have hdesc : L'.Pairwise (fun a b => b.stop ≤ a.start) := by
    have h1 : (L'.map (SEdit.toPos (flat P))).Pairwise editOrder := by rw [← hsort]; exact sortEdits_sorted _
    rw [List.pairwise_map] at h1
    have h2 : L'.Pairwise (fun a b => a.stop ≤ b.start ∨ b.stop ≤ a.start) :=
      (List.Perm.pairwise_iff (fun {a b} h => Or.symm h) hLE).2 h.apart
    refine (h1.and h2).imp_of_mem ?_
    intro a b ha hb hab
    obtain ⟨i, j, hf⟩ := h.fits a (hLE.mem_iff.1 ha)
    obtain ⟨i', j', hf'⟩ := h.fits b (hLE.mem_iff.1 hb)
    have h3 := hab.1
    rw [editOrder_iff] at h3
    unfold SEdit.toPos at h3
    dsimp only at h3
    have h4 := hab.2
    rw [hf.start, hf.stop, hf'.start, hf'.stop] at h4 h3
    rw [hf.start, hf'.stop]
    have hi1 : i ≤ P.length := Nat.le_trans hf.le hf.hj
    have hi2 : i' ≤ P.length := Nat.le_trans hf'.le hf'.hj
    rw [off_le_iff hn hf.hj hi2, off_le_iff hn hf'.hj hi1] at h4
    rw [off_le_iff hn hf'.hj hi1]
    have hii : i' ≤ i := by
      by_cases hx : i' ≤ i
      · exact hx
      · exfalso
        have := posAt_lt hn (show i < i' by omega) hi2
        rcases h3 with h3 | h3
        · exact Before.asymm this h3
        · rw [h3.1] at this; exact Before.irrefl _ this
    rcases h4 with h4 | h4
    · have e1 : i = i' := by have := hf.le; omega
      have e2 : j = i := by have := hf.le; omega
      subst e1; subst e2
      by_cases hx : j' ≤ j
      · exact hx
      · exfalso
        have := posAt_lt hn (show j < j' by omega) hf'.hj
        rcases h3 with h3 | h3
        · exact Before.irrefl _ h3
        · rcases h3.2 with h3 | h3
          · exact Before.asymm this h3
          · rw [h3] at this; exact Before.irrefl _ this
    · exact h4
  let f : SEdit → Bool := fun e => !(e.toPos (flat P)).isEmpty
  have hS : Sorted P E C ((L'.filter f).reverse) (sortComments C) :=
    { plan := h
      mem := by
        intro e he
        obtain ⟨h1, h2⟩ := List.mem_filter.1 (List.mem_reverse.1 he)
        exact ⟨hLE.mem_iff.1 h1, by simpa [f] using h2⟩
      all := by
        intro e he hlt
        refine List.mem_reverse.2 (List.mem_filter.2 ⟨hLE.mem_iff.2 he, ?_⟩)
        obtain ⟨i, j, hf⟩ := h.fits e he
        have hij : i < j := by
          by_cases hij : i < j
          · exact hij
          · have := off_mono P (show j ≤ i by omega)
            rw [← hf.start, ← hf.stop] at this; omega
        have hb := posAt_lt hn hij hf.hj
        have : (e.toPos (flat P)).isEmpty = false := by
          unfold TextEdit.isEmpty SEdit.toPos Range.isEmpty
          dsimp only
          rw [hf.start, hf.stop]
          have : (posAt (flat P) (off P i)) ≠ posAt (flat P) (off P j) := by
            intro h
            rw [h] at hb; exact Before.irrefl _ hb
          simp [this]
        simp [f, this]
      asc := by
        rw [List.pairwise_reverse]
        exact hdesc.filter f
      sorted := by
        have : Std.Total (fun a b : SComment => a.pos ≤ b.pos) := ⟨fun a b => Nat.le_total _ _⟩
        have : IsTrans SComment (fun a b : SComment => a.pos ≤ b.pos) := ⟨fun a b c => Nat.le_trans⟩
        exact List.pairwise_insertionSort _ C
      memC := fun c hc => (List.perm_insertionSort _ C).mem_iff.1 hc
      stable := stable_filter C }
  obtain ⟨l, hscript, hmarks⟩ := script_build hS _ [] _ 0 (Nat.le_refl _) rfl (Nat.zero_le _) (by simp) (fun _ _ => by
    have : off P 0 = 0 := by unfold off; rfl
    rw [this]; exact Nat.zero_le _)
  have hoff : off P 0 = 0 := by unfold off; rfl
  simp only [hoff, Nat.zero_le, decide_true, List.filter_true, List.take_zero, List.drop_zero] at hscript
  obtain ⟨out, segs, last, r1, r2, r3, r4, r5⟩ := script_result (text := flat P) hi hscript
  refine ⟨_, _, out, segs, last, hcom, hedits, ?_, r2, r3, r4, l, ⟨hmarks.toks, ?_, hmarks.kept⟩, r5⟩
  rotate_left
  · intro x hx i j hfx hi0 hx2
    refine hmarks.edits x (List.mem_reverse.2 (List.mem_filter.2 ⟨hLE.mem_iff.2 hx, ?_⟩)) i j hfx hi0 hx2
    have : (x.toPos (flat P)).isEmpty = false := by
      unfold TextEdit.isEmpty SEdit.toPos Range.isEmpty
      dsimp only
      rcases hx2 with h2 | h2
      · have : x.text ≠ [] := by intro h3; rw [h3] at h2; exact h2 rfl
        simp [this]
      · have hij : i < j := by
          by_cases hij : i < j
          · exact hij
          · have : slice P i j = [] := by
              unfold slice
              rw [List.drop_eq_nil_of_le]
              rw [List.length_take]; omega
            rw [this] at h2
            exact absurd rfl h2
        have hb := posAt_lt hn hij hfx.hj
        rw [hfx.start, hfx.stop]
        have : (posAt (flat P) (off P i)) ≠ posAt (flat P) (off P j) := by
          intro h
          rw [h] at hb; exact Before.irrefl _ hb
        simp [this]
    simp [f, this]
  have hcons : consolidate (sortEdits (L.map (SEdit.toPos (flat P)))) =
      (chainsOf ((L'.filter f).reverse.map (SEdit.toPos (flat P)))).reverse := by
    unfold consolidate chainsOf
    rw [hsort, foldl_consolidate, List.filter_map, List.map_reverse, List.foldr_reverse]
    rfl
  rw [hcons]
  exact r1

end Verif.Format
