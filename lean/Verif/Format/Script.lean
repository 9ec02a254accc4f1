import Verif.Format.Merge
import Verif.Props.Renaming
/-!
# Scripts

What the edits and comment markers do to the pieces of a document, in document order.
-/
namespace Verif.Format
open Verif Verif.Grammar Verif.Lexer Verif.Features

/-- The tokens among some pieces. -/
def solid (P : List (Kind × Text)) : List (Kind × Text) := P.filter (fun p => p.1 != K.WHITESPACE)

theorem solid_append (A B : List (Kind × Text)) : solid (A ++ B) = solid A ++ solid B := by simp [solid]

/-- `Script pre P F C l`: behind the text `pre`, the pieces `P` are kept or replaced as the edits `F` and the markers `C` say;
the tokens `l` are the result. -/
inductive Script : Text → List (Kind × Text) → List TextEdit → List CMarker → List (Kind × Text) → Prop
  | done {pre} : Script pre [] [] [] []
  | keep {pre x P F C l} (hx0 : x.2 ≠ []) (hx : x.1 ≠ K.Comment) (hw : x.1 = K.WHITESPACE → Spaces x.2) (h : Script (pre ++ x.2) P F C l) :
      Script pre (x :: P) F C (x :: l)
  | edit {pre M P e F cs C l ts} (hr : e.range = ⟨posOf pre, posOf (pre ++ flat M)⟩) (hne : e.isEmpty = false)
      (ht : Lay Firm false ts e.newText) (hcs : ∀ c ∈ cs, c.pos = posOf pre ∧ ∃ t, c.text = '#' :: t)
      (hC : ∀ c ∈ C, goesBefore c.pos e = true) (h : Script (pre ++ flat M) P F C l) :
      Script pre (M ++ P) (e :: F) (cs ++ C) (cs.flatMap comItems ++ (ts ++ l))

/-- The chains of edits in document order. -/
def chainsOf (F : List TextEdit) : List (List TextEdit) := F.foldr (fun e acc => consolidateStep acc e) []

/-- The first chain and what follows. -/
structure Chained (text indent : Text) (pre : Text) (P : List (Kind × Text)) (F : List TextEdit) (C : List CMarker)
    (l : List (Kind × Text)) (keep old last : Text) (S : List (TextEdit × List (Kind × Text)))
    (rest : List (List TextEdit)) (C1 C2 : List CMarker) (l0 l1 l2 : List (Kind × Text)) (out : List TextEdit) (segs : List Seg) : Prop where
  chains : chainsOf F = S.map (·.1) :: rest
  woven : Woven S C1 l1
  ascending : S.Pairwise (fun x y => x.1.range.start.le y.1.range.start = true)
  first : ∃ f, fuse (S.map (·.1)) = some f ∧ f.range = ⟨posOf (pre ++ keep), posOf (pre ++ keep ++ old)⟩
  merged : mergeLoop text indent rest.reverse C2.reverse = some (out, [])
  later : ∀ ch ∈ rest, ∀ f, fuse ch = some f → (posOf (pre ++ keep ++ old)).Before f.range.start
  before : ∀ c ∈ C1, c.pos.le (posOf (pre ++ keep ++ old)) = true
  comments : C = C1 ++ C2
  tokens : l = l0 ++ (l1 ++ l2)
  orig : flat P = keep ++ old ++ origOf segs ++ last
  outs : out.reverse = editsOf (pre ++ keep ++ old) segs
  bare : keep = [] → l0 = []
  gaps : ∀ s ∈ segs, s.keep ≠ []
  laid0 : Lay Restyled false l0 keep
  laid2 : Lay Restyled false l2 (resultOf segs ++ last)

theorem firm_restyled (p : Kind × Text) (t : Text) (h : Firm p t) : Restyled p t := h.1

/-- The first chain becomes one edit. -/
theorem Chained.finish {text indent : Text} (hi : Spaces indent) {pre P F C l keep old last S rest C1 C2 l0 l1 l2 out segs}
    (h : Chained text indent pre P F C l keep old last S rest C1 C2 l0 l1 l2 out segs) :
    ∃ new : Text, mergeLoop text indent (chainsOf F).reverse C.reverse =
        some (out ++ [⟨⟨posOf (pre ++ keep), posOf (pre ++ keep ++ old)⟩, new⟩], []) ∧
      (out ++ [(⟨⟨posOf (pre ++ keep), posOf (pre ++ keep ++ old)⟩, new⟩ : TextEdit)]).reverse = editsOf pre (⟨keep, old, new⟩ :: segs) ∧
      Lay Restyled false l (resultOf (⟨keep, old, new⟩ :: segs) ++ last) ∧ flat P = origOf (⟨keep, old, new⟩ :: segs) ++ last := by
  obtain ⟨f, hf, hr⟩ := h.first
  have hstart : ∀ x ∈ S, f.range.start.le x.1.range.start = true := by
    have h2 := h.ascending
    cases hS : S with
    | nil => rw [hS] at hf; cases hf
    | cons y S' =>
      rw [hS] at hf h2
      rw [List.map_cons, fuse_cons] at hf
      injection hf with hf
      rw [← hf]
      intro x hx
      rcases List.mem_cons.1 hx with rfl | hx
      · exact le_of_eq rfl
      · exact (List.pairwise_cons.1 h2).1 x hx
  rcases woven_insert (text := text) hi (start := f.range.start) h.woven hstart h.ascending with ⟨h0, _⟩ | ⟨f', ch, new, h1, h2⟩
  · rw [h0] at hf; cases hf
  · rw [hf] at h1
    injection h1 with h1
    subst h1
    refine ⟨new, ?_, ?_, ?_, ?_⟩
    · rw [h.chains, h.comments, List.reverse_cons, List.reverse_append]
      have hm := mergeLoop_rest (B := C1.reverse) h.merged (fun c hc g hg b hb => by
        exact lt_of_le_of_lt (h.before b (List.mem_reverse.1 hb)) (h.later c (List.mem_reverse.1 hc) g hg))
      rw [mergeLoop_append hm, mergeLoop_step, hf]
      have h3 := h2.run
      have h4 := h2.fused
      rw [hr] at h3 h4
      dsimp only at h3 h4 ⊢
      rw [hr]
      dsimp only
      rw [h3]
      dsimp only
      rw [h4]
      rfl
    · rw [List.reverse_append, h.outs]
      simp [editsOf]
    · rw [h.tokens]
      have := h.laid0.append ((h2.laid.mono firm_restyled).append h.laid2)
      simpa [resultOf] using this
    · rw [h.orig]
      simp [origOf]

theorem chainsOf_cons (e : TextEdit) (F : List TextEdit) : chainsOf (e :: F) = consolidateStep (chainsOf F) e := rfl

theorem consolidateStep_cons {e n : TextEdit} {ns : List TextEdit} {rest : List (List TextEdit)} (he : e.isEmpty = false) :
    consolidateStep ((n :: ns) :: rest) e =
      if n.range.start = e.range.stop then (e :: n :: ns) :: rest
      else if n.range.start = n.range.stop ∧ n.range.start = e.range.start then
        (⟨⟨n.range.start, e.range.stop⟩, n.newText ++ e.newText⟩ :: ns) :: rest
      else [e] :: (n :: ns) :: rest := by
  unfold consolidateStep
  rw [if_neg (by rw [he]; simp)]

theorem consolidateStep_nil {e : TextEdit} (he : e.isEmpty = false) : consolidateStep [] e = [[e]] := by
  unfold consolidateStep
  rw [if_neg (by rw [he]; simp)]

/-- What a script does, by induction. -/
theorem script_chained {text indent : Text} (hi : Spaces indent) {pre P F C l} (h : Script pre P F C l) :
    (F = [] ∧ C = [] ∧ Lay Restyled false l (flat P)) ∨
    ∃ keep old last S rest C1 C2 l0 l1 l2 out segs, Chained text indent pre P F C l keep old last S rest C1 C2 l0 l1 l2 out segs := by
  induction h with
  | done => exact .inl ⟨rfl, rfl, .done⟩
  | @keep pre x P F C l hx0 hx hw h ih =>
    have hx1 : Lay Restyled false ([x]) x.2 := by
      by_cases hk : x.1 = K.WHITESPACE
      · have := Lay.pad (R := Restyled) (b := false) (hw hk) hx0 (.mark hk .done)
        rwa [List.append_nil] at this
      · have := Lay.token (R := Restyled) (b := false) hx hk (.inl rfl) .done
        rwa [List.append_nil] at this
    have hflat : flat (x :: P) = x.2 ++ flat P := by simp [flat]
    rcases ih with ⟨rfl, rfl, hl⟩ | ⟨keep, old, last, S, rest, C1, C2, l0, l1, l2, out, segs, hc⟩
    · exact .inl ⟨rfl, rfl, by rw [hflat]; exact hx1.append hl⟩
    · right
      refine ⟨x.2 ++ keep, old, last, S, rest, C1, C2, [x] ++ l0, l1, l2, out, segs, ?_⟩
      have e1 : pre ++ (x.2 ++ keep) = pre ++ x.2 ++ keep := by simp
      exact ⟨hc.chains, hc.woven, hc.ascending, by rw [e1]; exact hc.first, hc.merged, by rw [e1]; exact hc.later,
        by rw [e1]; exact hc.before, hc.comments, by rw [hc.tokens]; simp, by rw [hflat, hc.orig]; simp,
        by rw [e1]; exact hc.outs, fun h => absurd (List.append_eq_nil_iff.1 h).1 hx0, hc.gaps, hx1.append hc.laid0, hc.laid2⟩
  | @edit pre M P e F cs C l ts hr hne ht hcs hC h ih =>
    right
    have hflat : flat (M ++ P) = flat M ++ flat P := by simp [flat]
    have hrs : e.range.start = posOf pre := by rw [hr]
    have hrt : e.range.stop = posOf (pre ++ flat M) := by rw [hr]
    have hcs' : ∀ c ∈ cs, c.pos = e.range.start ∧ ∃ t, c.text = '#' :: t := by rw [hrs]; exact hcs
    have hlt : Lay Restyled false (([] : List (Kind × Text))) [] := .done
    rcases ih with ⟨rfl, rfl, hl⟩ | ⟨keep, old, last, S, rest, C1, C2, l0, l1, l2, out, segs, hc⟩
    · refine ⟨[], flat M, flat P, [(e, ts)], [], cs, [], [], cs.flatMap comItems ++ (ts ++ []), l, [], [], ?_⟩
      exact
        { chains := by rw [chainsOf_cons]; exact consolidateStep_nil hne
          woven := by
            have := Woven.coms (C := []) hcs' (.seg ht (by simp) .nil)
            rw [List.append_nil] at this
            exact this
          ascending := by simp
          first := ⟨e, by simp [fuse], by simpa using hr⟩
          merged := rfl
          later := by simp
          before := fun c hx => by
            rw [(hcs c hx).1, List.append_nil]
            exact posOf_le _ _
          comments := rfl
          tokens := by simp
          orig := by rw [hflat]; simp [origOf]
          outs := rfl
          bare := fun _ => rfl
          gaps := by simp
          laid0 := hlt
          laid2 := by simpa [resultOf] using hl }
    · obtain ⟨f, hf, hfr⟩ := hc.first
      cases hS : S with
      | nil => rw [hS] at hf; cases hf
      | cons n S' =>
        have hn : n.1.range.start = posOf (pre ++ flat M ++ keep) := by
          rw [hS, List.map_cons, fuse_cons] at hf
          injection hf with hf
          have : n.1.range.start = f.range.start := by rw [← hf]
          rw [this, hfr]
        have hch : chainsOf F = (n.1 :: S'.map (·.1)) :: rest := by rw [hc.chains, hS]; rfl
        by_cases hk : keep = []
        · subst hk
          rw [List.append_nil] at hn
          refine ⟨[], flat M ++ old, last, (e, ts) :: S, rest, cs ++ C1, C2, [], cs.flatMap comItems ++ (ts ++ l1), l2, out, segs, ?_⟩
          have hl0 : l0 = [] := hc.bare rfl
          have e1 : pre ++ [] ++ (flat M ++ old) = pre ++ flat M ++ [] ++ old := by simp
          exact
            { chains := by
                rw [chainsOf_cons, hch, consolidateStep_cons hne, if_pos (by rw [hn, hrt]), hS]
                rfl
              woven := Woven.coms hcs' (.seg ht (fun c hx => hC c (by rw [hc.comments]; exact List.mem_append_left _ hx)) hc.woven)
              ascending := by
                refine List.pairwise_cons.2 ⟨?_, hc.ascending⟩
                intro x hx
                have h1 : n.1.range.start.le x.1.range.start = true := by
                  have h2 := hc.ascending
                  rw [hS] at h2 hx
                  rcases List.mem_cons.1 hx with rfl | hx
                  · exact le_of_eq rfl
                  · exact (List.pairwise_cons.1 h2).1 x hx
                refine le_trans ?_ h1
                rw [hrs, hn]
                exact posOf_le _ _
              first := by
                refine ⟨_, by rw [List.map_cons]; exact fuse_prepend hf, ?_⟩
                dsimp only
                rw [hrs, hfr, e1]
                simp
              merged := hc.merged
              later := by rw [e1]; exact hc.later
              before := by
                intro c hx
                rw [e1]
                rcases List.mem_append.1 hx with hx | hx
                · rw [(hcs c hx).1]
                  simp only [List.append_assoc]
                  exact posOf_le _ _
                · exact hc.before c hx
              comments := by rw [hc.comments, List.append_assoc]
              tokens := by rw [hc.tokens, hl0]; simp
              orig := by rw [hflat, hc.orig]; simp
              outs := by rw [e1]; exact hc.outs
              bare := fun _ => rfl
              gaps := hc.gaps
              laid0 := hlt
              laid2 := hc.laid2 }
        · obtain ⟨new, k1, k2, k3, k4⟩ := hc.finish hi
          have hb : (posOf (pre ++ flat M)).Before n.1.range.start := by rw [hn]; exact posOf_before _ _ hk
          refine ⟨[], flat M, last, [(e, ts)], chainsOf F, cs, C, [], cs.flatMap comItems ++ (ts ++ []), l, out ++ [⟨⟨posOf (pre ++ flat M ++ keep), posOf (pre ++ flat M ++ keep ++ old)⟩, new⟩], ⟨keep, old, new⟩ :: segs, ?_⟩
          exact
            { chains := by
                rw [chainsOf_cons, hch, consolidateStep_cons hne, if_neg, if_neg]
                · rfl
                · rintro ⟨_, h2⟩
                  rw [h2, hrs] at hb
                  exact absurd hb (by
                    intro hb
                    have := not_le_of_lt hb
                    rw [posOf_le] at this; cases this)
                · intro h2
                  rw [h2, hrt] at hb
                  exact Before.irrefl _ hb
              woven := by
                have := Woven.coms (C := []) hcs' (.seg ht (by simp) .nil)
                rw [List.append_nil] at this
                exact this
              ascending := by simp
              first := ⟨e, by simp [fuse], by simpa using hr⟩
              merged := k1
              later := by
                intro ch hch2 g hg
                rw [List.append_nil]
                rw [hc.chains] at hch2
                rcases List.mem_cons.1 hch2 with rfl | hch2
                · rw [hf] at hg
                  injection hg with hg
                  rw [← hg, hfr, ← hn]
                  exact hb
                · refine Before.trans (b := posOf (pre ++ flat M ++ keep)) ?_ (lt_of_le_of_lt ?_ (hc.later ch hch2 g hg))
                  · rw [← hn]; exact hb
                  · exact posOf_le _ _
              before := fun c hx => by
                rw [(hcs c hx).1, List.append_nil]
                exact posOf_le _ _
              comments := rfl
              tokens := by simp
              orig := by rw [hflat, k4]; simp
              outs := by
                rw [List.append_nil]
                exact k2
              bare := fun _ => rfl
              gaps := fun s hs => by
                rcases List.mem_cons.1 hs with rfl | hs
                · exact hk
                · exact hc.gaps s hs
              laid0 := hlt
              laid2 := k3 }

/-- What the formatter makes of a script. -/
theorem script_result {text indent : Text} (hi : Spaces indent) {P F C l} (h : Script [] P F C l) :
    ∃ out segs last, mergeComments (chainsOf F).reverse C text indent = some out ∧ out.reverse = editsOf [] segs ∧
      (∀ s ∈ segs.tail, s.keep ≠ []) ∧ flat P = origOf segs ++ last ∧ Lay Restyled false l (resultOf segs ++ last) := by
  rcases script_chained (text := text) hi h with ⟨rfl, rfl, hl⟩ | ⟨keep, old, last, S, rest, C1, C2, l0, l1, l2, out, segs, hc⟩
  · exact ⟨[], [], flat P, rfl, rfl, by simp, rfl, hl⟩
  · obtain ⟨new, k1, k2, k3, k4⟩ := hc.finish hi
    refine ⟨_, ⟨keep, old, new⟩ :: segs, last, ?_, k2, hc.gaps, k4, k3⟩
    unfold mergeComments
    rw [k1]
    simp

end Verif.Format
