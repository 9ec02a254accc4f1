import Verif.Features.ParseTree
import Verif.ApplyEditsLemmas
import Verif.Features.Parsed
import Verif.Features.Demo
/-!
# The parse tree request (C39)

Specification (Features/ParseTree.lean): `Covers` (a range is the range of an element's text) and `Renders` (a response
element shows an element of the tree with all its children).
-/
namespace Verif.Props
open Verif Verif.Grammar Verif.Lexer Verif.Features

/-- The cursor after a prefix of the text. -/
def curAt (pre : Text) : PCursor := ⟨blen pre, posOf pre⟩

theorem advance_curAt {text pre m post : Text} (h : text = pre ++ m ++ post) {o : Nat} (ho : o = blen (pre ++ m)) :
    (curAt pre).advanceTo o text = some (curAt (pre ++ m)) := by
  unfold PCursor.advanceTo curAt
  dsimp only
  have h1 : splitAtByte text (blen pre) = some (pre, m ++ post) := by
    rw [h, List.append_assoc]; exact splitAtByte_append pre _
  have h2 : splitAtByte (m ++ post) (o - blen pre) = some (m, post) := by
    have : o - blen pre = blen m := by rw [ho, blen_append]; omega
    rw [this]; exact splitAtByte_append m post
  rw [if_neg (by rw [ho, blen_append]; omega), h1]
  dsimp only
  rw [h2]
  dsimp only
  rw [blen_append, posOf_append]

theorem buildEl_spec (text : Text) (skip : Bool) (g : Green) :
    ∀ (pre m post : Text) (idx : Nat) (up : List Site), text = pre ++ m ++ g.text ++ post →
      ∃ el, buildEl text skip g (blen (pre ++ m)) (curAt pre) = some (el, curAt (pre ++ m ++ g.text)) ∧
        Renders text skip ⟨⟨g, idx, blen (pre ++ m)⟩, up⟩ el := by
  induction g using Green.rec (motive_2 := fun cs =>
      ∀ (pre m post : Text) (idx : Nat) (up : List Site), text = pre ++ m ++ (cs.map Green.text).flatten ++ post →
      ∃ els pre' m', pre' ++ m' = pre ++ m ++ (cs.map Green.text).flatten ∧
        buildEls text skip cs (blen (pre ++ m)) (curAt pre) = some (els, curAt pre') ∧
        List.Forall₂ (Renders text skip)
          (((childSites idx (blen (pre ++ m)) cs).map (fun s => (⟨s, up⟩ : Red))).filter (fun c => !(skip && (c.kind == K.WHITESPACE || c.kind == K.Comment)))) els) with
  | tok k t =>
    intro pre m post idx up h
    rw [Green.text_tok] at h
    have h1 := advance_curAt (text := text) (pre := pre) (m := m) (post := t ++ post) (by rw [h]; simp) rfl
    have h2 := advance_curAt (text := text) (pre := pre ++ m) (m := t) (post := post) h rfl
    refine ⟨.tok k ⟨posOf (pre ++ m), posOf (pre ++ m ++ t)⟩ t, ?_, ?_⟩
    · rw [buildEl, h1]
      dsimp only
      rw [← blen_append, h2, Green.text_tok]
      rfl
    · have := Renders.tok (text := text) (skip := skip) (r := ⟨⟨.tok k t, idx, blen (pre ++ m)⟩, up⟩)
        (range := ⟨posOf (pre ++ m), posOf (pre ++ m ++ t)⟩) rfl
        ⟨pre ++ m, post, by simpa [Red.text, Green.text_tok] using h, rfl, by simp [Red.text, Green.text_tok]⟩
      simpa [Red.kind, Red.text, Green.kind, Green.text_tok] using this
  | node k cs ih =>
    intro pre m post idx up h
    have ht := Green.text_node k cs
    have h1 := advance_curAt (text := text) (pre := pre) (m := m) (post := (Green.node k cs).text ++ post)
      (by rw [h]; simp) rfl
    obtain ⟨els, pre', m', e1, e2, e3⟩ := ih (pre ++ m) [] post 0 (⟨.node k cs, idx, blen (pre ++ m)⟩ :: up)
      (by rw [h, ht]; simp)
    simp only [List.append_nil] at e1 e2 e3
    have h3 := advance_curAt (text := text) (pre := pre') (m := m') (post := post) (by rw [h, e1, ht]) rfl
    refine ⟨.node k ⟨posOf (pre ++ m), posOf (pre ++ m ++ (Green.node k cs).text)⟩ els, ?_, ?_⟩
    · rw [buildEl, h1]
      dsimp only
      rw [e2]
      dsimp only
      rw [← blen_append, ht, ← e1, h3]
      rfl
    · exact Renders.node (text := text) (skip := skip) (r := ⟨⟨.node k cs, idx, blen (pre ++ m)⟩, up⟩)
        (range := ⟨posOf (pre ++ m), posOf (pre ++ m ++ (Green.node k cs).text)⟩) (els := els) rfl
        ⟨pre ++ m, post, h, rfl, rfl⟩ e3
  | nil =>
    rename_i pre m post idx up h
    exact ⟨[], pre, m, by simp, rfl, .nil⟩
  | cons g gs ih1 ih2 =>
    rename_i pre m post idx up h
    simp only [List.map_cons, List.flatten_cons] at h ⊢
    by_cases hs : (skip && isTriviaKind g.kind) = true
    · obtain ⟨els, pre', m', e1, e2, e3⟩ := ih2 pre (m ++ g.text) post (idx + 1) up (by rw [h]; simp)
      refine ⟨els, pre', m', by rw [e1]; simp, ?_, ?_⟩
      · rw [buildEls, if_pos hs]
        rw [← List.append_assoc, blen_append] at e2
        exact e2
      · simp only [childSites, List.map_cons]
        rw [List.filter_cons_of_neg (by
          show ¬ (!(skip && isTriviaKind g.kind)) = true
          rw [hs]; decide)]
        rw [← List.append_assoc, blen_append] at e3
        exact e3
    · obtain ⟨el, f1, f2⟩ := ih1 pre m ((gs.map Green.text).flatten ++ post) idx up (by rw [h]; simp)
      obtain ⟨els, pre', m', e1, e2, e3⟩ := ih2 (pre ++ m ++ g.text) [] post (idx + 1) up (by rw [h]; simp)
      simp only [List.append_nil] at e1 e2 e3
      refine ⟨el :: els, pre', m', by rw [e1]; simp, ?_, ?_⟩
      · rw [buildEls, if_neg hs, f1]
        dsimp only
        rw [blen_append] at e2
        rw [e2]
      · simp only [childSites, List.map_cons]
        rw [List.filter_cons_of_pos (by
          show (!(skip && isTriviaKind g.kind)) = true
          rw [Bool.eq_false_iff.2 hs]; rfl)]
        rw [blen_append] at e3
        exact .cons f2 e3

/-- **C39.** The request never panics, and the tree in the response shows the syntax tree of the document: every element
(without trivia if asked for) with its kind and the exact LSP range of its text. -/
theorem c39_shows (errLen : Text → Nat) (text : Text) (g errs) (hp : parseSource errLen text = some (g, errs))
    (skip : Bool) : ∃ el, parseTreeResponse text skip g = some el ∧ Renders text skip (Red.root g) el := by
  have P := parsed_of hp
  obtain ⟨el, h1, h2⟩ := buildEl_spec text skip g [] [] [] 0 [] (by simp [P.text_eq])
  refine ⟨el, ?_, h2⟩
  have h3 : buildEl text skip g 0 ⟨0, ⟨0, 0⟩⟩ = buildEl text skip g (blen ([] ++ [])) (curAt []) := rfl
  unfold parseTreeResponse
  rw [h3, h1]
  rfl

/-- Concrete case: the tree of `SELECT ?x ?y {}` without trivia. -/
example : parseSource (fun _ => 1) twoText = some (twoTree, []) ∧
    ∃ el, parseTreeResponse twoText true twoTree = some el ∧ Renders twoText true (Red.root twoTree) el :=
  ⟨twoTree_parse, c39_shows _ _ _ _ twoTree_parse true⟩

end Verif.Props
