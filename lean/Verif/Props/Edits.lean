import Verif.ApplyEditsLemmas
import Verif.ChangeLemmas
/-!
# Properties C05-C07: text edits and incremental synchronisation
-/
namespace Verif.Props
open Verif

/-! ## C05: text edits are simultaneous substitution -/

/-- C05. Take any document and any list of edits, in any order, such that both ends of every edit are
positions of the document and no two edits overlap or have the same range. Then the document and the
edits are described by one list of segments (kept text / replaced text / replacement), and applying the
edits succeeds and yields exactly the segments with every replaced text exchanged, followed by a line feed
if there is none at the end. -/
theorem c05_simultaneous (t : Text) (edits : List TextEdit)
    (hvalid : ∀ e ∈ edits, ValidIn t e.range)
    (hdisj : edits.Pairwise (fun a b => a.overlaps b = false ∧ a.range ≠ b.range)) :
    ∃ segs last, t = origOf segs ++ last ∧ edits.Perm (editsOf [] segs) ∧
      applyTextEdits t edits = some (ensureNL (resultOf segs ++ last)) := by
  obtain ⟨segs, last, h1, h2⟩ := exists_segs t edits hvalid hdisj
  exact ⟨segs, last, h1, h2, by rw [h1]; exact applyTextEdits_segs segs last edits h2 (hdisj.imp (·.2))⟩

/-- C05, the other reading: for *every* segment decomposition whose edits have distinct ranges, applying
the edits (in any array order) yields the decomposition's result. -/
theorem c05_segments (segs : List Seg) (last : Text) (edits : List TextEdit)
    (hp : edits.Perm (editsOf [] segs)) (hd : edits.Pairwise (fun a b => a.range ≠ b.range)) :
    applyTextEdits (origOf segs ++ last) edits = some (ensureNL (resultOf segs ++ last)) :=
  applyTextEdits_segs segs last edits hp hd

/-- The two replacements of the example below, as edits of "ab\ncd". -/
def c05Example : List TextEdit :=
  [⟨⟨⟨1, 0⟩, ⟨1, 1⟩⟩, ['Z', 'Z']⟩, ⟨⟨⟨0, 1⟩, ⟨1, 0⟩⟩, []⟩, ⟨⟨⟨0, 0⟩, ⟨0, 0⟩⟩, ['é']⟩]

example : applyTextEdits ['a', 'b', '\n', 'c', 'd'] c05Example = some ['é', 'a', 'Z', 'Z', 'd', '\n'] := by
  decide

-- the hypotheses of `c05_simultaneous` hold for it
example : (∀ e ∈ c05Example, ValidIn ['a', 'b', '\n', 'c', 'd'] e.range) ∧
    c05Example.Pairwise (fun a b => a.overlaps b = false ∧ a.range ≠ b.range) := by
  refine ⟨?_, by decide⟩
  intro e he
  simp only [c05Example, List.mem_cons, List.not_mem_nil, or_false] at he
  rcases he with rfl | rfl | rfl
  · exact ⟨['a', 'b', '\n'], ['c'], ['d'], by decide, by decide, by decide⟩
  · exact ⟨['a'], ['b', '\n'], ['c', 'd'], by decide, by decide, by decide⟩
  · exact ⟨[], [], ['a', 'b', '\n', 'c', 'd'], by decide, by decide, by decide⟩

/-- C05: an empty list of edits only adds the final line feed. -/
theorem c05_no_edits (t : Text) :
    applyTextEdits t [] = some (if t.getLast? = some '\n' then t else t ++ ['\n']) := by
  have := c05_segments [] t [] (by simp [editsOf]) (by simp)
  simp only [origOf, resultOf, List.nil_append] at this
  rw [this]; rfl

/-- C05: whatever the edits, a successful application leaves a text that ends in a line feed. -/
theorem c05_ends_with_newline (t t' : Text) (edits : List TextEdit)
    (h : applyTextEdits t edits = some t') : t'.getLast? = some '\n' := by
  unfold applyTextEdits at h
  simp only at h
  split at h
  · simp at h
  · simp at h; subst h
    unfold ensureNL
    split
    · assumption
    · simp

/-! ## C06: order independence -/

/-- C06. Permuting the array of edits does not change the outcome (result or panic), provided no two
edits have the same range. No other assumption on the edits is needed. -/
theorem c06_order_independent (t : Text) (edits edits' : List TextEdit) (hp : edits.Perm edits')
    (hd : edits.Pairwise (fun a b => a.range ≠ b.range)) :
    applyTextEdits t edits = applyTextEdits t edits' := by
  have hs : sortEdits edits = sortEdits edits' := by
    refine sorted_unique (((sortEdits_perm _).trans hp).trans (sortEdits_perm _).symm)
      (sortEdits_sorted _) (sortEdits_sorted _) ?_
    exact (sortEdits_perm edits).symm.pairwise hd (fun h => Ne.symm h)
  unfold applyTextEdits
  rw [hs]

example : c05Example.Pairwise (fun a b => a.range ≠ b.range) := by decide
example : applyTextEdits ['a', 'b', '\n', 'c', 'd'] c05Example =
    applyTextEdits ['a', 'b', '\n', 'c', 'd'] c05Example.reverse := by decide

/-- C06 fails for two insertions at one position: LSP prescribes the array order ("XY"), the
implementation produces "YX"; and swapping the array swaps the text. -/
theorem c06_same_position_counterexample :
    let x : TextEdit := ⟨⟨⟨0, 0⟩, ⟨0, 0⟩⟩, ['X']⟩
    let y : TextEdit := ⟨⟨⟨0, 0⟩, ⟨0, 0⟩⟩, ['Y']⟩
    applyTextEdits ['a'] [x, y] = some ['Y', 'X', 'a', '\n'] ∧
    applyTextEdits ['a'] [y, x] = some ['X', 'Y', 'a', '\n'] := by decide

/-- An edit whose end is no position of the document (past the end of its line) is not rejected: the end
offset of an earlier computation is used instead, and text beyond the line is deleted. -/
theorem c05_invalid_end_counterexample :
    applyTextEdits ['a', '\n', 'b'] [⟨⟨⟨0, 0⟩, ⟨0, 5⟩⟩, []⟩] = some ['\n'] := by decide

/-! ## C07: incremental synchronisation -/

/-- C07. If replaying the changes on the client, one after the other, leads from `t` to `t'`, the server
arrives at `t'` as well (no panic, same text). -/
theorem c07_sync (t t' : Text) (cs : List Change) (h : Replays t cs t') :
    applyContentChanges t cs = some t' :=
  changesLoop_replays h [] t 0 rfl (Or.inr rfl)

/-- C07 over a whole session: a sequence of didChange notifications, each a batch of changes. -/
theorem c07_session (batches : List (List Change)) (t : Text) (ts : List Text)
    (h : List.IsChain (fun (a : Text × List Change) (b : Text × List Change) => Replays a.1 a.2 b.1)
      (List.zip (t :: ts) (batches ++ [[]])))
    (hl : ts.length = batches.length) :
    batches.foldlM (fun t cs => applyContentChanges t cs) t = some ((t :: ts).getLast (by simp)) := by
  induction batches generalizing t ts with
  | nil =>
    have : ts = [] := List.eq_nil_of_length_eq_zero (by simpa using hl)
    subst this; rfl
  | cons b bs ih =>
    cases ts with
    | nil => simp at hl
    | cons t1 ts =>
      simp only [List.cons_append, List.zip_cons_cons] at h
      have hl' : ts.length = bs.length := by simpa using hl
      have hstep : Replays t b t1 := by
        cases bs <;> cases ts <;> simp_all
      have htail : List.IsChain (fun (a : Text × List Change) (b : Text × List Change) => Replays a.1 a.2 b.1)
          (List.zip (t1 :: ts) (bs ++ [[]])) := by
        cases hz : List.zip (t1 :: ts) (bs ++ [[]]) with
        | nil => exact List.IsChain.nil
        | cons z zs =>
          have : List.IsChain (fun (a : Text × List Change) (b : Text × List Change) => Replays a.1 a.2 b.1)
            ((t, b) :: z :: zs) := by rw [← hz]; exact h
          cases this
          assumption
      rw [List.foldlM_cons, c07_sync t t1 b hstep]
      simp only [Option.bind_eq_bind, Option.bind_some]
      rw [ih t1 ts htail hl']
      simp

/-- A batch that jumps backwards and crosses a CR LF: "ab\r\ncd" → insert "X" at (1,1), delete "b" at (0,1),
replace "X" by "é". -/
def c07Example : List Change :=
  [⟨some ⟨⟨1, 1⟩, ⟨1, 1⟩⟩, ['X']⟩, ⟨some ⟨⟨0, 1⟩, ⟨0, 2⟩⟩, []⟩, ⟨some ⟨⟨1, 1⟩, ⟨1, 2⟩⟩, ['é']⟩]

example : Replays ['a', 'b', '\r', '\n', 'c', 'd'] c07Example ['a', '\r', '\n', 'c', 'é', 'd'] := by
  refine Replays.ranged ['a', 'b', '\r', '\n', 'c'] [] ['d'] ['X'] _ _ ?_ ?_ ?_
  · rintro a' b' ⟨-, h⟩; simp at h
  · rintro a' b' ⟨-, h⟩; simp at h
  refine Replays.ranged ['a'] ['b'] ['\r', '\n', 'c', 'X', 'd'] [] _ _ ?_ ?_ ?_
  · rintro a' b' ⟨-, h⟩; simp at h
  · rintro a' b' ⟨-, h⟩; simp at h
  refine Replays.ranged ['a', '\r', '\n', 'c'] ['X'] ['d'] ['é'] _ _ ?_ ?_ ?_
  · rintro a' b' ⟨-, h⟩; simp at h
  · rintro a' b' ⟨-, h⟩; simp at h
  exact Replays.done _

example : applyContentChanges ['a', 'b', '\r', '\n', 'c', 'd'] c07Example =
    some ['a', '\r', '\n', 'c', 'é', 'd'] := by decide

/-- C07: a full-text change makes the result independent of everything before it. -/
theorem c07_full_change (t new : Text) (cs : List Change) :
    applyContentChanges t (⟨none, new⟩ :: cs) = applyContentChanges new cs := rfl

/-- C07: the specification is a function of the document and the changes. -/
theorem c07_spec_functional (t t₁ t₂ : Text) (cs : List Change) (h₁ : Replays t cs t₁)
    (h₂ : Replays t cs t₂) : t₁ = t₂ := replays_functional h₁ h₂

/-- C07, limit: LSP lets a client name a column past the end of its line (it denotes the line end); the
server panics on it instead. -/
theorem c07_past_line_end_panics :
    applyContentChanges ['a', '\n', 'b'] [⟨some ⟨⟨0, 5⟩, ⟨0, 5⟩⟩, ['X']⟩] = none := by decide

end Verif.Props
