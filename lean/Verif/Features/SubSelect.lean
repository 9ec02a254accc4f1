import Verif.Features.Projection
import Verif.Features.QuickFix
/-!
# The code action "Transform into Sub-Select"

Models `src/server/message_handler/code_action/select.rs` and its part of `code_action/mod.rs`. The results are `none` where the program gives no action
or panics (`unwrap` in select.rs L50); C64 shows that the latter does not happen in valid documents.
-/
namespace Verif.Features
open Verif Verif.Grammar

/-- The query of the element (select.rs L19-22): the node itself, or the grandparent of a token (`parent_ancestors().nth(1)`). -/
def wrapTarget (el : Red) : Option Red :=
  if el.isNode then (if el.isSel then some el else none)
  else match (Red.chain el.up)[1]? with
    | none => none
    | some s => if s.isSel then some s else none

/-- `join(" ")`. -/
def unwords : List Text → Text
  | [] => []
  | [w] => w
  | w :: v :: l => w ++ ' ' :: unwords (v :: l)

/-- `SelectClause::is_star_selection` (ast/mod.rs L195-199): `last_token()` is a star. -/
def starSelection (c : Red) : Bool :=
  match c.tokens.getLast? with
  | none => false
  | some t => t.kind == K.Star

/-- `SelectClause::projected_variables` (ast/mod.rs L191-193). -/
def projectedVars (c : Red) : List Red := c.children.filter (fun v => v.kind == K.Var)

/-- What the new query selects (select.rs L25-34). -/
def selection (c : Red) : Text := if starSelection c then ['*'] else unwords ((projectedVars c).map Red.text)

/-- The text in front of the query (select.rs L35-41). -/
def wrapPrefix (sel : Text) (indent : Nat) : Text :=
  ['S', 'E', 'L', 'E', 'C', 'T', ' '] ++ sel ++ [' ', 'W', 'H', 'E', 'R', 'E', ' ', '{', '\n'] ++ List.replicate indent ' ' ++ ['{', '\n'] ++
    List.replicate (2 * indent) ' '

/-- The text behind the query (select.rs L42). -/
def wrapSuffix (indent : Nat) : Text := ['\n'] ++ List.replicate indent ' ' ++ ['}', '\n', '}']

/-- The offsets behind the line breaks of a text at an offset (select.rs L44-53: `char_indices`, `idx + 1`). -/
def breakEnds : Nat → Text → List Nat
  | _, [] => []
  | o, c :: w => if c = '\n' then (o + u8 c) :: breakEnds (o + u8 c) w else breakEnds (o + u8 c) w

/-- An insertion at an offset (select.rs L47-58, L61-67, L69-75). -/
def insertion (text : Text) (o : Nat) (new : Text) : Option TextEdit := (fromByteIndex o text).map (fun p => ⟨⟨p, p⟩, new⟩)

/-- The edits for a query with its select clause (select.rs L43-75). The offsets of the line breaks are counted from the beginning of the select clause,
in the text of the query. -/
def wrapEdits (text : Text) (indent : Nat) (s c : Red) : Option (List TextEdit) :=
  match insertion text s.stop (wrapSuffix indent),
      unwrapAll (fun o => insertion text o (List.replicate (2 * indent) ' ')) (breakEnds c.start s.text),
      insertion text s.start (wrapPrefix (selection c) indent) with
  | some e, some ls, some b => some (e :: ls ++ [b])
  | _, _, _ => none

/-- `select::code_actions` (select.rs L13-85). -/
def subSelect (text : Text) (indent : Nat) (el : Red) : Option (List TextEdit) :=
  match wrapTarget el with
  | none => none
  | some s =>
    match s.childOf [K.SelectClause] with
    | none => none
    | some c => wrapEdits text indent s c

/-- `Iri::cast`, `Iri::is_uncompressed` (ast/mod.rs L663-667). -/
def Red.isFullIri (p : Red) : Bool :=
  p.kind == K.iri && (match p.childrenT.head? with
    | none => false
    | some t => t.kind == K.IRIREF)

/-- The part of `generate_code_actions` for queries (code_action/mod.rs L58-92): the action offered for a range of the document. `indent` is the setting
`format.tab_size`. -/
def selectAction (text : Text) (g : Green) (indent a b : Nat) : Option (List TextEdit) :=
  let el := covering g a b
  if el.parent.any Red.isFullIri then none
  else if el.parent.any (fun p => p.kind == K.Var) then none
  else if el.kind = K.SelectQuery ∨ el.kind = K.SELECT ∨ el.kind = K.SubSelect then subSelect text indent el
  else none

/-! ## The edits -/

/-- Every line but the first is indented. -/
def indentLines (n : Nat) : Text → Text
  | [] => []
  | c :: w => if c = '\n' then '\n' :: (List.replicate n ' ' ++ indentLines n w) else c :: indentLines n w

/-- The lines as segments. -/
def lineSegs (n : Nat) : Text → Text → List Seg × Text
  | k, [] => ([], k)
  | k, c :: w =>
    if c = '\n' then (⟨k ++ ['\n'], [], List.replicate n ' '⟩ :: (lineSegs n [] w).1, (lineSegs n [] w).2)
    else lineSegs n (k ++ [c]) w

theorem lineSegs_orig (n : Nat) : ∀ (w k : Text), origOf (lineSegs n k w).1 ++ (lineSegs n k w).2 = k ++ w := by
  intro w
  induction w with
  | nil => intro k; simp [lineSegs, origOf]
  | cons c w ih =>
    intro k
    unfold lineSegs
    split
    · next h => simp only [origOf]; rw [List.append_assoc, ih]; simp [h]
    · rw [ih]; simp

theorem lineSegs_result (n : Nat) : ∀ (w k : Text), resultOf (lineSegs n k w).1 ++ (lineSegs n k w).2 = k ++ indentLines n w := by
  intro w
  induction w with
  | nil => intro k; simp [lineSegs, resultOf, indentLines]
  | cons c w ih =>
    intro k
    unfold lineSegs indentLines
    split
    · next h => simp only [resultOf]; rw [List.append_assoc, ih]; simp
    · rw [ih]; simp

theorem lineSegs_old (n : Nat) : ∀ (w k : Text), ∀ s ∈ (lineSegs n k w).1, s.old = [] ∧ s.keep ≠ [] := by
  intro w
  induction w with
  | nil => intro k s hs; cases hs
  | cons c w ih =>
    intro k s hs
    unfold lineSegs at hs
    split at hs
    · rcases List.mem_cons.1 hs with rfl | hs
      · exact ⟨rfl, by simp⟩
      · exact ih [] s hs
    · exact ih _ s hs

theorem lineSegs_last (n : Nat) : ∀ (w k : Text), (lineSegs n k w).2 = [] → (k ++ w = [] ∨ ∃ u, k ++ w = u ++ ['\n']) := by
  intro w
  induction w with
  | nil => intro k h; exact .inl (by simpa [lineSegs] using h)
  | cons c w ih =>
    intro k h
    unfold lineSegs at h
    split at h
    · next hc =>
      subst hc
      rcases ih [] h with h | ⟨u, h⟩
      · right; rw [List.nil_append] at h; exact ⟨k, by rw [h]⟩
      · right; rw [List.nil_append] at h; exact ⟨k ++ '\n' :: u, by rw [h]; simp⟩
    · have := ih _ h
      rwa [List.append_assoc] at this

theorem lineSegs_edits (n : Nat) : ∀ (w k pre post : Text), unwrapAll (fun o => insertion (pre ++ k ++ w ++ post) o (List.replicate n ' '))
    (breakEnds (blen (pre ++ k)) w) = some (editsOf pre (lineSegs n k w).1) := by
  intro w
  induction w with
  | nil => intro k pre post; rfl
  | cons c w ih =>
    intro k pre post
    unfold lineSegs breakEnds
    have hb : blen (pre ++ k) + u8 c = blen (pre ++ k ++ [c]) := by rw [blen_append _ [c]]; rfl
    split
    · next h =>
      subst h
      have h1 := ih [] (pre ++ k ++ ['\n']) post
      rw [List.append_nil] at h1
      have e : pre ++ k ++ ['\n'] ++ w ++ post = pre ++ k ++ '\n' :: w ++ post := by simp
      rw [e] at h1
      rw [hb]
      simp only [unwrapAll, h1]
      have h2 : insertion (pre ++ k ++ '\n' :: w ++ post) (blen (pre ++ k ++ ['\n'])) (List.replicate n ' ') =
          some ⟨⟨posOf (pre ++ k ++ ['\n']), posOf (pre ++ k ++ ['\n'])⟩, List.replicate n ' '⟩ := by
        unfold insertion
        rw [← e, List.append_assoc (pre ++ k ++ ['\n']), fromByteIndex_of_prefix]; rfl
      rw [h2]
      simp [editsOf]
    · have h1 := ih (k ++ [c]) pre post
      have e : pre ++ (k ++ [c]) ++ w ++ post = pre ++ k ++ c :: w ++ post := by simp
      rw [e, ← List.append_assoc pre k [c]] at h1
      rw [hb]; exact h1

theorem insert_at (pre post new : Text) : insertion (pre ++ post) (blen pre) new = some ⟨⟨posOf pre, posOf pre⟩, new⟩ := by
  unfold insertion; rw [fromByteIndex_of_prefix]; rfl

/-- Insertions at different places. -/
theorem editsOf_keeps : ∀ (segs : List Seg) (pre : Text), (∀ s ∈ segs, s.old = []) → (∀ s ∈ segs.tail, s.keep ≠ []) →
    (editsOf pre segs).Pairwise (fun a b => a.range ≠ b.range) ∧ ∀ e ∈ editsOf pre segs, ∃ x, e.range.start = posOf (pre ++ x) ∧
      ((∀ s ∈ segs, s.keep ≠ []) → x ≠ []) := by
  intro segs
  induction segs with
  | nil => intro pre _ _; exact ⟨.nil, by simp [editsOf]⟩
  | cons s ss ih =>
    intro pre h1 h2
    obtain ⟨k1, k2⟩ := ih (pre ++ s.keep ++ s.old) (fun x hx => h1 x (by simp [hx])) (fun x hx => h2 x (List.mem_of_mem_tail hx))
    have ho := h1 s (by simp)
    simp only [editsOf]
    refine ⟨List.pairwise_cons.2 ⟨?_, k1⟩, ?_⟩
    · intro e he heq
      obtain ⟨x, h3, h4⟩ := k2 e he
      have h4 := h4 h2
      have : posOf (pre ++ s.keep) = posOf (pre ++ s.keep ++ s.old ++ x) := by rw [← h3, ← heq]
      rw [ho, List.append_nil] at this
      have e := posOf_inj (a := pre ++ s.keep) (b := x) (c := pre ++ s.keep ++ x) (d := []) (by simp) this
      have hl := congrArg List.length e
      have := List.length_pos_iff.2 h4
      simp only [List.length_append] at hl
      omega
    · intro e he
      rcases List.mem_cons.1 he with rfl | he
      · exact ⟨s.keep, rfl, fun h => h s (by simp)⟩
      · obtain ⟨x, h3, h4⟩ := k2 e he
        refine ⟨s.keep ++ s.old ++ x, by rw [h3]; simp, fun h => ?_⟩
        have := h s (by simp)
        simp [this]

/-- **Applying the edits.** -/
theorem wrap_apply (A Q B p q : Text) (n : Nat) (hQ : Q ≠ []) (hl : ∀ u, Q ≠ u ++ ['\n']) {edits : List TextEdit} {ls : List TextEdit}
    (hls : unwrapAll (fun o => insertion (A ++ Q ++ B) o (List.replicate n ' ')) (breakEnds (blen A) Q) = some ls)
    (he : edits = ⟨⟨posOf (A ++ Q), posOf (A ++ Q)⟩, q⟩ :: ls ++ [⟨⟨posOf A, posOf A⟩, p⟩]) :
    applyTextEdits (A ++ Q ++ B) edits = some (ensureNL (A ++ p ++ indentLines n Q ++ q ++ B)) := by
  have h1 := lineSegs_edits n Q [] A B
  rw [List.append_nil, hls] at h1
  have h1 : ls = editsOf A (lineSegs n [] Q).1 := Option.some.inj h1
  have ho := lineSegs_orig n Q []
  have hr := lineSegs_result n Q []
  rw [List.nil_append] at ho hr
  generalize hS : (lineSegs n [] Q).1 = S at h1 ho hr
  have hold := lineSegs_old n Q []
  rw [hS] at hold
  have hlast := lineSegs_last n Q []
  generalize hL : (lineSegs n [] Q).2 = L at ho hr hlast
  have hLn : L ≠ [] := by
    intro h0
    rcases hlast h0 with h | ⟨u, h⟩
    · exact hQ h
    · exact hl u h
  have hedits : ∀ (S : List Seg) (pre : Text) (y : Seg), editsOf pre (S ++ [y]) = editsOf pre S ++ editsOf (pre ++ origOf S) [y] := by
    intro S
    induction S with
    | nil => intro pre y; simp [editsOf, origOf]
    | cons s S ih => intro pre y; simp only [List.cons_append, editsOf, ih, origOf]; simp
  have horig : ∀ (S : List Seg) (y : Seg), origOf (S ++ [y]) = origOf S ++ (y.keep ++ y.old) := by
    intro S
    induction S with
    | nil => intro y; simp [origOf]
    | cons s S ih => intro y; simp only [List.cons_append, origOf, ih]; simp
  have hres : ∀ (S : List Seg) (y : Seg), resultOf (S ++ [y]) = resultOf S ++ (y.keep ++ y.new) := by
    intro S
    induction S with
    | nil => intro y; simp [resultOf]
    | cons s S ih => intro y; simp only [List.cons_append, resultOf, ih]; simp
  have hseg : editsOf [] (⟨A, [], p⟩ :: (S ++ [⟨L, [], q⟩])) = ⟨⟨posOf A, posOf A⟩, p⟩ :: (ls ++ [⟨⟨posOf (A ++ Q), posOf (A ++ Q)⟩, q⟩]) := by
    simp only [editsOf, List.nil_append, List.append_nil, hedits, List.append_assoc, ho, ← h1]
  have hperm : edits.Perm (editsOf [] (⟨A, [], p⟩ :: (S ++ [⟨L, [], q⟩]))) := by
    rw [hseg, he]
    refine List.Perm.trans (List.perm_append_comm) ?_
    exact (List.perm_append_comm (l₁ := [_]) (l₂ := ls)).cons _
  have hne := (editsOf_keeps (⟨A, [], p⟩ :: (S ++ [⟨L, [], q⟩])) [] (by
    intro s hs
    simp only [List.mem_cons, List.mem_append, List.mem_singleton, List.not_mem_nil, or_false] at hs
    rcases hs with rfl | hs | rfl
    · rfl
    · exact (hold s hs).1
    · rfl) (by
    intro s hs
    simp only [List.tail_cons, List.mem_append, List.mem_singleton] at hs
    rcases hs with hs | rfl
    · exact (hold s hs).2
    · exact hLn)).1
  have := applyTextEdits_segs (⟨A, [], p⟩ :: (S ++ [⟨L, [], q⟩])) B edits hperm (by
    refine hperm.symm.pairwise hne ?_
    intro a b h; exact fun h' => h h'.symm)
  simp only [origOf, resultOf, horig, hres, List.append_nil] at this
  rw [← List.append_assoc (resultOf S), hr, ho] at this
  simpa [List.append_assoc] using this

end Verif.Features
