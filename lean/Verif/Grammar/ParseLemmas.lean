import Verif.Grammar.Parse
import Verif.Grammar.KindsOf
import Verif.Grammar.TreeLemmas
/-!
# Lemmas about `parse_text`
-/
namespace Verif.Grammar
open Forest

/-- `build_tree` on the pruned events of a unit. -/
theorem buildTree_ser (k : Kind) (hk : unitKind k) (F : Forest) (tokens : List Tok) (hf : F.full)
    (ha : F.avoids unitKind) (hn : F.toks = (significant tokens).length) :
    ∃ cs, buildTree tokens (Forest.ser (.node k F .nil)) =
        some (.node k cs, (F.reports 0).map (fun p => let a := anchor (significant tokens) p.1; ⟨a.1, a.2, p.2⟩)) ∧
      Green.leavesL cs = tokens.map Tok.leaf ∧ Green.shapeL cs = F.dropErr ∧ ∀ g ∈ Green.nodesL cs, g.Tight := by
  obtain ⟨u, v, gs, h1, h2, -, -, h4, h5, h6, h7⟩ := buildLoop_ser F []
    ⟨[], tokens, [(k, 0)], [], []⟩ hf ha (by simp [hn])
  simp only [List.nil_append, List.append_nil] at h1 h7
  obtain ⟨u0, v0, g1, g2, g3, g4⟩ := eatTrivia_spec v ⟨u, v, [(k, 0)], gs,
    (F.reports (significant ([] : List Tok)).length).map (fun p =>
      let a := anchor (significant tokens) p.1; ⟨a.1, a.2, p.2⟩)⟩ rfl
  have hv0 : v0 = [] := by
    cases hv : v0 with
    | nil => rfl
    | cons t ts =>
      have ht := g3 t ts hv
      have : (significant tokens).length = (significant u).length + (significant v).length := by
        rw [h1, significant_append, List.length_append]
      rw [← hn, h2, g1, hv, significant_append, significant_cons_neg ht] at this
      simp at this
  subst hv0
  simp only [List.append_nil] at g1
  refine ⟨gs ++ u0.map Tok.green, ?_, ?_, ?_, ?_⟩
  · have e : Forest.ser (.node k F .nil) = .openNode k :: F.ser ++ [.close] := by simp [ser]
    unfold buildTree
    rw [e]
    have e2 : (Event.openNode k :: F.ser ++ [Event.close]).dropLast = .openNode k :: F.ser := by
      rw [List.dropLast_concat]
    have e3 : (Event.openNode k :: F.ser ++ [Event.close]).getLast? = some .close := by
      rw [List.getLast?_append]; rfl
    rw [e2]
    simp only [e3, if_true]
    have hk' : (k = K.QueryUnit ∨ k = K.UpdateUnit) := hk
    simp only [buildLoop, buildEvent, hk', if_true, BState.startNode, List.length_nil]
    rw [h7]
    simp only [buildLoop]
    rw [g4]
    simp [BState.finishNode, BState.finish, significant]
  · rw [leavesL_append, leavesL_toks, h4, h1, g1]; simp
  · rw [shapeL_append, shapeL_trivia g2, h5, append_nil]
  · rw [nodesL_append, nodesL_toks]; simpa using h6

/-- Kinds other than the two units. -/
def notUnit (k : Kind) : Bool := k != K.QueryUnit && k != K.UpdateUnit

theorem notUnit_iff (k : Kind) : notUnit k = true ↔ ¬ unitKind k := by simp [notUnit, unitKind]

theorem sparql_calls_all : sparqlTree.toList.all (fun p => !(notUnit p.1) ||
    (notUnit p.2.kind && callsOk notUnit p.2.body)) = true := by decide +kernel

theorem sparql_calls (k : Kind) (f : FnDef) (h : sparql k = some f) (hk : notUnit k = true) :
    notUnit f.kind = true ∧ callsOk notUnit f.body = true := by
  have := (List.all_eq_true.mp sparql_calls_all) (k, f) (sparqlTree.find_mem k f h)
  simpa [hk] using this

theorem avoids_of_ser {F : Forest} (h : EvOk notUnit F.ser) : F.avoids unitKind := by
  induction F with
  | nil => trivial
  | tok r ih => exact ih (fun k hk => h k (by simp [ser, hk]))
  | err e r ih => exact ih (fun k hk => h k (by simp [ser, hk]))
  | node k c r ihc ihr =>
    exact ⟨(notUnit_iff k).mp (h k (by simp [ser])), ihc (fun k hk => h k (by simp [ser, hk])),
      ihr (fun k hk => h k (by simp [ser, hk]))⟩

/-- The forest of a run has no unit node below the root. -/
theorem parse_avoids {n : Nat} {e : Entry} {toks : List Kind} {s : PState} {F : Forest}
    (h : parseEntry sparql n e.kind toks = .next s) (hF : s.events = Forest.ser (.node e.kind F .nil)) :
    F.avoids unitKind := by
  obtain ⟨m, s1, s2, h1, h2, rfl⟩ := unit_inv h
  have hE : notUnit K.Error = true := by decide
  have hi : notUnit e.inner = true := by cases e <;> decide
  have g1 := exec_kinds (ok := notUnit) sparql hE sparql_calls m 0 K.Error (.call e.inner)
    ((PState.init toks).push (.openNode K.Error)) hi hE (by
      intro k hk; simp [PState.init, PState.push] at hk; rw [hk]; exact hE)
  have hroot : exec sparql m 0 K.Error (.call e.inner) ((PState.init toks).push (.openNode K.Error)) =
      exec sparql m 0 e.kind (.call e.inner) ((PState.init toks).push (.openNode K.Error)) := by
    cases m with
    | zero => rfl
    | succ m => rw [exec.eq_5, exec.eq_5]
  rw [hroot, h1] at g1
  have g2 := EvOk.swallow hE g1
  rw [h2] at g2
  simp only [OutOk] at g2
  apply avoids_of_ser
  have hev : s2.events.set 0 (.openNode e.kind) ++ [.close] = .openNode e.kind :: (F.ser ++ [.close]) := by
    simpa [PState.close, ser] using hF
  intro k hk
  apply g2
  cases hes : s2.events with
  | nil => rw [hes] at hev; simp at hev
  | cons x xs =>
    rw [hes] at hev
    simp only [List.set_cons_zero, List.cons_append, List.cons.injEq, true_and, List.append_cancel_right_eq] at hev
    rw [hev]; simp [hk]

/-- The significant kinds of a token list. -/
def kinds (tokens : List Tok) : List Kind := (significant tokens).map (·.kind)

theorem kinds_lt {tokens : List Tok} (hk : ∀ t ∈ tokens, t.kind < 344) : ∀ k ∈ kinds tokens, k < 344 := by
  intro k h
  simp only [kinds, List.mem_map, significant, List.mem_filter] at h
  obtain ⟨t, ⟨ht, -⟩, rfl⟩ := h
  exact hk t ht

theorem kinds_noEof {tokens : List Tok} (hk : ∀ t ∈ tokens, t.kind ≠ K.Eof) : K.Eof ∉ kinds tokens := by
  intro h
  simp only [kinds, List.mem_map, significant, List.mem_filter] at h
  obtain ⟨t, ⟨ht, -⟩, h⟩ := h
  exact hk t ht h

/-- `parse_text` succeeds whenever the parser does, and the tree is the one of the forest. -/
theorem parseText_of_events {e : Entry} {tokens : List Tok} (hE : ∀ t ∈ tokens, t.kind ≠ K.Eof) {ev : List Event}
    (h : parseTokens e (kinds tokens) = some ev) :
    ∃ F cs errs, ev = Forest.ser (.node e.kind F .nil) ∧ F.toks = (significant tokens).length ∧
      parseText e tokens = some (.node e.kind cs, errs) ∧
      errs = (F.reports 0).map (fun p => let a := anchor (significant tokens) p.1; ⟨a.1, a.2, p.2⟩) ∧
      Green.leavesL cs = tokens.map Tok.leaf ∧ Green.shapeL cs = F.prune.dropErr ∧
      ∀ g ∈ Green.nodesL cs, g.Tight := by
  obtain ⟨n, s, hs, hev⟩ := parseTokens_some h
  obtain ⟨-, F, hF, hFt⟩ := parse_shape (kinds_noEof hE) hs
  have ha := parse_avoids hs hF
  have hu : unitKind e.kind := by cases e <;> simp [unitKind, Entry.kind]
  have hFt' : F.toks = (significant tokens).length := by rw [hFt]; simp [kinds]
  obtain ⟨cs, g1, g2, g3, g4⟩ := buildTree_ser e.kind hu F.prune tokens (full_prune F) (avoids_prune ha)
    (by rw [toks_prune, hFt'])
  refine ⟨F, cs, _, by rw [← hev, hF], hFt', ?_, rfl, g2, g3, g4⟩
  unfold parseText
  rw [show (tokens.filter (fun t => !t.trivia)).map (·.kind) = kinds tokens from rfl, h]
  simp only
  rw [← hev, hF, removeEmptyNodes_ser]
  simp only
  rw [g1, reports_prune]

end Verif.Grammar
