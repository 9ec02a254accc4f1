import Verif.Grammar.LooseTree
/-!
# The children of the root
-/
namespace Verif.Grammar
open Forest

namespace Forest

/-- The nodes at the top of a forest. -/
def tops : Forest → List Kind
  | nil => []
  | tok r => r.tops
  | err _ r => r.tops
  | node k _ r => k :: r.tops

theorem tops_append (F G : Forest) : (F.append G).tops = F.tops ++ G.tops := by
  induction F with
  | nil => rfl
  | tok r ih => exact ih
  | err e r ih => exact ih
  | node k c r _ ih => simp [append, tops, ih]

theorem tops_dropErr (F : Forest) : F.dropErr.tops = F.tops := by
  induction F with
  | nil => rfl
  | tok r ih => exact ih
  | err e r ih => exact ih
  | node k c r _ ih => simp [dropErr, tops, ih]

theorem tops_prune_empty {F : Forest} (h : F.toks = 0) : F.prune.tops = [] := by
  induction F with
  | nil => rfl
  | tok r ih => simp [toks] at h
  | err e r ih => exact ih h
  | node k c r ihc ih =>
    simp only [toks, Nat.add_eq_zero_iff] at h
    simp [prune, h.1, tops_append, ihc h.1, ih h.2]

theorem prune_append (F G : Forest) : (F.append G).prune = F.prune.append G.prune := by
  induction F with
  | nil => rfl
  | tok r ih => simp [append, prune, ih]
  | err e r ih => simp [append, prune, ih]
  | node k c r _ ih => simp only [append, prune]; split <;> simp [append, ih, append_assoc]

end Forest

theorem tops_shape (g : Green) (r : Forest) : (g.shape r).tops = (if g.isTok then [] else [g.kind]) ++ r.tops := by
  cases g with
  | tok k t => simp only [Green.shape, Green.isTok]; split <;> simp [tops]
  | node k cs => simp [Green.shape, Green.isTok, tops, Green.kind]

theorem tops_shapeL (cs : List Green) : (Green.shapeL cs).tops = (cs.filter (fun g => !g.isTok)).map Green.kind := by
  induction cs with
  | nil => rfl
  | cons g gs ih =>
    rw [Green.shapeL, tops_shape, ih, List.filter_cons]
    cases g <;> simp [Green.isTok]

/-- What a call leaves behind: nothing, or a node of its kind (and an empty error node if it hit the end of the input). -/
theorem call_shape {G : Grammar} {n mark : Nat} {root k : Kind} {s s' : PState}
    (hk : ∀ f, G k = some f → f.kind = k) (h : exec G n mark root (.call k) s = .next s') :
    ∃ F w, Step s s' F w ∧ (F = .nil ∨ ∃ c t, F = .node k c t ∧ t.toks = 0) := by
  cases n with
  | zero => simp [exec] at h
  | succ n =>
    simp only [exec] at h
    cases hf : G k with
    | none => rw [hf] at h; simp at h
    | some f =>
      rw [hf] at h
      dsimp only at h
      have hkk := hk f hf
      have key : ∀ t : PState, Step s t .nil [] →
          (match exec G n t.events.length f.kind f.body (t.push (.openNode K.Error)) with
            | .next s' => match (if f.swallow then s'.swallow else .next s') with
              | .next s' => Out.next (s'.close t.events.length f.kind)
              | o => o
            | .ret s' => .next s'
            | o => o) = .next s' →
          ∃ F w, Step s s' F w ∧ (F = .nil ∨ ∃ c t, F = .node k c t ∧ t.toks = 0) := by
        intro t ht ho
        cases hb : exec G n t.events.length f.kind f.body (t.push (.openNode K.Error)) with
        | next s1 =>
          rw [hb] at ho
          obtain ⟨F, w, hF⟩ := (exec_struct G n _ _ _ _).1 s1 hb
          simp only at ho
          cases hsw : f.swallow with
          | false =>
            simp [hsw] at ho; subst ho
            exact ⟨_, _, ht.trans (bracket_step f.kind K.Error hF), Or.inr ⟨F, .nil, by rw [hkk]; rfl, rfl⟩⟩
          | true =>
            simp only [hsw, if_true] at ho
            cases hs2 : s1.swallow with
            | next s2 =>
              rw [hs2] at ho
              simp only [Out.next.injEq] at ho; subst ho
              obtain ⟨F2, w2, h2, -⟩ := swallow_next hs2
              exact ⟨_, _, ht.trans (bracket_step f.kind K.Error (hF.trans h2)), Or.inr ⟨_, .nil, by rw [hkk]; rfl, rfl⟩⟩
            | ret s2 => exact absurd hs2 swallow_not_ret
            | stuck => rw [hs2] at ho; simp at ho
            | crash => rw [hs2] at ho; simp at ho
            | deep => rw [hs2] at ho; simp at ho
        | ret s1 =>
          rw [hb] at ho
          simp only [Out.next.injEq] at ho; subst ho
          obtain ⟨F, w, h1, h2, h3, h4⟩ := (exec_struct G n _ _ _ _).2 s1 hb
          have he := h1 t.events K.Error .nil (by simp [PState.push, ser]) rfl
          have : Step t s1 (.node f.kind F (.node K.Error .nil .nil)) w :=
            ⟨by rw [he]; simp [append], by simpa [PState.push] using h2, by simpa [toks] using h3⟩
          exact ⟨_, _, ht.trans this, Or.inr ⟨F, _, by rw [hkk]; rfl, rfl⟩⟩
        | stuck => rw [hb] at ho; simp at ho
        | crash => rw [hb] at ho; simp at ho
        | deep => rw [hb] at ho; simp at ho
      cases hg : f.guard with
      | none => rw [hg] at h; exact key s (Step.refl s) h
      | some ks =>
        rw [hg] at h
        simp only at h
        cases hn : s.nth with
        | none => rw [hn] at h; simp at h
        | some p =>
          obtain ⟨c, s1⟩ := p
          rw [hn] at h
          simp only at h
          split at h
          · exact key s1 (nth_step hn) h
          · simp at h; subst h; exact ⟨_, _, nth_step hn, Or.inl rfl⟩

theorem sparql_kind (k : Kind) (f : FnDef) (h : sparql k = some f) : f.kind = k := by
  have hc : sparqlTree.toList.all (fun p => p.2.kind == p.1) = true := by decide +kernel
  simpa using List.all_eq_true.1 hc (k, f) (sparqlTree.find_mem k f h)

/-- The nodes right below the root: the query (update), if it is not empty, and what follows it, in one error node. -/
theorem parse_tops {n : Nat} {e : Entry} {toks : List Kind} {s : PState} {F : Forest}
    (h : parseEntry sparql n e.kind toks = .next s) (hF : s.events = Forest.ser (.node e.kind F .nil)) :
    ∃ a b, F.prune.dropErr.tops = a ++ b ∧ (a = [] ∨ a = [e.inner]) ∧ (b = [] ∨ b = [K.Error]) := by
  obtain ⟨m, s1, s2, h1, h2, rfl⟩ := unit_inv h
  obtain ⟨F1, w1, a1, a2⟩ := call_shape (sparql_kind _) h1
  obtain ⟨F2, w2, b1, b2, b3, b4⟩ := swallow_next h2
  have g := bracket_step (s := PState.init toks) e.kind K.Error (a1.trans b1)
  have hFF : F = F1.append F2 := by
    have h1 := g.1
    rw [show (PState.init toks).events = [] from rfl, List.nil_append] at h1
    rw [List.length_nil, hF] at h1
    have h2 := ser_inj h1
    simpa using h2
  subst hFF
  rw [tops_dropErr, prune_append, tops_append]
  refine ⟨_, _, rfl, ?_, ?_⟩
  · rcases a2 with rfl | ⟨c, t, rfl, ht⟩
    · exact Or.inl rfl
    · by_cases hc : c.toks = 0
      · left; apply tops_prune_empty; simp [Forest.toks, hc, ht]
      · right; simp [prune, hc, tops, tops_prune_empty ht]
  · rcases b2 with ⟨rfl, -⟩ | rfl
    · exact Or.inl rfl
    · by_cases hc : (Forest.tokens w2.length).toks = 0
      · left; apply tops_prune_empty; simp [Forest.toks, hc]
      · right; simp [prune, hc, tops]

end Verif.Grammar
