import Verif.Grammar.LooseTree
import Verif.Grammar.DTree
/-!
# Complete right-hand sides

`Whole R r l`: `l` is a right-hand side of `r` in which only nodes that can be empty are missing.
-/
namespace Verif.Grammar
open Forest

/-- The words of a right-hand side, one level deep, where a node that derives the empty text may be left out. -/
inductive Whole (R : Kind → Option Rule) : Rule → List Sym → Prop
  | tok (k) : Whole R (.tok k) [.tok k]
  | node (k) : Whole R (.node k) [.node k]
  | empty (k) (h : Derives R (.node k) []) : Whole R (.node k) []
  | seq {a b u v} (da : Whole R a u) (db : Whole R b v) : Whole R (.seq a b) (u ++ v)
  | altL {a b w} (d : Whole R a w) : Whole R (.alt a b) w
  | altR {a b w} (d : Whole R b w) : Whole R (.alt a b) w
  | optNone (r) : Whole R (.opt r) []
  | optSome {r w} (d : Whole R r w) : Whole R (.opt r) w
  | repNil (r) : Whole R (.rep r) []
  | repCons {r u v} (d : Whole R r u) (ds : Whole R (.rep r) v) : Whole R (.rep r) (u ++ v)

/-- The node is complete. -/
def Complete (R : Kind → Option Rule) : Green → Prop
  | .tok _ _ => True
  | .node k cs => k ≠ K.Error ∧ ∃ r, R k = some r ∧ Whole R r (cs.filterMap Green.sym)

namespace Forest

/-- Every node of the forest is complete. -/
def ConfW (R : Kind → Option Rule) : Forest → List Kind → Prop
  | nil, _ => True
  | tok r, w => r.ConfW R w.tail
  | err _ r, w => r.ConfW R w
  | node k c r, w =>
    (k ≠ K.Error ∧ ∃ rule, R k = some rule ∧ Whole R rule (c.syms w)) ∧ c.ConfW R w ∧ r.ConfW R (w.drop c.toks)

theorem confW_append {R} (F G : Forest) : ∀ w, (F.append G).ConfW R w ↔ F.ConfW R w ∧ G.ConfW R (w.drop F.toks) := by
  induction F with
  | nil => intro w; simp [append, ConfW, toks]
  | tok r ih => intro w; simp [append, ConfW, toks, ih, List.drop_tail]
  | err e r ih => intro w; simp [append, ConfW, toks, ih]
  | node k c r _ ih => intro w; simp [append, ConfW, toks, ih, and_assoc]

end Forest

theorem DTree.whole {R} (hE : R K.Error = none) {r : Rule} {w : List Kind} {F : Forest} (d : DTree R r w F) :
    F.toks = w.length ∧ ∀ v, Whole R r (F.syms (w ++ v)) ∧ F.ConfW R (w ++ v) := by
  have app : ∀ {a : Forest} {u v x : List Kind}, a.toks = u.length → (u ++ v ++ x).drop a.toks = v ++ x := by
    intro a u v x h
    rw [h, List.append_assoc, List.drop_left]
  induction d with
  | tok k =>
    refine ⟨rfl, fun v => ⟨?_, trivial⟩⟩
    simpa [syms] using Whole.tok (R := R) k
  | node k r w F h d ih =>
    obtain ⟨ht, hw⟩ := ih
    by_cases hw0 : w = []
    · subst hw0
      rw [if_pos rfl]
      exact ⟨rfl, fun v => ⟨.empty k (.node k r [] h d.derives), trivial⟩⟩
    · rw [if_neg hw0]
      have hk : k ≠ K.Error := by rintro rfl; rw [hE] at h; cases h
      have h0 : F.toks ≠ 0 := by
        rw [ht]
        cases w with
        | nil => exact absurd rfl hw0
        | cons x xs => simp
      refine ⟨(show F.toks + 0 = _ by omega), fun v => ⟨?_, ?_⟩⟩
      · simpa [syms, hk, h0] using Whole.node (R := R) k
      · exact ⟨⟨hk, r, h, (hw v).1⟩, (hw v).2, trivial⟩
  | seq a b u v F G _ _ iha ihb =>
    refine ⟨by rw [toks_append, iha.1, ihb.1, List.length_append], fun x => ?_⟩
    rw [syms_append, confW_append, app iha.1, List.append_assoc]
    exact ⟨.seq (iha.2 _).1 (ihb.2 x).1, (iha.2 _).2, (ihb.2 x).2⟩
  | altL a b w F _ ih => exact ⟨ih.1, fun v => ⟨.altL (ih.2 v).1, (ih.2 v).2⟩⟩
  | altR a b w F _ ih => exact ⟨ih.1, fun v => ⟨.altR (ih.2 v).1, (ih.2 v).2⟩⟩
  | optNone r => exact ⟨rfl, fun v => ⟨.optNone r, trivial⟩⟩
  | optSome r w F _ ih => exact ⟨ih.1, fun v => ⟨.optSome (ih.2 v).1, (ih.2 v).2⟩⟩
  | repNil r => exact ⟨rfl, fun v => ⟨.repNil r, trivial⟩⟩
  | repCons r u v F G _ _ iha ihb =>
    refine ⟨by rw [toks_append, iha.1, ihb.1, List.length_append], fun x => ?_⟩
    rw [syms_append, confW_append, app iha.1, List.append_assoc]
    exact ⟨.repCons (iha.2 _).1 (ihb.2 x).1, (iha.2 _).2, (ihb.2 x).2⟩

theorem complete_shape {R} (g : Green) : ∀ r : Forest, ∀ v, (∀ n ∈ g.nodes, n.Tight) →
    (g.shape r).ConfW R (sigKinds g.leaves ++ v) → (∀ n ∈ g.nodes, Complete R n) ∧ r.ConfW R v := by
  induction g using Green.rec (motive_2 := fun cs => ∀ v, (∀ n ∈ Green.nodesL cs, n.Tight) →
      (Green.shapeL cs).ConfW R (sigKinds (Green.leavesL cs) ++ v) → ∀ n ∈ Green.nodesL cs, Complete R n) with
  | tok k t =>
    intro r v _ hc
    refine ⟨by simp [Green.nodes], ?_⟩
    simp only [Green.shape, Green.leaves, sigKinds] at hc
    cases h : triviaKind k
    · simpa [h, ConfW] using hc
    · simpa [h] using hc
  | node k cs ih =>
    intro r v ht hc
    simp only [Green.shape, Green.leaves, ConfW, toks_shapeL, List.drop_left] at hc
    obtain ⟨⟨h1, rule, hr, hl⟩, h2, h3⟩ := hc
    have ht' : ∀ n ∈ Green.nodesL cs, n.Tight := fun n hn => ht n (by simp [Green.nodes, hn])
    refine ⟨?_, h3⟩
    intro n hn
    simp only [Green.nodes, List.mem_cons] at hn
    rcases hn with rfl | hn
    · rw [syms_shapeL cs v ht'] at hl
      exact ⟨h1, rule, hr, hl⟩
    · exact ih v ht' h2 n hn
  | nil => rename_i v _ _ n hn; simp [Green.nodesL] at hn
  | cons g gs ihg ihs =>
    rename_i v ht hc n hn
    simp only [Green.nodesL, List.mem_append] at ht hn
    simp only [Green.shapeL, Green.leavesL, sigKinds_append, List.append_assoc] at hc
    obtain ⟨a, b⟩ := ihg (Green.shapeL gs) _ (fun n hn => ht n (Or.inl hn)) hc
    rcases hn with hn | hn
    · exact a n hn
    · exact ihs v (fun n hn => ht n (Or.inr hn)) b n hn

theorem complete_shapeL {R} (cs : List Green) (ht : ∀ n ∈ Green.nodesL cs, n.Tight)
    (hc : (Green.shapeL cs).ConfW R (sigKinds (Green.leavesL cs))) : ∀ n ∈ Green.nodesL cs, Complete R n := by
  induction cs with
  | nil => simp [Green.nodesL]
  | cons g gs ihs =>
    intro n hn
    simp only [Green.nodesL, List.mem_append] at ht hn
    simp only [Green.shapeL, Green.leavesL, sigKinds_append] at hc
    obtain ⟨a, b⟩ := complete_shape g (Green.shapeL gs) _ (fun n hn => ht n (Or.inl hn)) hc
    rcases hn with hn | hn
    · exact a n hn
    · exact ihs (fun n hn => ht n (Or.inr hn)) b n hn

end Verif.Grammar
