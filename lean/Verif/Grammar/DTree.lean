import Verif.Grammar.Rule
import Verif.Grammar.Forest
/-!
# Derivation trees

Specification: the concrete syntax tree the grammar assigns to a token sequence. A node that derives no token is
not shown. Not part of the code.
-/
namespace Verif.Grammar

/-- `DTree R r w F`: the rule `r` derives the tokens `w`, and `F` is the forest of a derivation. -/
inductive DTree (R : Kind → Option Rule) : Rule → List Kind → Forest → Prop
  | tok (k) : DTree R (.tok k) [k] (.tok .nil)
  | node (k r w F) (h : R k = some r) (d : DTree R r w F) :
      DTree R (.node k) w (if w = [] then .nil else .node k F .nil)
  | seq (a b u v F G) (da : DTree R a u F) (db : DTree R b v G) : DTree R (.seq a b) (u ++ v) (F.append G)
  | altL (a b w F) (d : DTree R a w F) : DTree R (.alt a b) w F
  | altR (a b w F) (d : DTree R b w F) : DTree R (.alt a b) w F
  | optNone (r) : DTree R (.opt r) [] .nil
  | optSome (r w F) (d : DTree R r w F) : DTree R (.opt r) w F
  | repNil (r) : DTree R (.rep r) [] .nil
  | repCons (r u v F G) (d : DTree R r u F) (ds : DTree R (.rep r) v G) : DTree R (.rep r) (u ++ v) (F.append G)

theorem DTree.derives {R r w F} (d : DTree R r w F) : Derives R r w := by
  induction d with
  | tok k => exact .tok k
  | node k r w F h d ih => exact .node k r w h ih
  | seq a b u v F G da db iha ihb => exact .seq a b u v iha ihb
  | altL a b w F d ih => exact .altL a b w ih
  | altR a b w F d ih => exact .altR a b w ih
  | optNone r => exact .optNone r
  | optSome r w F d ih => exact .optSome r w ih
  | repNil r => exact .repNil r
  | repCons r u v F G d ds ih ihs => exact .repCons r u v ih ihs

theorem Derives.dtree {R r w} (d : Derives R r w) : ∃ F, DTree R r w F := by
  induction d with
  | tok k => exact ⟨_, .tok k⟩
  | node k r w h d ih => obtain ⟨F, ih⟩ := ih; exact ⟨_, .node k r w F h ih⟩
  | seq a b u v da db iha ihb =>
    obtain ⟨F, iha⟩ := iha; obtain ⟨G, ihb⟩ := ihb; exact ⟨_, .seq a b u v F G iha ihb⟩
  | altL a b w d ih => obtain ⟨F, ih⟩ := ih; exact ⟨_, .altL a b w F ih⟩
  | altR a b w d ih => obtain ⟨F, ih⟩ := ih; exact ⟨_, .altR a b w F ih⟩
  | optNone r => exact ⟨_, .optNone r⟩
  | optSome r w d ih => obtain ⟨F, ih⟩ := ih; exact ⟨_, .optSome r w F ih⟩
  | repNil r => exact ⟨_, .repNil r⟩
  | repCons r u v d ds ih ihs =>
    obtain ⟨F, ih⟩ := ih; obtain ⟨G, ihs⟩ := ihs; exact ⟨_, .repCons r u v F G ih ihs⟩

theorem DTree.toks {R r w F} (d : DTree R r w F) : F.toks = w.length := by
  induction d with
  | tok k => rfl
  | node k r w F h d ih =>
    split
    · next h0 => simp [h0, Forest.toks]
    · simpa [Forest.toks] using ih
  | seq a b u v F G da db iha ihb => rw [Forest.toks_append, iha, ihb]; simp
  | altL a b w F d ih => exact ih
  | altR a b w F d ih => exact ih
  | optNone r => rfl
  | optSome r w F d ih => exact ih
  | repNil r => rfl
  | repCons r u v F G d ds ih ihs => rw [Forest.toks_append, ih, ihs]; simp

theorem DTree.nil_of_empty {R r w F} (d : DTree R r w F) (hw : w = []) : F = .nil := by
  induction d with
  | tok k => simp at hw
  | node k r w F h d ih => simp [hw]
  | seq a b u v F G da db iha ihb =>
    simp at hw
    rw [iha hw.1, ihb hw.2]; rfl
  | altL a b w F d ih => exact ih hw
  | altR a b w F d ih => exact ih hw
  | optNone r => rfl
  | optSome r w F d ih => exact ih hw
  | repNil r => rfl
  | repCons r u v F G d ds ih ihs =>
    simp at hw
    rw [ih hw.1, ihs hw.2]; rfl

end Verif.Grammar
