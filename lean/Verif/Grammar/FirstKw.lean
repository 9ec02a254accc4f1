import Verif.Grammar.Parse
import Verif.Grammar.FirstKwData
/-!
# The first operation keyword of a sentence
-/
namespace Verif.Grammar

/-- Three flags: the first operation keyword may be a query keyword, may be an update keyword, may be missing. -/
structure FK where
  q : Bool
  u : Bool
  z : Bool

def FK.le (a b : FK) : Bool := (!a.q || b.q) && (!a.u || b.u) && (!a.z || b.z)

def kwOf (k : Kind) : Option Entry :=
  if k ∈ queryKeywords then some .query else if k ∈ updateKeywords then some .update else none

def firstKw (w : List Kind) : Option Entry := w.findSome? kwOf

def fkOf (k : Kind) : FK :=
  let m := (fkTree.find k).getD 7
  ⟨m.testBit 0, m.testBit 1, m.testBit 2⟩

def Rule.fk : Rule → FK
  | .node k => fkOf k
  | .tok k => match kwOf k with
    | some .query => ⟨true, false, false⟩
    | some .update => ⟨false, true, false⟩
    | none => ⟨false, false, true⟩
  | .seq a b =>
    let x := a.fk
    if x.z then let y := b.fk; ⟨x.q || y.q, x.u || y.u, y.z⟩ else x
  | .alt a b => let x := a.fk; let y := b.fk; ⟨x.q || y.q, x.u || y.u, x.z || y.z⟩
  | .opt r => let x := r.fk; ⟨x.q, x.u, true⟩
  | .rep r => let x := r.fk; ⟨x.q, x.u, true⟩

def FK.has (f : FK) : Option Entry → Prop
  | some .query => f.q = true
  | some .update => f.u = true
  | none => f.z = true

theorem fk_all : sparqlRulesTree.toList.all (fun p => p.2.fk.le (fkOf p.1)) = true := by decide +kernel

theorem firstKw_append (u v : List Kind) : firstKw (u ++ v) = (firstKw u).or (firstKw v) := by
  simp [firstKw, List.findSome?_append]

theorem fk_sound {r : Rule} {w : List Kind} (d : Derives sparqlRules r w) : r.fk.has (firstKw w) := by
  induction d with
  | tok k =>
    simp only [Rule.fk, firstKw, List.findSome?_cons, List.findSome?_nil]
    cases hk : kwOf k with
    | none => rfl
    | some e => cases e <;> rfl
  | node k r w h d ih =>
    have := (List.all_eq_true.mp fk_all) (k, r) (sparqlRulesTree.find_mem k r h)
    simp only [FK.le, Bool.and_eq_true, Bool.or_eq_true, Bool.not_eq_true'] at this
    obtain ⟨⟨h1, h2⟩, h3⟩ := this
    show (fkOf k).has _
    cases hw : firstKw w with
    | none =>
      rw [hw] at ih; simp only [FK.has] at ih ⊢
      rw [ih] at h3; simpa using h3
    | some e =>
      rw [hw] at ih
      cases e <;> simp only [FK.has] at ih ⊢
      · rw [ih] at h1; simpa using h1
      · rw [ih] at h2; simpa using h2
  | seq a b u v da db iha ihb =>
    rw [firstKw_append]
    simp only [Rule.fk]
    cases hu : firstKw u with
    | none =>
      rw [hu] at iha
      simp only [FK.has] at iha
      rw [if_pos iha]
      simp only [Option.none_or]
      cases hv : firstKw v with
      | none => rw [hv] at ihb; exact ihb
      | some e => rw [hv] at ihb; cases e <;> simp only [FK.has] at ihb ⊢ <;> simp [ihb]
    | some e =>
      rw [hu] at iha
      simp only [Option.some_or]
      split
      · cases e <;> simp only [FK.has] at iha ⊢ <;> simp [iha]
      · exact iha
  | altL a b w d ih =>
    simp only [Rule.fk]
    cases hw : firstKw w with
    | none => rw [hw] at ih; simp only [FK.has] at ih ⊢; simp [ih]
    | some e => rw [hw] at ih; cases e <;> simp only [FK.has] at ih ⊢ <;> simp [ih]
  | altR a b w d ih =>
    simp only [Rule.fk]
    cases hw : firstKw w with
    | none => rw [hw] at ih; simp only [FK.has] at ih ⊢; simp [ih]
    | some e => rw [hw] at ih; cases e <;> simp only [FK.has] at ih ⊢ <;> simp [ih]
  | optNone r => rfl
  | repNil r => rfl
  | optSome r w d ih =>
    simp only [Rule.fk]
    cases hw : firstKw w with
    | none => rfl
    | some e => rw [hw] at ih; cases e <;> exact ih
  | repCons r u v d ds ih ihs =>
    rw [firstKw_append]
    simp only [Rule.fk] at ihs ⊢
    cases hu : firstKw u with
    | none =>
      simp only [Option.none_or]
      exact ihs
    | some e => rw [hu] at ih; cases e <;> exact ih

end Verif.Grammar
