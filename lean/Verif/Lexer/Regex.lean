import Verif.Text
import Mathlib.Tactic.Common
/-!
# Regular expressions

The patterns of the lexer (`crates/sparql-parser/src/syntax_kind/generated.rs`) are regular expressions over characters.
`Matches` is the textbook meaning. `deriv`, `nullable` is the standard way to run them (Brzozowski); it stands for the
automaton generated by the `logos` crate.
-/
namespace Verif.Lexer
open Verif

/-- A character class: inclusive ranges of code points. -/
abbrev Class := List (Nat × Nat)

/-- The character is in the class. -/
def Class.has (cl : Class) (c : Char) : Bool := cl.any (fun r => Nat.ble r.1 c.toNat && Nat.ble c.toNat r.2)

inductive Regex
  | none
  | eps
  | cls (cl : Class)
  | seq (a b : Regex)
  | alt (a b : Regex)
  | star (a : Regex)
deriving DecidableEq, Repr

/-- The language of a regular expression. -/
inductive Matches : Regex → Text → Prop
  | eps : Matches .eps []
  | cls {cl c} (h : cl.has c = true) : Matches (.cls cl) [c]
  | seq {a b u v} (ha : Matches a u) (hb : Matches b v) : Matches (.seq a b) (u ++ v)
  | altL {a b u} (h : Matches a u) : Matches (.alt a b) u
  | altR {a b u} (h : Matches b u) : Matches (.alt a b) u
  | starNil {a} : Matches (.star a) []
  | starCons {a u v} (h : Matches a u) (hs : Matches (.star a) v) : Matches (.star a) (u ++ v)

/-- Accepts the empty text. -/
def Regex.nullable : Regex → Bool
  | .none => false
  | .eps => true
  | .cls _ => false
  | .seq a b => a.nullable && b.nullable
  | .alt a b => a.nullable || b.nullable
  | .star _ => true

/-- Sequence, simplified. -/
def mkSeq : Regex → Regex → Regex
  | .none, _ => .none
  | _, .none => .none
  | .eps, b => b
  | a, b => .seq a b

/-- Alternative, simplified. -/
def mkAlt : Regex → Regex → Regex
  | .none, b => b
  | a, .none => a
  | a, b => if a = b then a else .alt a b

/-- What may follow the character `c`. -/
def Regex.deriv (c : Char) : Regex → Regex
  | .none => .none
  | .eps => .none
  | .cls cl => if cl.has c then .eps else .none
  | .seq a b => if a.nullable then mkAlt (mkSeq (a.deriv c) b) (b.deriv c) else mkSeq (a.deriv c) b
  | .alt a b => mkAlt (a.deriv c) (b.deriv c)
  | .star a => mkSeq (a.deriv c) (.star a)

/-- The text matches. -/
def Regex.run (r : Regex) : Text → Bool
  | [] => r.nullable
  | c :: cs => (r.deriv c).run cs

/-! ## The runner is right -/

theorem matches_none {w} : ¬ Matches .none w := by intro h; cases h

theorem matches_eps {w} : Matches .eps w ↔ w = [] := by
  constructor
  · intro h; cases h; rfl
  · rintro rfl; exact .eps

theorem matches_cls {cl w} : Matches (.cls cl) w ↔ ∃ c, w = [c] ∧ cl.has c = true := by
  constructor
  · intro h; cases h with | cls h => exact ⟨_, rfl, h⟩
  · rintro ⟨c, rfl, h⟩; exact .cls h

theorem matches_seq {a b w} : Matches (.seq a b) w ↔ ∃ u v, w = u ++ v ∧ Matches a u ∧ Matches b v := by
  constructor
  · intro h; cases h with | seq ha hb => exact ⟨_, _, rfl, ha, hb⟩
  · rintro ⟨u, v, rfl, ha, hb⟩; exact .seq ha hb

theorem matches_alt {a b w} : Matches (.alt a b) w ↔ Matches a w ∨ Matches b w := by
  constructor
  · intro h
    cases h with
    | altL h => exact Or.inl h
    | altR h => exact Or.inr h
  · rintro (h | h)
    · exact .altL h
    · exact .altR h

theorem matches_mkSeq {a b w} : Matches (mkSeq a b) w ↔ Matches (.seq a b) w := by
  have hn : ∀ x, ¬ Matches (.seq .none x) w := by
    intro x h; obtain ⟨_, _, _, h, _⟩ := matches_seq.1 h; exact matches_none h
  have hn' : ∀ x, ¬ Matches (.seq x .none) w := by
    intro x h; obtain ⟨_, _, _, _, h⟩ := matches_seq.1 h; exact matches_none h
  have he : ∀ x, Matches (.seq .eps x) w ↔ Matches x w := by
    intro x
    rw [matches_seq]
    constructor
    · rintro ⟨u, v, rfl, h1, h2⟩; rw [matches_eps.1 h1]; exact h2
    · intro h; exact ⟨[], w, rfl, .eps, h⟩
  unfold mkSeq
  split
  · exact ⟨fun h => absurd h matches_none, fun h => absurd h (hn _)⟩
  · exact ⟨fun h => absurd h matches_none, fun h => absurd h (hn' _)⟩
  · exact (he _).symm
  · rfl

theorem matches_mkAlt {a b w} : Matches (mkAlt a b) w ↔ Matches (.alt a b) w := by
  unfold mkAlt
  split
  · rw [matches_alt]; exact ⟨Or.inr, fun h => h.resolve_left matches_none⟩
  · rw [matches_alt]; exact ⟨Or.inl, fun h => h.resolve_right matches_none⟩
  · split
    · next h => subst h; rw [matches_alt, or_self]
    · rfl

theorem nullable_iff (r : Regex) : r.nullable = true ↔ Matches r [] := by
  induction r with
  | none => simp [Regex.nullable, matches_none]
  | eps => simp [Regex.nullable, matches_eps]
  | cls cl => simp [Regex.nullable, matches_cls]
  | seq a b iha ihb =>
    simp only [Regex.nullable, Bool.and_eq_true, iha, ihb, matches_seq]
    constructor
    · rintro ⟨h1, h2⟩; exact ⟨[], [], rfl, h1, h2⟩
    · rintro ⟨u, v, h, h1, h2⟩
      rw [eq_comm, List.append_eq_nil_iff] at h
      rw [h.1] at h1; rw [h.2] at h2; exact ⟨h1, h2⟩
  | alt a b iha ihb => simp only [Regex.nullable, Bool.or_eq_true, iha, ihb, matches_alt]
  | star a _ => simp only [Regex.nullable, true_iff]; exact .starNil

theorem star_cons {a : Regex} {c : Char} {w : Text} (h : Matches (.star a) (c :: w)) :
    ∃ u v, w = u ++ v ∧ Matches a (c :: u) ∧ Matches (.star a) v := by
  generalize hr : Regex.star a = r at h
  generalize hw : c :: w = x at h
  induction h with
  | starNil => simp at hw
  | @starCons a' u v h hs _ ih =>
    cases hr
    cases u with
    | nil =>
      simp only [List.nil_append] at hw
      exact ih rfl hw
    | cons d u =>
      simp only [List.cons_append, List.cons.injEq] at hw
      obtain ⟨rfl, rfl⟩ := hw
      exact ⟨u, v, rfl, h, hs⟩
  | _ => cases hr

theorem deriv_iff (r : Regex) (c : Char) : ∀ w, Matches (r.deriv c) w ↔ Matches r (c :: w) := by
  induction r with
  | none => intro w; simp [Regex.deriv, matches_none]
  | eps => intro w; simp [Regex.deriv, matches_none, matches_eps]
  | cls cl =>
    intro w
    simp only [Regex.deriv]
    rw [matches_cls]
    split
    · next h => rw [matches_eps]; constructor
                · rintro rfl; exact ⟨c, rfl, h⟩
                · rintro ⟨d, h1, h2⟩; simp at h1; exact h1.2
    · next h =>
      constructor
      · intro h; exact absurd h matches_none
      · rintro ⟨d, h1, h2⟩
        simp at h1; rw [h1.1] at h; exact absurd h2 h
  | seq a b iha ihb =>
    intro w
    have key : Matches (.seq a b) (c :: w) ↔ Matches (.seq (a.deriv c) b) w ∨ (Matches a [] ∧ Matches b (c :: w)) := by
      rw [matches_seq, matches_seq]
      constructor
      · rintro ⟨u, v, h, h1, h2⟩
        cases u with
        | nil => rw [List.nil_append] at h; rw [h]; exact Or.inr ⟨h1, h2⟩
        | cons d u =>
          simp only [List.cons_append, List.cons.injEq] at h
          obtain ⟨rfl, rfl⟩ := h
          exact Or.inl ⟨u, v, rfl, (iha u).2 h1, h2⟩
      · rintro (⟨u, v, rfl, h1, h2⟩ | ⟨h1, h2⟩)
        · exact ⟨c :: u, v, rfl, (iha u).1 h1, h2⟩
        · exact ⟨[], c :: w, rfl, h1, h2⟩
    simp only [Regex.deriv]
    split
    · next h => rw [matches_mkAlt, matches_alt, matches_mkSeq, ihb, key]
                have := (nullable_iff a).1 h
                simp [this]
    · next h => rw [matches_mkSeq, key]
                have : ¬ Matches a [] := fun hh => h ((nullable_iff a).2 hh)
                simp [this]
  | alt a b iha ihb => intro w; simp only [Regex.deriv, matches_mkAlt, matches_alt, iha, ihb]
  | star a iha =>
    intro w
    simp only [Regex.deriv, matches_mkSeq]
    rw [matches_seq]
    constructor
    · rintro ⟨u, v, rfl, h1, h2⟩
      exact Matches.starCons ((iha u).1 h1) h2
    · intro h
      obtain ⟨u, v, rfl, h1, h2⟩ := star_cons h
      exact ⟨u, v, rfl, (iha u).2 h1, h2⟩

/-- Running a regular expression decides its language. -/
theorem run_iff (r : Regex) (w : Text) : r.run w = true ↔ Matches r w := by
  induction w generalizing r with
  | nil => exact nullable_iff r
  | cons c cs ih => simp only [Regex.run]; rw [ih, deriv_iff]

/-! ## Shorthands -/

/-- `r?` -/
def opt (r : Regex) : Regex := .alt r .eps
/-- `r+` -/
def plus (r : Regex) : Regex := .seq r (.star r)
/-- `r{n}` -/
def times : Nat → Regex → Regex
  | 0, _ => .eps
  | n + 1, r => .seq r (times n r)
/-- Alternatives. -/
def alts : List Regex → Regex
  | [] => .none
  | [r] => r
  | r :: rs => .alt r (alts rs)
/-- Sequences. -/
def seqs : List Regex → Regex
  | [] => .eps
  | [r] => r
  | r :: rs => .seq r (seqs rs)

/-- A repeated class matches exactly the texts over the class. -/
theorem matches_star_cls {cl : Class} {w : Text} : Matches (.star (.cls cl)) w ↔ ∀ c ∈ w, cl.has c = true := by
  induction w with
  | nil => exact ⟨fun _ => by simp, fun _ => .starNil⟩
  | cons c cs ih =>
    constructor
    · intro h
      obtain ⟨u, v, rfl, h1, h2⟩ := star_cons h
      obtain ⟨d, h3, h4⟩ := matches_cls.1 h1
      simp only [List.cons.injEq] at h3
      obtain ⟨rfl, rfl⟩ := h3
      simp only [List.nil_append] at ih ⊢
      intro x hx
      simp only [List.mem_cons] at hx
      rcases hx with rfl | hx
      · exact h4
      · exact ih.1 h2 x hx
    · intro h
      have := Matches.starCons (.cls (h c (by simp))) (ih.2 (fun x hx => h x (by simp [hx])))
      exact this

end Verif.Lexer
