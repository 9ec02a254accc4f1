import Verif.Grammar.Whole
import Verif.Grammar.Rules
import Verif.Format.Meet
import Verif.Grammar.Search
/-!
# What is left of a right-hand side

Models `Rule::first` and `Rule::is_nullable` (crates/sparql-parser/src/rules.rs L11-39), and shows that a stack of rules walked along a
row of symbols, choosing by the next symbol, always stands for the words that complete the row.
-/
namespace Verif.Grammar
open Verif Verif.Format

/-- `Rule::is_nullable` (rules.rs L29-39). The recursion into the rule of a node (L32-34) is tabulated in `nullNodes`; `nullable_node`
shows that the table satisfies it, `nullable_ends` that the recursion ends. -/
def Rule.nullable (r : Rule) : Bool := nullRule nullNodes r

/-- `Rule::first` (rules.rs L11-27): the kinds of symbols, tokens and nodes, a rule can begin with. `Seq` and `Alt` have two parts
here. -/
def Rule.first : Rule → List Kind
  | .node k => [k]
  | .tok k => [k]
  | .seq a b => a.first ++ (if a.nullable then b.first else [])
  | .alt a b => a.first ++ b.first
  | .opt r => r.first
  | .rep r => r.first

/-- `Rule::is_nullable` as it recurses, with a depth; `none` if it goes deeper. `all` and `any` stop early. -/
def Rule.nullIn : Nat → Rule → Option Bool
  | 0, _ => none
  | _ + 1, .opt _ => some true
  | _ + 1, .rep _ => some true
  | _ + 1, .tok _ => some false
  | n + 1, .node k =>
    match sparqlRules k with
    | none => some false
    | some r => r.nullIn n
  | n + 1, .seq a b =>
    match a.nullIn n with
    | none => none
    | some false => some false
    | some true => b.nullIn n
  | n + 1, .alt a b =>
    match a.nullIn n with
    | none => none
    | some true => some true
    | some false => b.nullIn n

theorem nullable_ends : sparqlRulesTree.toList.all (fun p => p.2.nullIn 200 == some p.2.nullable) = true := by decide +kernel

theorem nullable_node (k : Kind) : (Rule.node k).nullable = match sparqlRules k with | none => false | some r => r.nullable := by
  have hall : sparqlRulesTree.toList.all (fun p => (Rule.node p.1).nullable == p.2.nullable) = true := by decide +kernel
  cases h : sparqlRules k with
  | none =>
    have hin : nullNodes.all (fun k => (sparqlRules k).isSome) = true := by decide +kernel
    show nullNodes.contains k = false
    cases hc : nullNodes.contains k with
    | false => rfl
    | true =>
      have := List.all_eq_true.1 hin k (by simpa using hc)
      rw [h] at this; cases this
  | some r => simpa using List.all_eq_true.1 hall (k, r) (sparqlRulesTree.find_mem k r h)

/-- No two ways to go on with the same symbol, when the kinds `F` may follow in the same right-hand side. -/
def okR : Rule → List Kind → Bool
  | .node k, F => !(Rule.node k).nullable || !F.contains k
  | .tok _, _ => true
  | .seq a b, F => okR b F && okR a (b.first ++ if b.nullable then F else [])
  | .alt a b, F => okR a F && okR b F && a.first.all (fun k => !b.first.contains k) &&
      (!(a.nullable || b.nullable) || (a.first ++ b.first).all (fun k => !F.contains k))
  | .opt r, F => okR r F && r.first.all (fun k => !F.contains k)
  | .rep r, F => okR r (r.first ++ F) && r.first.all (fun k => !F.contains k) && !r.nullable

theorem ok_rules : sparqlRulesTree.toList.all (fun p => okR p.2 []) = true := by decide +kernel

theorem okRule {k : Kind} {r : Rule} (h : sparqlRules k = some r) : okR r [] = true :=
  List.all_eq_true.1 ok_rules (k, r) (sparqlRulesTree.find_mem k r h)

/-! ## Words and first kinds -/

def Sym.kind : Sym → Kind
  | .tok k => k
  | .node k => k

/-- The symbols are proper: the kinds of tokens and of nodes are apart. -/
def Sym.Proper (s : Sym) : Prop :=
  match s with
  | .tok k => k < 184
  | .node k => 184 ≤ k

def properR : Rule → Bool
  | .tok k => Nat.blt k 184
  | .node k => Nat.ble 184 k
  | .seq a b => properR a && properR b
  | .alt a b => properR a && properR b
  | .opt r => properR r
  | .rep r => properR r

theorem proper_rules : sparqlRulesTree.toList.all (fun p => properR p.2 && Nat.ble 184 p.1) = true := by decide +kernel

theorem properRule {k : Kind} {r : Rule} (h : sparqlRules k = some r) : properR r = true ∧ 184 ≤ k := by
  have := List.all_eq_true.1 proper_rules (k, r) (sparqlRulesTree.find_mem k r h)
  simpa using this

theorem null_word {r : Rule} (h : Whole sparqlRules r []) : r.nullable = true := null_whole null_ok h rfl

theorem word_null : ∀ {r : Rule}, r.nullable = true → Whole sparqlRules r [] := by
  intro r
  induction r with
  | tok k => intro h; cases h
  | node k =>
    intro h
    have hall : nullNodes.all (fun k => der 20 (.node k) []) = true := by decide +kernel
    exact .empty k (der_sound (List.all_eq_true.1 hall k (by simpa [Rule.nullable, nullRule] using h)))
  | seq a b iha ihb =>
    intro h
    simp only [Rule.nullable, nullRule, Bool.and_eq_true] at h
    exact Whole.seq (iha h.1) (ihb h.2)
  | alt a b iha ihb =>
    intro h
    simp only [Rule.nullable, nullRule, Bool.or_eq_true] at h
    rcases h with h | h
    · exact .altL (iha h)
    · exact .altR (ihb h)
  | opt r _ => intro _; exact .optNone r
  | rep r _ => intro _; exact .repNil r

theorem some_word (r : Rule) : ∃ l, Whole sparqlRules r l := by
  induction r with
  | tok k => exact ⟨_, .tok k⟩
  | node k => exact ⟨_, .node k⟩
  | seq a b iha ihb =>
    obtain ⟨u, hu⟩ := iha; obtain ⟨v, hv⟩ := ihb
    exact ⟨_, .seq hu hv⟩
  | alt a b iha _ => obtain ⟨u, hu⟩ := iha; exact ⟨_, .altL hu⟩
  | opt r _ => exact ⟨_, .optNone r⟩
  | rep r _ => exact ⟨_, .repNil r⟩

theorem word_first {r : Rule} {l : List Sym} (h : Whole sparqlRules r l) : ∀ {s l'}, l = s :: l' → s.kind ∈ r.first := by
  induction h with
  | tok k => rintro s l' ⟨⟩; exact List.mem_singleton.2 rfl
  | node k => rintro s l' ⟨⟩; exact List.mem_singleton.2 rfl
  | empty k h => intro s l' h; cases h
  | @seq a b u v ha hb iha ihb =>
    intro s l' h
    cases u with
    | nil =>
      simp only [Rule.first]
      rw [if_pos (null_word ha)]
      exact List.mem_append_right _ (ihb h)
    | cons x u =>
      injection h with h _
      subst h
      exact List.mem_append_left _ (iha rfl)
  | altL _ ih => intro s l' h; exact List.mem_append_left _ (ih h)
  | altR _ ih => intro s l' h; exact List.mem_append_right _ (ih h)
  | optNone => intro s l' h; cases h
  | optSome _ ih => intro s l' h; exact ih h
  | repNil => intro s l' h; cases h
  | @repCons r u v _ _ iha ihb =>
    intro s l' h
    cases u with
    | nil => exact ihb h
    | cons x u =>
      injection h with h _
      subst h
      exact iha rfl

theorem first_word {r : Rule} : properR r = true → ∀ {k : Kind}, k ∈ r.first → ∃ s l, s.kind = k ∧ s.Proper ∧ Whole sparqlRules r (s :: l) := by
  induction r with
  | tok k => intro hp k' h; rw [List.mem_singleton.1 h]; exact ⟨.tok k, [], rfl, (show k < 184 by simpa [properR] using hp), .tok k⟩
  | node k => intro hp k' h; rw [List.mem_singleton.1 h]; exact ⟨.node k, [], rfl, (show 184 ≤ k by simpa [properR] using hp), .node k⟩
  | seq a b iha ihb =>
    intro hp k h
    simp only [properR, Bool.and_eq_true] at hp
    rcases List.mem_append.1 h with h | h
    · obtain ⟨s, l, h1, h2, h3⟩ := iha hp.1 h
      obtain ⟨v, hv⟩ := some_word b
      exact ⟨s, l ++ v, h1, h2, .seq h3 hv⟩
    · split at h
      · rename_i hn
        obtain ⟨s, l, h1, h2, h3⟩ := ihb hp.2 h
        exact ⟨s, l, h1, h2, .seq (word_null hn) h3⟩
      · cases h
  | alt a b iha ihb =>
    intro hp k h
    simp only [properR, Bool.and_eq_true] at hp
    rcases List.mem_append.1 h with h | h
    · obtain ⟨s, l, h1, h2, h3⟩ := iha hp.1 h; exact ⟨s, l, h1, h2, .altL h3⟩
    · obtain ⟨s, l, h1, h2, h3⟩ := ihb hp.2 h; exact ⟨s, l, h1, h2, .altR h3⟩
  | opt r ih => intro hp k h; obtain ⟨s, l, h1, h2, h3⟩ := ih hp h; exact ⟨s, l, h1, h2, .optSome h3⟩
  | rep r ih =>
    intro hp k h
    obtain ⟨s, l, h1, h2, h3⟩ := ih hp h
    have := Whole.repCons h3 (.repNil r)
    rw [List.append_nil] at this
    exact ⟨s, l, h1, h2, this⟩

/-! ## Stacks of rules -/

/-- The words of a stack of rules, the top first. -/
def Lang : List Rule → List Sym → Prop
  | [], l => l = []
  | r :: S, l => ∃ u v, l = u ++ v ∧ Whole sparqlRules r u ∧ Lang S v

def firstS : List Rule → List Kind
  | [] => []
  | r :: S => r.first ++ if r.nullable then firstS S else []

def okS : List Rule → Bool
  | [] => true
  | r :: S => okR r (firstS S) && properR r && okS S

theorem lang_null {S : List Rule} : Lang S [] ↔ ∀ r ∈ S, r.nullable = true := by
  induction S with
  | nil => simp [Lang]
  | cons r S ih =>
    constructor
    · rintro ⟨u, v, h, hu, hv⟩
      obtain ⟨rfl, rfl⟩ := List.append_eq_nil_iff.1 h.symm
      intro x hx
      rcases List.mem_cons.1 hx with rfl | hx
      · exact null_word hu
      · exact ih.1 hv x hx
    · intro h
      exact ⟨[], [], rfl, word_null (h r (by simp)), ih.2 (fun x hx => h x (by simp [hx]))⟩

theorem lang_some (S : List Rule) : ∃ l, Lang S l := by
  induction S with
  | nil => exact ⟨[], rfl⟩
  | cons r S ih =>
    obtain ⟨u, hu⟩ := some_word r
    obtain ⟨v, hv⟩ := ih
    exact ⟨u ++ v, u, v, rfl, hu, hv⟩

theorem lang_first {S : List Rule} : ∀ {s : Sym} {l : List Sym}, Lang S (s :: l) → s.kind ∈ firstS S := by
  induction S with
  | nil => intro s l h; cases h
  | cons r S ih =>
    rintro s l ⟨u, v, h, hu, hv⟩
    cases u with
    | nil =>
      unfold firstS
      rw [if_pos (null_word hu)]
      have h : s :: l = v := h
      subst h
      exact List.mem_append_right _ (ih hv)
    | cons x u =>
      injection h with h _
      subst h
      exact List.mem_append_left _ (word_first hu rfl)

theorem first_lang {S : List Rule} : okS S = true → ∀ {k : Kind}, k ∈ firstS S → ∃ s l, s.kind = k ∧ s.Proper ∧ Lang S (s :: l) := by
  induction S with
  | nil => intro _ k h; cases h
  | cons r S ih =>
    intro ho k h
    simp only [okS, Bool.and_eq_true] at ho
    rcases List.mem_append.1 h with h | h
    · obtain ⟨s, l, h1, h2, h3⟩ := first_word ho.1.2 h
      obtain ⟨v, hv⟩ := lang_some S
      exact ⟨s, l ++ v, h1, h2, s :: l, v, rfl, h3, hv⟩
    · split at h
      · rename_i hn
        obtain ⟨s, l, h1, h2, h3⟩ := ih ho.2 h
        exact ⟨s, l, h1, h2, [], s :: l, rfl, word_null hn, h3⟩
      · cases h

/-- What cannot begin the top rule begins behind it. -/
theorem lang_skip {r : Rule} {S : List Rule} {s : Sym} {l : List Sym} (hk : s.kind ∉ r.first) :
    Lang (r :: S) (s :: l) ↔ r.nullable = true ∧ Lang S (s :: l) := by
  constructor
  · rintro ⟨u, v, h, hu, hv⟩
    cases u with
    | nil =>
      have h : s :: l = v := h
      subst h
      exact ⟨null_word hu, hv⟩
    | cons x u =>
      injection h with h _
      subst h
      exact absurd (word_first hu rfl) hk
  · rintro ⟨hn, h⟩
    exact ⟨[], s :: l, rfl, word_null hn, h⟩

theorem lang_seq {a b : Rule} {S : List Rule} {l : List Sym} : Lang (.seq a b :: S) l ↔ Lang (a :: b :: S) l := by
  constructor
  · rintro ⟨u, v, rfl, h, hv⟩
    cases h with
    | @seq _ _ x y hx hy => exact ⟨x, y ++ v, by simp, hx, y, v, rfl, hy, hv⟩
  · rintro ⟨x, w, rfl, hx, y, v, rfl, hy, hv⟩
    exact ⟨x ++ y, v, by simp, .seq hx hy, hv⟩

theorem lang_alt {a b : Rule} {S : List Rule} {l : List Sym} : Lang (.alt a b :: S) l ↔ Lang (a :: S) l ∨ Lang (b :: S) l := by
  constructor
  · rintro ⟨u, v, rfl, h, hv⟩
    cases h with
    | altL h => exact Or.inl ⟨u, v, rfl, h, hv⟩
    | altR h => exact Or.inr ⟨u, v, rfl, h, hv⟩
  · rintro (⟨u, v, rfl, h, hv⟩ | ⟨u, v, rfl, h, hv⟩)
    · exact ⟨u, v, rfl, .altL h, hv⟩
    · exact ⟨u, v, rfl, .altR h, hv⟩

theorem lang_opt {r : Rule} {S : List Rule} {l : List Sym} : Lang (.opt r :: S) l ↔ Lang (r :: S) l ∨ Lang S l := by
  constructor
  · rintro ⟨u, v, rfl, h, hv⟩
    cases h with
    | optNone => exact Or.inr hv
    | optSome h => exact Or.inl ⟨u, v, rfl, h, hv⟩
  · rintro (⟨u, v, rfl, h, hv⟩ | h)
    · exact ⟨u, v, rfl, .optSome h, hv⟩
    · exact ⟨[], l, rfl, .optNone r, h⟩

theorem lang_rep {r : Rule} {S : List Rule} {l : List Sym} : Lang (.rep r :: S) l ↔ Lang (r :: .rep r :: S) l ∨ Lang S l := by
  constructor
  · rintro ⟨u, v, rfl, h, hv⟩
    cases h with
    | repNil => exact Or.inr hv
    | @repCons _ x y hx hy => exact Or.inl ⟨x, y ++ v, by simp, hx, y, v, rfl, hy, hv⟩
  · rintro (⟨x, w, rfl, hx, y, v, rfl, hy, hv⟩ | h)
    · exact ⟨x ++ y, v, by simp, .repCons hx hy, hv⟩
    · exact ⟨[], l, rfl, .repNil r, h⟩

/-! ## Walking a stack to the next symbol -/

/-- What the loop of `continuations_at` (crates/sparql-parser/src/utils.rs L53-109) does with the top rule for a child of kind `k`. -/
inductive Move
  | eat
  | stop
  | fail
  | to (S : List Rule)

/-- One round of the loop for a child of kind `k` (utils.rs L53-109): `Node` and `Token` (L54-62), `Seq` (L75-79), `Alt` (L80-93),
`Opt` (L94-100), `Rep` (L101-107). -/
def expand (k : Kind) (r : Rule) (S : List Rule) : Move :=
  match r with
  | .node k' => if k' = k then .eat else if (Rule.node k').nullable then .to S else .stop
  | .tok k' => if k' = k then .eat else if (Rule.tok k').nullable then .to S else .stop
  | .seq a b => .to (a :: b :: S)
  | .alt a b =>
    if k ∈ a.first then .to (a :: S)
    else if k ∈ b.first then .to (b :: S)
    else if a.nullable || b.nullable then .to S
    else .fail
  | .opt r => if k ∈ r.first then .to (r :: S) else .to S
  | .rep r => if k ∈ r.first then .to (r :: .rep r :: S) else .to S

/-- Rounds that do not consume the child. -/
inductive To (k : Kind) : List Rule → List Rule → Prop
  | refl (S) : To k S S
  | step {r S S' S''} (h : expand k r S = .to S') (t : To k S' S'') : To k (r :: S) S''

theorem To.trans {k : Kind} {A B C : List Rule} (h : To k A B) (h' : To k B C) : To k A C := by
  induction h with
  | refl => exact h'
  | step h t ih => exact .step h (ih h')

/-- A rule that cannot begin with the kind is dropped if it is nullable, and ends the walk otherwise. -/
theorem skip_to {k : Kind} {r : Rule} : k ∉ r.first → ∀ S,
    (r.nullable = true → To k (r :: S) S) ∧
    (r.nullable = false → ∃ m S', To k (r :: S) (m :: S') ∧ (expand k m S' = .stop ∨ expand k m S' = .fail)) := by
  induction r with
  | tok k' =>
    intro h S
    have hk : k' ≠ k := fun e => h (by rw [e]; exact List.mem_singleton.2 rfl)
    have hx : expand k (.tok k') S = .stop := by
      simp only [expand]; rw [if_neg hk, if_neg (by simp [Rule.nullable, nullRule])]
    exact ⟨fun hn => (by cases hn), fun _ => ⟨_, S, .refl _, Or.inl hx⟩⟩
  | node k' =>
    intro h S
    have hk : k' ≠ k := fun e => h (by rw [e]; exact List.mem_singleton.2 rfl)
    refine ⟨fun hn => .step (S' := S) ?_ (.refl _), fun hn => ⟨_, S, .refl _, Or.inl ?_⟩⟩
    · simp only [expand]; rw [if_neg hk, if_pos hn]
    · simp only [expand]; rw [if_neg hk, if_neg (by rw [hn]; simp)]
  | seq a b iha ihb =>
    intro h S
    have ha : k ∉ a.first := fun h' => h (List.mem_append_left _ h')
    constructor
    · intro hn
      simp only [Rule.nullable, nullRule, Bool.and_eq_true] at hn
      have hb : k ∉ b.first := fun h' => h (by
        simp only [Rule.first]
        rw [if_pos (show a.nullable = true from hn.1)]
        exact List.mem_append_right _ h')
      exact .step rfl ((((iha ha (b :: S)).1 hn.1)).trans ((ihb hb S).1 hn.2))
    · intro hn
      cases hna : a.nullable with
      | false =>
        obtain ⟨m, S', h1, h2⟩ := (iha ha (b :: S)).2 hna
        exact ⟨m, S', .step rfl h1, h2⟩
      | true =>
        have hnb : b.nullable = false := by
          cases hb : b.nullable with
          | false => rfl
          | true =>
            have : (Rule.seq a b).nullable = (a.nullable && b.nullable) := rfl
            rw [this, hna, hb] at hn; cases hn
        have hb : k ∉ b.first := fun h' => h (by
          simp only [Rule.first]
          rw [if_pos hna]
          exact List.mem_append_right _ h')
        obtain ⟨m, S', h1, h2⟩ := (ihb hb S).2 hnb
        exact ⟨m, S', .step rfl (((iha ha (b :: S)).1 hna).trans h1), h2⟩
  | alt a b _ _ =>
    intro h S
    have ha : k ∉ a.first := fun h' => h (List.mem_append_left _ h')
    have hb : k ∉ b.first := fun h' => h (List.mem_append_right _ h')
    have hx : expand k (.alt a b) S = if (Rule.alt a b).nullable then .to S else .fail := by
      simp only [expand]
      rw [if_neg ha, if_neg hb]
      rfl
    exact ⟨fun hn => .step (by rw [hx, if_pos hn]) (.refl _), fun hn => ⟨_, S, .refl _, Or.inr (by rw [hx, if_neg (by rw [hn]; simp)])⟩⟩
  | opt r _ =>
    intro h S
    have h : k ∉ r.first := h
    exact ⟨fun _ => .step (S' := S) (by simp only [expand]; rw [if_neg h]) (.refl _), fun hn => by cases hn⟩
  | rep r _ =>
    intro h S
    have h : k ∉ r.first := h
    exact ⟨fun _ => .step (S' := S) (by simp only [expand]; rw [if_neg h]) (.refl _), fun hn => by cases hn⟩

/-- A rule that can begin with the kind takes it. -/
theorem take_to {k : Kind} {r : Rule} : k ∈ r.first → ∀ S, ∃ m S', To k (r :: S) (m :: S') ∧ expand k m S' = .eat := by
  induction r with
  | tok k' =>
    intro h S
    exact ⟨_, S, .refl _, by simp only [expand]; rw [if_pos (List.mem_singleton.1 h).symm]⟩
  | node k' =>
    intro h S
    exact ⟨_, S, .refl _, by simp only [expand]; rw [if_pos (List.mem_singleton.1 h).symm]⟩
  | seq a b iha ihb =>
    intro h S
    by_cases ha : k ∈ a.first
    · obtain ⟨m, S', h1, h2⟩ := iha ha (b :: S)
      exact ⟨m, S', .step rfl h1, h2⟩
    · rcases List.mem_append.1 h with h | h
      · exact absurd h ha
      · split at h
        · rename_i hn
          obtain ⟨m, S', h1, h2⟩ := ihb h S
          exact ⟨m, S', .step rfl (((skip_to ha (b :: S)).1 hn).trans h1), h2⟩
        · cases h
  | alt a b iha ihb =>
    intro h S
    by_cases ha : k ∈ a.first
    · obtain ⟨m, S', h1, h2⟩ := iha ha S
      exact ⟨m, S', .step (S' := a :: S) (by simp only [expand]; rw [if_pos ha]) h1, h2⟩
    · rcases List.mem_append.1 h with h | h
      · exact absurd h ha
      · obtain ⟨m, S', h1, h2⟩ := ihb h S
        exact ⟨m, S', .step (S' := b :: S) (by simp only [expand]; rw [if_neg ha, if_pos h]) h1, h2⟩
  | opt r ih =>
    intro h S
    have h : k ∈ r.first := h
    obtain ⟨m, S', h1, h2⟩ := ih h S
    exact ⟨m, S', .step (S' := r :: S) (by simp only [expand]; rw [if_pos h]) h1, h2⟩
  | rep r ih =>
    intro h S
    have h : k ∈ r.first := h
    obtain ⟨m, S', h1, h2⟩ := ih h (.rep r :: S)
    exact ⟨m, S', .step (S' := r :: .rep r :: S) (by simp only [expand]; rw [if_pos h]) h1, h2⟩

/-- One round keeps the words that begin with the symbol. -/
theorem expand_lang {s : Sym} {r : Rule} {S S' : List Rule} (ho : okS (r :: S) = true) (h : expand s.kind r S = .to S') :
    okS S' = true ∧ ((∃ l, Lang (r :: S) (s :: l)) → ∀ l, Lang S' (s :: l) ↔ Lang (r :: S) (s :: l)) := by
  simp only [okS, Bool.and_eq_true] at ho
  obtain ⟨⟨hr, hp⟩, hS⟩ := ho
  have drop : s.kind ∉ r.first → S' = S → okS S' = true ∧ ((∃ l, Lang (r :: S) (s :: l)) → ∀ l, Lang S' (s :: l) ↔ Lang (r :: S) (s :: l)) := by
    rintro hk rfl
    refine ⟨hS, fun ⟨l0, h0⟩ l => ?_⟩
    rw [lang_skip hk]
    exact ⟨fun h => ⟨((lang_skip hk).1 h0).1, h⟩, fun h => h.2⟩
  have apart : ∀ {F : List Kind}, (F.all fun k => !(firstS S).contains k) = true → s.kind ∈ F → ∀ l, ¬Lang S (s :: l) := by
    intro F hF hk l hl
    have := List.all_eq_true.1 hF _ hk
    simp only [Bool.not_eq_true', List.contains_eq_mem, decide_eq_false_iff_not] at this
    exact this (lang_first hl)
  cases r with
  | tok k' =>
    simp only [expand] at h
    split at h
    · cases h
    · split at h
      · rename_i hn; cases hn
      · cases h
  | node k' =>
    simp only [expand] at h
    split at h
    · cases h
    · rename_i hk
      split at h
      · injection h with h
        exact drop (fun h => hk (List.mem_singleton.1 h).symm) h.symm
      · cases h
  | seq a b =>
    simp only [expand] at h
    injection h with h
    subst h
    simp only [okR, properR, Bool.and_eq_true] at hr hp
    refine ⟨?_, fun _ l => lang_seq.symm⟩
    simp only [okS, Bool.and_eq_true, firstS]
    exact ⟨⟨hr.2, hp.1⟩, ⟨hr.1, hp.2⟩, hS⟩
  | alt a b =>
    simp only [okR, properR, Bool.and_eq_true] at hr hp
    obtain ⟨⟨⟨ha, hb⟩, hab⟩, hn⟩ := hr
    simp only [expand] at h
    have hnS : s.kind ∈ (Rule.alt a b).first → (Rule.alt a b).nullable = true → ∀ l, ¬Lang S (s :: l) := by
      intro hk hnull
      refine apart (F := a.first ++ b.first) ?_ hk
      rw [Bool.or_eq_true] at hn
      rcases hn with hn | hn
      · have : (Rule.alt a b).nullable = (a.nullable || b.nullable) := rfl
        rw [← this, hnull] at hn; cases hn
      · exact hn
    split at h
    · rename_i hk
      injection h with h
      subst h
      refine ⟨by simp only [okS, Bool.and_eq_true]; exact ⟨⟨ha, hp.1⟩, hS⟩, fun _ l => ?_⟩
      rw [lang_alt]
      refine ⟨Or.inl, ?_⟩
      rintro (h | h)
      · exact h
      · have hkb : s.kind ∉ b.first := by
          have := List.all_eq_true.1 hab _ hk
          simpa using this
        obtain ⟨h1, h2⟩ := (lang_skip hkb).1 h
        exact absurd h2 (hnS (List.mem_append_left _ hk) (by
          have : (Rule.alt a b).nullable = (a.nullable || b.nullable) := rfl
          rw [this, h1]; simp) l)
    · rename_i hka
      split at h
      · rename_i hk
        injection h with h
        subst h
        refine ⟨by simp only [okS, Bool.and_eq_true]; exact ⟨⟨hb, hp.2⟩, hS⟩, fun _ l => ?_⟩
        rw [lang_alt]
        refine ⟨Or.inr, ?_⟩
        rintro (h | h)
        · obtain ⟨h1, h2⟩ := (lang_skip hka).1 h
          exact absurd h2 (hnS (List.mem_append_right _ hk) (by
            have : (Rule.alt a b).nullable = (a.nullable || b.nullable) := rfl
            rw [this, h1]; simp) l)
        · exact h
      · rename_i hkb
        split at h
        · injection h with h
          exact drop (fun h => (List.mem_append.1 h).elim hka hkb) h.symm
        · cases h
  | opt r =>
    simp only [okR, Bool.and_eq_true] at hr
    simp only [expand] at h
    split at h
    · rename_i hk
      injection h with h
      subst h
      refine ⟨by simp only [okS, Bool.and_eq_true]; exact ⟨⟨hr.1, hp⟩, hS⟩, fun _ l => ?_⟩
      rw [lang_opt]
      exact ⟨Or.inl, fun h => h.resolve_right (apart hr.2 hk l)⟩
    · rename_i hk
      injection h with h
      exact drop hk h.symm
  | rep r =>
    simp only [okR, Bool.and_eq_true] at hr
    simp only [expand] at h
    split at h
    · rename_i hk
      injection h with h
      subst h
      refine ⟨?_, fun _ l => ?_⟩
      · simp only [okS, Bool.and_eq_true, okR]
        refine ⟨⟨?_, hp⟩, ⟨hr, hp⟩, hS⟩
        have : firstS (.rep r :: S) = r.first ++ firstS S := rfl
        rw [this]; exact hr.1.1
      · rw [lang_rep]
        exact ⟨Or.inl, fun h => h.resolve_right (apart hr.1.2 hk l)⟩
    · rename_i hk
      injection h with h
      exact drop hk h.symm

theorem to_lang {s : Sym} {S S' : List Rule} (t : To s.kind S S') : okS S = true →
    okS S' = true ∧ ((∃ l, Lang S (s :: l)) → ∀ l, Lang S' (s :: l) ↔ Lang S (s :: l)) := by
  induction t with
  | refl S => intro h; exact ⟨h, fun _ _ => Iff.rfl⟩
  | step h t ih =>
    intro ho
    obtain ⟨h1, h2⟩ := expand_lang ho h
    obtain ⟨h3, h4⟩ := ih h1
    refine ⟨h3, fun he l => ?_⟩
    have h5 := h2 he
    obtain ⟨l0, h0⟩ := he
    rw [h4 ⟨l0, (h5 l0).2 h0⟩ l, h5 l]

theorem eat_lang {s : Sym} (hs : s.Proper) {m : Rule} {S : List Rule} (ho : okS (m :: S) = true) (h : expand s.kind m S = .eat) :
    okS S = true ∧ ∀ l, Lang S l ↔ Lang (m :: S) (s :: l) := by
  simp only [okS, Bool.and_eq_true] at ho
  obtain ⟨⟨hr, hp⟩, hS⟩ := ho
  refine ⟨hS, fun l => ?_⟩
  cases m with
  | tok k' =>
    simp only [expand] at h
    split at h
    · rename_i hk
      have hs' : s = .tok k' := by
        cases s with
        | tok k => exact congrArg Sym.tok hk.symm
        | node k =>
          simp only [properR, Nat.blt_eq] at hp
          have hk : k' = k := hk
          subst hk
          exact absurd hp (Nat.not_lt.2 hs)
      subst hs'
      constructor
      · intro h; exact ⟨[.tok k'], l, rfl, .tok k', h⟩
      · rintro ⟨u, v, h, hu, hv⟩
        cases hu
        injection h with _ h
        have h : l = v := h
        rw [h]; exact hv
    · split at h <;> cases h
  | node k' =>
    simp only [expand] at h
    split at h
    · rename_i hk
      have hs' : s = .node k' := by
        cases s with
        | node k => exact congrArg Sym.node hk.symm
        | tok k =>
          simp only [properR, Nat.ble_eq] at hp
          have hk : k' = k := hk
          subst hk
          exact absurd hp (Nat.not_le.2 hs)
      subst hs'
      constructor
      · intro h; exact ⟨[.node k'], l, rfl, .node k', h⟩
      · rintro ⟨u, v, h, hu, hv⟩
        cases hu with
        | node =>
          injection h with _ h
          have h : l = v := h
          rw [h]; exact hv
        | empty _ hd =>
          have h : Sym.node k' :: l = v := h
          subst h
          have hf := lang_first hv
          have hn := null_word (Whole.empty k' hd)
          simp only [okR, hn, Bool.not_true, Bool.false_or, Bool.not_eq_true', List.contains_eq_mem, decide_eq_false_iff_not] at hr
          exact absurd hf hr
    · split at h <;> cases h
  | seq a b => cases h
  | alt a b => simp only [expand] at h; split at h <;> (try split at h) <;> (try split at h) <;> cases h
  | opt r => simp only [expand] at h; split at h <;> cases h
  | rep r => simp only [expand] at h; split at h <;> cases h

/-- A symbol that begins some word of the stack is taken, and exactly the words behind it are left. -/
theorem lang_eat {s : Sym} (hs : s.Proper) : ∀ {S : List Rule}, okS S = true → (∃ l, Lang S (s :: l)) →
    ∃ m S', To s.kind S (m :: S') ∧ expand s.kind m S' = .eat ∧ okS S' = true ∧ ∀ l, Lang S' l ↔ Lang S (s :: l) := by
  intro S
  induction S with
  | nil => rintro _ ⟨l, h⟩; cases h
  | cons r S ih =>
    intro ho he
    by_cases hk : s.kind ∈ r.first
    · obtain ⟨m, S', t, h⟩ := take_to hk S
      obtain ⟨h1, h2⟩ := to_lang t ho
      obtain ⟨h3, h4⟩ := eat_lang hs h1 h
      exact ⟨m, S', t, h, h3, fun l => (h4 l).trans (h2 he l)⟩
    · obtain ⟨l0, h0⟩ := he
      obtain ⟨hn, hl⟩ := (lang_skip hk).1 h0
      have ho' : okS S = true := by
        simp only [okS, Bool.and_eq_true] at ho; exact ho.2
      obtain ⟨m, S', t, h1, h2, h3⟩ := ih ho' ⟨l0, hl⟩
      refine ⟨m, S', ((skip_to hk S).1 hn).trans t, h1, h2, fun l => ?_⟩
      rw [h3 l, lang_skip hk]
      exact ⟨fun h => ⟨hn, h⟩, fun h => h.2⟩

end Verif.Grammar
