import Verif.Features.Parsed
import Verif.Props.Renaming
import Verif.Props.Folding
/-!
# Where nodes can stand in the tree of a document

Consequences of `Parsed` used by the diagnostics: which parents a node kind can have, which children occur at most once,
and what prefixed names look like.
-/
namespace Verif.Features
open Verif Verif.Grammar Verif.Lexer Verif.Props

/-! ## Character classes -/

/-- No character class of the expression has the character. -/
def avoids (c : Char) : Regex → Bool
  | .none => true
  | .eps => true
  | .cls cl => !cl.has c
  | .seq a b => avoids c a && avoids c b
  | .alt a b => avoids c a && avoids c b
  | .star a => avoids c a

theorem avoids_sound {c : Char} {r : Regex} {w : Text} (h : Matches r w) (ha : avoids c r = true) : c ∉ w := by
  induction h with
  | eps => simp
  | cls h =>
    simp only [avoids, Bool.not_eq_true'] at ha
    simp only [List.mem_singleton]
    rintro rfl
    rw [h] at ha; cases ha
  | seq _ _ i1 i2 =>
    simp only [avoids, Bool.and_eq_true] at ha
    simp only [List.mem_append, not_or]
    exact ⟨i1 ha.1, i2 ha.2⟩
  | altL _ i => simp only [avoids, Bool.and_eq_true] at ha; exact i ha.1
  | altR _ i => simp only [avoids, Bool.and_eq_true] at ha; exact i ha.2
  | starNil => simp
  | starCons _ _ i1 i2 =>
    simp only [List.mem_append, not_or]
    exact ⟨i1 ha, i2 ha⟩

/-- The first parts of the expression avoid `:`, then comes a class of just `:`; `true` if something may follow. -/
def colonSplit : Regex → Option Bool
  | .seq a b =>
    match colonSplit a with
    | some _ => some true
    | none => if avoids ':' a then colonSplit b else none
  | .cls cl => if cl == [(0x3A, 0x3A)] then some false else none
  | _ => none

theorem has_colon {c : Char} (h : Class.has [(0x3A, 0x3A)] c = true) : c = ':' := by
  simp only [Class.has, List.any_cons, List.any_nil, Bool.or_false, Bool.and_eq_true, Nat.ble_eq] at h
  have : c.toNat = 58 := by omega
  apply Char.ext
  apply UInt32.toNat_inj.1
  exact this

theorem colonSplit_sound {r : Regex} : ∀ {w : Text} {b : Bool}, colonSplit r = some b → Matches r w →
    ∃ p q, w = p ++ ':' :: q ∧ ':' ∉ p ∧ (b = false → q = []) := by
  induction r with
  | none => intro w b h; cases h
  | eps => intro w b h; cases h
  | alt _ _ _ _ => intro w b h; cases h
  | star _ _ => intro w b h; cases h
  | cls cl =>
    intro w b h hm
    simp only [colonSplit] at h
    split at h
    · next hc =>
      cases hm with
      | cls hh =>
        rw [beq_iff_eq] at hc
        rw [hc] at hh
        rw [has_colon hh]
        exact ⟨[], [], rfl, by simp, fun _ => rfl⟩
    · cases h
  | seq a b iha ihb =>
    intro w bb h hm
    cases hm with
    | @seq _ _ u v hu hv =>
      simp only [colonSplit] at h
      split at h
      · next x hx =>
        cases h
        obtain ⟨p, q, rfl, h1, -⟩ := iha hx hu
        exact ⟨p, q ++ v, by simp, h1, fun e => by cases e⟩
      · split at h
        · next hav =>
          obtain ⟨p, q, rfl, h1, h2⟩ := ihb h hv
          refine ⟨u ++ p, q, by simp, ?_, h2⟩
          simp only [List.mem_append, not_or]
          exact ⟨avoids_sound hu hav, h1⟩
        · cases h

theorem pname_rules : lexRules.all (fun r => (r.kind != K.PNAME_NS || colonSplit r.re == some false) &&
    (r.kind != K.PNAME_LN || colonSplit r.re == some true)) = true := by decide +kernel

/-! ## Descendants and ancestors -/

theorem anc_descendantsT {g : Green} {x : Red} (h : InTree g x) : ∀ r ∈ x.ancestors, x ∈ r.descendantsT := by
  induction h with
  | root =>
    intro r hr
    simp only [Red.ancestors, Red.root, Red.chain, List.mem_singleton] at hr
    subst hr
    exact descendantsT_self _
  | @child p c hp hc ih =>
    intro r hr
    rcases List.mem_cons.1 hr with rfl | hr
    · exact descendantsT_self _
    · rw [parent_chain (child_parent hc)] at hr
      exact descendantsT_trans (ih r hr) (mem_descendantsT_of_child hc (descendantsT_self _))

theorem mem_descendantsT_iff {g : Green} {r x : Red} (h : InTree g x) : x ∈ r.descendantsT ↔ r ∈ x.ancestors :=
  ⟨descendantsT_anc, anc_descendantsT h r⟩

/-! ## Symbols that occur at most once -/

/-- No repetition in the rule contains the symbol. -/
def onceRule (s : Sym) : Rule → Bool
  | .node _ => true
  | .tok _ => true
  | .seq a b => onceRule s a && onceRule s b
  | .alt a b => onceRule s a && onceRule s b
  | .opt r => onceRule s r
  | .rep r => !(symbols r).contains s

/-- Bound on the number of occurrences of the symbol. -/
def occRule (s : Sym) : Rule → Nat
  | .node k => if s = .node k then 1 else 0
  | .tok k => if s = .tok k then 1 else 0
  | .seq a b => occRule s a + occRule s b
  | .alt a b => max (occRule s a) (occRule s b)
  | .opt r => occRule s r
  | .rep _ => 0

theorem occ_sound {s : Sym} {r : Rule} {w : List Sym} (h : Word r w) (ho : onceRule s r = true) : w.count s ≤ occRule s r := by
  induction h with
  | tok k =>
    simp only [occRule, List.count_singleton]
    by_cases e : s = .tok k
    · simp [e]
    · have : Sym.tok k ≠ s := fun h => e h.symm
      simp [this]
  | node k =>
    simp only [occRule, List.count_singleton]
    by_cases e : s = .node k
    · simp [e]
    · have : Sym.node k ≠ s := fun h => e h.symm
      simp [this]
  | seq _ _ i1 i2 =>
    simp only [onceRule, Bool.and_eq_true] at ho
    simp only [List.count_append, occRule]
    exact Nat.add_le_add (i1 ho.1) (i2 ho.2)
  | altL _ i =>
    simp only [onceRule, Bool.and_eq_true] at ho
    exact Nat.le_trans (i ho.1) (Nat.le_max_left _ _)
  | altR _ i =>
    simp only [onceRule, Bool.and_eq_true] at ho
    exact Nat.le_trans (i ho.2) (Nat.le_max_right _ _)
  | optNone r => simp
  | optSome _ i => exact i ho
  | repNil r => simp
  | repCons h1 h2 _ _ =>
    have hw := word_symbols (Word.repCons h1 h2)
    rw [List.count_eq_zero_of_not_mem]
    · exact Nat.zero_le _
    · intro hm
      simp only [onceRule, Bool.not_eq_true'] at ho
      have := hw s hm
      simp only [symbols] at this
      rw [List.contains_iff_mem.2 this] at ho
      cases ho

theorem unique_of_count {α β : Type} [DecidableEq β] {f : α → Option β} {s : β} : ∀ {l : List α}, (l.filterMap f).count s ≤ 1 →
    ∀ {a b : α}, a ∈ l → b ∈ l → f a = some s → f b = some s → a = b := by
  intro l
  induction l with
  | nil => intro _ a b ha; cases ha
  | cons x l ih =>
    intro h a b ha hb fa fb
    have hcount : ∀ {y : α}, y ∈ l → f y = some s → 1 ≤ (l.filterMap f).count s := fun hy hs =>
      List.count_pos_iff.2 (List.mem_filterMap.2 ⟨_, hy, hs⟩)
    rw [List.filterMap_cons] at h
    rcases List.mem_cons.1 ha with rfl | ha' <;> rcases List.mem_cons.1 hb with rfl | hb'
    · rfl
    · exfalso
      rw [fa] at h
      have := hcount hb' fb
      simp only [List.count_cons_self] at h
      omega
    · exfalso
      rw [fb] at h
      have := hcount ha' fa
      simp only [List.count_cons_self] at h
      omega
    · refine ih ?_ ha' hb' fa fb
      split at h
      · exact h
      · rw [List.count_cons] at h; omega

/-! ## Facts about a parsed tree -/

namespace Parsed
variable {text : Text} {g : Green} (P : Parsed text g)
include P

omit P in
/-- The leaf of a token. -/
theorem token_leaf {t : Red} (h : InTree g t) (hn : t.isNode = false) : (t.kind, t.text) ∈ g.leaves := by
  obtain ⟨A, B, e, -⟩ := inTree_leaves h
  rw [e]
  have : t.green.leaves = [(t.kind, t.text)] := by
    have ht : t.green = t.here.green := rfl
    unfold Red.isNode at hn
    cases hg : t.here.green with
    | tok k x =>
      have h1 : t.kind = k := by show t.here.green.kind = k; rw [hg]; rfl
      have h2 : t.text = x := by show t.here.green.text = x; rw [hg]; exact Green.text_tok k x
      rw [ht, hg, h1, h2]; rfl
    | node k x => rw [hg] at hn; cases hn
  rw [this]
  simp

/-- A node other than the root and error nodes has a parent whose rule mentions it. -/
theorem parent_rule {c : Red} (h : InTree g c) (hn : c.isNode = true) (hE : c.kind ≠ K.Error) (hr : c ≠ Red.root g) :
    ∃ r R, InTree g r ∧ r.isNode = true ∧ c ∈ r.childrenT ∧ sparqlRules r.kind = some R ∧ Sym.node c.kind ∈ symbols R := by
  cases h with
  | root => exact absurd rfl hr
  | @child r _ hp hc =>
    have hs := P.child_sym hp hc
    have hsym : c.green.sym = some (.node c.kind) := by
      unfold Red.isNode at hn
      show c.here.green.sym = some (.node c.here.green.kind)
      have hk : c.here.green.kind ≠ K.Error := hE
      cases hg : c.here.green with
      | tok k x => rw [hg] at hn; cases hn
      | node k x =>
        rw [hg] at hk
        have hk : k ≠ K.Error := hk
        simp [Green.sym, hk, Green.kind]
    split at hs
    · rw [hs] at hn; cases hn
    · rcases hs with hs | ⟨R, s, h1, h2, h3⟩
      · rw [hsym] at hs; cases hs
      · rw [hsym] at h2; cases h2
        exact ⟨r, R, hp, child_isNode hc, hc, h1, h3⟩

theorem parent_kind {c : Red} (h : InTree g c) (hn : c.isNode = true) (hE : c.kind ≠ K.Error) (hr : c ≠ Red.root g)
    (ks : List Kind) (hks : sparqlRulesTree.toList.all (fun p => !(symbols p.2).contains (.node c.kind) || ks.contains p.1) = true) :
    ∃ r, InTree g r ∧ r.isNode = true ∧ c ∈ r.childrenT ∧ r.kind ∈ ks := by
  obtain ⟨r, R, h1, h2, h3, h4, h5⟩ := P.parent_rule h hn hE hr
  refine ⟨r, h1, h2, h3, ?_⟩
  have := List.all_eq_true.1 hks _ (KTree.find_mem _ _ _ h4)
  simp only [Bool.or_eq_true, Bool.not_eq_true', List.contains_eq_mem, decide_eq_true_eq, decide_eq_false_iff_not] at this
  rcases this with h | h
  · exact absurd h5 h
  · exact h

/-- Children whose symbol occurs at most once in the rule are unique. -/
theorem child_unique {r a b : Red} (h : InTree g r) (hE : r.kind ≠ K.Error) {R : Rule} (hR : sparqlRules r.kind = some R)
    {s : Sym} (ho : onceRule s R = true) (h1 : occRule s R ≤ 1) (ha : a ∈ r.childrenT) (hb : b ∈ r.childrenT)
    (hsa : a.green.sym = some s) (hsb : b.green.sym = some s) : a = b := by
  have hf := P.follows _ (h.green_mem (child_isNode ha))
  have hmap : r.childrenT.map Red.green = (match r.here.green with | .tok _ _ => [] | .node _ cs => cs) := by
    unfold Red.childrenT
    cases hg : r.here.green with
    | tok k t => rfl
    | node k cs =>
      have : ∀ (gs : List Green) (i o : Nat), (childSites i o gs).map Site.green = gs := by
        intro gs
        induction gs with
        | nil => intro i o; rfl
        | cons x xs ih => intro i o; simp [childSites, ih]
      simp only [List.map_map]
      exact this cs _ _
  cases hg : r.here.green with
  | tok k t =>
    have := child_isNode ha
    unfold Red.isNode at this
    rw [hg] at this; cases this
  | node k cs =>
    have hgg : r.green = r.here.green := rfl
    rw [hgg, hg] at hf
    have hk : r.kind = k := by show r.here.green.kind = k; rw [hg]; rfl
    rw [hk] at hE hR
    simp only [Follows, if_neg hE] at hf
    obtain ⟨R', hR', w, hw, hsub⟩ := hf
    rw [hR] at hR'; cases hR'
    rw [hg] at hmap
    refine unique_of_count (f := fun c : Red => c.green.sym) (s := s) (l := r.childrenT) ?_ ha hb hsa hsb
    have : r.childrenT.filterMap (fun c => c.green.sym) = cs.filterMap Green.sym := by
      have e : cs = r.childrenT.map Red.green := hmap.symm
      rw [e, List.filterMap_map]; rfl
    rw [this]
    exact Nat.le_trans (hsub.count_le s) (Nat.le_trans (occ_sound hw ho) h1)

end Parsed
end Verif.Features
