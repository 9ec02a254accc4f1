import Verif.Features.Visible
import Verif.Grammar.Loose
/-!
# Which variables a sub-select shares: specification

`Shows n x`: the variable with text `x` can be seen from outside the node `n`. A sub-select with a list shows the variables of the
list, one with `*` what its `WHERE` group shows; a group shows what its sub-select or its members show; triples and
`FILTER` show all their variables, `BIND` the bound one, `VALUES` those it assigns, the other patterns what their groups
show. (`FILTER` and `MINUS` deviate from SPARQL 1.1, section 18.2.1, where they show nothing.)
-/
namespace Verif.Features
open Verif Verif.Grammar

namespace Green

/-- All children. -/
def parts : Green → List Green
  | .tok _ _ => []
  | .node _ cs => cs

/-- The children that are nodes. -/
def kids (g : Green) : List Green := (parts g).filter (fun c => !c.isTok)

end Green

/-- A sub-select (or the query itself). -/
def isSelect (g : Green) : Prop := g.isTok = false ∧ (g.kind = K.SelectQuery ∨ g.kind = K.SubSelect)

/-- A variable node with this text. -/
def IsVar (g : Green) (n : Text) : Prop := g.isTok = false ∧ g.kind = K.Var ∧ g.text = n

/-- A variable node with this text is below the node or is the node. -/
def HasVar (g : Green) (n : Text) : Prop := ∃ v ∈ g.nodes, IsVar v n

/-- `c` is the first child node of its kind. -/
def FirstOf (k : Kind) (g c : Green) : Prop := (Green.kids g).find? (fun a => a.kind == k) = some c

/-- The clause ends with `*`. -/
def EndsInStar (c : Green) : Prop := ∃ d, (Green.parts c).getLast? = some d ∧ d.kind = K.Star

/-- The variable can be seen from outside the node. -/
inductive Shows : Green → Text → Prop
  | list {s c : Green} {n : Text} (hs : isSelect s) (hc : FirstOf K.SelectClause s c) (hstar : ¬ EndsInStar c)
      (h : Shows c n) : Shows s n
  | clause {c v : Green} {n : Text} (hc : c.kind = K.SelectClause) (hv : v ∈ Green.kids c) (hn : IsVar v n) : Shows c n
  | star {s c w : Green} {n : Text} (hs : isSelect s) (hc : FirstOf K.SelectClause s c) (hstar : EndsInStar c)
      (hw : FirstOf K.WhereClause s w) (h : Shows w n) : Shows s n
  | where_ {w p : Green} {n : Text} (hw : w.kind = K.WhereClause) (hp : (Green.kids w).head? = some p)
      (hk : p.kind = K.GroupGraphPattern) (h : Shows p n) : Shows w n
  | sub {p c : Green} {n : Text} (hp : p.kind = K.GroupGraphPattern) (hc : (Green.kids p).head? = some c)
      (hk : isSelect c) (h : Shows c n) : Shows p n
  | triples {p c b : Green} {n : Text} (hp : p.kind = K.GroupGraphPattern) (hc : (Green.kids p).head? = some c)
      (hk : ¬ isSelect c) (hb : b ∈ Green.kids c) (hbk : b.kind = K.TriplesBlock) (h : HasVar b n) : Shows p n
  | member {p c b : Green} {n : Text} (hp : p.kind = K.GroupGraphPattern) (hc : (Green.kids p).head? = some c)
      (hk : ¬ isSelect c) (hb : b ∈ Green.kids c) (hbk : b.kind = K.GraphPatternNotTriples) (h : Shows b n) : Shows p n
  | pattern {b x : Green} {n : Text} (hb : b.kind = K.GraphPatternNotTriples) (hx : (Green.kids b).head? = some x)
      (hk : x.kind ∈ [K.GroupOrUnionGraphPattern, K.OptionalGraphPattern, K.MinusGraphPattern, K.GraphGraphPattern,
        K.ServiceGraphPattern, K.Filter, K.Bind, K.InlineData]) (h : Shows x n) : Shows b n
  | block {x p : Green} {n : Text} (hx : x.kind ∈ [K.OptionalGraphPattern, K.MinusGraphPattern, K.GraphGraphPattern,
        K.ServiceGraphPattern]) (hp : (Green.kids x).getLast? = some p) (hk : p.kind = K.GroupGraphPattern)
      (h : Shows p n) : Shows x n
  | union {x p : Green} {n : Text} (hx : x.kind = K.GroupOrUnionGraphPattern) (hp : p ∈ Green.kids x)
      (hk : p.kind = K.GroupGraphPattern) (h : Shows p n) : Shows x n
  | filter {x : Green} {n : Text} (hx : x.kind = K.Filter) (h : HasVar x n) : Shows x n
  | bind {x v : Green} {n : Text} (hx : x.kind = K.Bind) (hv : (Green.kids x).getLast? = some v) (h : IsVar v n) : Shows x n
  | values {x b d : Green} {n : Text} (hx : x.kind = K.InlineData) (hb : (Green.kids x).getLast? = some b)
      (hd : (Green.kids b).head? = some d) (hk : d.kind = K.InlineDataOneVar ∨ d.kind = K.InlineDataFull)
      (h : Shows d n) : Shows x n
  | one {d v : Green} {n : Text} (hd : d.kind = K.InlineDataOneVar) (hv : (Green.kids d).head? = some v) (h : IsVar v n) : Shows d n
  | full {d v : Green} {pre post : List Green} {n : Text} (hd : d.kind = K.InlineDataFull) (hs : Green.parts d = pre ++ v :: post)
      (hpre : ∀ c ∈ pre, c.kind ≠ K.RParen) (h : IsVar v n) : Shows d n

/-! ## The model computes it -/

theorem attrs_map (cs : List Green) : attrs cs = cs.map attr := by
  induction cs with
  | nil => rfl
  | cons g gs ih => simp [attrs, ih]

theorem attr_kind (g : Green) : (attr g).kind = g.kind := by cases g <;> rfl
theorem attr_node (g : Green) : (attr g).node = !g.isTok := by cases g <;> rfl
theorem attr_name (g : Green) : (attr g).name = g.text := by
  cases g with
  | tok k t => simp only [attr]; rw [show (Green.tok k t).text = t by simp [Green.text, Green.leaves]]
  | node k cs => rfl

theorem kids_attr (cs : List Green) : (attrs cs).filter (·.node) = (cs.filter (fun c => !c.isTok)).map attr := by
  rw [attrs_map, List.filter_map]
  congr 1
  apply List.filter_congr
  intro x _
  exact attr_node x

theorem attr_vars (g : Green) (n : Text) : n ∈ (attr g).vars ↔ HasVar g n := by
  induction g using Green.rec (motive_2 := fun cs => ∀ c ∈ cs, (n ∈ (attr c).vars ↔ HasVar c n)) with
  | tok k t => simp [attr, HasVar, Green.nodes]
  | node k cs ih =>
    have hv : (attr (.node k cs)).vars = (if k = K.Var then [(Green.node k cs).text] else []) ++
        ((cs.filter (fun c => !c.isTok)).map attr).flatMap (·.vars) := by
      rw [← kids_attr]; rfl
    rw [hv, List.mem_append]
    have h1 : n ∈ (if k = K.Var then [(Green.node k cs).text] else []) ↔ IsVar (.node k cs) n := by
      split
      · next h => subst h; simp only [IsVar, Green.isTok, Green.kind, List.mem_singleton, true_and]; exact eq_comm
      · next h => simp [IsVar, Green.isTok, Green.kind, h]
    rw [h1]
    have h2 : ∀ ds : List Green, (∀ c ∈ ds, (n ∈ (attr c).vars ↔ HasVar c n)) →
        (n ∈ ((ds.filter (fun c => !c.isTok)).map attr).flatMap (·.vars) ↔ ∃ v ∈ Green.nodesL ds, IsVar v n) := by
      intro ds
      induction ds with
      | nil => intro _; simp [Green.nodesL]
      | cons d ds ihd =>
        intro hd
        have hd' := ihd (fun c hc => hd c (List.mem_cons_of_mem _ hc))
        have hdd := hd d (List.mem_cons_self ..)
        simp only [Green.nodesL, List.mem_append, or_and_right, exists_or]
        rw [← hd', ← (show HasVar d n ↔ ∃ v ∈ d.nodes, IsVar v n from Iff.rfl), ← hdd]
        cases d with
        | tok k t => simp [Green.isTok, attr]
        | node k t => simp [Green.isTok]
    rw [h2 cs ih]
    simp [HasVar, Green.nodes]
  | nil => rename_i c h; cases h
  | cons g gs ihg ihs =>
    rename_i c h
    rcases List.mem_cons.1 h with rfl | h
    · exact ihg
    · exact ihs c h

theorem attr_lastT (g : Green) : (attr g).lastT = some K.Star ↔ EndsInStar g := by
  cases g with
  | tok k t => simp [attr, EndsInStar, Green.parts]
  | node k cs =>
    have : (attr (.node k cs)).lastT = (attrs cs).getLast?.map (·.kind) := rfl
    rw [this, attrs_map, List.getLast?_map]
    cases h : cs.getLast? with
    | none => simp [EndsInStar, Green.parts, h]
    | some d => simp [EndsInStar, Green.parts, h, attr_kind]

theorem find_attr (k : Kind) (l : List Green) : (l.map attr).find? (fun a => a.kind == k) = (l.find? (fun a => a.kind == k)).map attr := by
  rw [List.find?_map]
  congr 1
  congr 1
  funext x
  simp [attr_kind]

theorem visibleIf_attr {ks : List Kind} {o : Option Green} {n : Text} :
    n ∈ visibleIf ks (o.map attr) ↔ ∃ c, o = some c ∧ c.kind ∈ ks ∧ n ∈ (attr c).visible := by
  cases o with
  | none => simp [visibleIf]
  | some c =>
    simp only [Option.map_some, visibleIf, attr_kind]
    split
    · next h => simp [h]
    · next h => simp [h]

theorem nameIfVar_attr {o : Option Green} {n : Text} (hn : ∀ c, o = some c → c.isTok = false) :
    n ∈ nameIfVar (o.map attr) ↔ ∃ c, o = some c ∧ IsVar c n := by
  cases o with
  | none => simp [nameIfVar]
  | some c =>
    have := hn c rfl
    simp only [Option.map_some, nameIfVar, attr_kind, attr_name]
    split
    · next h =>
      simp only [IsVar, List.mem_singleton, Option.some.injEq, exists_eq_left', h, this, true_and]; exact eq_comm
    · next h => simp [IsVar, h]

theorem kids_isTok {g c : Green} (h : c ∈ Green.kids g) : c.isTok = false := by
  have := (List.mem_filter.1 h).2
  simpa using this

theorem takeWhile_filter_mem {α : Type} {p q : α → Bool} {l : List α} {x : α} :
    x ∈ (l.takeWhile p).filter q ↔ (∃ pre post, l = pre ++ x :: post ∧ (∀ c ∈ pre, p c = true) ∧ p x = true) ∧ q x = true := by
  rw [List.mem_filter, and_congr_left_iff]
  intro _
  induction l with
  | nil => simp
  | cons a l ih =>
    rw [List.takeWhile_cons]
    split
    · next h =>
      simp only [List.mem_cons]
      rw [ih]
      constructor
      · rintro (rfl | ⟨pre, post, rfl, h1, h2⟩)
        · exact ⟨[], l, rfl, by simp, h⟩
        · exact ⟨a :: pre, post, rfl, by simpa [h] using h1, h2⟩
      · rintro ⟨pre, post, e, h1, h2⟩
        cases pre with
        | nil => cases e; exact Or.inl rfl
        | cons b pre =>
          cases e
          exact Or.inr ⟨pre, post, rfl, fun c hc => h1 c (List.mem_cons_of_mem _ hc), h2⟩
    · next h =>
      simp only [List.not_mem_nil, false_iff]
      rintro ⟨pre, post, e, h1, h2⟩
      cases pre with
      | nil => cases e; exact h h2
      | cons b pre => cases e; exact h (h1 _ (List.mem_cons_self ..))

theorem nodes_self {g : Green} (h : g.isTok = false) : g ∈ g.nodes := by
  cases g with
  | tok k t => cases h
  | node k cs => simp [Green.nodes]

theorem nodes_parts {g c x : Green} (hc : c ∈ Green.parts g) (h : x ∈ c.nodes) : x ∈ g.inner := by
  cases g with
  | tok k t => cases hc
  | node k cs =>
    simp only [Green.inner]
    replace hc : c ∈ cs := hc
    induction cs with
    | nil => cases hc
    | cons d ds ih =>
      rcases List.mem_cons.1 hc with rfl | hc
      · simp [Green.nodesL, h]
      · simp [Green.nodesL, ih hc]

theorem kids_parts {g c : Green} (h : c ∈ Green.kids g) : c ∈ Green.parts g := (List.mem_filter.1 h).1

theorem inner_nodes {g x : Green} (h : x ∈ g.inner) : x ∈ g.nodes := by
  cases g with
  | tok k t => cases h
  | node k cs => simp only [Green.inner] at h; simp [Green.nodes, h]

theorem kids_inner {g c : Green} (h : c ∈ Green.kids g) : c ∈ g.inner :=
  nodes_parts (kids_parts h) (nodes_self (kids_isTok h))

theorem kids_inner2 {g c d : Green} (h : c ∈ Green.kids g) (h' : d ∈ Green.kids c) : d ∈ g.inner :=
  nodes_parts (kids_parts h) (inner_nodes (kids_inner h'))

/-- What a group collects below its first child. -/
theorem attr_inner (c : Green) (n : Text) : n ∈ (attr c).inner ↔
    (∃ b ∈ Green.kids c, b.kind = K.TriplesBlock ∧ HasVar b n) ∨
    (∃ b ∈ Green.kids c, b.kind = K.GraphPatternNotTriples ∧ n ∈ (attr b).visible) := by
  cases c with
  | tok k t => simp [attr, Green.kids, Green.parts]
  | node k cs =>
    have e : (attr (.node k cs)).inner = ((Green.kids (.node k cs)).map attr).flatMap (fun a =>
        if a.kind = K.TriplesBlock then a.vars else if a.kind = K.GraphPatternNotTriples then a.visible else []) := by
      unfold Green.kids Green.parts; rw [← kids_attr]; rfl
    rw [e]
    simp only [List.mem_flatMap, List.mem_map]
    constructor
    · rintro ⟨_, ⟨b, hb, rfl⟩, h⟩
      rw [attr_kind] at h
      split at h
      · next hk => exact Or.inl ⟨b, hb, hk, (attr_vars b n).1 h⟩
      · split at h
        · next hk => exact Or.inr ⟨b, hb, hk, h⟩
        · cases h
    · rintro (⟨b, hb, hk, h⟩ | ⟨b, hb, hk, h⟩)
      · exact ⟨_, ⟨b, hb, rfl⟩, by rw [attr_kind, if_pos hk]; exact (attr_vars b n).2 h⟩
      · refine ⟨_, ⟨b, hb, rfl⟩, ?_⟩
        rw [attr_kind, if_neg (by rw [hk]; decide), if_pos hk]; exact h

theorem attr_data (b : Green) (n : Text) : n ∈ (attr b).data ↔
    ∃ d, (Green.kids b).head? = some d ∧ (d.kind = K.InlineDataOneVar ∨ d.kind = K.InlineDataFull) ∧ n ∈ (attr d).visible := by
  cases b with
  | tok k t => simp [attr, Green.kids, Green.parts]
  | node k cs =>
    have e : (attr (.node k cs)).data = visibleIf [K.InlineDataOneVar, K.InlineDataFull] ((Green.kids (.node k cs)).head?.map attr) := by
      rw [← List.head?_map]; unfold Green.kids Green.parts; rw [← kids_attr]; rfl
    rw [e, visibleIf_attr]
    simp

theorem head_mem {α : Type} {l : List α} {a : α} (h : l.head? = some a) : a ∈ l := by
  cases l with
  | nil => cases h
  | cons b l => cases h; exact List.mem_cons_self ..

theorem attr_visible (g : Green) (hg : g.isTok = false) : (attr g).visible =
    visibleOf g.kind ((Green.parts g).map attr) ((Green.kids g).map attr) (attr g).vars := by
  cases g with
  | tok k t => cases hg
  | node k cs =>
    unfold Green.kids Green.parts
    rw [← kids_attr, ← attrs_map]; rfl

theorem visible_step (g : Green) (hg : g.isTok = false) (ih : ∀ x ∈ g.inner, ∀ n, n ∈ (attr x).visible ↔ Shows x n) (n : Text) :
    n ∈ (attr g).visible ↔ Shows g n := by
  rw [attr_visible g hg]
  have hkid : ∀ x ∈ Green.kids g, ∀ n, n ∈ (attr x).visible ↔ Shows x n := fun x hx => ih x (kids_inner hx)
  have hlast : ∀ c, (Green.kids g).getLast? = some c → c ∈ Green.kids g := fun c hc => List.mem_of_getLast? hc
  constructor
  · intro h
    unfold visibleOf at h
    by_cases hk : g.kind = K.SelectQuery ∨ g.kind = K.SubSelect
    · rw [if_pos hk] at h
      rw [find_attr] at h
      cases hf : (Green.kids g).find? (fun a => a.kind == K.SelectClause) with
      | none => rw [hf] at h; cases h
      | some c =>
        rw [hf] at h
        simp only [Option.map_some] at h
        split at h
        · next hs =>
          rw [find_attr, visibleIf_attr] at h
          obtain ⟨w, hw, -, hv⟩ := h
          exact .star ⟨hg, hk⟩ hf ((attr_lastT c).1 hs) hw ((hkid w (List.mem_of_find?_eq_some hw) n).1 hv)
        · next hs =>
          exact .list ⟨hg, hk⟩ hf (fun e => hs ((attr_lastT c).2 e)) ((hkid c (List.mem_of_find?_eq_some hf) n).1 h)
    rw [if_neg hk] at h
    clear hk
    by_cases hk : g.kind = K.SelectClause
    · rw [if_pos hk] at h
      obtain ⟨a, ha, h3⟩ := List.mem_map.1 h
      obtain ⟨ha, h2⟩ := List.mem_filter.1 ha
      obtain ⟨v, hv, rfl⟩ := List.mem_map.1 ha
      rw [beq_iff_eq, attr_kind] at h2
      rw [attr_name] at h3
      exact .clause hk hv ⟨kids_isTok hv, h2, h3⟩
    rw [if_neg hk] at h
    clear hk
    by_cases hk : g.kind = K.WhereClause
    · rw [if_pos hk] at h
      rw [List.head?_map, visibleIf_attr] at h
      obtain ⟨p, hp, h2, h3⟩ := h
      exact .where_ hk hp (List.mem_singleton.1 h2) ((hkid p (head_mem hp) n).1 h3)
    rw [if_neg hk] at h
    clear hk
    by_cases hk : g.kind = K.GroupGraphPattern
    · rw [if_pos hk] at h
      rw [List.head?_map] at h
      cases hc : (Green.kids g).head? with
      | none => rw [hc] at h; cases h
      | some c =>
        rw [hc] at h
        simp only [Option.map_some, attr_kind] at h
        have hct := kids_isTok (head_mem hc)
        split at h
        · next hs => exact .sub hk hc ⟨hct, hs⟩ ((hkid c (head_mem hc) n).1 h)
        · next hs =>
          have hs' : ¬ isSelect c := fun e => hs e.2
          rcases (attr_inner c n).1 h with ⟨b, hb, h2, h3⟩ | ⟨b, hb, h2, h3⟩
          · exact .triples hk hc hs' hb h2 h3
          · exact .member hk hc hs' hb h2 ((ih b (kids_inner2 (head_mem hc) hb) n).1 h3)
    rw [if_neg hk] at h
    clear hk
    by_cases hk : g.kind = K.OptionalGraphPattern ∨ g.kind = K.MinusGraphPattern ∨ g.kind = K.GraphGraphPattern ∨ g.kind = K.ServiceGraphPattern
    · rw [if_pos hk] at h
      rw [List.getLast?_map, visibleIf_attr] at h
      obtain ⟨p, hp, h2, h3⟩ := h
      exact .block (by simpa using hk) hp (List.mem_singleton.1 h2) ((hkid p (hlast p hp) n).1 h3)
    rw [if_neg hk] at h
    clear hk
    by_cases hk : g.kind = K.GroupOrUnionGraphPattern
    · rw [if_pos hk] at h
      obtain ⟨a, ha, h3⟩ := List.mem_flatMap.1 h
      obtain ⟨ha, h2⟩ := List.mem_filter.1 ha
      obtain ⟨p, hp, rfl⟩ := List.mem_map.1 ha
      rw [beq_iff_eq, attr_kind] at h2
      exact .union hk hp h2 ((hkid p hp n).1 h3)
    rw [if_neg hk] at h
    clear hk
    by_cases hk : g.kind = K.GraphPatternNotTriples
    · rw [if_pos hk] at h
      rw [List.head?_map, visibleIf_attr] at h
      obtain ⟨p, hp, h2, h3⟩ := h
      exact .pattern hk hp h2 ((hkid p (head_mem hp) n).1 h3)
    rw [if_neg hk] at h
    clear hk
    by_cases hk : g.kind = K.Filter
    · rw [if_pos hk] at h
      exact .filter hk ((attr_vars g n).1 h)
    rw [if_neg hk] at h
    clear hk
    by_cases hk : g.kind = K.Bind
    · rw [if_pos hk] at h
      rw [List.getLast?_map, nameIfVar_attr (fun c hc => kids_isTok (hlast c hc))] at h
      obtain ⟨v, hv, h2⟩ := h
      exact .bind hk hv h2
    rw [if_neg hk] at h
    clear hk
    by_cases hk : g.kind = K.InlineData
    · rw [if_pos hk] at h
      rw [List.getLast?_map] at h
      cases hc : (Green.kids g).getLast? with
      | none => rw [hc] at h; cases h
      | some b =>
        rw [hc] at h
        simp only [Option.map_some] at h
        obtain ⟨d, hd, h2, h3⟩ := (attr_data b n).1 h
        exact .values hk hc hd h2 ((ih d (kids_inner2 (hlast b hc) (head_mem hd)) n).1 h3)
    rw [if_neg hk] at h
    clear hk
    by_cases hk : g.kind = K.InlineDataOneVar
    · rw [if_pos hk] at h
      rw [List.head?_map, nameIfVar_attr (fun c hc => kids_isTok (head_mem hc))] at h
      obtain ⟨v, hv, h2⟩ := h
      exact .one hk hv h2
    rw [if_neg hk] at h
    clear hk
    by_cases hk : g.kind = K.InlineDataFull
    · rw [if_pos hk] at h
      obtain ⟨a, ha, h3⟩ := List.mem_map.1 h
      obtain ⟨⟨pre, post, h4, h5, -⟩, h7⟩ := takeWhile_filter_mem.1 ha
      obtain ⟨pre', rest, h8, rfl, h10⟩ := List.map_eq_append_iff.1 h4
      obtain ⟨v, post', rfl, rfl, rfl⟩ := List.map_eq_cons_iff.1 h10
      rw [Bool.and_eq_true, beq_iff_eq, attr_kind, attr_node] at h7
      rw [attr_name] at h3
      refine .full hk h8 ?_ ⟨by simpa using h7.1, h7.2, h3⟩
      intro c hc
      have := h5 (attr c) (List.mem_map.2 ⟨c, hc, rfl⟩)
      rw [attr_kind] at this
      simpa using this
    rw [if_neg hk] at h
    cases h
  · intro h
    cases h with
    | @list _ c _ hs hc hstar h =>
      have e : visibleOf g.kind ((Green.parts g).map attr) ((Green.kids g).map attr) (attr g).vars =
          (attr c).visible := by
        unfold visibleOf
        rw [if_pos hs.2, find_attr, hc]
        simp only [Option.map_some]
        rw [if_neg (fun e => hstar ((attr_lastT _).1 e))]
      rw [e]
      exact (hkid _ (List.mem_of_find?_eq_some hc) n).2 h
    | clause hc hv hn =>
      unfold visibleOf
      rw [hc, if_neg (by decide), if_pos rfl]
      refine List.mem_map.2 ⟨attr _, List.mem_filter.2 ⟨List.mem_map.2 ⟨_, hv, rfl⟩, ?_⟩, ?_⟩
      · rw [attr_kind, hn.2.1]; rfl
      · rw [attr_name]; exact hn.2.2
    | star hs hc hstar hw h =>
      unfold visibleOf
      rw [if_pos hs.2, find_attr, hc]
      simp only [Option.map_some]
      rw [if_pos ((attr_lastT _).2 hstar), find_attr, visibleIf_attr]
      refine ⟨_, hw, ?_, (hkid _ (List.mem_of_find?_eq_some hw) n).2 h⟩
      have := List.find?_some hw
      simpa using this
    | where_ hw hp hk h =>
      unfold visibleOf
      rw [hw, if_neg (by decide), if_neg (by decide), if_pos rfl, List.head?_map, visibleIf_attr]
      exact ⟨_, hp, by simp [hk], (hkid _ (head_mem hp) n).2 h⟩
    | sub hp hc hk h =>
      unfold visibleOf
      rw [hp, if_neg (by decide), if_neg (by decide), if_neg (by decide), if_pos rfl, List.head?_map, hc]
      simp only [Option.map_some, attr_kind]
      rw [if_pos hk.2]
      exact (hkid _ (head_mem hc) n).2 h
    | triples hp hc hk hb hbk h =>
      unfold visibleOf
      rw [hp, if_neg (by decide), if_neg (by decide), if_neg (by decide), if_pos rfl, List.head?_map, hc]
      simp only [Option.map_some, attr_kind]
      rw [if_neg (fun e => hk ⟨kids_isTok (head_mem hc), e⟩)]
      exact (attr_inner _ n).2 (Or.inl ⟨_, hb, hbk, h⟩)
    | member hp hc hk hb hbk h =>
      unfold visibleOf
      rw [hp, if_neg (by decide), if_neg (by decide), if_neg (by decide), if_pos rfl, List.head?_map, hc]
      simp only [Option.map_some, attr_kind]
      rw [if_neg (fun e => hk ⟨kids_isTok (head_mem hc), e⟩)]
      exact (attr_inner _ n).2 (Or.inr ⟨_, hb, hbk, (ih _ (kids_inner2 (head_mem hc) hb) n).2 h⟩)
    | pattern hb hx hk h =>
      unfold visibleOf
      rw [hb, if_neg (by decide), if_neg (by decide), if_neg (by decide), if_neg (by decide), if_neg (by decide),
        if_neg (by decide), if_pos rfl, List.head?_map, visibleIf_attr]
      exact ⟨_, hx, hk, (hkid _ (head_mem hx) n).2 h⟩
    | block hx hp hk h =>
      have e : visibleOf g.kind ((Green.parts g).map attr) ((Green.kids g).map attr) (attr g).vars =
          visibleIf [K.GroupGraphPattern] ((Green.kids g).map attr).getLast? := by
        simp only [List.mem_cons, List.not_mem_nil, or_false] at hx
        rcases hx with hx | hx | hx | hx <;> (rw [hx]; rfl)
      rw [e, List.getLast?_map, visibleIf_attr]
      exact ⟨_, hp, by simp [hk], (hkid _ (hlast _ hp) n).2 h⟩
    | union hx hp hk h =>
      rw [hx]
      show n ∈ (((Green.kids g).map attr).filter (fun a => a.kind == K.GroupGraphPattern)).flatMap (·.visible)
      refine List.mem_flatMap.2 ⟨attr _, List.mem_filter.2 ⟨List.mem_map.2 ⟨_, hp, rfl⟩, ?_⟩, (hkid _ hp n).2 h⟩
      rw [attr_kind, hk]; rfl
    | filter hx h =>
      rw [hx]
      exact (attr_vars g n).2 h
    | bind hx hv h =>
      rw [hx]
      show n ∈ nameIfVar ((Green.kids g).map attr).getLast?
      rw [List.getLast?_map, nameIfVar_attr (fun c hc => kids_isTok (hlast c hc))]
      exact ⟨_, hv, h⟩
    | values hx hb hd hk h =>
      unfold visibleOf
      rw [hx]
      iterate 9 rw [if_neg (by decide)]
      rw [if_pos rfl, List.getLast?_map, hb]
      exact (attr_data _ n).2 ⟨_, hd, hk, (ih _ (kids_inner2 (hlast _ hb) (head_mem hd)) n).2 h⟩
    | one hd hv h =>
      rw [hd]
      show n ∈ nameIfVar ((Green.kids g).map attr).head?
      rw [List.head?_map, nameIfVar_attr (fun c hc => kids_isTok (head_mem hc))]
      exact ⟨_, hv, h⟩
    | @full _ v pre post _ hd hs hpre h =>
      rw [hd]
      show n ∈ ((((Green.parts g).map attr).takeWhile (fun a => a.kind != K.RParen)).filter (fun a => a.node && a.kind == K.Var)).map (·.name)
      refine List.mem_map.2 ⟨attr v, takeWhile_filter_mem.2 ⟨⟨List.map attr pre, List.map attr post, by rw [hs]; simp, ?_, ?_⟩, ?_⟩, ?_⟩
      · exact List.forall_mem_map.2 (fun c hc => by rw [attr_kind]; simpa using hpre c hc)
      · rw [attr_kind, h.2.1]; rfl
      · rw [attr_kind, attr_node, h.2.1, h.1]; rfl
      · rw [attr_name]; exact h.2.2

/-- The model computes the variables a node shows. -/
theorem visible_iff (g : Green) : ∀ x ∈ g.nodes, ∀ n, n ∈ (attr x).visible ↔ Shows x n := by
  induction g using Green.rec (motive_2 := fun cs => ∀ x ∈ Green.nodesL cs, ∀ n, n ∈ (attr x).visible ↔ Shows x n) with
  | tok k t => intro x hx; cases hx
  | node k cs ih =>
    intro x hx
    rw [Green.nodes] at hx
    rcases List.mem_cons.1 hx with rfl | hx
    · exact visible_step _ rfl ih
    · exact ih x hx
  | nil => rename_i x hx _; cases hx
  | cons g gs ihg ihs =>
    rename_i x hx n
    rw [Green.nodesL] at hx
    rcases List.mem_append.1 hx with hx | hx
    · exact ihg x hx n
    · exact ihs x hx n

/-- A token shows nothing. -/
theorem shows_node {g : Green} {n : Text} (h : Shows g n) : g.isTok = false := by
  cases g with
  | node k cs => rfl
  | tok k t =>
    exfalso
    cases h with
    | list hs => cases hs.1
    | clause _ hv => cases hv
    | star hs => cases hs.1
    | where_ _ hp => cases hp
    | sub _ hp => cases hp
    | triples _ hp => cases hp
    | member _ hp => cases hp
    | pattern _ hp => cases hp
    | block _ hp => cases hp
    | union _ hp => cases hp
    | filter _ h => obtain ⟨v, hv, -⟩ := h; cases hv
    | bind _ hp => cases hp
    | values _ hp => cases hp
    | one _ hp => cases hp
    | full _ hp => have := congrArg List.length hp; simp [Green.parts] at this

/-- The texts of `visible_variables` are those the node shows. -/
theorem mem_visible (g : Green) (t : Text) : t ∈ (attr g).visible ↔ Shows g t := by
  cases hg : g.isTok with
  | false => exact visible_iff g g (nodes_self hg) t
  | true =>
    constructor
    · intro h
      cases g with
      | node k cs => cases hg
      | tok k t => cases h
    · intro h; rw [shows_node h] at hg; cases hg

/-- `SelectQuery::visible_variables` has a variable with the name iff the node shows it. -/
theorem projects_iff (g : Green) (n : Text) : projects g n = true ↔ ∃ t, Shows g t ∧ varName t = n := by
  unfold projects
  rw [List.any_eq_true]
  simp only [beq_iff_eq, mem_visible]

end Verif.Features
