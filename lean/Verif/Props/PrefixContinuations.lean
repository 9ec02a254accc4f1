import Verif.Props.Prefix
import Verif.Features.DemoActions
/-!
# What is offered while a document is being typed (C68)
-/
namespace Verif.Props
open Verif Verif.Grammar Verif.Lexer Verif.Features Verif.Format

/-- The grammar symbol of an element by its face. -/
def faceSym (f : Bool × Kind) : Option Sym := if f.1 then if f.2 = K.Error then none else some (.node f.2) else some (.tok f.2)

theorem sym_face (g : Green) : g.sym = g.face.bind faceSym := by
  cases g with
  | tok k t =>
    simp only [Green.sym, Green.face]
    split <;> rfl
  | node k cs => simp [Green.sym, Green.face, faceSym]

theorem done_faces (q : Red) (off : Nat) : done q off = (faces q off).filterMap faceSym := by
  unfold done faces
  rw [List.filterMap_filterMap]
  exact List.filterMap_congr fun c _ => sym_face c.green

/-- The nodes around two places look the same. -/
def Alike (off off' : Nat) : List Red → List Red → Prop
  | [], [] => True
  | q :: l, q' :: l' => q.kind = q'.kind ∧ faces q off = faces q' off' ∧ Alike off off' l l'
  | _, _ => False

theorem alike_of_map {off off' : Nat} : ∀ {l l' : List Red},
    l.map (fun q => (q.kind, faces q off)) = l'.map (fun q => (q.kind, faces q off')) → Alike off off' l l' := by
  intro l
  induction l with
  | nil => intro l' h; cases l' with | nil => trivial | cons => cases h
  | cons q l ih =>
    intro l' h
    cases l' with
    | nil => cases h
    | cons q' l' =>
      simp only [List.map_cons, List.cons.injEq, Prod.mk.injEq] at h
      exact ⟨h.1.1, h.1.2, ih h.2⟩

theorem alike_mem {off off' : Nat} : ∀ {l l' : List Red}, Alike off off' l l' → ∀ q ∈ l, ∃ q' ∈ l', q.kind = q'.kind ∧ faces q off = faces q' off' := by
  intro l
  induction l with
  | nil => intro l' _ q hq; cases hq
  | cons a l ih =>
    intro l' h q hq
    cases l' with
    | nil => exact absurd h (by intro h; exact h)
    | cons a' l' =>
      obtain ⟨h1, h2, h3⟩ := h
      rcases List.mem_cons.1 hq with rfl | hq
      · exact ⟨a', List.mem_cons_self, h1, h2⟩
      · obtain ⟨q', h4, h5⟩ := ih h3 q hq
        exact ⟨q', List.mem_cons_of_mem _ h4, h5⟩

theorem alike_closes {off off' : Nat} {q q' : Red} (h1 : q.kind = q'.kind) (h2 : faces q off = faces q' off') : Closes q off ↔ Closes q' off' := by
  unfold Closes
  rw [h1, done_faces, done_faces, h2]

theorem alike_extends {off off' : Nat} {q q' : Red} {k : Kind} (h1 : q.kind = q'.kind) (h2 : faces q off = faces q' off') :
    Extends q off k ↔ Extends q' off' k := by
  unfold Extends
  rw [h1, done_faces, done_faces, h2]

theorem alike_follow {off off' : Nat} {k : Kind} : ∀ {l l' : List Red}, Alike off off' l l' → (CanFollow l off k ↔ CanFollow l' off' k) := by
  intro l
  induction l with
  | nil =>
    intro l' h
    cases l' with
    | nil => exact ⟨fun h => absurd h canFollow_nil, fun h => absurd h canFollow_nil⟩
    | cons => exact absurd h (by intro h; exact h)
  | cons q l ih =>
    intro l' h
    cases l' with
    | nil => exact absurd h (by intro h; exact h)
    | cons q' l' =>
      obtain ⟨h1, h2, h3⟩ := h
      rw [canFollow_cons, canFollow_cons, alike_extends h1 h2, alike_closes h1 h2, ih h3]

/-! ## Tokens by what stands in front -/

/-- The first tokens up to a significant one. -/
theorem split_sig : ∀ {l : List Red} {p : List Kind}, p ≠ [] → p <+: sigKs l →
    ∃ a t b, l = a ++ t :: b ∧ triviaKind t.kind = false ∧ sigKs (a ++ [t]) = p := by
  intro l
  induction l with
  | nil => intro p h0 h; exact absurd (List.prefix_nil.1 h) h0
  | cons x l ih =>
    intro p h0 h
    have hx : sigKs (x :: l) = sigKs [x] ++ sigKs l := by rw [← sigKs_append]; rfl
    cases hk : triviaKind x.kind with
    | true =>
      have h1 : sigKs [x] = [] := by simp [sigKs, hk]
      rw [hx, h1] at h
      obtain ⟨a, t, b, rfl, h2, h3⟩ := ih h0 h
      refine ⟨x :: a, t, b, rfl, h2, ?_⟩
      rw [List.cons_append, ← List.singleton_append, sigKs_append, h1, h3]; rfl
    | false =>
      have h1 : sigKs [x] = [x.kind] := by simp [sigKs, hk]
      rw [hx, h1] at h
      cases p with
      | nil => exact absurd rfl h0
      | cons k p =>
        obtain ⟨T, hT⟩ := h
        injection hT with h4 h5
        by_cases hp : p = []
        · subst hp
          exact ⟨[], x, l, rfl, hk, by rw [List.nil_append, h1, h4]⟩
        · obtain ⟨a, t, b, rfl, h2, h3⟩ := ih hp ⟨T, h5⟩
          refine ⟨x :: a, t, b, rfl, h2, ?_⟩
          rw [List.cons_append, ← List.singleton_append, sigKs_append, h1, h3, h4]; rfl

section
variable {text : Text} {g : Green} (P : Parsed text g)
include P

theorem root_texts : ∀ z ∈ (Red.root g).tokens, z.text ≠ [] := fun z hz => by
  have := token_pos P hz
  exact P.leaf_nonempty (z.kind, z.text) (Parsed.token_leaf this.1 this.2.1)

/-- The tokens up to the end of one of them. -/
theorem before_split {a b : List Red} {t : Red} (h : (Red.root g).tokens = a ++ t :: b) : before (Red.root g) t.stop = sigKs (a ++ [t]) := by
  obtain ⟨-, h2⟩ := tokens_row (Red.root g)
  have hp := (row_pairwise h2 (root_texts P)).2
  have hb : ∀ z ∈ b, t.stop ≤ z.start := by
    rw [h] at h2
    exact (row_pairwise (row_split h2).2 (fun z hz => root_texts P z (by rw [h]; simp [hz]))).1
  rw [h, List.pairwise_append, List.pairwise_cons] at hp
  have htpos := (token_pos P (t := t) (by rw [h]; simp)).2.2
  unfold before
  rw [h, List.append_cons, List.filter_append, List.filter_eq_self.2 (fun z hz => ?_), List.filter_eq_nil_iff.2 (fun z hz => ?_), List.append_nil]
  · have := hb z hz
    simp; omega
  · rcases List.mem_append.1 hz with hz | hz
    · have := hp.2.2 z hz t List.mem_cons_self
      simp; omega
    · rw [List.mem_singleton.1 hz]; simpa using htpos

/-- There is a token that ends what is in front. -/
theorem token_of_before {p : List Kind} (h0 : p ≠ []) (h : p <+: sigKinds g.leaves) :
    ∃ t ∈ (Red.root g).tokens, triviaKind t.kind = false ∧ before (Red.root g) t.stop = p := by
  obtain ⟨h1, h2⟩ := tokens_row (Red.root g)
  have h1 : (Red.root g).tokens.map Red.kt = g.leaves := h1
  rw [← h1, ← sigKs_kinds] at h
  obtain ⟨a, t, b, e, h3, h4⟩ := split_sig h0 h
  exact ⟨t, by rw [e]; simp, h3, by rw [before_split P e, h4]⟩

/-- The first significant token of an element. -/
theorem head_token {x : Red} (hx : InTree g x) (hs : x.sig = true) (hu : x.up ≠ []) :
    ∃ z ∈ x.tokens, triviaKind z.kind = false ∧ z.start = x.start := by
  obtain ⟨⟨k, w, l, el, hkx⟩, -⟩ : x.green.Tight := by
    cases hn : x.isNode with
    | true => exact P.tight _ (P.inner_of hx hn hu)
    | false =>
      have := token_leaves hn
      have hs : triviaKind x.kind = false := by simpa [Red.sig] using hs
      exact ⟨⟨x.kind, x.text, [], this, hs⟩, ⟨x.kind, x.text, [], this, hs⟩⟩
  obtain ⟨h1, h2⟩ := tokens_row x
  rw [el] at h1
  cases hz : x.tokens with
  | nil => rw [hz] at h1; cases h1
  | cons z zs =>
    rw [hz] at h1 h2
    injection h1 with h1 _
    refine ⟨z, List.mem_cons_self, ?_, h2.1⟩
    have : z.kind = k := congrArg Prod.fst h1
    rw [this]; exact hkx

end

/-- Around a token of a text whose tokens are the first ones of a valid document everything is as the grammar wants it, and as in the
finished document. -/
theorem typing_sound {errLen errLen' : Text → Nat} {text text' : Text} {g g' errs errs'} (hp : parseSource errLen text = some (g, errs))
    (hp' : parseSource errLen' text' = some (g', errs')) (hk : g.kind = g'.kind)
    (hd : Derives sparqlRules (.node g'.kind) (kinds (lex errLen' text'))) (hpre : kinds (lex errLen text) <+: kinds (lex errLen' text'))
    {t : Red} (ht : t ∈ (Red.root g).tokens) (hs : triviaKind t.kind = false) :
    ∃ t' ∈ (Red.root g').tokens, triviaKind t'.kind = false ∧ before (Red.root g') t'.stop = before (Red.root g) t.stop ∧
      Alike t.stop t'.stop (Red.chain t.up) (Red.chain t'.up) ∧ ∀ q ∈ Red.chain t.up, Sound q t.stop := by
  have P := parsed_of hp
  have P' := parsed_of hp'
  have hC' := complete_of hp' hd
  have hsig : sigKinds g.leaves = kinds (lex errLen text) := by
    obtain ⟨e, F, cs, n, s, -, -, -, -, h4, -⟩ := parsed_kinds hp; exact h4
  have hsig' : sigKinds g'.leaves = kinds (lex errLen' text') := by
    obtain ⟨e, F, cs, n, s, -, -, -, -, h4, -⟩ := parsed_kinds hp'; exact h4
  -- every token of the text is one of the document
  have corr : ∀ z ∈ (Red.root g).tokens, triviaKind z.kind = false → ∃ z' ∈ (Red.root g').tokens, triviaKind z'.kind = false ∧
      before (Red.root g') z'.stop = before (Red.root g) z.stop ∧ surroundings z = surroundings z' := by
    intro z hz hzs
    obtain ⟨a, b, e⟩ := List.append_of_mem hz
    have hne : before (Red.root g) z.stop ≠ [] := by
      rw [before_split P e, sigKs_append]
      simp [sigKs, hzs]
    obtain ⟨z', h1, h2, h3⟩ := token_of_before P' hne (by
      rw [hsig']; exact (hsig ▸ before_prefix (g := g) z.stop).trans hpre)
    exact ⟨z', h1, h2, h3, c68_around hp hp' hk hz h1 hzs h2 h3.symm⟩
  have sound' : ∀ z' ∈ (Red.root g').tokens, triviaKind z'.kind = false → ∀ q' ∈ Red.chain z'.up, InTree g' q' ∧ Sound q' z'.stop := by
    intro z' hz' hzs' q' hq'
    obtain ⟨h1, h2, h3⟩ := token_pos P' hz'
    exact ⟨(h1.chain q' hq').1, valid_sound P' hC' h1 hzs' h3 q' hq'⟩
  have errs : ∀ {q q' : Red} {o o' : Nat}, InTree g' q' → faces q o = faces q' o' → ∀ c ∈ q.childrenT, c.start < o → c.kind ≠ K.Error := by
    intro q q' o o' hq' hf c hc hco hE
    have hfc : (c.isNode, K.Error) ∈ faces q o := by
      unfold faces
      refine List.mem_filterMap.2 ⟨c, List.mem_filter.2 ⟨hc, by simpa using hco⟩, ?_⟩
      have hg : c.green = c.here.green := rfl
      unfold Red.isNode
      cases h : c.here.green with
      | tok k w =>
        have hck : c.kind = k := by unfold Red.kind; rw [h]; rfl
        rw [hg, h, Green.face, ← hck, hE]; rfl
      | node k cs =>
        have hck : c.kind = k := by unfold Red.kind; rw [h]; rfl
        rw [hg, h, Green.face, ← hck, hE]
    rw [hf] at hfc
    unfold faces at hfc
    obtain ⟨c', h1, h2⟩ := List.mem_filterMap.1 hfc
    refine valid_kind P' hC' hq' (List.mem_filter.1 h1).1 ?_
    have hg : c'.green = c'.here.green := rfl
    unfold Red.kind
    rw [hg] at h2
    cases h : c'.here.green with
    | tok k w =>
      rw [h, Green.face] at h2
      split at h2
      · cases h2
      · simp only [Option.some.injEq, Prod.mk.injEq] at h2; exact h2.2
    | node k cs =>
      rw [h, Green.face] at h2
      simp only [Option.some.injEq, Prod.mk.injEq] at h2; exact h2.2
  obtain ⟨hin, htn, hpos⟩ := token_pos P ht
  obtain ⟨t', ht', hs', hb', hsur⟩ := corr t ht hs
  have halike : Alike t.stop t'.stop (Red.chain t.up) (Red.chain t'.up) := alike_of_map hsur
  have hsound : ∀ q ∈ Red.chain t.up, Sound q t.stop := by
    intro q hq
    obtain ⟨hqT, hqn⟩ := hin.chain q hq
    obtain ⟨c, hc, hca⟩ := chain_child hin hq
    obtain ⟨q', hq', h1, h2⟩ := alike_mem halike q hq
    obtain ⟨hqT', hS'⟩ := sound' t' ht' hs' q' hq'
    obtain ⟨D, B, hDB, hD, hDl, hcl, hcs, hBl, hB, -, hdone, -⟩ := node_parts P hin hs hpos hqT hc hca
    refine ⟨?_, errs hqT' h2, ⟨D, c, B, hDB, hDl, hcl, by simpa [Red.sig] using hcs, hBl⟩, ?_⟩
    · obtain ⟨r, l, h3, h4⟩ := hS'.rule
      exact ⟨r, l, by rw [h1]; exact h3, by rw [done_faces, h2, ← done_faces]; exact h4⟩
    · rintro hpar ⟨b, hb, hbs⟩
      have hqu : q.up ≠ [] := by
        intro h; apply hpar; unfold Red.parent; rw [h]
      obtain ⟨X, x, hX, hxs⟩ := last_sig P hqT hqn hqu
      have hbB : b ∈ B := by
        rw [hDB] at hb
        rcases List.mem_append.1 hb with h | h
        · have := hDl b h; omega
        · rcases List.mem_cons.1 h with rfl | h
          · omega
          · exact h
      obtain ⟨B0, hB0⟩ : ∃ B0, B = B0 ++ [x] := by
        rcases List.eq_nil_or_concat B with h | ⟨B0, y, h⟩
        · rw [h] at hbB; cases hbB
        · rw [List.concat_eq_append] at h
          rw [hDB, h] at hX
          have : (D ++ c :: B0) ++ [y] = X ++ [x] := by rw [← hX]; simp
          exact ⟨B0, by rw [h, (List.append_inj' this rfl).2]⟩
      have hxB : x ∈ B := by rw [hB0]; simp
      have hxc : x ∈ q.childrenT := by rw [hDB]; simp [hxB]
      have hxT : InTree g x := hqT.child hxc
      have hxu : x.up ≠ [] := by rw [child_up hxc]; simp
      obtain ⟨u, hux0, huk, hux⟩ := head_token P hxT hxs hxu
      have hud := (List.mem_filter.1 hux0).1
      have hu : u ∈ (Red.root g).tokens :=
        List.mem_filter.2 ⟨mem_descendantsT_root.2 (inTree_of_mem_descendantsT x hxT u hud), (List.mem_filter.1 hux0).2⟩
      obtain ⟨huT, hun, hupos⟩ := token_pos P hu
      have htu : t.stop ≤ u.start := by rw [hux]; exact hBl x hxB
      obtain ⟨u', hu', hus', -, husur⟩ := corr u hu huk
      -- `q` is around `u`
      have hqu' : ∃ q'' ∈ Red.chain u'.up, q.kind = q''.kind ∧ faces q u.stop = faces q'' u'.stop := by
        refine alike_mem (alike_of_map husur) q ?_
        have h7 : q ∈ u.ancestors := ancestors_trans (descendantsT_anc hud) (by
          unfold Red.ancestors; rw [parent_chain (child_parent hxc)]; simp)
        rcases List.mem_cons.1 h7 with rfl | h7
        · rw [hqn] at hun; cases hun
        · exact h7
      obtain ⟨q'', hq'', h3, h4⟩ := hqu'
      obtain ⟨hqT'', hS''⟩ := sound' u' hu' hus' q'' hq''
      obtain ⟨r, l, h5, h6⟩ := hS''.rule
      have hsplit : ∃ E, done q u.stop = done q t.stop ++ E ∧ E ≠ [] := by
        refine ⟨(B.filter (fun c => decide (c.start < u.stop))).filterMap (fun c => c.green.sym), ?_, ?_⟩
        · rw [hdone]
          unfold done
          rw [hDB, List.append_cons, List.filter_append, List.filter_eq_self.2 (fun y hy => ?_), List.filterMap_append]
          rcases List.mem_append.1 hy with h | h
          · have := hDl y h
            simp; omega
          · rw [List.mem_singleton.1 h]; simp; omega
        · have hxE := errs hqT'' h4 x hxc (by omega)
          have hxk : triviaKind x.kind = false := by simpa [Red.sig] using hxs
          have hsym : ∃ s, x.green.sym = some s := by
            have hg : x.green = x.here.green := rfl
            unfold Red.kind at hxE hxk
            rw [hg]
            cases h : x.here.green with
            | tok k w => rw [h] at hxk; exact ⟨.tok k, by rw [Green.sym, if_neg (by rw [show triviaKind k = false from hxk]; simp)]⟩
            | node k cs => rw [h] at hxE; exact ⟨.node k, by rw [Green.sym, if_neg (show ¬k = K.Error from hxE)]⟩
          obtain ⟨s, hsym⟩ := hsym
          have : s ∈ (B.filter (fun c => decide (c.start < u.stop))).filterMap (fun c => c.green.sym) :=
            List.mem_filterMap.2 ⟨x, List.mem_filter.2 ⟨hxB, by simp; omega⟩, hsym⟩
          exact List.ne_nil_of_mem this
      obtain ⟨E, hE, hE0⟩ := hsplit
      obtain ⟨s, E, rfl⟩ := List.exists_cons_of_ne_nil hE0
      refine ⟨s.kind, r, s, E ++ l, by rw [h3]; exact h5, rfl, ?_⟩
      rw [done_faces q'', ← h4, ← done_faces, hE] at h6
      simpa using h6
  exact ⟨t', ht', hs', hb', halike, hsound⟩

/-- C68. While a valid document is being typed — a text, with errors or without, whose tokens are the first ones of a valid document: behind
any token of the text the search has a result, and it has the same kinds as behind that token in the finished document. So with each of
them the tokens so far can be completed to a valid document, and what comes next in the finished one is among them. -/
theorem c68_typing {errLen errLen' : Text → Nat} {text text' : Text} {g g' errs errs'} (hp : parseSource errLen text = some (g, errs))
    (hp' : parseSource errLen' text' = some (g', errs')) (hk : g.kind = g'.kind)
    (hd : Derives sparqlRules (.node g'.kind) (kinds (lex errLen' text'))) (hpre : kinds (lex errLen text) <+: kinds (lex errLen' text'))
    {t : Red} (ht : t ∈ (Red.root g).tokens) (hs : triviaKind t.kind = false) :
    ∃ t' ∈ (Red.root g').tokens, triviaKind t'.kind = false ∧
      sigKs ((Red.root g').tokens.filter (fun z => decide (z.start < t'.stop))) = sigKs ((Red.root g).tokens.filter (fun z => decide (z.start < t.stop))) ∧
      ∃ ks ks', Continues g t.stop (some ks) ∧ Continues g' t'.stop (some ks') ∧ (∀ k, k ∈ ks ↔ k ∈ ks') ∧
        (∀ k, k ∈ ks ↔ CanFollow (Red.chain t.up) t.stop k) ∧
        (∀ k ∈ ks, ∃ w v, w ≠ [] ∧ Derives sparqlRules (if k < 184 then .tok k else .node k) w ∧
          Derives sparqlRules (.node g.kind) (sigKs ((Red.root g).tokens.filter (fun z => decide (z.start < t.stop))) ++ w ++ v)) ∧
        (∀ u ∈ (Red.root g').tokens, triviaKind u.kind = false → t'.stop ≤ u.start →
          (∀ z ∈ (Red.root g').tokens, triviaKind z.kind = false → t'.stop ≤ z.start → u.start ≤ z.start) →
          ∃ e ∈ u.ancestors, e.start = u.start ∧ e.kind ∈ ks) := by
  obtain ⟨t', ht', hs', hb', halike, hsound⟩ := typing_sound hp hp' hk hd hpre ht hs
  obtain ⟨ks, h1, h2⟩ := c67_exact hp ht hsound
  obtain ⟨ks', h3, h4, h5, h6⟩ := c67_valid hp' hd ht' hs'
  have hiff : ∀ k, k ∈ ks ↔ k ∈ ks' := fun k => by rw [h2, h4, alike_follow halike]
  refine ⟨t', ht', hs', hb', ks, ks', h1, h3, hiff, h2, fun k hkk => ?_, fun u hu huk htu hnext => ?_⟩
  · obtain ⟨w, v, h7, h8, h9⟩ := h5 k ((hiff k).1 hkk)
    refine ⟨w, v, h7, h8, ?_⟩
    have hb' : sigKs ((Red.root g').tokens.filter (fun z => decide (z.start < t'.stop))) =
      sigKs ((Red.root g).tokens.filter (fun z => decide (z.start < t.stop))) := hb'
    rw [hk, ← hb']; exact h9
  · obtain ⟨e, h7, h8, h9⟩ := h6 u hu huk htu hnext
    exact ⟨e, h7, h8, (hiff _).2 h9⟩

/-! ## A concrete case -/

/-- C68. `SELECT * {{?s ?p ?o` is the beginning of the valid `SELECT * {{?s ?p ?o} VALUES ?x {<a>}}`: behind `?o` the same kinds are offered.
`SELECT * {{?s ?p ?o 5 } ] x` begins with the same tokens and then goes wrong: the tree of these seven tokens is the same, and so are the eighteen
nodes around `?o`, while the trees differ. -/
theorem c68_cases :
    ((parseSource (fun _ => 1) deepText).map Prod.fst = some deepTree ∧
      Derives sparqlRules (.node deepTree.kind) (kinds (lex (fun _ => 1) deepText))) ∧
    ((parseSource (fun _ => 1) cutText).map Prod.fst = some cutTree ∧ cutTree.kind = deepTree.kind ∧
      kinds (lex (fun _ => 1) cutText) <+: kinds (lex (fun _ => 1) deepText) ∧
      (∃ t ∈ (Red.root cutTree).tokens, triviaKind t.kind = false ∧ t.stop = 19) ∧
      Continues cutTree 19 (some [K.AnnotationPath, K.Comma, K.Semicolon, K.Dot, K.GraphPatternNotTriples, K.RCurly])) ∧
    ((parseSource (fun _ => 1) wrongText).map Prod.fst = some wrongTree ∧ wrongTree.kind = deepTree.kind ∧
      (kinds (lex (fun _ => 1) deepText)).take 7 <+: kinds (lex (fun _ => 1) wrongText) ∧
      front 7 (wrongTree.shape .nil) = front 7 (deepTree.shape .nil) ∧ (front 7 (deepTree.shape .nil)).toks = 7 ∧
      wrongTree.shape .nil ≠ deepTree.shape .nil ∧
      ((Red.root wrongTree).tokens.filter (fun t => t.stop == 19)).map (fun t => (surroundings t).length) = [18] ∧
      ((Red.root wrongTree).tokens.filter (fun t => t.stop == 19)).map surroundings =
        ((Red.root deepTree).tokens.filter (fun t => t.stop == 19)).map surroundings) :=
  ⟨⟨by rw [deepTree_parse]; rfl, deep_derives⟩,
    ⟨by rw [cutTree_parse]; rfl, by decide +kernel, ⟨[K.RCurly, K.VALUES, K.VAR1, K.LCurly, K.IRIREF, K.RCurly, K.RCurly], by decide +kernel⟩,
      by decide +kernel, ends_of_steps (n := 2000) (by decide +kernel)⟩,
    by rw [wrongTree_parse]; rfl, by decide +kernel, by decide +kernel, by decide +kernel, by decide +kernel, by decide +kernel,
    by decide +kernel, by decide +kernel⟩

end Verif.Props
