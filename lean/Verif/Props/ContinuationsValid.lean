import Verif.Props.Continuations
import Verif.Features.SelectHead
import Verif.Props.Indent
import Verif.Features.Demo
/-!
# What can follow at an offset: documents without syntax errors (C67)
-/
namespace Verif.Props
open Verif Verif.Grammar Verif.Lexer Verif.Features Verif.Format

/-- No rule wants an error. -/
def noErrSym (s : Sym) : Bool := match s with | .tok k => k != K.Error | .node k => k != K.Error

theorem noErr_rules : sparqlRulesTree.toList.all (fun p => allSyms noErrSym p.2) = true := by decide +kernel

section
variable {text : Text} {g : Green} (P : Parsed text g) (hC : ∀ n ∈ g.nodes, Grammar.Complete sparqlRules n)
include P hC

theorem valid_kind {r c : Red} (hr : InTree g r) (hc : c ∈ r.childrenT) : c.kind ≠ K.Error := by
  intro hE
  have ht : triviaKind c.kind = false := by rw [hE]; decide
  obtain ⟨-, R, hR, hm, hW⟩ := whole_of P hC hr (child_isNode hc)
  have hall := List.all_eq_true.1 noErr_rules _ hm
  have hs := sym_eq P hC (hr.child hc) ht
  have := allSyms_sound hW hall (symOf c) (List.mem_filterMap.2 ⟨c.green, List.mem_map_of_mem hc, hs⟩)
  cases hn : c.isNode with
  | true => rw [symOf_node hn, hE] at this; cases this
  | false => rw [symOf_tok hn, hE] at this; cases this

/-- The children of a node around a token: those in front of the token's end, and those behind it. -/
theorem valid_parts {t : Red} (ht : InTree g t) (hk : triviaKind t.kind = false) (hpos : t.start < t.stop)
    {q c : Red} (hqT : InTree g q) (hc : c ∈ q.childrenT) (hca : c ∈ t.ancestors) :
    ∃ R D B, sparqlRules q.kind = some R ∧ q.childrenT = D ++ c :: B ∧ (∀ x ∈ D, x.stop ≤ c.start) ∧ c.start < t.stop ∧ c.sig = true ∧
      (∀ x ∈ B, t.stop ≤ x.start) ∧ done q t.stop = (D ++ [c]).filterMap (fun c => c.green.sym) ∧
      Whole sparqlRules R (done q t.stop ++ B.filterMap (fun c => c.green.sym)) := by
  have hqn := child_isNode hc
  have hw := ht.anc_within c hca
  have hcs : triviaKind c.kind = false := by
    rcases List.mem_cons.1 hca with rfl | h
    · exact hk
    · have := node_sig P (hqT.child hc) (ht.chain c h).2
      simpa [Red.sig] using this
  obtain ⟨D, B, hDB⟩ := List.append_of_mem hc
  have hpw := childrenT_pairwise q
  rw [hDB, List.pairwise_append, List.pairwise_cons] at hpw
  obtain ⟨-, ⟨hB, -⟩, hD⟩ := hpw
  have hcl : c.start < t.stop := Nat.lt_of_le_of_lt hw.1 hpos
  have hDl : ∀ x ∈ D, x.start < t.stop := fun x hx => by
    have h1 := hD x hx c List.mem_cons_self
    have h2 : x.start ≤ x.stop := by show x.start ≤ x.start + _; omega
    omega
  have hBl : ∀ x ∈ B, t.stop ≤ x.start := fun x hx => Nat.le_trans hw.2 (hB x hx)
  obtain ⟨-, R, hR, -, hW⟩ := whole_of P hC hqT hqn
  have hdone : done q t.stop = (D ++ [c]).filterMap (fun c => c.green.sym) := by
    unfold done
    rw [hDB, List.append_cons, List.filter_append, List.filter_eq_self.2 (fun x hx => ?_),
      List.filter_eq_nil_iff.2 (fun x hx => by simpa using hBl x hx), List.append_nil]
    rcases List.mem_append.1 hx with h | h
    · simpa using hDl x h
    · rw [List.mem_singleton.1 h]; simpa using hcl
  have hall : (q.childrenT.map Red.green).filterMap Green.sym = done q t.stop ++ B.filterMap (fun c => c.green.sym) := by
    rw [hdone, hDB, List.append_cons, List.filterMap_map, List.filterMap_append]; rfl
  rw [hall] at hW
  exact ⟨R, D, B, hR, hDB, fun x hx => hD x hx c List.mem_cons_self, hcl, by simp [Red.sig, hcs], hBl, hdone, hW⟩

/-- In a document without syntax errors everything around a token is as the grammar wants it. -/
theorem valid_sound {t : Red} (ht : InTree g t) (hk : triviaKind t.kind = false) (hpos : t.start < t.stop) :
    ∀ q ∈ Red.chain t.up, Sound q t.stop := by
  intro q hq
  obtain ⟨hqT, hqn⟩ := ht.chain q hq
  obtain ⟨c, hc, hca⟩ := chain_child ht hq
  obtain ⟨R, D, B, hR, hDB, hD, hcl, hcs, hBl, hdone, hW⟩ := valid_parts P hC ht hk hpos hqT hc hca
  have hDl : ∀ x ∈ D, x.start < t.stop := fun x hx => by
    have h1 := hD x hx
    have h2 : x.start ≤ x.stop := by show x.start ≤ x.start + _; omega
    omega
  refine ⟨⟨R, _, hR, hW⟩, fun x hx _ => valid_kind P hC hqT hx, ⟨D, c, B, hDB, hDl, hcl, by simpa [Red.sig] using hcs, hBl⟩, ?_⟩
  rintro hp ⟨b, hb, hbs⟩
  have hqu : q.up ≠ [] := by
    intro h; apply hp; unfold Red.parent; rw [h]
  obtain ⟨-, k, w, l, el, hkx⟩ := P.tight q.green (P.inner_of hqT hqn hqu)
  have htk := (tokens_row q).1
  rw [el] at htk
  obtain ⟨L0, z, e0, hz⟩ : ∃ L0 z, q.tokens = L0 ++ [z] ∧ z.kind = k := by
    rcases List.eq_nil_or_concat q.tokens with h0 | ⟨T, y, h0⟩
    · rw [h0] at htk; cases l <;> cases htk
    · rw [List.concat_eq_append] at h0
      rw [h0, List.map_append] at htk
      have := (List.append_inj' htk rfl).2
      refine ⟨T, y, h0, ?_⟩
      have : y.kt = (k, w) := by simpa using this
      exact congrArg Prod.fst this
  rw [tokens_eq q, if_pos hqn] at e0
  obtain ⟨l0, x, T, e1, -, hxs⟩ := flat_last P hC hqT (fun _ h => h) e0 (by rw [hz]; exact hkx)
  -- the last child stands behind the offset
  have hbB : b ∈ B := by
    rw [hDB] at hb
    rcases List.mem_append.1 hb with h | h
    · have := hDl b h; omega
    · rcases List.mem_cons.1 h with rfl | h
      · omega
      · exact h
  have hxB : x ∈ B := by
    rcases List.eq_nil_or_concat B with h | ⟨B0, y, h⟩
    · rw [h] at hbB; cases hbB
    · rw [List.concat_eq_append] at h
      rw [hDB, h] at e1
      have : y = x := by
        have : (D ++ c :: B0) ++ [y] = l0 ++ [x] := by rw [← e1]; simp
        simpa using (List.append_inj' this rfl).2
      rw [h, ← this]; simp
  have hxT : InTree g x := hqT.child (by rw [hDB]; simp [hxB])
  have hxsym := sym_eq P hC hxT (by simpa [Red.sig] using hxs)
  cases hf : B.filterMap (fun c => c.green.sym) with
  | nil =>
    have : symOf x ∈ B.filterMap (fun c => c.green.sym) := List.mem_filterMap.2 ⟨x, hxB, hxsym⟩
    rw [hf] at this; cases this
  | cons s l' => exact ⟨s.kind, R, s, l', hR, rfl, by rw [hf] at hW; exact hW⟩

/-! ## What really comes next -/

omit hC in
/-- A significant element begins with a significant token. -/
theorem first_sig {x : Red} (hx : InTree g x) (hs : x.sig = true) (hu : x.up ≠ []) :
    ∃ z ∈ (Red.root g).tokens, triviaKind z.kind = false ∧ z.start = x.start := by
  obtain ⟨⟨k, w, l, el, hkx⟩, -⟩ : x.green.Tight := by
    cases hn : x.isNode with
    | true => exact P.tight _ (P.inner_of hx hn hu)
    | false =>
      have := token_leaves hn
      have hs : triviaKind x.kind = false := by simpa [Red.sig] using hs
      exact ⟨⟨x.kind, x.text, [], this, hs⟩, ⟨x.kind, x.text, [], this, hs⟩⟩
  obtain ⟨h1, h2⟩ := tokens_row x
  rw [el] at h1
  cases hz : x.tokens with
  | nil => rw [hz] at h1; cases h1
  | cons z zs =>
    rw [hz] at h1 h2
    injection h1 with h1 _
    refine ⟨z, ?_, ?_, h2.1⟩
    · have hzx : z ∈ x.tokens := by rw [hz]; simp
      obtain ⟨h3, h4⟩ := List.mem_filter.1 hzx
      exact List.mem_filter.2 ⟨mem_descendantsT_root.2 (inTree_of_mem_descendantsT x hx z h3), h4⟩
    · have : z.kind = k := congrArg Prod.fst h1
      rw [this]; exact hkx

omit P hC in
/-- Split the nodes around at the innermost one of a kind. -/
theorem split_first {p : Red → Prop} [DecidablePred p] : ∀ {l : List Red}, (∃ x ∈ l, p x) → ∃ A q B, l = A ++ q :: B ∧ (∀ x ∈ A, ¬p x) ∧ p q := by
  intro l
  induction l with
  | nil => rintro ⟨x, hx, -⟩; cases hx
  | cons a l ih =>
    intro h
    by_cases ha : p a
    · exact ⟨[], a, l, rfl, by simp, ha⟩
    · obtain ⟨x, hx, hpx⟩ := h
      rcases List.mem_cons.1 hx with rfl | hx
      · exact absurd hpx ha
      · obtain ⟨A, q, B, rfl, h1, h2⟩ := ih ⟨x, hx, hpx⟩
        refine ⟨a :: A, q, B, rfl, fun y hy => ?_, h2⟩
        rcases List.mem_cons.1 hy with rfl | hy
        · exact ha
        · exact h1 y hy

/-- The next token begins an element of a kind that can follow. -/
theorem next_follows {t u : Red} (ht : InTree g t) (htn : t.isNode = false) (hk : triviaKind t.kind = false) (hpos : t.start < t.stop)
    (hu : InTree g u) (hun : u.isNode = false) (huk : triviaKind u.kind = false) (hupos : u.start < u.stop) (htu : t.stop ≤ u.start)
    (hnext : ∀ z ∈ (Red.root g).tokens, triviaKind z.kind = false → t.stop ≤ z.start → u.start ≤ z.start) :
    ∃ e ∈ u.ancestors, e.start = u.start ∧ CanFollow (Red.chain t.up) t.stop e.kind := by
  classical
  have hroot : ∀ {x : Red}, InTree g x → x.isNode = false → Red.root g ∈ Red.chain x.up := by
    intro x hx hn
    have key : ∀ y : Red, InTree g y → Red.root g ∈ y.ancestors := by
      intro y hy
      induction hy with
      | root => exact List.mem_cons_self
      | child hr hc ih =>
        unfold Red.ancestors
        rw [parent_chain (child_parent hc)]
        exact List.mem_cons_of_mem _ ih
    rcases List.mem_cons.1 (key x hx) with h | h
    · exfalso
      obtain ⟨e, cs, a, b, hg, -⟩ := P.top
      have : (Red.root g).isNode = true := by rw [hg]; rfl
      rw [h, hn] at this; cases this
    · exact h
  obtain ⟨A, q, B0, hch, hA, hqu⟩ := split_first (p := fun x => x ∈ Red.chain u.up) ⟨_, hroot ht htn, hroot hu hun⟩
  have hqt : q ∈ Red.chain t.up := by rw [hch]; simp
  obtain ⟨hqT, hqn⟩ := ht.chain q hqt
  obtain ⟨c, hc, hca⟩ := chain_child ht hqt
  obtain ⟨e, he, hea⟩ := chain_child hu hqu
  have hcw := ht.anc_within c hca
  have hew := hu.anc_within e hea
  obtain ⟨R, D, B, hR, hDB, hD, hcl, hcs, hBl, hdone, hW⟩ := valid_parts P hC ht hk hpos hqT hc hca
  -- the two lie in different children
  have hce : c ≠ e := by
    intro h
    subst h
    have hcn : c ∈ Red.chain t.up := by
      rcases List.mem_cons.1 hca with rfl | h
      · rcases List.mem_cons.1 hea with rfl | h
        · omega
        · rw [(hu.chain _ h).2] at htn; cases htn
      · exact h
    have hcu : c ∈ Red.chain u.up := by
      rcases List.mem_cons.1 hea with rfl | h
      · rw [(ht.chain _ hcn).2] at hun; cases hun
      · exact h
    rw [hch] at hcn
    have hqc : q ∉ c :: Red.chain c.up → False := fun h => h (by rw [parent_chain (child_parent hc)]; simp)
    rcases List.mem_append.1 hcn with h | h
    · exact hA c h hcu
    · -- `c` would stand around `q`
      have hlen : ∀ up : List Site, (Red.chain up).Pairwise (fun a b => b.up.length < a.up.length) ∧ ∀ x ∈ Red.chain up, x.up.length < up.length := by
        intro up
        induction up with
        | nil => exact ⟨.nil, by intro x hx; cases hx⟩
        | cons s up ih =>
          refine ⟨?_, ?_⟩
          · rw [Red.chain, List.pairwise_cons]
            exact ⟨ih.2, ih.1⟩
          · intro x hx
            rcases List.mem_cons.1 hx with rfl | hx
            · simp
            · have := ih.2 x hx; simp; omega
      have hl := (hlen t.up).1
      rw [hch, List.pairwise_append, List.pairwise_cons] at hl
      have hcl : c.up.length = q.up.length + 1 := by rw [child_up hc]; simp
      rcases List.mem_cons.1 h with rfl | h
      · omega
      · have := hl.2.1.1 c h; omega
  have heB : e ∈ B := by
    rw [hDB] at he
    rcases List.mem_append.1 he with h | h
    · have := hD e h
      have := hcw.1
      have := hew.2
      omega
    · rcases List.mem_cons.1 h with h | h
      · exact absurd h.symm hce
      · exact h
  have hces : c.stop ≤ e.start := by
    have hpw := childrenT_pairwise q
    rw [hDB, List.pairwise_append, List.pairwise_cons] at hpw
    exact hpw.2.1.1 e heB
  have hes : e.sig = true := by
    rcases List.mem_cons.1 hea with rfl | h
    · simp [Red.sig, huk]
    · exact node_sig P (hqT.child he) (hu.chain e h).2
  have heT := hqT.child he
  have hest : e.start = u.start := by
    obtain ⟨z, hz1, hz2, hz3⟩ := first_sig P heT hes (by rw [child_up he]; simp)
    have := hnext z hz1 hz2 (by have := hBl e heB; omega)
    have := hew.1
    omega
  refine ⟨e, hea, hest, A, q, B0, hch, fun p hp => ?_, ?_⟩
  · -- the nodes inside of it end
    have hpt : p ∈ Red.chain t.up := by rw [hch]; simp [hp]
    obtain ⟨hpT, hpn⟩ := ht.chain p hpt
    obtain ⟨c', hc', hca'⟩ := chain_child ht hpt
    obtain ⟨R', D', B', hR', hDB', hD', hcl', hcs', hBl', hdone', hW'⟩ := valid_parts P hC ht hk hpos hpT hc' hca'
    have hpstop : p.stop ≤ u.start := by
      -- `q` stands around `p`
      have hqp : q ∈ Red.chain p.up := by
        obtain ⟨pre, hpre⟩ := Features.chain_suffix hpt
        have hlen : ∀ up : List Site, (Red.chain up).Pairwise (fun a b => b.up.length < a.up.length) ∧ ∀ x ∈ Red.chain up, x.up.length < up.length := by
          intro up
          induction up with
          | nil => exact ⟨.nil, by intro x hx; cases hx⟩
          | cons s up ih =>
            refine ⟨?_, ?_⟩
            · rw [Red.chain, List.pairwise_cons]
              exact ⟨ih.2, ih.1⟩
            · intro x hx
              rcases List.mem_cons.1 hx with rfl | hx
              · simp
              · have := ih.2 x hx; simp; omega
        have hl := (hlen t.up).1
        have hpq : q.up.length < p.up.length := by
          rw [hch, List.pairwise_append] at hl
          exact hl.2.2 p hp q List.mem_cons_self
        rw [hpre, List.pairwise_append] at hl
        rw [hpre] at hqt
        rcases List.mem_append.1 hqt with h | h
        · have := hl.2.2 q h p List.mem_cons_self; omega
        · rcases List.mem_cons.1 h with h | h
          · rw [h] at hpq; omega
          · exact h
      obtain ⟨d, hd, hda⟩ := chain_child hpT hqp
      have hdp := hpT.anc_within d hda
      have hpw := ht.anc_within p (List.mem_cons_of_mem _ hpt)
      have hdc : d = c := by
        rw [hDB] at hd
        rcases List.mem_append.1 hd with h | h
        · have := hD d h
          have := hcw.1; have := hdp.2; have := hpw.2
          omega
        · rcases List.mem_cons.1 h with h | h
          · exact h
          · have := hBl d h
            have := hdp.1; have := hpw.1
            omega
      subst hdc
      have := hdp.2
      omega
    have hnone : B'.filterMap (fun c => c.green.sym) = [] := by
      rw [List.filterMap_eq_nil_iff]
      intro x hx
      by_contra hne
      have hxc : x ∈ p.childrenT := by rw [hDB']; simp [hx]
      have hxT := hpT.child hxc
      have hxs : x.sig = true := by
        cases hxs : x.sig with
        | true => rfl
        | false =>
          exfalso; apply hne
          have htr : triviaKind x.kind = true := by simpa [Red.sig] using hxs
          have hxn := trivia_token P hxT htr
          cases hg : x.here.green with
          | node k cs => unfold Red.isNode at hxn; rw [hg] at hxn; cases hxn
          | tok k w =>
            have : x.green = .tok k w := hg
            have hkk : x.kind = k := by unfold Red.kind; rw [hg]; rfl
            rw [this, Green.sym, if_pos (hkk ▸ htr)]
      obtain ⟨z, hz1, hz2, hz3⟩ := first_sig P hxT hxs (by rw [child_up hxc]; simp)
      have h1 := hnext z hz1 hz2 (by have := hBl' x hx; omega)
      have h2 := (child_within hxc).2
      have hxpos : x.start < x.stop := by
        have hzz : x.text ≠ [] := by
          cases hn : x.isNode with
          | true => exact P.nonempty _ (P.inner_of hxT hn (by rw [child_up hxc]; simp))
          | false => exact P.leaf_nonempty (x.kind, x.text) (Parsed.token_leaf hxT hn)
        have h3 : x.stop = x.start + blen x.text := rfl
        have : 0 < blen x.text := by
          cases h : x.text with
          | nil => exact absurd h hzz
          | cons c cs => have := u8_pos c; simp only [blen]; omega
        omega
      omega
    rw [hnone, List.append_nil] at hW'
    exact ⟨R', hR', hW'⟩
  · -- the one around goes on with the element
    obtain ⟨B1, B2, hB12⟩ := List.append_of_mem heB
    have hnone : B1.filterMap (fun c => c.green.sym) = [] := by
      rw [List.filterMap_eq_nil_iff]
      intro x hx
      by_contra hne
      have hxc : x ∈ q.childrenT := by rw [hDB, hB12]; simp [hx]
      have hxT := hqT.child hxc
      have hxs : x.sig = true := by
        cases hxs : x.sig with
        | true => rfl
        | false =>
          exfalso; apply hne
          have htr : triviaKind x.kind = true := by simpa [Red.sig] using hxs
          have hxn := trivia_token P hxT htr
          cases hg : x.here.green with
          | node k cs => unfold Red.isNode at hxn; rw [hg] at hxn; cases hxn
          | tok k w =>
            have : x.green = .tok k w := hg
            have hkk : x.kind = k := by unfold Red.kind; rw [hg]; rfl
            rw [this, Green.sym, if_pos (hkk ▸ htr)]
      obtain ⟨z, hz1, hz2, hz3⟩ := first_sig P hxT hxs (by rw [child_up hxc]; simp)
      have h1 := hnext z hz1 hz2 (by have := hBl x (by rw [hB12]; simp [hx]); omega)
      have hpw := childrenT_pairwise q
      rw [hDB, hB12, List.pairwise_append, List.pairwise_cons, List.pairwise_append] at hpw
      have h2 := hpw.2.1.2.2.2 x hx e List.mem_cons_self
      have hxpos : x.start < x.stop := by
        have hzz : x.text ≠ [] := by
          cases hn : x.isNode with
          | true => exact P.nonempty _ (P.inner_of hxT hn (by rw [child_up hxc]; simp))
          | false => exact P.leaf_nonempty (x.kind, x.text) (Parsed.token_leaf hxT hn)
        have h3 : x.stop = x.start + blen x.text := rfl
        have : 0 < blen x.text := by
          cases h : x.text with
          | nil => exact absurd h hzz
          | cons c cs => have := u8_pos c; simp only [blen]; omega
        omega
      omega
    have hesym := sym_eq P hC heT (by simpa [Red.sig] using hes)
    refine ⟨R, symOf e, B2.filterMap (fun c => c.green.sym), hR, ?_, ?_⟩
    · cases hn : e.isNode with
      | true => rw [symOf_node hn]; rfl
      | false => rw [symOf_tok hn]; rfl
    · rw [hB12, List.filterMap_append, hnone, List.nil_append, List.filterMap_cons, hesym] at hW
      exact hW

/-! ## Everything that is returned can come next -/

/-- Symbols the grammar has a meaning for. -/
def sound (s : Sym) : Bool :=
  match s with
  | .tok k => Nat.blt k 184
  | .node k => Nat.ble 184 k && (sparqlRules k).isSome

omit P hC in
theorem sound_rules : sparqlRulesTree.toList.all (fun p => allSyms sound p.2) = true := by decide +kernel

/-- A nullable node can also begin with something that is not. -/
def fullRule : Nat → Rule → Bool
  | 0, r => !r.nullable
  | n + 1, r => !r.nullable || r.first.any (fun k => Nat.blt k 184 || match sparqlRules k with | none => false | some r => fullRule n r)

omit P hC in
theorem full_rules : sparqlRulesTree.toList.all (fun p => fullRule 3 p.2) = true := by decide +kernel

end

theorem whole_sound {k : Kind} {R : Rule} (hR : sparqlRules k = some R) {l : List Sym} (h : Whole sparqlRules R l) : ∀ s ∈ l, sound s = true :=
  allSyms_sound h (List.all_eq_true.1 sound_rules _ (sparqlRulesTree.find_mem k R hR))

/-- Every symbol derives some tokens. -/
theorem sym_word {s : Sym} (hs : sound s = true) : ∃ w, Derives sparqlRules (symRule s) w := by
  refine prod_all sparqlProd (T := sparqlLL) sparql_sound.prod _ ?_
  cases s with
  | tok k => rfl
  | node k =>
    simp only [sound, Bool.and_eq_true] at hs
    exact hs.2

theorem syms_words {l : List Sym} (h : ∀ s ∈ l, sound s = true) : ∃ ws, List.Forall₂ (fun s w => Derives sparqlRules (symRule s) w) l ws := by
  induction l with
  | nil => exact ⟨[], .nil⟩
  | cons s l ih =>
    obtain ⟨w, hw⟩ := sym_word (h s List.mem_cons_self)
    obtain ⟨ws, hws⟩ := ih (fun x hx => h x (List.mem_cons_of_mem _ hx))
    exact ⟨w :: ws, .cons hw hws⟩

theorem solid_word {s : Sym} (hs : sound s = true) (hn : ∀ k, s = .node k → (Rule.node k).nullable = false) :
    ∃ w, w ≠ [] ∧ Derives sparqlRules (symRule s) w := by
  obtain ⟨w, hw⟩ := sym_word hs
  refine ⟨w, ?_, hw⟩
  rintro rfl
  cases s with
  | tok k => cases hw
  | node k =>
    have := null_derives null_ok hw rfl
    have h := hn k rfl
    unfold Rule.nullable at h
    rw [show symRule (.node k) = .node k from rfl] at this
    rw [this] at h; cases h

theorem full_tokens : ∀ (n : Nat) {k : Kind} {R : Rule}, sparqlRules k = some R → fullRule n R = true →
    ∃ w, w ≠ [] ∧ Derives sparqlRules (.node k) w := by
  have solid : ∀ {k : Kind} {R : Rule}, sparqlRules k = some R → R.nullable = false → ∃ w, w ≠ [] ∧ Derives sparqlRules (.node k) w := by
    intro k R hR hn
    have hs : sound (.node k) = true := by
      simp only [sound, Bool.and_eq_true]
      exact ⟨Nat.ble_eq_true_of_le (properRule hR).2, by rw [hR]; rfl⟩
    obtain ⟨w, h1, h2⟩ := solid_word hs (fun k' h => by injection h with h; rw [← h, nullable_node, hR]; exact hn)
    exact ⟨w, h1, h2⟩
  intro n
  induction n with
  | zero => intro k R hR hf; exact solid hR (by simpa [fullRule] using hf)
  | succ n ih =>
    intro k R hR hf
    cases hRn : R.nullable with
    | false => exact solid hR hRn
    | true =>
      simp only [fullRule, hRn, Bool.not_true, Bool.false_or, List.any_eq_true, Bool.or_eq_true] at hf
      obtain ⟨k', hk', hor⟩ := hf
      obtain ⟨s, l, h1, h2, h3⟩ := first_word (properRule hR).1 hk'
      have hsl := whole_sound hR h3
      obtain ⟨w, hw0, hw⟩ : ∃ w, w ≠ [] ∧ Derives sparqlRules (symRule s) w := by
        cases s with
        | tok j => exact ⟨[j], by simp, .tok j⟩
        | node j =>
          have hj : j = k' := h1
          subst hj
          have h2 : 184 ≤ j := h2
          rcases hor with h | h
          · exact absurd h2 (Nat.not_le.2 (by simpa using h))
          · cases hR' : sparqlRules j with
            | none => rw [hR'] at h; cases h
            | some R' => rw [hR'] at h; exact ih hR' h
      obtain ⟨ws, hws⟩ := syms_words (fun x hx => hsl x (List.mem_cons_of_mem _ hx))
      refine ⟨w ++ ws.flatten, by simp [hw0], .node _ R _ hR ?_⟩
      have := whole_subst h3 (.cons hw hws)
      rwa [List.flatten_cons] at this

/-- Every symbol derives at least one token. -/
theorem sym_tokens {s : Sym} (hs : sound s = true) : ∃ w, w ≠ [] ∧ Derives sparqlRules (symRule s) w := by
  cases s with
  | tok k => exact ⟨[k], by simp, .tok k⟩
  | node k =>
    obtain ⟨R, hR⟩ : ∃ R, sparqlRules k = some R := by
      simp only [sound, Bool.and_eq_true] at hs
      exact Option.isSome_iff_exists.1 hs.2
    exact full_tokens 3 hR (List.all_eq_true.1 full_rules _ (sparqlRulesTree.find_mem k R hR))

/-- The kinds of the significant tokens of an element in front of an offset. -/
def before (r : Red) (off : Nat) : List Kind := sigKs (r.tokens.filter (fun z => decide (z.start < off)))

/-- A symbol of the kind can come next, and then the element can be completed. -/
def GoesOn (r : Red) (off : Nat) (k : Kind) : Prop :=
  ∃ w v, w ≠ [] ∧ Derives sparqlRules (if k < 184 then .tok k else .node k) w ∧ Derives sparqlRules (.node r.kind) (before r off ++ w ++ v)

theorem token_within {g : Green} {r z : Red} (hr : InTree g r) (hz : z ∈ r.tokens) : r.start ≤ z.start ∧ z.stop ≤ r.stop := by
  have h := (List.mem_filter.1 hz).1
  exact (inTree_of_mem_descendantsT r hr z h).anc_within r (descendantsT_anc h)

section
variable {text : Text} {g : Green} (P : Parsed text g) (hC : ∀ n ∈ g.nodes, Grammar.Complete sparqlRules n)
include P hC

theorem before_parts {t : Red} {q c : Red} (hqT : InTree g q) (hqn : q.isNode = true) {D B : List Red} (hDB : q.childrenT = D ++ c :: B)
    (hD : ∀ x ∈ D, x.stop ≤ c.start) (hcl : c.start < t.stop) (hB : ∀ x ∈ B, t.stop ≤ x.start) :
    before q t.stop = sigKs (D.flatMap Red.tokens) ++ before c t.stop := by
  have hin : ∀ x ∈ D ++ c :: B, InTree g x := fun x hx => hqT.child (by rw [hDB]; exact hx)
  unfold before
  rw [tokens_eq q, if_pos hqn, hDB, List.flatMap_append, List.flatMap_cons, List.filter_append, List.filter_append, sigKs_append, sigKs_append,
    (List.filter_eq_self (l := D.flatMap Red.tokens)).2 (fun z hz => ?_), (List.filter_eq_nil_iff (l := B.flatMap Red.tokens)).2 (fun z hz => ?_)]
  · show _ ++ (_ ++ []) = _
    rw [List.append_nil]
  · obtain ⟨x, hx, hzx⟩ := List.mem_flatMap.1 hz
    have := token_within (hin x (by simp [hx])) hzx
    have := hB x hx
    simp; omega
  · obtain ⟨x, hx, hzx⟩ := List.mem_flatMap.1 hz
    have := token_within (hin x (by simp [hx])) hzx
    have := hD x hx
    have h3 : z.start ≤ z.stop := by show z.start ≤ z.start + _; omega
    simp; omega

/-- The symbols in front of the offset derive the tokens in front of it. -/
theorem done_words {t : Red} {q c : Red} (hqT : InTree g q) (hc : c ∈ q.childrenT) {D : List Red} (hDq : ∀ x ∈ D, x ∈ q.childrenT)
    (hcs : c.sig = true) (hdone : done q t.stop = (D ++ [c]).filterMap (fun c => c.green.sym))
    (hfin : Derives sparqlRules (symRule (symOf c)) (before c t.stop)) :
    ∃ ws, List.Forall₂ (fun s w => Derives sparqlRules (symRule s) w) (done q t.stop) ws ∧
      ws.flatten = sigKs (D.flatMap Red.tokens) ++ before c t.stop := by
  have hs : done q t.stop = (D.filter Red.sig).map symOf ++ [symOf c] := by
    rw [hdone, List.filterMap_append]
    have := syms_sig P hC hqT hDq
    rw [List.filterMap_map] at this
    have h2 : [c].filterMap (fun c => c.green.sym) = [symOf c] := by
      rw [List.filterMap_cons, sym_eq P hC (hqT.child hc) (by simpa [Red.sig] using hcs)]; rfl
    rw [h2, ← this]; rfl
  refine ⟨(D.filter Red.sig).map word ++ [before c t.stop], ?_, ?_⟩
  · rw [hs]
    refine List.rel_append (words_derive P hC hqT fun x hx => ?_) (.cons hfin .nil)
    obtain ⟨h1, h2⟩ := List.mem_filter.1 hx
    exact ⟨hDq x h1, h2⟩
  · rw [List.flatten_append, flat_words P hqT hDq]; simp

theorem goes_on {t : Red} (ht : InTree g t) (hk : triviaKind t.kind = false) (hpos : t.start < t.stop) {k : Kind} :
    ∀ x : Red, InTree g x → x ∈ t.ancestors →
      ((x.isNode = true → GoesOn x t.stop k → GoesOn (Red.root g) t.stop k) ∧
       (Derives sparqlRules (symRule (symOf x)) (before x t.stop) → CanFollow (Red.chain x.up) t.stop k → GoesOn (Red.root g) t.stop k)) := by
  intro x hx
  induction hx with
  | root => exact fun _ => ⟨fun _ h => h, fun _ h => absurd h canFollow_nil⟩
  | @child r c hr hc ih =>
    intro hca
    have hrn := child_isNode hc
    have hra : r ∈ t.ancestors := ancestors_trans hca (by unfold Red.ancestors; rw [parent_chain (child_parent hc)]; simp)
    obtain ⟨ih1, ih2⟩ := ih hra
    obtain ⟨R, D, B, hR, hDB, hD, hcl, hcs, hBl, hdone, hW⟩ := valid_parts P hC ht hk hpos hr hc hca
    have hbef := before_parts P hC (t := t) hr hrn hDB hD hcl hBl
    have hDq : ∀ x ∈ D, x ∈ r.childrenT := fun x hx => by rw [hDB]; simp [hx]
    constructor
    · rintro hcn ⟨w, v, hw0, hw, hv⟩
      refine ih1 hrn ⟨w, v ++ sigKs (B.flatMap Red.tokens), hw0, hw, ?_⟩
      have := exchange_child P hC hr hDB hcn hv
      rw [hbef]
      simpa using this
    · intro hfin hcan
      rw [parent_chain (child_parent hc), canFollow_cons] at hcan
      obtain ⟨ws, hws, hfl⟩ := done_words P hC hr hc hDq hcs hdone hfin
      rcases hcan with ⟨R', s, l, h1, h2, h3⟩ | ⟨⟨R', h1, h2⟩, hrest⟩
      · rw [hR] at h1; injection h1 with h1; subst h1
        have hsl := whole_sound hR h3
        have hss := hsl s (by simp)
        obtain ⟨w, hw0, hw⟩ := sym_tokens hss
        obtain ⟨vs, hvs⟩ := syms_words (l := l) (fun x hx => hsl x (by simp [hx]))
        refine ih1 hrn ⟨w, vs.flatten, hw0, ?_, ?_⟩
        · rw [← h2]
          cases s with
          | tok j =>
            have : j < 184 := by simpa [sound] using hss
            rw [if_pos (show (Sym.tok j).kind < 184 from this)]; exact hw
          | node j =>
            simp only [sound, Bool.and_eq_true] at hss
            have : (184 : Nat) ≤ j := Nat.le_of_ble_eq_true hss.1
            rw [if_neg (show ¬(Sym.node j).kind < 184 from Nat.not_lt.2 this)]; exact hw
        · refine .node _ R _ hR ?_
          have := whole_subst h3 (List.rel_append hws (.cons hw hvs))
          rw [List.flatten_append, hfl, List.flatten_cons, ← hbef] at this
          simpa using this
      · rw [hR] at h1; injection h1 with h1; subst h1
        refine ih2 ?_ hrest
        rw [symOf_node hrn]
        refine .node _ R _ hR ?_
        have := whole_subst h2 hws
        rw [hfl, ← hbef] at this
        exact this

end

theorem token_pos {text : Text} {g : Green} (P : Parsed text g) {t : Red} (ht : t ∈ (Red.root g).tokens) :
    InTree g t ∧ t.isNode = false ∧ t.start < t.stop := by
  have hin := inTree_of_mem_descendantsT _ .root _ (List.mem_filter.1 ht).1
  have hn : t.isNode = false := by simpa using (List.mem_filter.1 ht).2
  refine ⟨hin, hn, ?_⟩
  have hne : t.text ≠ [] := P.leaf_nonempty (t.kind, t.text) (Parsed.token_leaf hin hn)
  have : t.stop = t.start + blen t.text := rfl
  have : 0 < blen t.text := by
    cases h : t.text with
    | nil => exact absurd h hne
    | cons c cs => have := u8_pos c; simp only [blen]; omega
  omega

/-- C67. In a document without syntax errors, behind any token: the search has a result. Everything in it can come next — with it the
tokens so far can be completed to a valid document. And what really comes next is in it. -/
theorem c67_valid {errLen : Text → Nat} {text : Text} {g errs} (hp : parseSource errLen text = some (g, errs))
    (hd : Derives sparqlRules (.node g.kind) (kinds (lex errLen text))) {t : Red} (ht : t ∈ (Red.root g).tokens) (hk : triviaKind t.kind = false) :
    ∃ ks, Continues g t.stop (some ks) ∧ (∀ k, k ∈ ks ↔ CanFollow (Red.chain t.up) t.stop k) ∧
      (∀ k ∈ ks, ∃ w v, w ≠ [] ∧ Derives sparqlRules (if k < 184 then .tok k else .node k) w ∧
        Derives sparqlRules (.node g.kind) (sigKs ((Red.root g).tokens.filter (fun z => decide (z.start < t.stop))) ++ w ++ v)) ∧
      (∀ u ∈ (Red.root g).tokens, triviaKind u.kind = false → t.stop ≤ u.start →
        (∀ z ∈ (Red.root g).tokens, triviaKind z.kind = false → t.stop ≤ z.start → u.start ≤ z.start) →
        ∃ e ∈ u.ancestors, e.start = u.start ∧ e.kind ∈ ks) := by
  have P := parsed_of hp
  have hC := complete_of hp hd
  obtain ⟨hin, hn, hpos⟩ := token_pos P ht
  obtain ⟨ks, h1, h2⟩ := c67_exact hp ht (valid_sound P hC hin hk hpos)
  refine ⟨ks, h1, h2, fun k hk' => ?_, fun u hu huk htu hnext => ?_⟩
  · have hfin : Derives sparqlRules (symRule (symOf t)) (before t t.stop) := by
      have : before t t.stop = [t.kind] := by
        unfold before
        rw [tokens_eq t, if_neg (by simp [hn])]
        simp [sigKs, hpos, hk]
      rw [this, symOf_tok hn]
      exact .tok _
    exact (goes_on P hC hin hk hpos t hin List.mem_cons_self).2 hfin ((h2 k).1 hk')
  · obtain ⟨huT, hun, hupos⟩ := token_pos P hu
    obtain ⟨e, h3, h4, h5⟩ := next_follows P hC hin hn hk hpos huT hun huk hupos htu hnext
    exact ⟨e, h3, h4, (h2 _).2 h5⟩

/-! ## A concrete case -/

/-- C67. In the valid document `SELECT * {{?s ?p ?o} VALUES ?x {<a>}}`: behind the token `*` a dataset or the `WHERE` can follow; behind
`?o` more paths of the node (`AnnotationPath` ..), a comma, a semicolon, a dot, another pattern or the closing brace; behind the inner brace
`UNION`, a dot, and what follows in the outer group. In the incomplete `SELECT ?x {?x a`, and behind its end, the path can go on or the
object follow. -/
theorem c67_cases :
    ((parseSource (fun _ => 1) deepText).map Prod.fst = some deepTree ∧
      Derives sparqlRules (.node deepTree.kind) (kinds (lex (fun _ => 1) deepText)) ∧
      (∃ t ∈ (Red.root deepTree).tokens, triviaKind t.kind = false ∧ t.stop = 8) ∧
      Continues deepTree 8 (some [K.DatasetClause, K.WhereClause]) ∧
      Continues deepTree 19 (some [K.AnnotationPath, K.Comma, K.Semicolon, K.Dot, K.GraphPatternNotTriples, K.RCurly]) ∧
      Continues deepTree 20 (some [K.UNION, K.Dot, K.TriplesBlock, K.GraphPatternNotTriples, K.RCurly])) ∧
    ((parseSource (fun _ => 1) badText).map Prod.fst = some badTree ∧
      Continues badTree 15 (some [K.PathMod, K.Slash, K.Pipe, K.ObjectListPath]) ∧
      Continues badTree 40 (some [K.PathMod, K.Slash, K.Pipe, K.ObjectListPath])) :=
  ⟨⟨by rw [deepTree_parse]; rfl, deep_derives, by decide +kernel, ends_of_steps (n := 2000) (by decide +kernel),
    ends_of_steps (n := 2000) (by decide +kernel), ends_of_steps (n := 2000) (by decide +kernel)⟩,
    by rw [badTree_parse]; rfl, ends_of_steps (n := 2000) (by decide +kernel), ends_of_steps (n := 2000) (by decide +kernel)⟩

end Verif.Props
