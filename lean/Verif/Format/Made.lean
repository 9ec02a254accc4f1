import Verif.Format.Place
/-!
# The kinds of edits the walk produces, and that they fit to the pieces of the document
-/
namespace Verif.Format
open Verif Verif.Grammar Verif.Lexer Verif.Features Verif.Props

/-- A maximal run `T` of trivia between children of an element. -/
structure Gap (g : Green) (r : Red) (X T Y : List Red) : Prop where
  split : r.childrenT = X ++ (T ++ Y)
  trivia : ∀ t ∈ T, triviaKind t.kind = true
  left : (X = [] ∧ r = Red.root g) ∨ ∃ X' a, X = X' ++ [a] ∧ triviaKind a.kind = false
  right : (Y = [] ∧ r = Red.root g) ∨ ∃ b Y', Y = b :: Y' ∧ triviaKind b.kind = false

/-- The edits for an element. -/
inductive Made (σ : Bool) (g : Green) (r : Red) : SEdit → Prop
  | before {x t} (hx : Solid g x) (ht : Spaces t) : Made σ g r (insAt x.start t)
  | behind {x t} (hx : Solid g x) (ht : Spaces t) : Made σ g r (insAt x.stop t)
  | sign {t} (hσ : σ = true) (hr : InTree g r) (hn : r.isNode = false) (hk : r.kind ∈ signed) (ht : Spaces t) : Made σ g r (insAt (r.start + 1) t)
  | gap {X T Y e} (hr : InTree g r) (hg : Gap g r X T Y) (h1 : e.start = r.start + blen (flat (lv X)))
      (h2 : e.stop = r.start + blen (flat (lv X)) + blen (flat (lv T))) (ht : Spaces e.text) : Made σ g r e
  | restyle {t} (hr : InTree g r) (hn : r.isNode = false) (hk : triviaKind r.kind = false) (hC : r.kind ≠ K.Comma)
      (hp : pieces σ r.kt = [r.kt]) (hf : Firm r.kt t) : Made σ g r (replace r t)
  | comma {c} (hr : InTree g r) (hc : c ∈ r.childrenT) (hk : c.kind = K.Comma) : Made σ g r (replace c [',', ' '])
  | first {a m b t} (hr : InTree g r) (hn : r.isNode = false) (hk : triviaKind r.kind = false) (hC : r.kind ≠ K.Comma)
      (hp : pieces σ r.kt = [(r.kind, a), (K.WHITESPACE, m), (r.kind, b)]) (hf : Firm (r.kind, a) t) :
      Made σ g r ⟨r.start, r.start + blen a, t⟩
  | middle {a m b t} (hr : InTree g r) (hn : r.isNode = false) (hk : triviaKind r.kind = false) (hC : r.kind ≠ K.Comma)
      (hp : pieces σ r.kt = [(r.kind, a), (K.WHITESPACE, m), (r.kind, b)]) (ht : Spaces t) :
      Made σ g r ⟨r.start + blen a, r.stop - blen b, t⟩
  | second {a m b t} (hr : InTree g r) (hn : r.isNode = false) (hk : triviaKind r.kind = false) (hC : r.kind ≠ K.Comma)
      (hp : pieces σ r.kt = [(r.kind, a), (K.WHITESPACE, m), (r.kind, b)]) (hf : Firm (r.kind, b) t) :
      Made σ g r ⟨r.stop - blen b, r.stop, t⟩

/-- The token an edit that is not an insertion begins in, and the comments it covers. -/
def Anchor (g : Green) (r : Red) (e : SEdit) (M : Pieces) : Prop :=
  ∃ t, InTree g t ∧ t.isNode = false ∧ t.start ≤ e.start ∧ e.start < t.stop ∧
    ((t = r ∧ triviaKind t.kind = false ∧ t.kind ≠ K.Comma ∧ comsOf M = []) ∨
     (t ∈ r.childrenT ∧ t.kind = K.Comma ∧ comsOf M = []) ∨
     (t ∈ r.childrenT ∧ triviaKind t.kind = true ∧ ∃ X T Y, Gap g r X T Y ∧ e.start = r.start + blen (flat (lv X)) ∧
       e.stop = r.start + blen (flat (lv X)) + blen (flat (lv T)) ∧ comsOf M = comsOf (T.map Red.kt)))

section
variable {text : Text} {g : Green} (P : Parsed text g)
include P

theorem comsOf_one {x : Kind × Text} (h : x.1 ≠ K.Comment) : comsOf [x] = [] := by
  unfold comsOf
  rw [List.filter_cons_of_neg (by simpa using h)]
  rfl

omit P in
theorem not_comment {k : Kind} (h : triviaKind k = false) : k ≠ K.Comment := by
  rintro rfl; exact absurd h (by decide)

theorem token_pos {r : Red} (hr : InTree g r) (hn : r.isNode = false) : r.start < r.stop := by
  have h1 := P.leaf_nonempty _ (Parsed.token_leaf hr hn)
  have := blen_pos h1
  show r.start < r.start + blen r.text
  have e : blen (r.kind, r.text).2 = blen r.text := rfl
  omega

theorem PL_token {r : Red} (hn : r.isNode = false) : PL σ r.green.leaves = pieces σ r.kt := by
  rw [token_leaves hn]; simp [PL]

theorem firmOf_one {x : Kind × Text} (h : triviaKind x.1 = false) : firmOf [x] = [x] := by
  unfold firmOf
  rw [List.filter_cons_of_pos (by rw [h]; rfl)]
  rfl

omit P in
theorem root_start : (Red.root g).start = 0 := rfl

theorem gap_fits {r : Red} {X T Y : List Red} {e : SEdit} (hr : InTree g r) (hg : Gap g r X T Y)
    (h1 : e.start = r.start + blen (flat (lv X))) (h2 : e.stop = r.start + blen (flat (lv X)) + blen (flat (lv T))) (ht : Spaces e.text) :
    ∃ i j, Fits (PL σ g.leaves) e i j ∧ (e.start < e.stop → Anchor g r e (slice (PL σ g.leaves) i j)) := by
  have hlvT : lv T = T.map Red.kt := by
    have hT : ∀ t ∈ T, t.isNode = false := fun t h => trivia_token P
      (.child hr (by rw [hg.split]; exact List.mem_append_right _ (List.mem_append_left _ h))) (hg.trivia t h)
    clear h2
    have : ∀ T : List Red, (∀ t ∈ T, t.isNode = false) → lv T = T.map Red.kt := by
      intro T
      induction T with
      | nil => intro _; rfl
      | cons t T ih =>
        intro h
        have e : lv (t :: T) = t.green.leaves ++ lv T := rfl
        rw [e, token_leaves (h t List.mem_cons_self), ih (fun x hx => h x (List.mem_cons_of_mem _ hx))]
        rfl
    exact this T hT
  by_cases hnode : r.isNode = true
  · obtain ⟨A, B, hgA, hgB, eA, hsA, hPL, -⟩ := placed P hr
    have hcl := children_leaves hnode
    rw [hg.split, lv_append, lv_append] at hcl
    have hgr := good_inTree (good_of P) hr
    rw [hcl] at hgr
    have htriv : ∀ x ∈ lv T, triviaKind x.1 = true := by
      rw [hlvT]
      intro x hx
      obtain ⟨t, h, rfl⟩ := List.mem_map.1 hx
      exact hg.trivia t h
    have hPT : PL σ (lv T) = lv T := PL_trivia htriv
    have hroot : r = Red.root g → A = [] ∧ B = [] := by
      rintro rfl
      have : (Red.root g).green.leaves = g.leaves := rfl
      rw [this] at eA
      have := congrArg List.length eA
      simp only [List.length_append] at this
      exact ⟨List.eq_nil_of_length_eq_zero (by omega), List.eq_nil_of_length_eq_zero (by omega)⟩
    have hends : ends (PL σ A ++ PL σ (lv X)) = false := by
      rcases hg.left with ⟨h3, h4⟩ | ⟨X', a, h3, h4⟩
      · rw [h3, (hroot h4).1]; rfl
      · rw [h3, lv_append, PL_append, ← List.append_assoc]
        have : PL σ (lv [a]) = PL σ a.green.leaves := by simp [lv]
        rw [this]
        exact solid_end P (child_solid P hr (by rw [hg.split, h3]; simp) h4) _
    have hbeg : begins (PL σ (lv Y) ++ PL σ B) = false := by
      rcases hg.right with ⟨h3, h4⟩ | ⟨b, Y', h3, h4⟩
      · rw [h3, (hroot h4).2]; rfl
      · have : lv Y = b.green.leaves ++ lv Y' := by rw [h3]; rfl
        rw [this, PL_append, List.append_assoc]
        exact solid_begin P (child_solid P hr (by rw [hg.split, h3]; simp) h4) _
    have hP : PL σ g.leaves = (PL σ A ++ PL σ (lv X)) ++ (lv T ++ (PL σ (lv Y) ++ PL σ B)) := by
      rw [hPL, hcl, PL_append, PL_append, hPT]; simp only [List.append_assoc]
    have hb : blen (flat (PL σ A ++ PL σ (lv X))) = r.start + blen (flat (lv X)) := by
      rw [flat_app, blen_append, ← hsA, flat_PL hgr.left]
    have hfirm : firmOf (lv T) = [] := (solid_run htriv).2
    have hfit := fits_split (e := e) hP (by rw [hb, h1]) (by rw [hb, h2]) (by rw [hfirm]; exact .done ht) (by
      by_cases hT : lv T = []
      · exact .inl ⟨hT, .inl hends⟩
      · exact .inr (.inr ⟨hT, htriv, hends, hbeg⟩))
    refine ⟨_, _, hfit.1, ?_⟩
    intro hlt
    rw [hfit.2]
    cases hT : T with
    | nil => rw [h1, h2, hT] at hlt; simp [lv, flat, blen] at hlt
    | cons t T' =>
      have htmem : t ∈ r.childrenT := by rw [hg.split, hT]; simp
      have htin : InTree g t := .child hr htmem
      have httr : triviaKind t.kind = true := hg.trivia t (by rw [hT]; simp)
      have htok := trivia_token P htin httr
      have hst : t.start = e.start := by
        rw [h1]
        exact (child_places (hg.split)).2 t (T' ++ Y) (by rw [hT]; rfl)
      refine ⟨t, htin, htok, by omega, by rw [← hst]; exact token_pos P htin htok, .inr (.inr ⟨htmem, httr, X, T, Y, hg, h1, h2, ?_⟩)⟩
      rw [← hT, hlvT]
  · have hnil : r.childrenT = [] := by
      cases hc : r.childrenT with
      | nil => rfl
      | cons c cs => exact absurd (child_isNode (r := r) (c := c) (by rw [hc]; simp)) hnode
    have hX := hg.left
    have h0 := hg.split
    rw [hnil] at h0
    have hX0 : X = [] := (List.append_eq_nil_iff.1 h0.symm).1
    rcases hX with ⟨-, h4⟩ | ⟨X', a, h3, -⟩
    · rw [h4] at hnode
      exact absurd (root_isNode P) hnode
    · rw [hX0] at h3
      exact absurd h3.symm (by simp)

theorem made_fits {r : Red} {e : SEdit} (h : Made σ g r e) :
    ∃ i j, Fits (PL σ g.leaves) e i j ∧ (e.start < e.stop → Anchor g r e (slice (PL σ g.leaves) i j)) := by
  cases h with
  | @before x t hx ht =>
    obtain ⟨A, B, -, -, -, hs, hP, -⟩ := placed P hx.1
    have := fits_split (P := PL σ g.leaves) (e := insAt x.start t) (M := []) (by rw [List.nil_append]; exact hP) hs (by rw [← hs]; rfl)
      (.done ht) (.inl ⟨rfl, .inr (solid_begin P hx _)⟩)
    exact ⟨_, _, this.1, fun h => absurd h (Nat.lt_irrefl _)⟩
  | @behind x t hx ht =>
    obtain ⟨A, B, -, -, -, hs, hP, hst⟩ := placed P hx.1
    have := fits_split (P := PL σ g.leaves) (e := insAt x.stop t) (A := PL σ A ++ PL σ x.green.leaves) (M := []) (B := PL σ B)
      (by rw [List.nil_append, List.append_assoc]; exact hP) (by rw [flat_app, blen_append]; exact hst)
      (by rw [flat_app, blen_append, ← hst]; rfl) (.done ht) (.inl ⟨rfl, .inl (solid_end P hx _)⟩)
    exact ⟨_, _, this.1, fun h => absurd h (Nat.lt_irrefl _)⟩
  | @sign t hσ hr hn hk ht =>
    subst hσ
    obtain ⟨A, B, -, -, -, hs, hP, hst⟩ := placed P hr
    have hE : r.kind ≠ K.Error := by
      intro hE; rw [hE] at hk; exact absurd hk (by decide)
    obtain ⟨c, d, cs, ht', hc, hp⟩ := pieces_signed (token_rule P hr hn hE) hk
    rw [PL_token P hn, hp] at hP
    have htv : triviaKind r.kind = false := by
      have : ∀ k ∈ signed, triviaKind k = false := by decide
      exact this _ hk
    have hu : u8 c = 1 := ascii_u8 hc
    have := fits_split (P := PL true g.leaves) (e := insAt (r.start + 1) t) (A := PL true A ++ [(r.kind, [c])]) (M := []) (B := (r.kind, d :: cs) :: PL true B)
      (by rw [hP]; simp [Red.kt]) (by rw [flat_app, blen_append, ← hs]; simp [insAt, flat, blen, hu])
      (by rw [flat_app, blen_append, ← hs]; simp [insAt, flat, blen, hu]) (.done ht) (.inl ⟨rfl, .inr htv⟩)
    exact ⟨_, _, this.1, fun h => absurd h (Nat.lt_irrefl _)⟩
  | gap hr hg h1 h2 ht => exact gap_fits P hr hg h1 h2 ht
  | @restyle t hr hn hk hC hp hf =>
    obtain ⟨A, B, -, -, -, hs, hP, hst⟩ := placed P hr
    rw [PL_token P hn, hp] at hP hst
    have := fits_split (P := PL σ g.leaves) (e := replace r t) hP hs hst (by rw [firmOf_one P hk]; exact Laid.single (not_comment hk) hf)
      (.inr (.inl ⟨_, rfl, hk⟩))
    refine ⟨_, _, this.1, fun h => ⟨r, hr, hn, Nat.le_refl _, h, .inl ⟨rfl, hk, hC, ?_⟩⟩⟩
    rw [this.2]
    exact comsOf_one P (not_comment hk)
  | @comma c hr hc hk =>
    have hci : InTree g c := .child hr hc
    have hn : c.isNode = false := is_token P hci (ks := [K.Comma]) (by rw [hk]; simp) (by decide +kernel)
    have htx : c.text = [','] := comma_text (token_rule P hci hn (by rw [hk]; decide)) hk
    have htv : triviaKind c.kind = false := by rw [hk]; decide
    have hp : pieces σ c.kt = [c.kt] := pieces_one (show secondWord c.kind = none by rw [hk]; decide) (show c.kind ∉ signed by rw [hk]; decide)
    obtain ⟨A, B, -, -, -, hs, hP, hst⟩ := placed P hci
    rw [PL_token P hn, hp] at hP hst
    have hlaid : Laid Firm [c.kt] [',', ' '] := by
      have h1 : Laid Firm [c.kt] ([','] ++ [' ']) :=
        Laid.token (p := c.kt) (t := [',']) spaces_nil (not_comment htv) ⟨.inl htx.symm, ',', [], rfl, by decide⟩ (.done (spaces_sp spaces_nil))
      exact h1
    have := fits_split (P := PL σ g.leaves) (e := replace c [',', ' ']) hP hs hst (by rw [firmOf_one P htv]; exact hlaid)
      (.inr (.inl ⟨_, rfl, htv⟩))
    refine ⟨_, _, this.1, fun h => ⟨c, hci, hn, Nat.le_refl _, h, .inr (.inl ⟨hc, hk, ?_⟩)⟩⟩
    rw [this.2]
    exact comsOf_one P (not_comment htv)
  | @first a m b t hr hn hk hC hp hf =>
    obtain ⟨A, B, -, -, -, hs, hP, hst⟩ := placed P hr
    rw [PL_token P hn, hp] at hP hst
    have hlen : r.stop = r.start + blen a + blen m + blen b := by
      rw [hst, ← hs]; simp [flat, blen_append]; try omega
    have := fits_split (P := PL σ g.leaves) (e := ⟨r.start, r.start + blen a, t⟩) (A := PL σ A) (M := [(r.kind, a)]) (B := (K.WHITESPACE, m) :: (r.kind, b) :: PL σ B)
      (by rw [hP]; simp) hs (by simp [hs, flat])
      (by rw [firmOf_one P hk]; exact Laid.single (not_comment hk) hf) (.inr (.inl ⟨_, rfl, hk⟩))
    refine ⟨_, _, this.1, fun h => ⟨r, hr, hn, Nat.le_refl _, by simp only at h ⊢; omega, .inl ⟨rfl, hk, hC, ?_⟩⟩⟩
    rw [this.2]
    exact comsOf_one P (not_comment hk)
  | @middle a m b t hr hn hk hC hp ht =>
    obtain ⟨A, B, -, -, -, hs, hP, hst⟩ := placed P hr
    rw [PL_token P hn, hp] at hP hst
    have hlen : r.stop = r.start + blen a + blen m + blen b := by
      rw [hst, ← hs]; simp [flat, blen_append]; try omega
    have hw : triviaKind K.WHITESPACE = true := by decide
    have := fits_split (P := PL σ g.leaves) (e := ⟨r.start + blen a, r.stop - blen b, t⟩) (A := PL σ A ++ [(r.kind, a)]) (M := [(K.WHITESPACE, m)])
      (B := (r.kind, b) :: PL σ B)
      (by rw [hP]; simp) (by rw [flat_app, blen_append, ← hs]; simp [flat])
      (by rw [flat_app, blen_append, ← hs]; simp [flat]; omega)
      (by rw [show firmOf [(K.WHITESPACE, m)] = [] from rfl]; exact .done ht)
      (.inr (.inr ⟨by simp, by intro x hx; simp at hx; rw [hx]; exact hw, by rw [ends_append (by simp)]; exact hk, hk⟩))
    refine ⟨_, _, this.1, fun h => ⟨r, hr, hn, by simp only; omega, by simp only at h ⊢; omega, .inl ⟨rfl, hk, hC, ?_⟩⟩⟩
    rw [this.2]
    rfl
  | @second a m b t hr hn hk hC hp hf =>
    obtain ⟨A, B, -, -, -, hs, hP, hst⟩ := placed P hr
    rw [PL_token P hn, hp] at hP hst
    have hlen : r.stop = r.start + blen a + blen m + blen b := by
      rw [hst, ← hs]; simp [flat, blen_append]; try omega
    have := fits_split (P := PL σ g.leaves) (e := ⟨r.stop - blen b, r.stop, t⟩) (A := PL σ A ++ [(r.kind, a), (K.WHITESPACE, m)]) (M := [(r.kind, b)]) (B := PL σ B)
      (by rw [hP]; simp) (by rw [flat_app, blen_append, ← hs]; simp [flat, blen_append]; omega)
      (by rw [flat_app, blen_append, ← hs]; simp [flat, blen_append]; omega)
      (by rw [firmOf_one P hk]; exact Laid.single (not_comment hk) hf) (.inr (.inl ⟨_, rfl, hk⟩))
    refine ⟨_, _, this.1, fun h => ⟨r, hr, hn, by simp only; omega, by simp only at h ⊢; omega, .inl ⟨rfl, hk, hC, ?_⟩⟩⟩
    rw [this.2]
    exact comsOf_one P (not_comment hk)

end
end Verif.Format
