import Verif.Features.Continuations
import Verif.Features.Clause
import Verif.Features.Surgery
/-!
# What can follow at an offset (C67)

Specification: `done`, `Closes`, `Extends`, `CanFollow` (Features/Continuations.lean).
-/
namespace Verif.Props
open Verif Verif.Grammar Verif.Lexer Verif.Features Verif.Format

/-! ## The loop ends -/

/-- Rounds that do not consume the child do not change the outcome. -/
theorem ends_to {off : Nat} {p : Red} {c : Red} {kids : List Red} {res : List Kind} (hs : c.start < off) (ht : triviaKind c.kind = false)
    (hE : c.kind ≠ K.Error) {S S' : List Rule} (t : To c.kind S S') {out}
    (h : Ends off (.go ⟨p, c :: kids, S', res⟩) out) : Ends off (.go ⟨p, c :: kids, S, res⟩) out := by
  induction t with
  | refl => exact h
  | @step r S S' S'' hx t ih =>
    refine .go ?_
    have : turn off ⟨p, c :: kids, r :: S, res⟩ = .go ⟨p, c :: kids, S', res⟩ := by
      unfold turn
      simp only
      rw [if_neg (by omega), ht]
      simp only [Bool.false_eq_true, if_false]
      rw [if_neg (by simpa using hE), hx]
    rw [this]
    exact ih h

theorem turn_live {off : Nat} {p : Red} {c : Red} {kids : List Red} {res : List Kind} (hs : c.start < off) (ht : triviaKind c.kind = false)
    (hE : c.kind ≠ K.Error) (m : Rule) (S : List Rule) : turn off ⟨p, c :: kids, m :: S, res⟩ =
      match expand c.kind m S with
        | .eat => if kids.isEmpty && S.isEmpty then goUp p res else .go ⟨p, kids, S, res⟩
        | .stop => .done (some res)
        | .fail => .done none
        | .to S' => .go ⟨p, c :: kids, S', res⟩ := by
  unfold turn
  simp only
  rw [if_neg (by omega), ht]
  simp only [Bool.false_eq_true, if_false]
  rw [if_neg (by simpa using hE)]
  cases expand c.kind m S <;> rfl

/-- C67. The search always ends, in every tree and at every offset, with one result. -/
theorem c67_ends (g : Green) (offset : Nat) : ∃ out, Continues g offset out ∧ ∀ out', Continues g offset out' → out' = out := by
  have key : ∀ (off : Nat) (t : Turn), ∃ out, Ends off t out := by
    intro off
    have main : ∀ (n : Nat), (∀ p res, p.up.length < n → ∃ out, Ends off (enter p res) out) → ∀ p, p.up.length = n →
        ∀ kids S res, ∃ out, Ends off (.go ⟨p, kids, S, res⟩) out := by
      intro n hn p hp
      have hup : ∀ res, ∃ out, Ends off (goUp p res) out := by
        intro res
        unfold goUp
        obtain ⟨s, up⟩ := p
        cases up with
        | nil => exact ⟨_, .done _⟩
        | cons s' up =>
          exact hn ⟨s', up⟩ res (by simp at hp ⊢; omega)
      have hcol : ∀ w : Walk, w.parent = p → ∃ out, Ends off (collectRest w) out := by
        intro w hw
        unfold collectRest
        split
        · rw [hw]; exact hup _
        · exact ⟨_, .done _⟩
      intro kids
      induction kids with
      | nil =>
        intro S res
        obtain ⟨out, h⟩ := hcol ⟨p, [], S, res⟩ rfl
        exact ⟨out, .go h⟩
      | cons c kids ihk =>
        intro S
        induction S with
        | nil => intro res; exact ⟨_, .go (.done _)⟩
        | cons r S ihS =>
          intro res
          by_cases hs : off ≤ c.start
          · obtain ⟨out, h⟩ := hcol ⟨p, c :: kids, r :: S, res⟩ rfl
            refine ⟨out, .go ?_⟩
            have : turn off ⟨p, c :: kids, r :: S, res⟩ = collectRest ⟨p, c :: kids, r :: S, res⟩ := by
              unfold turn; simp only; rw [if_pos hs]
            rw [this]; exact h
          · cases ht : triviaKind c.kind with
            | true =>
              obtain ⟨out, h⟩ := ihk (r :: S) res
              refine ⟨out, .go ?_⟩
              have : turn off ⟨p, c :: kids, r :: S, res⟩ = .go ⟨p, kids, r :: S, res⟩ := by
                unfold turn; simp only; rw [if_neg hs, ht]; rfl
              rw [this]; exact h
            | false =>
              by_cases hE : c.kind = K.Error
              · refine ⟨some res, .go ?_⟩
                have : turn off ⟨p, c :: kids, r :: S, res⟩ = .done (some res) := by
                  unfold turn; simp only; rw [if_neg hs, ht, hE]; rfl
                rw [this]; exact .done _
              · have hs : c.start < off := by omega
                by_cases hk : c.kind ∈ r.first
                · obtain ⟨m, S', t, hx⟩ := take_to hk S
                  have : ∃ out, Ends off (.go ⟨p, c :: kids, m :: S', res⟩) out := by
                    have hl := turn_live (p := p) (kids := kids) (res := res) hs ht hE m S'
                    rw [hx] at hl
                    simp only at hl
                    split at hl
                    · obtain ⟨out, h⟩ := hup res
                      exact ⟨out, .go (by rw [hl]; exact h)⟩
                    · obtain ⟨out, h⟩ := ihk S' res
                      exact ⟨out, .go (by rw [hl]; exact h)⟩
                  obtain ⟨out, h⟩ := this
                  exact ⟨out, ends_to hs ht hE t h⟩
                · cases hnr : r.nullable with
                  | true =>
                    obtain ⟨out, h⟩ := ihS res
                    exact ⟨out, ends_to hs ht hE ((skip_to hk S).1 hnr) h⟩
                  | false =>
                    obtain ⟨m, S', t, hx⟩ := (skip_to hk S).2 hnr
                    have hl := turn_live (p := p) (kids := kids) (res := res) hs ht hE m S'
                    rcases hx with hx | hx
                    all_goals
                      rw [hx] at hl
                      exact ⟨_, ends_to hs ht hE t (.go (by rw [hl]; exact .done _))⟩
    have ent : ∀ (n : Nat) p res, p.up.length < n → ∃ out, Ends off (enter p res) out := by
      intro n
      induction n with
      | zero => intro p res h; omega
      | succ n ih =>
        intro p res h
        unfold enter
        split
        · exact ⟨_, .done _⟩
        · exact main p.up.length (fun q res hq => ih q res (by omega)) p rfl _ _ _
    intro t
    cases t with
    | done o => exact ⟨o, .done o⟩
    | go w => exact main w.parent.up.length (fun q res hq => ent _ q res hq) w.parent rfl _ _ _
  obtain ⟨out, h⟩ := key (begin g offset).1 (begin g offset).2
  exact ⟨out, h, fun out' h' => ends_unique h' h⟩

/-! ## The result -/

theorem flush_spec {S : List Rule} : ∀ (res : List Kind), okS S = true →
    (∀ k, k ∈ (flush S res).1 ↔ k ∈ res ∨ k ∈ firstS S) ∧ ((flush S res).2 = true ↔ Lang S []) := by
  induction S with
  | nil => intro res _; simp [flush, firstS, Lang]
  | cons r S ih =>
    intro res ho
    have ho' : okS S = true := by simp only [okS, Bool.and_eq_true] at ho; exact ho.2
    unfold flush
    cases hn : r.nullable with
    | true =>
      rw [if_pos rfl]
      obtain ⟨h1, h2⟩ := ih (res ++ r.first) ho'
      refine ⟨fun k => ?_, ?_⟩
      · rw [h1 k]; simp only [firstS, hn, if_true, List.mem_append, or_assoc]
      · rw [h2, lang_null, lang_null]; simp [hn]
    | false =>
      rw [if_neg (by simp)]
      refine ⟨fun k => ?_, ?_⟩
      · simp [firstS, hn]
      · rw [lang_null]; simp [hn]

/-- Walking along the children in front of the offset. -/
theorem walk_done {off : Nat} {p : Red} {B : List Red} {res : List Kind} (hB : ∀ x ∈ B, off ≤ x.start) :
    ∀ {D : List Red} {S : List Rule}, okS S = true → D ≠ [] → (∀ c ∈ D, c.start < off ∧ c.kind ≠ K.Error) →
    (∀ c ∈ D, ∀ s, c.green.sym = some s → s.Proper) →
    (∃ D' c, D = D' ++ [c] ∧ triviaKind c.kind = false) → (∃ l, Lang S (D.filterMap (fun c => c.green.sym) ++ l)) →
    ∃ S', okS S' = true ∧ (∀ l, Lang S' l ↔ Lang S (D.filterMap (fun c => c.green.sym) ++ l)) ∧
      ∀ out, Ends off (if B.isEmpty && S'.isEmpty then goUp p res else .go ⟨p, B, S', res⟩) out → Ends off (.go ⟨p, D ++ B, S, res⟩) out := by
  intro D
  induction D with
  | nil => intro S _ h; exact absurd rfl h
  | cons c D ih =>
    intro S ho _ hf hP hl he
    obtain ⟨hs, hE⟩ := hf c (by simp)
    have hrest : D ≠ [] → ∃ D' c', D = D' ++ [c'] ∧ triviaKind c'.kind = false := by
      intro hD
      obtain ⟨D', c', h1, h2⟩ := hl
      cases D' with
      | nil => injection h1 with _ h; exact absurd h hD
      | cons d D' => injection h1 with _ h; exact ⟨D', c', h, h2⟩
    cases ht : triviaKind c.kind with
    | true =>
      have hD : D ≠ [] := by
        rintro rfl
        obtain ⟨D', c', h1, h2⟩ := hl
        cases D' with
        | nil => injection h1 with h _; rw [← h, ht] at h2; cases h2
        | cons d D' => injection h1 with _ h; simp at h
      have hsym : c.green.sym = none := by
        have ht : triviaKind c.green.kind = true := ht
        have hE : c.green.kind ≠ K.Error := hE
        cases hg : c.green with
        | tok k t => rw [hg] at ht; have ht : triviaKind k = true := ht; simp only [Green.sym]; rw [if_pos ht]
        | node k cs =>
          exfalso
          rw [hg] at ht
          have hPk := hP c (by simp) (.node k) (by rw [hg] at hE ⊢; have hE : k ≠ K.Error := hE; simp only [Green.sym]; rw [if_neg hE])
          have hPk : 184 ≤ k := hPk
          have ht : triviaKind k = true := ht
          have : k < 184 := by
            have hall : ∀ k, triviaKind k = true → k < 184 := by
              intro k h
              simp only [triviaKind, Bool.or_eq_true, beq_iff_eq] at h
              rcases h with h | h <;> (rw [h]; decide)
            exact hall k ht
          exact absurd hPk (Nat.not_le.2 this)
      rw [List.filterMap_cons, hsym] at he ⊢
      cases S with
      | nil =>
        -- nothing left but a child that is no trivia comes
        exfalso
        obtain ⟨D', c', h1, h2⟩ := hrest hD
        obtain ⟨l, h⟩ := he
        have h : (D.filterMap fun c => c.green.sym) ++ l = [] := h
        obtain ⟨h, -⟩ := List.append_eq_nil_iff.1 h
        rw [h1, List.filterMap_append] at h
        obtain ⟨-, h⟩ := List.append_eq_nil_iff.1 h
        have hE' : c'.green.kind ≠ K.Error := (hf c' (by rw [h1]; simp)).2
        have h2 : triviaKind c'.green.kind = false := h2
        cases hg : c'.green with
        | tok k t => rw [hg] at h2; have h2 : triviaKind k = false := h2; simp [hg, Green.sym, h2] at h
        | node k cs => rw [hg] at hE'; have hE' : k ≠ K.Error := hE'; simp [hg, Green.sym, hE'] at h
      | cons r S =>
        obtain ⟨S', h1, h2, h3⟩ := ih ho hD (fun x hx => hf x (by simp [hx])) (fun x hx => hP x (by simp [hx])) (hrest hD) he
        refine ⟨S', h1, h2, fun out h => .go ?_⟩
        have : turn off ⟨p, c :: D ++ B, r :: S, res⟩ = .go ⟨p, D ++ B, r :: S, res⟩ := by
          unfold turn
          simp only [List.cons_append]
          rw [if_neg (by omega), ht]; rfl
        rw [this]
        exact h3 out h
    | false =>
      obtain ⟨s, hsym, hk⟩ : ∃ s, c.green.sym = some s ∧ s.kind = c.kind := by
        have ht : triviaKind c.green.kind = false := ht
        have hE : c.green.kind ≠ K.Error := hE
        show ∃ s, c.green.sym = some s ∧ s.kind = c.green.kind
        cases hg : c.green with
        | tok k t =>
          rw [hg] at ht
          have ht : triviaKind k = false := ht
          exact ⟨.tok k, by simp [Green.sym, ht], rfl⟩
        | node k cs =>
          rw [hg] at hE
          have hE : k ≠ K.Error := hE
          exact ⟨.node k, by simp [Green.sym, hE], rfl⟩
      rw [List.filterMap_cons, hsym] at he ⊢
      have hp := hP c (by simp) s hsym
      obtain ⟨l0, h0⟩ := he
      obtain ⟨m, S', t, hx, ho', hL⟩ := lang_eat hp ho ⟨_, h0⟩
      rw [hk] at t hx
      have hl' : turn off ⟨p, c :: (D ++ B), m :: S', res⟩ =
          (if (D ++ B).isEmpty && S'.isEmpty then goUp p res else .go ⟨p, D ++ B, S', res⟩) := by
        have := turn_live (p := p) (kids := D ++ B) (res := res) hs ht hE m S'
        rw [hx] at this
        exact this
      by_cases hD : D = []
      · subst hD
        refine ⟨S', ho', fun l => hL l, fun out h => ends_to hs ht hE t (.go ?_)⟩
        rw [List.nil_append] at hl'
        rw [← hl'] at h; exact h
      · have hne : (D ++ B).isEmpty = false := by
          cases D with
          | nil => exact absurd rfl hD
          | cons => rfl
        obtain ⟨S'', h1, h2, h3⟩ := ih ho' hD (fun x hx => hf x (by simp [hx])) (fun x hx => hP x (by simp [hx])) (hrest hD) ⟨l0, (hL _).2 h0⟩
        refine ⟨S'', h1, fun l => ?_, fun out h => ends_to hs ht hE t (.go ?_)⟩
        · rw [h2 l, hL]; rfl
        · have h := h3 out h
          have hl' : turn off ⟨p, c :: (D ++ B), m :: S', res⟩ = .go ⟨p, D ++ B, S', res⟩ := by rw [hl', hne]; rfl
          rw [← hl'] at h
          exact h

/-- Only proper symbols occur in a syntax tree. -/
theorem proper_child {text : Text} {g : Green} (P : Parsed text g) {c : Red} (hc : InTree g c) {s : Sym} (h : c.green.sym = some s) : s.Proper := by
  cases hg : c.green with
  | tok k t =>
    rw [hg] at h
    simp only [Green.sym] at h
    split at h
    · cases h
    · injection h with h
      subst h
      have hn : c.isNode = false := by
        have hg : c.here.green = .tok k t := hg
        unfold Red.isNode; rw [hg]
      have hk : c.kind = k := by show c.green.kind = k; rw [hg]; rfl
      show k < 184
      by_cases hE : k = K.Error
      · rw [hE]; decide
      · obtain ⟨r, hr, h1, -⟩ := P.lexed _ (Parsed.token_leaf hc hn) (by rw [show (c.kind, c.text).1 = c.kind from rfl, hk]; exact hE)
        have hall : lexRules.all (fun r => Nat.blt r.kind 184) = true := by decide +kernel
        have := List.all_eq_true.1 hall r hr
        rw [show r.kind = k from h1.trans hk] at this
        simpa using this
  | node k cs =>
    rw [hg] at h
    simp only [Green.sym] at h
    split at h
    · cases h
    · rename_i hE
      injection h with h
      subst h
      have hn : c.isNode = true := by
        have hg : c.here.green = .node k cs := hg
        unfold Red.isNode; rw [hg]
      have hf := P.follows _ (hc.green_mem hn)
      rw [hg] at hf
      simp only [Follows] at hf
      rw [if_neg hE] at hf
      obtain ⟨r, hr, -⟩ := hf
      exact (properRule hr).2

theorem canFollow_cons {q : Red} {L : List Red} {off : Nat} {k : Kind} :
    CanFollow (q :: L) off k ↔ Extends q off k ∨ (Closes q off ∧ CanFollow L off k) := by
  constructor
  · rintro ⟨A, q', B, h, hA, hx⟩
    cases A with
    | nil => injection h with h _; subst h; exact Or.inl hx
    | cons a A =>
      injection h with h1 h2
      subst h1
      exact Or.inr ⟨hA _ (by simp), A, q', B, h2, fun p hp => hA p (by simp [hp]), hx⟩
  · rintro (h | ⟨hc, A, q', B, rfl, hA, hx⟩)
    · exact ⟨[], q, L, rfl, by simp, h⟩
    · refine ⟨q :: A, q', B, rfl, fun p hp => ?_, hx⟩
      rcases List.mem_cons.1 hp with rfl | hp
      · exact hc
      · exact hA p hp

theorem canFollow_nil {off : Nat} {k : Kind} : ¬CanFollow [] off k := by
  rintro ⟨A, q, B, h, -⟩; simp at h

/-- The nodes around, from the innermost on. -/
theorem around_exact {off : Nat} : ∀ (up : List Site), (∀ q ∈ Red.chain up, Sound q off ∧
      ∀ c ∈ q.childrenT, ∀ s, c.green.sym = some s → s.Proper) →
    ∀ s0 up0, up = s0 :: up0 → ∀ res, ∃ ks, Ends off (enter ⟨s0, up0⟩ res) (some ks) ∧
      ∀ k, k ∈ ks ↔ k ∈ res ∨ CanFollow (Red.chain up) off k := by
  intro up
  induction up with
  | nil => intro _ s0 up0 h; cases h
  | cons s1 up1 ih =>
    rintro hS s0 up0 h res
    injection h with h1 h2
    subst h1 h2
    obtain ⟨hs, hprop⟩ := hS ⟨s1, up1⟩ (by simp [Red.chain])
    have ihup := ih (fun q hq => hS q (by rw [Red.chain]; exact List.mem_cons_of_mem _ hq))
    generalize hq : (⟨s1, up1⟩ : Red) = q at hs hprop
    have hchain : Red.chain (s1 :: up1) = q :: Red.chain up1 := by rw [Red.chain, hq]
    rw [hchain]
    obtain ⟨R, l0, hR, hW⟩ := hs.rule
    obtain ⟨D, c, B, hch, hD, hc, ht, hB⟩ := hs.last
    have hin : ∀ x ∈ D ++ [c], x ∈ q.childrenT := fun x hx => by
      rw [hch]; simp only [List.mem_append, List.mem_singleton, List.mem_cons] at hx ⊢; tauto
    have hstart : ∀ x ∈ D ++ [c], x.start < off := fun x hx => by
      rcases List.mem_append.1 hx with h | h
      · exact hD x h
      · rw [List.mem_singleton.1 h]; exact hc
    have hdone : done q off = (D ++ [c]).filterMap (fun c => c.green.sym) := by
      unfold done
      rw [hch, List.append_cons, List.filter_append, List.filter_eq_self.2 (fun x hx => by simpa using hstart x hx),
        List.filter_eq_nil_iff.2 (fun x hx => by simpa using hB x hx), List.append_nil]
    have hL : ∀ l, Lang [R] l ↔ Whole sparqlRules R l := by
      intro l
      constructor
      · rintro ⟨u, v, rfl, h, hv⟩
        have hv : v = [] := hv
        rw [hv, List.append_nil]; exact h
      · intro h; exact ⟨l, [], by simp, h, rfl⟩
    have hok : okS [R] = true := by
      simp only [okS, firstS, Bool.and_eq_true]
      exact ⟨⟨okRule hR, (properRule hR).1⟩, trivial⟩
    obtain ⟨S, ho, hSl, hE⟩ := walk_done (p := q) (res := res) hB hok (D := D ++ [c]) (by simp)
      (fun x hx => ⟨hstart x hx, hs.fine x (hin x hx) (hstart x hx)⟩) (fun x hx => hprop x (hin x hx)) ⟨D, c, rfl, ht⟩
      ⟨l0, by rw [hL, ← hdone]; exact hW⟩
    have hSW : ∀ l, Lang S l ↔ Whole sparqlRules R (done q off ++ l) := fun l => by rw [hSl, hL, hdone]
    have hclose : Closes q off ↔ Lang S [] := by
      rw [hSW]
      constructor
      · rintro ⟨r, h1, h2⟩
        rw [hR] at h1; injection h1 with h1; subst h1
        rw [List.append_nil]; exact h2
      · intro h; rw [List.append_nil] at h; exact ⟨R, hR, h⟩
    have hext : ∀ k, Extends q off k ↔ k ∈ firstS S := by
      intro k
      constructor
      · rintro ⟨r, s, l, h1, h2, h3⟩
        rw [hR] at h1; injection h1 with h1; subst h1
        rw [← h2]
        exact lang_first ((hSW _).2 h3)
      · intro h
        obtain ⟨s, l, h1, -, h2⟩ := first_lang ho h
        exact ⟨R, s, l, hR, h1, (hSW _).1 h2⟩
    have henter : enter q res = .go ⟨q, (D ++ [c]) ++ B, [R], res⟩ := by
      unfold enter; rw [hR, hch]; simp
    -- going up
    have hup : ∀ res', ∃ ks, Ends off (goUp q res') (some ks) ∧ ∀ k, k ∈ ks ↔ k ∈ res' ∨ CanFollow (Red.chain up1) off k := by
      intro res'
      cases hu : up1 with
      | nil =>
        refine ⟨res', ?_, fun k => ?_⟩
        · have : goUp q res' = .done (some res') := by rw [← hq, hu]; rfl
          rw [this]; exact .done _
        · simp only [Red.chain]
          exact ⟨Or.inl, fun h => h.resolve_right canFollow_nil⟩
      | cons s2 up2 =>
        obtain ⟨ks, h1, h2⟩ := ihup s2 up2 hu res'
        refine ⟨ks, ?_, fun k => by rw [h2 k, hu]⟩
        have : goUp q res' = enter ⟨s2, up2⟩ res' := by rw [← hq, hu]; rfl
        rw [this]; exact h1
    have hcoll : ∀ w : Walk, w.parent = q → w.rules = S → w.result = res →
        ∃ ks, Ends off (collectRest w) (some ks) ∧ ∀ k, k ∈ ks ↔ k ∈ res ∨ CanFollow (q :: Red.chain up1) off k := by
      intro w hw1 hw2 hw3
      obtain ⟨f1, f2⟩ := flush_spec res ho
      unfold collectRest
      rw [hw1, hw2, hw3]
      by_cases hn : Lang S []
      · rw [if_pos (f2.2 hn)]
        obtain ⟨ks, h1, h2⟩ := hup (flush S res).1
        refine ⟨ks, h1, fun k => ?_⟩
        rw [h2 k, f1 k, canFollow_cons, hext, hclose, or_assoc]
        simp [hn]
      · rw [if_neg (fun h => hn (f2.1 h))]
        refine ⟨_, .done _, fun k => ?_⟩
        rw [f1 k, canFollow_cons, hext, hclose]
        simp [hn]
    suffices h : ∃ ks, Ends off (if B.isEmpty && S.isEmpty then goUp q res else .go ⟨q, B, S, res⟩) (some ks) ∧
        ∀ k, k ∈ ks ↔ k ∈ res ∨ CanFollow (q :: Red.chain up1) off k by
      obtain ⟨ks, h1, h2⟩ := h
      exact ⟨ks, by rw [henter]; exact hE _ h1, h2⟩
    cases hSe : S with
    | nil =>
      have hnone : ∀ k, ¬Extends q off k := fun k h => by
        have := (hext k).1 h
        rw [hSe] at this; cases this
      have hcl : Closes q off := by rw [hclose, hSe]; rfl
      cases hBe : B with
      | nil =>
        obtain ⟨ks, h1, h2⟩ := hup res
        refine ⟨ks, h1, fun k => ?_⟩
        rw [h2 k, canFollow_cons]
        simp [hnone k, hcl]
      | cons b B' =>
        refine ⟨res, .go (.done _), fun k => ?_⟩
        have hroot : q.parent = none := by
          by_contra hp
          obtain ⟨k, h⟩ := hs.free hp ⟨b, by rw [hch, hBe]; simp, hB b (by rw [hBe]; simp)⟩
          exact hnone k h
        have hu : up1 = [] := by
          rw [← hq] at hroot
          cases up1 with
          | nil => rfl
          | cons => cases hroot
        rw [canFollow_cons, hu]
        simp only [Red.chain, hnone k, false_or]
        exact ⟨Or.inl, fun h => h.resolve_right (fun h => canFollow_nil h.2)⟩
    | cons r S' =>
      rw [← hSe]
      have hf : (B.isEmpty && S.isEmpty) = false := by rw [hSe]; simp
      rw [hf]
      obtain ⟨ks, h1, h2⟩ := hcoll ⟨q, B, S, res⟩ rfl rfl rfl
      refine ⟨ks, .go ?_, h2⟩
      have : turn off ⟨q, B, S, res⟩ = collectRest ⟨q, B, S, res⟩ := by
        unfold turn
        cases hBe : B with
        | nil => rfl
        | cons b B' =>
          simp only [hSe]
          rw [if_pos (hB b (by rw [hBe]; simp))]
      rw [this]; exact h1

/-- Behind a token the search begins with the token. -/
theorem begin_token {text : Text} {g : Green} (P : Parsed text g) {t : Red} (ht : t ∈ (Red.root g).tokens) :
    begin g t.stop = (t.stop, match t.parent with | none => .done none | some p => enter p []) := by
  have hin := inTree_of_mem_descendantsT _ .root _ (List.mem_filter.1 ht).1
  have hne : t.text ≠ [] := P.leaf_nonempty (t.kind, t.text) (Parsed.token_leaf hin (by simpa using (List.mem_filter.1 ht).2))
  have hpos : t.start < t.stop := by
    have : t.stop = t.start + blen t.text := rfl
    have : 0 < blen t.text := by
      cases h : t.text with
      | nil => exact absurd h hne
      | cons c cs => have := u8_pos c; simp only [blen]; omega
    omega
  have hle : t.stop ≤ (Red.root g).stop := by
    have := P.stop_le hin
    have e : (Red.root g).stop = blen text := by
      show 0 + blen g.text = _
      rw [P.text_eq]; omega
    omega
  have hfind : (Red.root g).tokenAtLeft t.stop = some t := by
    obtain ⟨t', h⟩ := tokenAtLeft_some (g := g) (o := t.stop) (by omega) (by rw [P.text_eq]; exact P.stop_le hin) P.leaf_nonempty
    obtain ⟨L, R, e1, e2, e3, -, e5⟩ := tokenAtLeft_row (by omega) P.leaf_nonempty h
    rw [h]
    have hr := (tokens_row (Red.root g)).2
    obtain ⟨L', R', e'⟩ := List.append_of_mem ht
    have hpre := e'.symm.trans e1
    rcases List.append_eq_append_iff.1 hpre with ⟨M, h1, h2⟩ | ⟨M, h1, h2⟩
    · cases M with
      | nil => injection h2 with h2 _; rw [h2]
      | cons x M =>
        -- `t` stands in front of `t'`
        injection h2 with h2 h3
        exfalso
        have hst : t.stop ≤ t'.start := by
          rw [e', h3] at hr
          have := row_split (a := L') (o := (Red.root g).start) (b := t :: (M ++ t' :: R)) (by simpa using hr)
          obtain ⟨-, hr'⟩ := this
          obtain ⟨hx, -⟩ := row_split hr'
          omega
        omega
    · cases M with
      | nil => injection h2 with h2 _; rw [h2]
      | cons x M =>
        injection h2 with h2 h3
        exfalso
        have hst : t'.stop ≤ t.start := by
          rw [e1, h3] at hr
          have := row_split (a := L) (o := (Red.root g).start) (b := t' :: (M ++ t :: R')) (by simpa using hr)
          obtain ⟨-, hr'⟩ := this
          obtain ⟨hx, -⟩ := row_split hr'
          omega
        omega
  unfold begin
  rw [if_neg (by omega), hfind]
  simp only [Option.map_some]
  cases t.parent <;> rfl

/-- C67. What the search returns behind a token, in a tree that is as the grammar wants it up to there: exactly the kinds of symbols
that can come next in one of the nodes around the token, after the nodes inside of it have ended. -/
theorem c67_exact {errLen : Text → Nat} {text : Text} {g errs} (hp : parseSource errLen text = some (g, errs)) {t : Red}
    (ht : t ∈ (Red.root g).tokens) (hs : ∀ q ∈ Red.chain t.up, Sound q t.stop) :
    ∃ ks, Continues g t.stop (some ks) ∧ ∀ k, k ∈ ks ↔ CanFollow (Red.chain t.up) t.stop k := by
  have P := parsed_of hp
  have hin := inTree_of_mem_descendantsT _ .root _ (List.mem_filter.1 ht).1
  have hchain : ∀ q ∈ Red.chain t.up, InTree g q := by
    have key : ∀ x : Red, InTree g x → ∀ q ∈ Red.chain x.up, InTree g q := by
      intro x hx
      induction hx with
      | root => intro q hq; cases hq
      | @child r c hr hc ih =>
        intro q hq
        rw [parent_chain (child_parent hc)] at hq
        rcases List.mem_cons.1 hq with rfl | hq
        · exact hr
        · exact ih q hq
    exact key t hin
  have hup : t.up ≠ [] := by
    intro h
    have hr := hin.root_of_up h
    have hn : t.isNode = false := by simpa using (List.mem_filter.1 ht).2
    rw [hr] at hn
    have : (Red.root g).isNode = true := by
      obtain ⟨e, cs, a, b, hg, -⟩ := P.top
      rw [hg]; rfl
    rw [this] at hn; cases hn
  obtain ⟨s0, up0, hu⟩ : ∃ s0 up0, t.up = s0 :: up0 := by
    cases h : t.up with
    | nil => exact absurd h hup
    | cons s u => exact ⟨s, u, rfl⟩
  obtain ⟨ks, h1, h2⟩ := around_exact t.up (fun q hq => ⟨hs q hq, fun c hc s h => proper_child P ((hchain q hq).child hc) h⟩) s0 up0 hu []
  refine ⟨ks, ?_, fun k => by rw [h2 k]; simp⟩
  unfold Continues
  rw [begin_token P ht]
  have : t.parent = some ⟨s0, up0⟩ := by unfold Red.parent; rw [hu]
  rw [this]
  exact h1

end Verif.Props
