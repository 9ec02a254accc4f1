import Verif.Grammar.Sparql
import Verif.Grammar.Sim
/-!
# The look-ahead budget: a family of inputs that exhausts it
-/
namespace Verif.Grammar

/-- Running `st` at `toks` with budget `f` panics with "parser is stuck". -/
def StuckAt (st : Stmt) (toks : List Kind) (f : Nat) : Prop :=
  ∃ n mark root ev, exec sparql n mark root st ⟨toks, f, ev⟩ = .stuck

/-- Running `st` at `toks` with budget `f` reaches `toks'` with budget `f'`. -/
def Reaches (st : Stmt) (toks : List Kind) (f : Nat) (toks' : List Kind) (f' : Nat) : Prop :=
  ∃ n mark root ev ev', exec sparql n mark root st ⟨toks, f, ev⟩ = .next ⟨toks', f', ev'⟩

theorem same_stuck {o : Out} (h : o.same .stuck) : o = .stuck := by
  cases o <;> simp [Out.same] at h ⊢

theorem same_next {o : Out} {s : PState} (h : o.same (.next s)) :
    ∃ ev, o = .next ⟨s.toks, s.fuel, ev⟩ := by
  cases o with
  | next t =>
    obtain ⟨h1, h2⟩ := h
    exact ⟨t.events, by cases t; simp_all⟩
  | _ => simp [Out.same] at h

theorem StuckAt.all {st toks f} (h : StuckAt st toks f) :
    ∃ n, ∀ m, n ≤ m → ∀ mark root ev, exec sparql m mark root st ⟨toks, f, ev⟩ = .stuck := by
  obtain ⟨n, mark, root, ev, h⟩ := h
  refine ⟨n, fun m hm mark' root' ev' => ?_⟩
  have h1 := exec_mono_le sparql hm mark root st ⟨toks, f, ev⟩ (by rw [h]; simp)
  have h2 := exec_sim sparql m mark' mark root' root st ⟨toks, f, ev'⟩ ⟨toks, f, ev⟩ ⟨rfl, rfl⟩
  rw [h1, h] at h2
  exact same_stuck h2

theorem Reaches.all {st toks f toks' f'} (h : Reaches st toks f toks' f') :
    ∃ n, ∀ m, n ≤ m → ∀ mark root ev, ∃ ev', exec sparql m mark root st ⟨toks, f, ev⟩ = .next ⟨toks', f', ev'⟩ := by
  obtain ⟨n, mark, root, ev, ev1, h⟩ := h
  refine ⟨n, fun m hm mark' root' ev' => ?_⟩
  have h1 := exec_mono_le sparql hm mark root st ⟨toks, f, ev⟩ (by rw [h]; simp)
  have h2 := exec_sim sparql m mark' mark root' root st ⟨toks, f, ev'⟩ ⟨toks, f, ev⟩ ⟨rfl, rfl⟩
  rw [h1, h] at h2
  exact same_next h2

theorem StuckAt.seqL {a b toks f} (h : StuckAt a toks f) : StuckAt (.seq a b) toks f := by
  obtain ⟨n, h⟩ := h.all
  exact ⟨n + 1, 0, 0, [], by rw [exec.eq_3, h n (Nat.le_refl _)]⟩

theorem StuckAt.seqR {a b toks f toks' f'} (h : Reaches a toks f toks' f') (k : StuckAt b toks' f') :
    StuckAt (.seq a b) toks f := by
  obtain ⟨n, h⟩ := h.all
  obtain ⟨m, k⟩ := k.all
  refine ⟨max n m + 1, 0, 0, [], ?_⟩
  obtain ⟨ev', e⟩ := h (max n m) (Nat.le_max_left _ _) 0 0 []
  rw [exec.eq_3, e]
  exact k _ (Nat.le_max_right _ _) _ _ _

theorem StuckAt.callU {k fd toks f} (hf : sparql k = some fd) (hg : fd.guard = none) (h : StuckAt fd.body toks f) :
    StuckAt (.call k) toks f := by
  obtain ⟨n, h⟩ := h.all
  refine ⟨n + 1, 0, 0, [], ?_⟩
  rw [exec.eq_5, hf]
  simp only [hg, PState.push]
  rw [h n (Nat.le_refl _)]

theorem StuckAt.callG {k fd ks toks f} (hf : sparql k = some fd) (hg : fd.guard = some ks) (hc : cur toks ∈ ks)
    (h : StuckAt fd.body toks f) : StuckAt (.call k) toks (f + 1) := by
  obtain ⟨n, h⟩ := h.all
  refine ⟨n + 1, 0, 0, [], ?_⟩
  rw [exec.eq_5, hf]
  simp only [hg, PState.push, PState.nth, hc, if_true]
  rw [h n (Nat.le_refl _)]

theorem StuckAt.rep {ks b toks f} (hc : cur toks ∈ ks) (h : StuckAt b toks f) : StuckAt (.rep ks b) toks (f + 1) := by
  obtain ⟨n, h⟩ := h.all
  refine ⟨n + 1, 0, 0, [], ?_⟩
  rw [exec.eq_8]
  simp only [PState.nth, hc, if_true]
  rw [h n (Nat.le_refl _)]

theorem StuckAt.alt {a toks f} (h : StuckAt a toks f) : StuckAt (.alt a) toks (f + 1) := by
  obtain ⟨n, h⟩ := h.all
  refine ⟨n + 1, 0, 0, [], ?_⟩
  rw [exec.eq_9]
  simp only [PState.nth]
  exact h n (Nat.le_refl _) _ _ _

theorem StuckAt.armIn {ks b x toks f} (hc : cur toks ∈ ks) (h : StuckAt b toks f) : StuckAt (.arm ks b x) toks f := by
  obtain ⟨n, h⟩ := h.all
  refine ⟨n + 1, 0, 0, [], ?_⟩
  rw [exec.eq_10, if_pos hc]
  exact h n (Nat.le_refl _) _ _ _

theorem StuckAt.armOut {ks b x toks f} (hc : cur toks ∉ ks) (h : StuckAt x toks f) : StuckAt (.arm ks b x) toks f := by
  obtain ⟨n, h⟩ := h.all
  refine ⟨n + 1, 0, 0, [], ?_⟩
  rw [exec.eq_10, if_neg hc]
  exact h n (Nat.le_refl _) _ _ _

theorem Reaches.expect {k ts f} : Reaches (.expect k) (k :: ts) (f + 1) ts maxFuel :=
  ⟨1, 0, 0, [], _, by rw [exec.eq_4]; simp [PState.expect, PState.nth, cur, PState.advance]; rfl⟩

theorem Reaches.opt {ks b toks f} (h : cur toks ∉ ks) : Reaches (.opt ks b) toks (f + 1) toks f :=
  ⟨1, 0, 0, [], _, by rw [exec.eq_7]; simp [PState.nth, h]; rfl⟩

theorem Reaches.rep {ks b toks f} (h : cur toks ∉ ks) : Reaches (.rep ks b) toks (f + 1) toks f :=
  ⟨1, 0, 0, [], _, by rw [exec.eq_8]; simp [PState.nth, h]; rfl⟩

theorem Reaches.sync {ks toks f} (h : cur toks ∈ ks) : Reaches (.sync ks) toks (f + 1) toks f :=
  ⟨1, 0, 0, [], _, by rw [exec.eq_6]; simp [PState.nth, h]; rfl⟩

theorem Reaches.callOut {k fd ks toks f} (hf : sparql k = some fd) (hg : fd.guard = some ks) (hc : cur toks ∉ ks) :
    Reaches (.call k) toks (f + 1) toks f :=
  ⟨1, 0, 0, [], _, by rw [exec.eq_5, hf]; simp [hg, PState.nth, hc]; rfl⟩

/-- One level of braces. -/
theorem stuck_step {ts : List Kind} (h : ∀ f, StuckAt (.call K.GroupGraphPattern) (K.LCurly :: ts) (f + 1)) (f : Nat) :
    StuckAt (.call K.GroupGraphPattern) (K.LCurly :: K.LCurly :: ts) (f + 1) := by
  have hc : cur (K.LCurly :: ts) = K.LCurly := rfl
  refine .callU (fd := fn_GroupGraphPattern) (by decide +kernel) rfl ?_
  refine .seqR .expect (.seqL (.alt (f := 1023) (.armOut (by rw [hc]; decide) (.armIn (by rw [hc]; decide) ?_))))
  refine .callG (f := 1022) (fd := fn_GroupGraphPatternSub) (by decide +kernel) rfl (by rw [hc]; decide) ?_
  refine .seqR (.opt (f := 1021) (by rw [hc]; decide)) (.rep (f := 1020) (by rw [hc]; decide) (.seqL ?_))
  refine .callU (fd := fn_GraphPatternNotTriples) (by decide +kernel) rfl ?_
  refine .alt (f := 1019) (.armIn (by rw [hc]; decide) ?_)
  refine .callU (fd := fn_GroupOrUnionGraphPattern) (by decide +kernel) rfl (.seqL ?_)
  exact h 1018

/-- What `parse_GroupGraphPattern` does after its opening brace. -/
def ggpTail : Stmt :=
  match fn_GroupGraphPattern.body with
  | .seq _ b => b
  | b => b

theorem stuck_base_tail : exec sparql 6000 0 0 ggpTail ⟨List.replicate 174 K.LCurly, maxFuel, []⟩ = .stuck := by
  decide +kernel

theorem stuck_base (f : Nat) : StuckAt (.call K.GroupGraphPattern) (List.replicate 175 K.LCurly) (f + 1) :=
  .callU (fd := fn_GroupGraphPattern) (by decide +kernel) rfl
    (.seqR (b := ggpTail) (.expect (ts := List.replicate 174 K.LCurly)) ⟨6000, 0, 0, [], stuck_base_tail⟩)

theorem stuck_braces (m : Nat) : ∀ f, StuckAt (.call K.GroupGraphPattern) (List.replicate (m + 175) K.LCurly) (f + 1) := by
  induction m with
  | zero => exact stuck_base
  | succ m ih =>
    intro f
    have e : List.replicate (m + 1 + 175) K.LCurly = K.LCurly :: K.LCurly :: List.replicate (m + 174) K.LCurly := by
      rw [show m + 1 + 175 = m + 174 + 1 + 1 by omega]; rfl
    have e' : List.replicate (m + 175) K.LCurly = K.LCurly :: List.replicate (m + 174) K.LCurly := rfl
    rw [e' ] at ih
    rw [e]
    exact stuck_step ih f

/-- `ASK` followed by braces. -/
theorem stuck_ask (m : Nat) : StuckAt (.call K.QueryUnit) (K.ASK :: List.replicate (m + 175) K.LCurly) maxFuel := by
  have e' : List.replicate (m + 175) K.LCurly = K.LCurly :: List.replicate (m + 174) K.LCurly := rfl
  have hc : cur (K.LCurly :: List.replicate (m + 174) K.LCurly) = K.LCurly := rfl
  refine .callU (fd := fn_QueryUnit) (by decide +kernel) rfl ?_
  refine .callU (fd := fn_Query) (by decide +kernel) rfl ?_
  refine .seqR (.callOut (f := 1023) (fd := fn_Prologue) (by decide +kernel) rfl (by simp only [cur]; decide)) (.seqL ?_)
  refine .alt (f := 1022) (.armOut (by simp only [cur]; decide) (.armOut (by simp only [cur]; decide)
    (.armOut (by simp only [cur]; decide) (.armIn (by simp only [cur]; decide) ?_))))
  refine .callU (fd := fn_AskQuery) (by decide +kernel) rfl ?_
  refine .seqR .expect ?_
  rw [e']
  refine .seqR (.rep (f := 1023) (by rw [hc]; decide)) ?_
  refine .seqR (.sync (f := 1022) (by rw [hc]; decide)) (.seqL ?_)
  refine .callU (fd := fn_WhereClause) (by decide +kernel) rfl ?_
  refine .seqR (.opt (f := 1021) (by rw [hc]; decide)) ?_
  rw [← e']
  exact stuck_braces m 1020

theorem parseTokens_none_of_stuck {e : Entry} {toks : List Kind} (hk : ∀ t ∈ toks, t < 344)
    (h : StuckAt (.call e.kind) toks maxFuel) : parseTokens e toks = none := by
  obtain ⟨n, h⟩ := h.all
  have h1 := h _ (Nat.le_max_right (depthFor toks.length) n) 0 e.kind []
  have h2 := (parseEntry_total e toks hk (Nat.le_max_left (depthFor toks.length) n)).2.2.2
  unfold parseTokens
  rw [← h2]
  unfold parseEntry PState.init
  rw [h1]

end Verif.Grammar
