import Verif.Grammar.Fork
import Verif.Grammar.TreeSpec
import Verif.Grammar.TreeLemmas
import Verif.Grammar.LooseLemmas
/-!
# The part of a tree that holds the first tokens
-/
namespace Verif.Grammar
open Forest

/-- The part of a forest that holds the first `n` tokens: nodes that hold none of them are left out, those that hold some of them are cut. -/
def front (n : Nat) : Forest → Forest
  | .nil => .nil
  | .tok r => if n = 0 then .nil else .tok (front (n - 1) r)
  | .err _ r => front n r
  | .node k c r => if c.toks = 0 then front n r else if n = 0 then .nil else .node k (front n c) (front (n - c.toks) r)

theorem front_zero (F : Forest) : front 0 F = .nil := by
  induction F with
  | nil => rfl
  | tok r ih => rfl
  | err e r ih => exact ih
  | node k c r ihc ihr => unfold front; split <;> simp [ihr]

theorem front_empty {F : Forest} (h : F.toks = 0) : ∀ n, front n F = .nil := by
  induction F with
  | nil => intro n; rfl
  | tok r ih => simp [Forest.toks] at h
  | err e r ih => exact ih h
  | node k c r ihc ihr =>
    simp only [Forest.toks] at h
    intro n
    unfold front
    rw [if_pos (by omega)]
    exact ihr (by omega) n

/-- The whole. -/
theorem front_full {F : Forest} : ∀ {n : Nat}, F.toks ≤ n → front n F = front F.toks F := by
  induction F with
  | nil => intro n h; rfl
  | tok r ih =>
    intro n h
    simp only [Forest.toks] at h ⊢
    unfold front
    rw [if_neg (by omega), if_neg (by omega), Nat.add_sub_cancel, ih (n := n - 1) (by omega)]
  | err e r ih => intro n h; exact ih h
  | node k c r ihc ihr =>
    intro n h
    simp only [Forest.toks] at h ⊢
    unfold front
    by_cases hc : c.toks = 0
    · rw [if_pos hc, if_pos hc, hc, Nat.zero_add]; exact ihr (by omega)
    · rw [if_neg hc, if_neg hc, if_neg (by omega), if_neg (by omega), ihc (by omega), ihc (n := c.toks + r.toks) (by omega),
        ihr (n := n - c.toks) (by omega), Nat.add_sub_cancel_left]

theorem front_append (F G : Forest) : ∀ n, front (F.toks + n) (F.append G) = (front F.toks F).append (front n G) := by
  induction F with
  | nil => intro n; simp [Forest.toks, Forest.append, front]
  | tok r ih =>
    intro n
    simp only [Forest.toks, Forest.append]
    unfold front
    rw [if_neg (by omega), if_neg (by omega), show r.toks + 1 + n - 1 = r.toks + n by omega, ih, Nat.add_sub_cancel]
    cases G <;> rfl
  | err e r ih =>
    intro n
    have h := ih n
    simp only [Forest.toks, Forest.append]
    rw [front, front]; exact h
  | node k c r ihc ihr =>
    intro n
    simp only [Forest.toks, Forest.append]
    by_cases hc : c.toks = 0
    · rw [front, front, if_pos hc, if_pos hc, hc, Nat.zero_add]; exact ihr n
    · rw [front, front, if_neg hc, if_neg hc, if_neg (by omega), if_neg (by omega), front_full (n := c.toks + r.toks + n) (by omega),
        front_full (F := c) (n := c.toks + r.toks) (by omega), show c.toks + r.toks + n - c.toks = r.toks + n by omega, ihr, Nat.add_sub_cancel_left]
      rfl

theorem front_dropErr (F : Forest) : ∀ n, front n F.dropErr = front n F := by
  have htoks : ∀ F : Forest, F.dropErr.toks = F.toks := by
    intro F
    induction F with
    | nil => rfl
    | tok r ih => simp [dropErr, Forest.toks, ih]
    | err e r ih => simp [dropErr, Forest.toks, ih]
    | node k c r ihc ihr => simp [dropErr, Forest.toks, ihc, ihr]
  induction F with
  | nil => intro n; rfl
  | tok r ih => intro n; simp only [dropErr, front, ih]
  | err e r ih => intro n; simp only [dropErr, front, ih]
  | node k c r ihc ihr => intro n; simp only [dropErr, front, ihc, ihr, htoks]

theorem front_prune (F : Forest) : ∀ n, front n F.prune = front n F := by
  induction F with
  | nil => intro n; rfl
  | tok r ih => intro n; simp only [prune, front, ih]
  | err e r ih => intro n; simp only [prune, front, ih]
  | node k c r ihc ihr =>
    intro n
    by_cases hc : c.toks = 0
    · have h0 : c.prune.toks = 0 := by rw [toks_prune, hc]
      have := front_append c.prune r.prune n
      rw [h0, Nat.zero_add, front_zero] at this
      simp only [prune, hc, if_true, front]
      rw [this, ihr]; rfl
    · simp only [prune, hc, if_false, front, toks_prune, ihc, ihr]

/-- Forests whose events begin the same have the same front. -/
theorem front_of_events : ∀ (F : Forest) (V : List Event) (F' : Forest) (X Y : List Event),
    V <+: F.ser ++ .close :: X → V <+: F'.ser ++ .close :: Y →
    (F = F' ∧ ∃ V', V = F.ser ++ .close :: V') ∨ (eaten V ≤ F.toks ∧ eaten V ≤ F'.toks ∧ front (eaten V) F = front (eaten V) F') := by
  have h0 : eaten [] = 0 := rfl
  intro F
  induction F with
  | nil =>
    intro V F' X Y h h'
    cases V with
    | nil => right; rw [h0]; exact ⟨Nat.zero_le _, Nat.zero_le _, by rw [front_zero, front_zero]⟩
    | cons e V =>
      obtain ⟨T, h⟩ := h
      injection h with h _
      subst h
      obtain ⟨T', h'⟩ := h'
      cases F' with
      | nil => exact Or.inl ⟨rfl, V, rfl⟩
      | _ => injection h' with h'; cases h'
  | tok r ih =>
    intro V F' X Y h h'
    cases V with
    | nil => right; rw [h0]; exact ⟨Nat.zero_le _, Nat.zero_le _, by rw [front_zero, front_zero]⟩
    | cons e V =>
      obtain ⟨T, h⟩ := h
      injection h with h hT
      subst h
      obtain ⟨T', h'⟩ := h'
      cases F' with
      | tok r' =>
        injection h' with _ hT'
        have he : eaten (Event.advance :: V) = eaten V + 1 := by
          rw [show Event.advance :: V = [.advance] ++ V from rfl, eaten_append, Nat.add_comm]; rfl
        rcases ih V r' X Y ⟨T, hT⟩ ⟨T', hT'⟩ with ⟨rfl, V', rfl⟩ | ⟨h1, h2, h3⟩
        · exact Or.inl ⟨rfl, V', rfl⟩
        · right
          rw [he]
          refine ⟨Nat.succ_le_succ h1, Nat.succ_le_succ h2, ?_⟩
          rw [front, front, if_neg (by omega), if_neg (by omega), Nat.add_sub_cancel, h3]
      | _ => injection h' with h'; cases h'
  | err x r ih =>
    intro V F' X Y h h'
    cases V with
    | nil => right; rw [h0]; exact ⟨Nat.zero_le _, Nat.zero_le _, by rw [front_zero, front_zero]⟩
    | cons e V =>
      obtain ⟨T, h⟩ := h
      injection h with h hT
      subst h
      obtain ⟨T', h'⟩ := h'
      cases F' with
      | err x' r' =>
        injection h' with hx hT'
        injection hx with hx
        subst hx
        have he : eaten (Event.error x :: V) = eaten V := by
          rw [show Event.error x :: V = [.error x] ++ V from rfl, eaten_append]; simp [eaten, view]
        rcases ih V r' X Y ⟨T, hT⟩ ⟨T', hT'⟩ with ⟨rfl, V', rfl⟩ | ⟨h1, h2, h3⟩
        · exact Or.inl ⟨rfl, V', rfl⟩
        · right
          rw [he]
          refine ⟨h1, h2, ?_⟩
          rw [front, front, h3]
      | _ => injection h' with h'; cases h'
  | node k c r ihc ihr =>
    intro V F' X Y h h'
    cases V with
    | nil => right; rw [h0]; exact ⟨Nat.zero_le _, Nat.zero_le _, by rw [front_zero, front_zero]⟩
    | cons e V =>
      obtain ⟨T, h⟩ := h
      injection h with h hT
      subst h
      obtain ⟨T', h'⟩ := h'
      cases F' with
      | node k' c' r' =>
        injection h' with hk hT'
        injection hk with hk
        subst hk
        have he : eaten (Event.openNode k :: V) = eaten V := by
          rw [show Event.openNode k :: V = [.openNode k] ++ V from rfl, eaten_append]; simp [eaten, view]
        have hT : V ++ T = (c.ser ++ Event.close :: r.ser) ++ (Event.close :: X) := hT
        have hT' : V ++ T' = (c'.ser ++ Event.close :: r'.ser) ++ (Event.close :: Y) := hT'
        rw [List.append_assoc, List.cons_append] at hT hT'
        rcases ihc V c' _ _ ⟨T, hT⟩ ⟨T', hT'⟩ with ⟨rfl, V', rfl⟩ | ⟨h1, h2, h3⟩
        · rw [List.append_assoc] at hT hT'
          have hT := List.append_cancel_left hT
          have hT' := List.append_cancel_left hT'
          injection hT with _ hT
          injection hT' with _ hT'
          have he2 : eaten (c.ser ++ Event.close :: V') = c.toks + eaten V' := by
            rw [eaten_append, eaten_ser, show Event.close :: V' = [.close] ++ V' from rfl, eaten_append]; simp [eaten, view]
          rcases ihr V' r' X Y ⟨T, hT⟩ ⟨T', hT'⟩ with ⟨rfl, V'', rfl⟩ | ⟨h1, h2, h3⟩
          · exact Or.inl ⟨rfl, V'', by simp [Forest.ser]⟩
          · right
            rw [he, he2]
            refine ⟨by simp only [Forest.toks]; omega, by simp only [Forest.toks]; omega, ?_⟩
            rw [front, front]
            by_cases hc : c.toks = 0
            · rw [if_pos hc, if_pos hc, hc, Nat.zero_add, h3]
            · rw [if_neg hc, if_neg hc, if_neg (by omega), if_neg (by omega), Nat.add_sub_cancel_left, h3]
        · right
          rw [he]
          refine ⟨by simp only [Forest.toks]; omega, by simp only [Forest.toks]; omega, ?_⟩
          by_cases hn : eaten V = 0
          · rw [hn, front_zero, front_zero]
          · rw [front, front, if_neg (by omega), if_neg (by omega), if_neg (by omega), if_neg (by omega), h3,
              show eaten V - c.toks = 0 by omega, show eaten V - c'.toks = 0 by omega, front_zero, front_zero]
      | _ => injection h' with h'; cases h'

/-- Two documents that begin with the same tokens: the trees are the same up to there. -/
theorem parse_front {e : Entry} {a x y : List Kind} {n n' s t F F'} (ha : a ≠ []) (hx : K.Eof ∉ a ++ x)
    (hs : parseEntry sparql n e.kind (a ++ x) = .next s) (ht : parseEntry sparql n' e.kind (a ++ y) = .next t)
    (hF : s.events = Forest.ser (.node e.kind F .nil)) (hF' : t.events = Forest.ser (.node e.kind F' .nil)) :
    front a.length F = front a.length F' := by
  have s0 := (parse_shape hx hs).1
  obtain ⟨m, s1, s2, h1, h2, rfl⟩ := unit_inv hs
  obtain ⟨m', t1, t2, h1', h2', rfl⟩ := unit_inv ht
  have h1 := (exec_mono_le sparql (Nat.le_max_left m m') 0 e.kind (.call e.inner) _ (by rw [h1]; simp)).trans h1
  have h1' := (exec_mono_le sparql (Nat.le_max_right m m') 0 e.kind (.call e.inner) _ (by rw [h1']; simp)).trans h1'
  have hI : Lock a.length x y ((PState.init (a ++ x)).push (.openNode K.Error)) ((PState.init (a ++ y)).push (.openNode K.Error)) :=
    ⟨a, ha, fun h => hx (List.mem_append_left _ h), rfl, rfl, rfl, rfl, by simp [PState.init, PState.push, eaten, view]⟩
  have hm : ∀ w, Marked 0 ((PState.init w).push (.openNode K.Error)) := fun w => ⟨[], K.Error, .nil, rfl, rfl⟩
  have hmark : ∀ {w m s1 s2}, exec sparql m 0 e.kind (.call e.inner) ((PState.init w).push (.openNode K.Error)) = .next s1 →
      s1.swallow = .next s2 → Marked 0 s2 ∧ named 0 e.kind s1.events <+: (s2.close 0 e.kind).events := by
    intro w m s1 s2 h1 h2
    obtain ⟨F1, w1, g1⟩ := (exec_struct sparql m 0 e.kind _ _).1 s1 h1
    obtain ⟨F2, w2, g2, -⟩ := swallow_next h2
    have hm2 := ((hm w).step g1).step g2
    refine ⟨hm2, ?_⟩
    rw [close_named _ hm2.opens]
    exact (step_named 0 e.kind g2).trans (List.prefix_append _ _)
  obtain ⟨hm2, ho⟩ := hmark h1 h2
  obtain ⟨hm2', ho'⟩ := hmark h1' h2'
  have hpre : Pre a.length (s2.close 0 e.kind) (t2.close 0 e.kind) := by
    rcases exec_fork sparql a.length x y _ 0 e.kind _ _ _ hI (hm _) false s1 false t1 (Or.inl ⟨rfl, h1⟩) (Or.inl ⟨rfl, h1'⟩) with ⟨-, -, h⟩ | ⟨V, b1, b2, b3⟩
    · rcases h.swallow h2 h2' with h | h
      · exact absurd s0 h.cur_eq.2.2.1
      · exact (h.split e.kind hm2.opens).shut hm2.opens hm2'.opens
    · exact ⟨V, b1, b2.trans ho, b3.trans ho'⟩
  obtain ⟨V, b1, b2, b3⟩ := hpre
  rw [hF] at b2
  rw [hF'] at b3
  cases V with
  | nil =>
    exfalso
    have : eaten [] = 0 := rfl
    rw [this] at b1
    exact ha (List.length_eq_zero_iff.1 b1.symm)
  | cons v V =>
    obtain ⟨T, b2⟩ := b2
    obtain ⟨T', b3⟩ := b3
    injection b2 with hv b2
    injection b3 with _ b3
    subst hv
    have he : eaten (Event.openNode e.kind :: V) = eaten V := by
      rw [show Event.openNode e.kind :: V = [.openNode e.kind] ++ V from rfl, eaten_append]; simp [eaten, view]
    rw [he] at b1
    rw [← b1]
    rcases front_of_events F V F' _ _ ⟨T, b2⟩ ⟨T', b3⟩ with ⟨rfl, -⟩ | ⟨-, -, h⟩
    · rfl
    · exact h

end Verif.Grammar
