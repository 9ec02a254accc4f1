import Verif.Grammar.Stmt
/-!
# Well-bracketed event streams

A `Forest` is an ordered forest of nodes, consumed tokens and error reports; `ser` writes it as an event stream.
Specification vocabulary, not part of the code.
-/
namespace Verif.Grammar

inductive Forest
  | nil
  | tok (rest : Forest)
  | err (expected : List Kind) (rest : Forest)
  | node (k : Kind) (children rest : Forest)
deriving DecidableEq, Repr

namespace Forest

/-- The event stream of a forest. -/
def ser : Forest → List Event
  | nil => []
  | tok r => .advance :: r.ser
  | err e r => .error e :: r.ser
  | node k c r => .openNode k :: (c.ser ++ .close :: r.ser)

def append : Forest → Forest → Forest
  | nil, g => g
  | tok r, g => tok (r.append g)
  | err e r, g => err e (r.append g)
  | node k c r, g => node k c (r.append g)

/-- Number of tokens. -/
def toks : Forest → Nat
  | nil => 0
  | tok r => r.toks + 1
  | err _ r => r.toks
  | node _ c r => c.toks + r.toks

/-- No error report anywhere. -/
def noErr : Forest → Bool
  | nil => true
  | tok r => r.noErr
  | err _ _ => false
  | node _ c r => c.noErr && r.noErr

/-- No node of kind `Error` that covers a token. -/
def noErrNode : Forest → Bool
  | nil => true
  | tok r => r.noErrNode
  | err _ r => r.noErrNode
  | node k c r => (k != K.Error || c.toks == 0) && c.noErrNode && r.noErrNode

theorem ser_append (f g : Forest) : (f.append g).ser = f.ser ++ g.ser := by
  induction f with
  | nil => rfl
  | tok r ih => simp [append, ser, ih]
  | err e r ih => simp [append, ser, ih]
  | node k c r _ ih => simp [append, ser, ih]

theorem toks_append (f g : Forest) : (f.append g).toks = f.toks + g.toks := by
  induction f with
  | nil => simp [append, toks]
  | tok r ih => simp [append, toks, ih]; omega
  | err e r ih => simp [append, toks, ih]
  | node k c r _ ih => simp [append, toks, ih]; omega

theorem noErr_append (f g : Forest) : (f.append g).noErr = (f.noErr && g.noErr) := by
  induction f with
  | nil => simp [append, noErr]
  | tok r ih => simp [append, noErr, ih]
  | err e r ih => simp [append, noErr]
  | node k c r _ ih => simp [append, noErr, ih, Bool.and_assoc]

theorem noErrNode_append (f g : Forest) : (f.append g).noErrNode = (f.noErrNode && g.noErrNode) := by
  induction f with
  | nil => simp [append, noErrNode]
  | tok r ih => simp [append, noErrNode, ih]
  | err e r ih => simp [append, noErrNode, ih]
  | node k c r _ ih => simp [append, noErrNode, ih, Bool.and_assoc]

theorem append_nil (f : Forest) : f.append nil = f := by
  induction f with
  | nil => rfl
  | tok r ih => simp [append, ih]
  | err e r ih => simp [append, ih]
  | node k c r _ ih => simp [append, ih]

theorem append_assoc (f g h : Forest) : (f.append g).append h = f.append (g.append h) := by
  induction f with
  | nil => rfl
  | tok r ih => simp [append, ih]
  | err e r ih => simp [append, ih]
  | node k c r _ ih => simp [append, ih]

/-- `n` tokens in a row. -/
def tokens : Nat → Forest
  | 0 => nil
  | n + 1 => tok (tokens n)

theorem ser_tokens (n : Nat) : (tokens n).ser = List.replicate n Event.advance := by
  induction n with
  | zero => rfl
  | succ n ih => simp [tokens, ser, ih, List.replicate_succ]

theorem toks_tokens (n : Nat) : (tokens n).toks = n := by
  induction n with
  | zero => rfl
  | succ n ih => simp [tokens, toks, ih]

end Forest

/-- From `s` to `s'` the parser consumed the tokens `w` and emitted the forest `F`. -/
def Step (s s' : PState) (F : Forest) (w : List Kind) : Prop :=
  s'.events = s.events ++ F.ser ∧ s.toks = w ++ s'.toks ∧ F.toks = w.length

/-- The function with marker `mark` returned early: its node is closed and an empty error node follows. -/
def RetStep (mark : Nat) (root : Kind) (s s' : PState) (F : Forest) (w : List Kind) : Prop :=
  (∀ A x B, s.events = A ++ .openNode x :: Forest.ser B → A.length = mark →
    s'.events = A ++ Forest.ser (.node root (B.append F) (.node K.Error .nil .nil))) ∧
  s.toks = w ++ s'.toks ∧ F.toks = w.length ∧ cur s'.toks = K.Eof

end Verif.Grammar
