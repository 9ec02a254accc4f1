import Verif.Grammar.Term
import Verif.Grammar.DTree
/-!
# LL(1): valid sentences are parsed without error, into their derivation tree, within the look-ahead budget

Generic in the grammar; the checks are run by the kernel on the SPARQL tables in `Verif.Grammar.LLCert`. Not part of
the code.
-/
namespace Verif.Grammar
open Forest

/-- Tables per node kind: nullability, FIRST and FOLLOW sets, and bounds on look-aheads before the first (`ec`) and
after the last (`xc`) token. -/
structure LL where
  null : Kind → Bool
  first : Kind → Mask
  follow : Kind → Mask
  ec : Kind → Nat
  xc : Kind → Nat

variable (T : LL)

def Rule.null : Rule → Bool
  | .node k => T.null k
  | .tok _ => false
  | .seq a b => a.null && b.null
  | .alt a b => a.null || b.null
  | .opt _ => true
  | .rep _ => true

def Rule.firstM : Rule → Mask
  | .node k => T.first k
  | .tok k => mask [k]
  | .seq a b => a.firstM ||| (if a.null T then b.firstM else 0)
  | .alt a b => a.firstM ||| b.firstM
  | .opt r => r.firstM
  | .rep r => r.firstM

def Mask.disj (S S' : Mask) : Bool := (S &&& S') == 0

theorem Mask.disj_testBit {S S' : Mask} (h : S.disj S' = true) {c : Kind} (hc : S'.testBit c = true) :
    S.testBit c = false := by
  simp [Mask.disj] at h
  have := Nat.testBit_and S S' c
  rw [h, hc] at this
  simpa using this.symm

/-- LL(1) conditions in a context where the kinds `Fo` may follow. -/
def ruleOk : Rule → Mask → Bool
  | .node k, Fo => Fo.sub (T.follow k)
  | .tok _, _ => true
  | .seq a b, Fo => ruleOk b Fo && ruleOk a (b.firstM T ||| (if b.null T then Fo else 0))
  | .alt a b, Fo =>
    !(a.null T) && (a.firstM T).disj (b.firstM T) && ruleOk a Fo && ruleOk b Fo &&
    (!(b.null T) || ((a.firstM T ||| b.firstM T).disj Fo && !Fo.testBit K.Eof))
  | .opt r, Fo => !(r.null T) && (r.firstM T).disj Fo && ruleOk r Fo
  | .rep r, Fo => !(r.null T) && (r.firstM T).disj Fo && ruleOk r (Fo ||| r.firstM T)

def Stmt.snull : Stmt → Bool
  | .skip => true
  | .seq a b => a.snull && b.snull
  | .expect _ => false
  | .call k => T.null k
  | .sync _ => true
  | .opt _ _ => true
  | .rep _ _ => true
  | .alt a => a.snull
  | .arm _ b r => b.snull || r.snull
  | .altEnd _ => false

/-- Look-aheads when nothing is consumed. -/
def Stmt.zc : Stmt → Nat
  | .skip => 0
  | .seq a b => a.zc + b.zc
  | .expect _ => 0
  | .call _ => 1
  | .sync _ => 1
  | .opt _ _ => 1
  | .rep _ _ => 1
  | .alt _ => 1
  | .arm _ _ _ => 0
  | .altEnd _ => 0

/-- Look-aheads until the first token is consumed. -/
def Stmt.ecost : Stmt → Nat
  | .skip => 0
  | .seq a b => max a.ecost (if a.snull T then a.zc + b.ecost else 0)
  | .expect _ => 1
  | .call k => T.ec k
  | .sync _ => 1
  | .opt _ b => 1 + b.ecost
  | .rep _ b => 1 + b.ecost
  | .alt a => 1 + a.ecost
  | .arm _ b r => max b.ecost r.ecost
  | .altEnd _ => 0

/-- Look-aheads after the last token was consumed. -/
def Stmt.xcost : Stmt → Nat
  | .skip => 0
  | .seq a b => max b.xcost (if b.snull T then a.xcost + b.zc else 0)
  | .expect _ => 0
  | .call k => T.xc k
  | .sync _ => 0
  | .opt _ b => b.xcost
  | .rep _ b => b.xcost + 1
  | .alt a => a.xcost
  | .arm _ b r => max b.xcost r.xcost
  | .altEnd _ => 0

/-- Between two tokens the budget suffices. -/
def Stmt.fits : Stmt → Bool
  | .skip => true
  | .seq a b => a.fits && b.fits && Nat.ble (a.xcost T + b.ecost T) maxFuel &&
      (!(b.snull T) || Nat.ble (a.xcost T + b.zc) maxFuel)
  | .opt _ b => b.fits
  | .rep _ b => b.fits && Nat.ble (b.xcost T + 1 + b.ecost T) maxFuel
  | .alt a => a.fits
  | .arm _ b r => b.fits && r.fits
  | _ => true

variable (G : Grammar)

mutual
/-- The statement implements the rule. -/
def matchR : Rule → Stmt → Bool
  | r, .seq (.sync ks) y => !(r.null T) && (r.firstM T).sub (mask ks) && matchR r y
  | .seq a b, .seq x y => matchR a x && matchR b y
  | .tok k, .expect k' => k == k'
  | .node k, .call k' => k == k' &&
      (match G k with
      | none => false
      | some f => f.swallow == false && f.kind == k &&
        (match f.guard with
        | none => !(T.null k)
        | some ks => T.null k && mask ks == T.first k && (T.first k).disj (T.follow k)))
  | .opt r, .opt ks b => mask ks == r.firstM T && matchR r b
  | .rep r, .rep ks b => mask ks == r.firstM T && matchR r b
  | .alt a b, .alt (.arm ks x rest) => mask ks == a.firstM T && matchR a x && matchA b rest
  | _, _ => false

/-- The arms implement the alternatives. -/
def matchA : Rule → Stmt → Bool
  | r, .arm ks x (.altEnd e) => mask ks == r.firstM T && matchR r x && r.null T == e.isNone
  | .alt a b, .arm ks x rest => mask ks == a.firstM T && matchR a x && matchA b rest
  | _, _ => false
end

end Verif.Grammar
