import Verif.Props.OnType
/-!
# Tokens in a new context

When a document is edited, a token keeps its kind if no rule of the lexer can read across its end into the new text.
-/
namespace Verif.Lexer
open Verif Verif.Grammar

/-- Any text. -/
def anyText : Regex := .star (.cls [(0, 0x10FFFF)])

theorem anyText_matches (w : Text) : Matches anyText w := by
  refine matches_star_cls.2 (fun c _ => ?_)
  have : c.toNat ≤ 0x10FFFF := by
    have := c.valid
    rcases this with h | ⟨-, h⟩ <;> (have h' : c.toNat < _ := h; omega)
  simp only [Class.has, List.any_cons, List.any_nil, Bool.or_false, Bool.and_eq_true, Nat.ble_eq]
  exact ⟨Nat.zero_le _, this⟩

/-- No rule, except perhaps those of a kind in `ks`, has a match of the shape `q`. -/
def noRule (q : Regex) (ks : List Kind) : Bool := lexRules.all (fun r => ks.contains r.kind || apart 60 [] q r.re)

/-- No rule of a kind in `ks` has a match of the shape `q`. -/
def noRuleOf (q : Regex) (ks : List Kind) : Bool := lexRules.all (fun r => !ks.contains r.kind || apart 60 [] q r.re)

theorem noRule_sound {q : Regex} {ks : List Kind} (h : noRule q ks = true) {r : LexRule} (hr : r ∈ lexRules) (hk : r.kind ∉ ks)
    {w : Text} (hq : Matches q w) : ¬ Matches r.re w := by
  have := List.all_eq_true.1 h r hr
  simp only [Bool.or_eq_true, List.contains_iff_mem] at this
  rcases this with h' | h'
  · exact absurd h' hk
  · exact apart_disjoint h' w hq

theorem noRuleOf_sound {q : Regex} {ks : List Kind} (h : noRuleOf q ks = true) {r : LexRule} (hr : r ∈ lexRules) (hk : r.kind ∈ ks)
    {w : Text} (hq : Matches q w) : ¬ Matches r.re w := by
  have := List.all_eq_true.1 h r hr
  simp only [Bool.or_eq_true, Bool.not_eq_true'] at this
  rcases this with h' | h'
  · rw [List.contains_iff_mem.2 hk] at h'; cases h'
  · exact apart_disjoint h' w hq

/-! ## Tokens of a prologue -/

/-- A letter or a colon. -/
def nameHead : Class := [(0x3A, 0x3A), (0x41, 0x5A), (0x61, 0x7A), (0xAA, 0x10FFFF)]

/-- An ASCII letter. -/
def letter : Class := [(0x41, 0x5A), (0x61, 0x7A)]

/-- White space or `#`. -/
def gapClass : Class := [(0x9, 0xA), (0xC, 0xD), (0x20, 0x20), (0x23, 0x23)]

/-- `"` or `'`. -/
def quoteClass : Class := [(0x22, 0x22), (0x27, 0x27)]

/-- Every character. -/
def anyChar : Class := [(0, 0x10FFFF)]

/-- A token that starts like a name does not contain `<`. -/
theorem name_no_lt : noRule (seqs [.cls nameHead, anyText, .cls [(0x3C, 0x3C)], anyText]) [] = true := by decide +kernel
theorem safe_iri : noRule (seqs [rule_IRIREF.re, .cls anyChar, anyText]) [] = true := by decide +kernel
theorem safe_version : noRule (seqs [rule_VERSION.re, .cls (gapClass ++ quoteClass), anyText]) [] = true := by decide +kernel
theorem safe_str1 : noRule (seqs [rule_STRING_LITERAL1.re, .cls (gapClass ++ letter), anyText]) [] = true := by decide +kernel
theorem safe_str2 : noRule (seqs [rule_STRING_LITERAL2.re, .cls (gapClass ++ letter), anyText]) [] = true := by decide +kernel
theorem safe_prefix : noRule (seqs [rule_PREFIX.re, .cls wsClass, anyText]) [] = true := by decide +kernel

/-- Kinds of tokens with white space between letters: `INSERT DATA` and the like. -/
def wideKinds : List Kind := [47, 48, 49]

theorem name_no_ws : noRule (seqs [.cls nameHead, anyText, .cls wsClass, anyText]) wideKinds = true := by decide +kernel
theorem wide_no_colon : noRuleOf (seqs [anyText, .cls [(0x3A, 0x3A)], anyText]) wideKinds = true := by decide +kernel

/-- The rules with the kinds in a prologue are those named after them, and the first characters of their matches. -/
theorem first_ws : noRuleOf (seqs [.cls [(0, 0x8), (0xB, 0xB), (0xE, 0x1F), (0x21, 0x10FFFF)], anyText]) [K.WHITESPACE] = true := by decide +kernel
theorem first_comment : noRuleOf (seqs [.cls [(0, 0x22), (0x24, 0x10FFFF)], anyText]) [K.Comment] = true := by decide +kernel
theorem first_string : noRuleOf (seqs [.cls [(0, 0x21), (0x23, 0x26), (0x28, 0x10FFFF)], anyText]) [K.STRING_LITERAL1, K.STRING_LITERAL2] = true := by
  decide +kernel
theorem first_letter : noRuleOf (seqs [.cls [(0, 0x40), (0x5B, 0x60), (0x7B, 0x10FFFF)], anyText])
    [K.BASE, K.PREFIX, K.VERSION, K.SELECT, K.CONSTRUCT, K.DESCRIBE, K.ASK] = true := by decide +kernel
theorem first_name : noRuleOf (seqs [.cls [(0, 0x39), (0x3B, 0x40), (0x5B, 0x60), (0x7B, 0xA9)], anyText])
    [K.BASE, K.PREFIX, K.PNAME_NS] = true := by decide +kernel
theorem first_iri : noRuleOf (seqs [.cls [(0, 0x3B), (0x3D, 0x10FFFF)], anyText]) [K.IRIREF] = true := by decide +kernel

end Verif.Lexer
