import Verif.LazyReader.Model
/-!
# Result documents, on the level of bytes

A specification that does not refer to the scanner: strings, objects and the shape of a result document.
-/
namespace Verif.Lazy

/-- The inside of a JSON string: plain bytes, or a backslash and any byte. -/
inductive StrBody : Bytes → Prop
  | nil : StrBody []
  | plain {c w} (h : c ≠ quote) (h' : c ≠ backslash) (hw : StrBody w) : StrBody (c :: w)
  | escape {c w} (hw : StrBody w) : StrBody (backslash :: c :: w)

/-- The inside of an object that nests at most `n` objects deeper: strings, nested objects, other bytes. -/
inductive Body : Nat → Bytes → Prop
  | nil {n} : Body n []
  | byte {n c w} (h1 : c ≠ quote) (h2 : c ≠ lbrace) (h3 : c ≠ rbrace) (hw : Body n w) : Body n (c :: w)
  | str {n s w} (hs : StrBody s) (hw : Body n w) : Body n (quote :: s ++ quote :: w)
  | obj {n u w} (hu : Body n u) (hw : Body (n + 1) w) : Body (n + 1) (lbrace :: u ++ rbrace :: w)

/-- An object whose text nests less than 256 deep (the reader keeps the depth in a `u8`). -/
def IsObj (w : Bytes) : Prop := ∃ u, w = lbrace :: u ++ [rbrace] ∧ Body 254 u

/-- Text without `}` outside of strings. -/
inductive Flat : Bytes → Prop
  | nil : Flat []
  | byte {c w} (h1 : c ≠ quote) (h2 : c ≠ rbrace) (hw : Flat w) : Flat (c :: w)
  | str {s w} (hs : StrBody s) (hw : Flat w) : Flat (quote :: s ++ quote :: w)

/-- The list of bindings: between the objects anything but braces and brackets that would open or close something. -/
inductive Rows : List Bytes → Bytes → Prop
  | nil : Rows [] []
  | sep {c rows w} (h1 : c ≠ lbrace) (h2 : c ≠ rbrack) (hw : Rows rows w) : Rows rows (c :: w)
  | row {o rows w} (ho : IsObj o) (hw : Rows rows w) : Rows (o :: rows) (o ++ w)

/-- A result document with header text `head ++ "}"` (as in `{"head":{"vars":["x"]}`), the rows, the meta object and a rest. -/
structure Doc where
  head : Bytes
  toBindings : Bytes
  rows : List Bytes
  rowsText : Bytes
  toMeta : Bytes
  meta_ : Bytes
  rest : Bytes

structure Doc.Ok (d : Doc) : Prop where
  head : Flat d.head
  toBindings : lbrack ∉ d.toBindings
  rows : Rows d.rows d.rowsText
  toMeta : lbrace ∉ d.toMeta
  meta_ : rbrace ∉ d.meta_

/-- From the start of the document through its rows. -/
def Doc.upToRows (d : Doc) : Bytes := d.head ++ [rbrace] ++ d.toBindings ++ [lbrack] ++ d.rowsText
/-- The whole document. -/
def Doc.text (d : Doc) : Bytes := d.upToRows ++ [rbrack] ++ d.toMeta ++ [lbrace] ++ d.meta_ ++ [rbrace] ++ d.rest

/-- The rows asked for: after the first `offset` ones, at most `limit`. -/
def window {α : Type} (limit : Option Nat) (offset : Nat) (rows : List α) : List α :=
  match limit with
  | none => rows.drop offset
  | some l => (rows.drop offset).take l

/-- The values are the results of parsing the texts. -/
def Parses {B E : Type} (f : Bytes → Except E B) (ws : List Bytes) (vs : List B) : Prop := ws.map f = vs.map .ok

/-- `vs` in batches of `n`, what does not fill a batch in `rem`. -/
structure Batched {B : Type} (n : Nat) (vs : List B) (batches : List (List B)) (rem : List B) : Prop where
  all : batches.flatten ++ rem = vs
  full : ∀ b ∈ batches, b.length = n
  rest : rem.length < n

/-! ## JSON objects are objects in this sense -/

inductive JSort | value | elements | members

/-- The texts of JSON values (with white space), nesting objects at most `n` deep. Numbers, `true`, `false`, `null` and white
space are any bytes without meaning for the nesting. -/
inductive Json : JSort → Nat → Bytes → Prop
  | atom {n w} (h : ∀ c ∈ w, c ≠ quote ∧ c ≠ lbrace ∧ c ≠ rbrace) : Json .value n w
  | str {n s} (h : StrBody s) : Json .value n (quote :: s ++ [quote])
  | arr {n w} (h : Json .elements n w) : Json .value n (0x5B :: w ++ [0x5D])
  | obj {n w} (h : Json .members n w) : Json .value (n + 1) (lbrace :: w ++ [rbrace])
  | spaced {n a w b} (ha : ∀ c ∈ a, c = 0x20 ∨ c = 0x09 ∨ c = 0x0A ∨ c = 0x0D) (hb : ∀ c ∈ b, c = 0x20 ∨ c = 0x09 ∨ c = 0x0A ∨ c = 0x0D)
      (h : Json .value n w) : Json .value n (a ++ w ++ b)
  | noElements {n} : Json .elements n []
  | one {n w} (h : Json .value n w) : Json .elements n w
  | more {n w v} (h : Json .value n w) (hs : Json .elements n v) : Json .elements n (w ++ 0x2C :: v)
  | noMembers {n} : Json .members n []
  | member {n k w} (hk : StrBody k) (h : Json .value n w) : Json .members n (quote :: k ++ [quote, 0x3A] ++ w)
  | members {n k w v} (hk : StrBody k) (h : Json .value n w) (hs : Json .members n v) :
      Json .members n (quote :: k ++ [quote, 0x3A] ++ w ++ 0x2C :: v)

end Verif.Lazy
