/-!
# The lazy reader of SPARQL results

Models `crates/lazy-sparql-result-reader/src/parser.rs` and the loop of `lib.rs` (L15-67, the variant the language server
uses, and L70-119, the JavaScript variant). `serde_json::from_slice` is a parameter (`Serde`). Arithmetic on `usize`
counters is unbounded (see `admits` for the one subtraction that matters); arithmetic on the `u8` nesting depth panics on overflow (as in a build with overflow checks).
-/
namespace Verif.Lazy

abbrev Byte := UInt8
abbrev Bytes := List Byte

def quote : Byte := 0x22
def backslash : Byte := 0x5C
def lbrace : Byte := 0x7B
def rbrace : Byte := 0x7D
def lbrack : Byte := 0x5B
def rbrack : Byte := 0x5D

/-- `ScannerState` (parser.rs L39-50). -/
inductive Scan
  | readingHead
  | searchingBindings
  | searchingBinding
  | readingBinding (depth : Nat)
  | readingString (prev : Scan)
  | readingStringEscaped (prev : Scan)
  | searchingMeta
  | readingMeta
  | done
deriving DecidableEq, Repr

/-- `PartialResult` (parser.rs L52-58). -/
inductive Part (H B M : Type)
  | header (h : H)
  | bindings (l : List B)
  | metadata (m : M)
deriving DecidableEq, Repr

/-- `serde_json::from_slice` at the three types. -/
structure Serde (H B M E : Type) where
  header : Bytes → Except E H
  binding : Bytes → Except E B
  metadata : Bytes → Except E M

/-- `Parser` (parser.rs L5-13). -/
structure Parser (B : Type) where
  scan : Scan
  input : Bytes
  batchSize : Nat
  buffer : List B
  counter : Nat
  limit : Option Nat
  offset : Nat

/-- `Parser::new` (parser.rs L16-26). -/
def Parser.new {B : Type} (batchSize : Nat) (limit : Option Nat) (offset : Nat) : Parser B :=
  ⟨.readingHead, [], batchSize, [], 0, limit, offset⟩

/-- `limit.is_none_or(p)`. -/
def noneOr (limit : Option Nat) (p : Nat → Bool) : Bool :=
  match limit with
  | none => true
  | some l => p l

/-- `store_char` (parser.rs L64-71). -/
def Parser.stores {B : Type} (p : Parser B) : Bool :=
  match p.scan with
  | .readingHead => true
  | .readingMeta => true
  | .readingString _ => true
  | .readingStringEscaped _ => true
  | .readingBinding _ => decide (p.offset ≤ p.counter) && noneOr p.limit (fun l => decide (p.counter - p.offset < l))
  | _ => false

/-- What `read_byte` does: continue with perhaps a partial result, a JSON error, a panic. -/
inductive Step (H B M E : Type)
  | ok (p : Parser B) (out : Option (Part H B M))
  | err (e : E)
  | panic

/-- The end of a binding (parser.rs L82-98); `p` holds the closing brace if it is stored. -/
def endBinding {H B M E : Type} (sd : Serde H B M E) (p : Parser B) : Step H B M E :=
  let p := { p with counter := p.counter + 1, scan := .searchingBinding }
  if decide (p.offset < p.counter) && noneOr p.limit (fun l => decide (p.counter - p.offset ≤ l)) then
    match sd.binding p.input with
    | .error e => .err e
    | .ok b =>
      let buf := p.buffer ++ [b]
      if buf.length = p.batchSize then .ok { p with buffer := [] } (some (.bindings buf))
      else .ok { p with buffer := buf } none
  else .ok { p with input := [] } none

/-- The `match` of `read_byte` (parser.rs L75-143), after the byte was stored. -/
def act {H B M E : Type} (sd : Serde H B M E) (p : Parser B) (c : Byte) : Step H B M E :=
  match p.scan with
  | .readingHead =>
    if c = rbrace then
      match sd.header (p.input ++ [rbrace]) with
      | .error e => .err e
      | .ok h => .ok { p with input := p.input ++ [rbrace], scan := .searchingBindings } (some (.header h))
    else if c = quote then .ok { p with scan := .readingString .readingHead } none
    else .ok p none
  | .searchingBindings =>
    if c = lbrack then .ok { p with input := [], scan := .searchingBinding } none else .ok p none
  | .searchingBinding =>
    if c = lbrace then .ok { p with input := [lbrace], scan := .readingBinding 1 } none
    else if c = rbrack then .ok { p with scan := .searchingMeta } none
    else .ok p none
  | .readingBinding d =>
    if c = rbrace then
      if d = 1 then endBinding sd p
      else if d = 0 then .panic
      else .ok { p with scan := .readingBinding (d - 1) } none
    else if c = lbrace then
      if d + 1 < 256 then .ok { p with scan := .readingBinding (d + 1) } none else .panic
    else if c = quote then .ok { p with scan := .readingString (.readingBinding d) } none
    else .ok p none
  | .readingString prev =>
    if c = quote then .ok { p with scan := prev } none
    else if c = backslash then .ok { p with scan := .readingStringEscaped prev } none
    else .ok p none
  | .readingStringEscaped prev => .ok { p with scan := .readingString prev } none
  | .searchingMeta =>
    if c = lbrace then .ok { p with input := [lbrace], scan := .readingMeta } none else .ok p none
  | .readingMeta =>
    if c = rbrace then
      match sd.metadata p.input with
      | .error e => .err e
      | .ok m => .ok { p with scan := .done } (some (.metadata m))
    else .ok p none
  | .done => .ok p none

/-- `read_byte` (parser.rs L61-145). -/
def readByte {H B M E : Type} (sd : Serde H B M E) (p : Parser B) (c : Byte) : Step H B M E :=
  act sd (if p.stores then { p with input := p.input ++ [c] } else p) c

/-- How the reading of some bytes ends. -/
inductive End (B E : Type)
  | running (p : Parser B)
  | err (e : E)
  | panic

/-- The byte loop of `read` (lib.rs L53-60) over one chunk: the results passed to the callback, and how it ends. -/
def run {H B M E : Type} (sd : Serde H B M E) : Parser B → Bytes → List (Part H B M) × End B E
  | p, [] => ([], .running p)
  | p, c :: cs =>
    match readByte sd p c with
    | .panic => ([], .panic)
    | .err e => ([], .err e)
    | .ok p' out =>
      let r := run sd p' cs
      (out.toList ++ r.1, r.2)

/-- What the stream delivers: a chunk of bytes or a failure (lib.rs L31-46); at the end of the list it is done. -/
inductive Chunk
  | bytes (l : Bytes)
  | fail (canceled : Bool)

/-- How `read` ends. -/
inductive Outcome (E : Type)
  | count (n : Nat)
  | jsonError (e : E)
  | canceled
  | corrupt
  | panic
deriving DecidableEq, Repr

/-- The outer loop of `read` and the flush behind it (lib.rs L31-66). -/
def readLoop {H B M E : Type} (sd : Serde H B M E) : Parser B → List Chunk → List (Part H B M) × Outcome E
  | p, [] => ((if p.buffer.isEmpty then [] else [.bindings p.buffer]), .count p.counter)
  | _, .fail c :: _ => ([], if c then .canceled else .corrupt)
  | p, .bytes l :: cs =>
    match run sd p l with
    | (outs, .panic) => (outs, .panic)
    | (outs, .err e) => (outs, .jsonError e)
    | (outs, .running p') =>
      let r := readLoop sd p' cs
      (outs ++ r.1, r.2)

/-- The assertion (lib.rs L22-25). If `limit < offset` the subtraction underflows: a panic in a build with overflow checks
(`checked`), otherwise a number beyond any batch size. -/
def admits (checked : Bool) (batchSize : Nat) (limit : Option Nat) (offset : Nat) : Bool :=
  noneOr limit (fun l => if l < offset then !checked else decide (batchSize ≤ l - offset))

/-- `read` (lib.rs L15-67): the calls of the callback and the result. -/
def read {H B M E : Type} (sd : Serde H B M E) (checked : Bool) (batchSize : Nat) (limit : Option Nat) (offset : Nat) (chunks : List Chunk) :
    List (Part H B M) × Outcome E :=
  if admits checked batchSize limit offset then readLoop sd (Parser.new batchSize limit offset) chunks else ([], .panic)

/-- The arguments the language server passes (src/server/sparql_operations/wasm.rs L197-203): `limit` is the number of rows
after `offset`, the batch size is 1000 capped at it. -/
def serverRead {H B M E : Type} (sd : Serde H B M E) (checked : Bool) (limit : Option Nat) (offset : Nat) (chunks : List Chunk) :
    List (Part H B M) × Outcome E :=
  read sd checked ((limit.map (fun l => min 1000 l)).getD 1000) limit offset chunks

/-- What JavaScript receives: a partial result, or a bare list of bindings. -/
inductive Call (H B M : Type)
  | part (x : Part H B M)
  | bare (l : List B)
deriving DecidableEq, Repr

/-- The JavaScript variant of the loop (lib.rs L87-118): the last batch is passed as a bare list (L115-117). -/
def readLoopJs {H B M E : Type} (sd : Serde H B M E) : Parser B → List Chunk → List (Call H B M) × Outcome E
  | p, [] => ((if p.buffer.isEmpty then [] else [.bare p.buffer]), .count p.counter)
  | _, .fail c :: _ => ([], if c then .canceled else .corrupt)
  | p, .bytes l :: cs =>
    match run sd p l with
    | (outs, .panic) => (outs.map .part, .panic)
    | (outs, .err e) => (outs.map .part, .jsonError e)
    | (outs, .running p') =>
      let r := readLoopJs sd p' cs
      (outs.map .part ++ r.1, r.2)

end Verif.Lazy
