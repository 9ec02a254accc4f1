import Verif.Features.Location
import Verif.Features.Indent
/-!
# The end of a triple behind a completed object

Models `get_following_token` (`src/server/message_handler/completion/environment/mod.rs` L412-421) and `ObjectSuffixTransformer`
(`src/server/message_handler/completion/transformer/object_suffix.rs` L33-117): the text of an item. The other fields of the items
(`insert_text_format`, `command`, `item_defaults`) and the settings are not modelled.
-/
namespace Verif.Features
open Verif Verif.Grammar

/-- `token_at_offset(offset).right_biased()`: the token that contains the offset or begins there, or at the end of the tree the last one.
rowan's assertion that the offset is inside the tree is not modelled here. -/
def tokenAtRight (g : Green) (off : Nat) : Option Red :=
  match (Red.root g).tokens.find? (fun t => decide (t.text ≠ []) && decide (t.start ≤ off) && decide (off < t.stop)) with
  | some t => some t
  | none => ((Red.root g).tokens.filter (fun t => decide (t.text ≠ []) && decide (t.start ≤ off) && decide (off ≤ t.stop))).getLast?

/-- `get_following_token` (mod.rs L412-421): `next_token()` walks through the tokens that start later. -/
def followingToken (g : Green) (off : Nat) : Option Red :=
  match tokenAtRight g off with
  | none => none
  | some s => (s :: (Red.root g).tokens.filter (fun t => decide (s.stop ≤ t.start))).find? (fun t => !triviaKind t.kind)

/-- `followed_by_separator` (object_suffix.rs L46-49). -/
def followedBySeparator (g : Green) (off : Nat) : Bool :=
  match followingToken g off with
  | none => false
  | some t => t.kind == K.Dot || t.kind == K.Semicolon || t.kind == K.Comma

/-- `trim_end` (`char::is_whitespace`). -/
def trimEnd (t : Text) : Text := (t.reverse.dropWhile isWhite).reverse

/-- `self.indent` (object_suffix.rs L50-52): `" ".repeat(depth).repeat(tab_size)`. -/
def suffixIndent (anchor : Red) (tab : Nat) : Text := List.replicate (braceDepth anchor * tab) ' '

/-- The text of an item (object_suffix.rs L64-74, L84-94); `$0` is the place of the cursor in a snippet. -/
def suffixed (separator : Bool) (indent : Text) (t : Text) : Text :=
  if separator then trimEnd t else trimEnd t ++ [' ', '.', '\n'] ++ indent ++ ['$', '0']

/-- `ObjectSuffixTransformer::try_from_env` with the setting enabled, then `transform` for the text of an item; `none` leaves it. -/
def objectSuffix (full : Green) (off : Nat) (location : Location) (anchor : Option Red) (tab : Nat) (t : Text) : Option Text :=
  match location with
  | .object _ =>
    match anchor with
    | none => none
    | some a => some (suffixed (followedBySeparator full off) (suffixIndent a tab) t)
  | _ => none

end Verif.Features
