import Verif.Text
/-!
# Message framing on stdin / stdout

Models `src/stdio_reader.rs` and `send_message` of `src/main.rs` over byte sequences. An I/O error while reading is not
modelled (it ends the server or delivers what was read so far); end of input ends the iterator.
-/
namespace Verif.Srv

/-- `str::as_bytes`. -/
def bytesOf (t : Text) : List UInt8 := t.flatMap String.utf8EncodeChar

/-- `String::from_utf8`. -/
def textOf (bs : List UInt8) : Option Text := (bs.toByteArray.utf8Decode?).map Array.toList

/-- Decimal digits of a number, most significant first (`{}` of an integer). -/
def digits (n : Nat) : List UInt8 :=
  if n < 10 then [UInt8.ofNat (48 + n)] else digits (n / 10) ++ [UInt8.ofNat (48 + n % 10)]

/-- `"Content-Length: "`. -/
def headerName : List UInt8 := [67, 111, 110, 116, 101, 110, 116, 45, 76, 101, 110, 103, 116, 104, 58, 32]

/-- `"\r\n\r\n"`. -/
def headerEnd : List UInt8 := [13, 10, 13, 10]

/-- `send_message` (main.rs L100-103). -/
def frame (message : Text) : List UInt8 :=
  headerName ++ digits (bytesOf message).length ++ headerEnd ++ bytesOf message

/-- The header loop (stdio_reader.rs L45-56): push bytes until the buffer ends with an empty line. `none`: end of input. -/
def readHeader (buffer : List UInt8) : List UInt8 → Option (List UInt8 × List UInt8)
  | [] => none
  | b :: rest =>
    if headerEnd <:+ buffer ++ [b] then some (buffer ++ [b], rest) else readHeader (buffer ++ [b]) rest

/-- Value of a digit byte. -/
def digit? (b : UInt8) : Option Nat := if 48 ≤ b.toNat ∧ b.toNat ≤ 57 then some (b.toNat - 48) else none

/-- The accumulation loop of `u32::from_str`; `none` on a non-digit or on overflow. -/
def parseDigits : List UInt8 → Nat → Option Nat
  | [], acc => some acc
  | b :: rest, acc =>
    match digit? b with
    | none => none
    | some d => if acc * 10 + d < 4294967296 then parseDigits rest (acc * 10 + d) else none

/-- `u32::from_str`: an optional plus sign, then at least one digit. -/
def parseU32 : List UInt8 → Option Nat
  | [] => none
  | b :: rest =>
    if b = 43 then (if rest = [] then none else parseDigits rest 0) else parseDigits (b :: rest) 0

/-- Outcome of one `read_next_message`. -/
inductive ReadRes where
  | eof
  | panic
  | invalidUtf8
  | message (m : Text) (rest : List UInt8)

/-- `read_next_message` (stdio_reader.rs L44-90): `buffer.get(16..len - 4)` is the length; the name of the header is
not looked at. -/
def readNext (input : List UInt8) : ReadRes :=
  match readHeader [] input with
  | none => .eof
  | some (buffer, rest) =>
    if buffer.length < 20 then .panic
    else
      match parseU32 ((buffer.take (buffer.length - 4)).drop 16) with
      | none => .panic
      | some n =>
        if rest.length < n then .eof
        else
          match textOf (rest.take n) with
          | none => .invalidUtf8
          | some m => .message m (rest.drop n)

/-- Why reading stopped. -/
inductive Stop where
  | eof
  | panic
  | invalidUtf8
deriving DecidableEq

theorem readHeader_shorter {buffer input b r : List UInt8} (h : readHeader buffer input = some (b, r)) :
    r.length < input.length := by
  induction input generalizing buffer with
  | nil => simp [readHeader] at h
  | cons x xs ih =>
    unfold readHeader at h
    split at h
    · cases h; simp
    · have := ih h; simp; omega

theorem readNext_shorter {input rest : List UInt8} {m : Text} (h : readNext input = .message m rest) :
    rest.length < input.length := by
  unfold readNext at h
  split at h
  · cases h
  · rename_i b r hr
    have h1 := readHeader_shorter hr
    split at h
    · cases h
    · split at h
      · cases h
      · split at h
        · cases h
        · split at h
          · cases h
          · cases h
            simp only [List.length_drop]; omega

/-- The iterator over stdin (stdio_reader.rs L93-99, main.rs L115-117). -/
def readAll (input : List UInt8) : List Text × Stop :=
  match _h : readNext input with
  | .eof => ([], .eof)
  | .panic => ([], .panic)
  | .invalidUtf8 => ([], .invalidUtf8)
  | .message m rest => let r := readAll rest; (m :: r.1, r.2)
termination_by input.length
decreasing_by exact readNext_shorter _h

/-! ## Lemmas -/

theorem textOf_bytesOf (t : Text) : textOf (bytesOf t) = some t := by
  unfold textOf bytesOf
  have := List.utf8Decode?_utf8Encode (l := t)
  unfold List.utf8Encode at this
  rw [this]; rfl

theorem digit?_ofNat (d : Nat) (h : d < 10) : digit? (UInt8.ofNat (48 + d)) = some d := by
  have : (UInt8.ofNat (48 + d)).toNat = 48 + d := by
    rw [UInt8.toNat_ofNat']; omega
  unfold digit?
  rw [this, if_pos (by omega)]
  congr 1; omega

theorem parseDigits_append (a b : List UInt8) (acc : Nat) :
    parseDigits (a ++ b) acc = (parseDigits a acc).bind (parseDigits b) := by
  induction a generalizing acc with
  | nil => rfl
  | cons x a ih =>
    simp only [List.cons_append, parseDigits]
    cases digit? x with
    | none => rfl
    | some d =>
      dsimp only
      split
      · exact ih _
      · rfl

theorem parseDigits_digits (n : Nat) (h : n < 4294967296) : parseDigits (digits n) 0 = some n := by
  induction n using Nat.strongRecOn with
  | _ n ih =>
    unfold digits
    split
    · rename_i hn
      simp only [parseDigits, digit?_ofNat n hn]
      rw [if_pos (by omega)]
      simp
    · rw [parseDigits_append, ih (n / 10) (by omega) (by omega), Option.bind_some]
      simp only [parseDigits, digit?_ofNat (n % 10) (by omega)]
      have : n / 10 * 10 + n % 10 = n := by omega
      rw [this, if_pos h]

theorem digits_ne (n : Nat) : digits n ≠ [] := by
  unfold digits; split <;> simp

theorem digits_range (n : Nat) : ∀ b ∈ digits n, 48 ≤ b.toNat ∧ b.toNat ≤ 57 := by
  induction n using Nat.strongRecOn with
  | _ n ih =>
    unfold digits
    have key : ∀ d, d < 10 → 48 ≤ (UInt8.ofNat (48 + d)).toNat ∧ (UInt8.ofNat (48 + d)).toNat ≤ 57 := by
      intro d hd
      rw [UInt8.toNat_ofNat']; omega
    split
    · rename_i hn
      intro b hb
      simp only [List.mem_singleton] at hb
      subst hb; exact key n hn
    · intro b hb
      simp only [List.mem_append, List.mem_singleton] at hb
      rcases hb with hb | rfl
      · exact ih (n / 10) (by omega) b hb
      · exact key _ (by omega)

theorem parseU32_digits (n : Nat) (h : n < 4294967296) : parseU32 (digits n) = some n := by
  have h1 := parseDigits_digits n h
  have h2 := digits_range n
  cases hd : digits n with
  | nil => exact absurd hd (digits_ne n)
  | cons b rest =>
    rw [hd] at h1 h2
    have : b ≠ 43 := by
      intro e
      have := (h2 b (by simp)).1
      rw [e] at this
      exact absurd this (by decide)
    simp only [parseU32, this, if_false]
    exact h1

theorem readHeader_scan (pre : List UInt8) (buffer rest : List UInt8) (hp : ∀ b ∈ pre, b ≠ 13)
    (hb : ∀ b ∈ buffer, b ≠ 13) :
    readHeader buffer (pre ++ headerEnd ++ rest) = some (buffer ++ pre ++ headerEnd, rest) := by
  have no : ∀ (l : List UInt8) (k : List UInt8), (∀ b ∈ l, b ≠ 13) → k.length < 4 → ¬ headerEnd <:+ l ++ k := by
    intro l k hl hk h
    obtain ⟨t, ht⟩ := h
    -- the carriage return at the start of `headerEnd` would lie in `l`
    have hlen := congrArg List.length ht
    simp only [List.length_append] at hlen
    have h4 : headerEnd.length = 4 := rfl
    have hidx : (t ++ headerEnd)[t.length]? = some 13 := by
      rw [List.getElem?_append_right (by omega)]; simp [headerEnd]
    rw [ht] at hidx
    have : t.length < l.length := by omega
    rw [List.getElem?_append_left this] at hidx
    exact hl 13 (List.mem_of_getElem? hidx) rfl
  induction pre generalizing buffer with
  | nil =>
    have h1 := no buffer [13] hb (by simp)
    have h2 := no buffer [13, 10] hb (by simp)
    have h3 := no buffer [13, 10, 13] hb (by simp)
    have h4 : headerEnd <:+ buffer ++ [13, 10, 13, 10] := ⟨buffer, rfl⟩
    simp [headerEnd, readHeader] at h1 h2 h3 h4 ⊢
    simp [h1, h2, h3]
  | cons x pre ih =>
    have hx : ∀ b ∈ buffer ++ [x], b ≠ 13 := by
      intro b hb'
      simp only [List.mem_append, List.mem_singleton] at hb'
      rcases hb' with h | rfl
      · exact hb b h
      · exact hp b (by simp)
    have h0 : ¬ headerEnd <:+ buffer ++ [x] := by
      have := no (buffer ++ [x]) [] hx (by simp)
      simpa using this
    simp only [List.cons_append, readHeader, h0, if_false]
    rw [ih (buffer ++ [x]) (fun b hb => hp b (by simp [hb])) hx]
    simp

theorem headerName_clean : ∀ b ∈ headerName, b ≠ 13 := by decide

theorem digits_clean (n : Nat) : ∀ b ∈ digits n, b ≠ 13 := by
  intro b hb e
  have := (digits_range n b hb).1
  rw [e] at this
  exact absurd this (by decide)

theorem readHeader_frame (m : Text) (rest : List UInt8) :
    readHeader [] (frame m ++ rest) =
      some (headerName ++ digits (bytesOf m).length ++ headerEnd, bytesOf m ++ rest) := by
  have := readHeader_scan (headerName ++ digits (bytesOf m).length) [] (bytesOf m ++ rest) (by
    intro b hb
    simp only [List.mem_append] at hb
    rcases hb with h | h
    · exact headerName_clean b h
    · exact digits_clean _ b h) (by simp)
  simpa [frame, List.append_assoc] using this

theorem readNext_frame (m : Text) (rest : List UInt8) (h : (bytesOf m).length < 4294967296) :
    readNext (frame m ++ rest) = .message m rest := by
  unfold readNext
  rw [readHeader_frame]
  have hl : headerName.length = 16 := rfl
  have he : headerEnd.length = 4 := rfl
  have hsl : List.drop 16 (List.take ((headerName ++ digits (bytesOf m).length ++ headerEnd).length - 4)
      (headerName ++ digits (bytesOf m).length ++ headerEnd)) = digits (bytesOf m).length := by
    rw [List.take_left' (by simp [he]; omega), List.drop_left' hl]
  simp only
  rw [if_neg (by simp [hl, he]; omega), hsl, parseU32_digits _ h]
  simp only
  rw [if_neg (by simp), List.take_left, textOf_bytesOf, List.drop_left]

theorem readAll_message {input rest : List UInt8} {m : Text} (h : readNext input = .message m rest) :
    readAll input = (m :: (readAll rest).1, (readAll rest).2) := by
  rw [readAll]
  split <;> rename_i h' <;> rw [h] at h' <;> cases h'
  rfl

theorem readAll_eof {input : List UInt8} (h : readNext input = .eof) : readAll input = ([], .eof) := by
  rw [readAll]
  split <;> rename_i h' <;> rw [h] at h' <;> first | rfl | cases h'

theorem readAll_panic {input : List UInt8} (h : readNext input = .panic) : readAll input = ([], .panic) := by
  rw [readAll]
  split <;> rename_i h' <;> rw [h] at h' <;> first | rfl | cases h'

theorem readAll_frames (ms : List Text) (rest : List UInt8) (h : ∀ m ∈ ms, (bytesOf m).length < 4294967296) :
    readAll (ms.flatMap frame ++ rest) = (ms ++ (readAll rest).1, (readAll rest).2) := by
  induction ms with
  | nil => simp
  | cons m ms ih =>
    simp only [List.flatMap_cons, List.append_assoc]
    rw [readAll_message (readNext_frame m _ (h m (by simp))), ih (fun x hx => h x (by simp [hx]))]
    simp

/-- Reading the header commutes with appending bytes. -/
theorem readHeader_append {input buffer b r : List UInt8} (ext : List UInt8)
    (h : readHeader buffer input = some (b, r)) : readHeader buffer (input ++ ext) = some (b, r ++ ext) := by
  induction input generalizing buffer with
  | nil => simp [readHeader] at h
  | cons x xs ih =>
    simp only [readHeader, List.cons_append] at h ⊢
    split at h
    · rename_i hx
      cases h; simp [hx]
    · rename_i hx
      simp only [hx, if_false]
      exact ih h

theorem readNext_truncated (m : Text) (cut : List UInt8) (h : (bytesOf m).length < 4294967296)
    (hc : cut <+: frame m) (hlt : cut.length < (frame m).length) : readNext cut = .eof := by
  obtain ⟨rem, hrem⟩ := hc
  have hl : headerName.length = 16 := rfl
  have he : headerEnd.length = 4 := rfl
  unfold readNext
  cases hr : readHeader [] cut with
  | none => rfl
  | some x =>
    obtain ⟨b, r⟩ := x
    have h1 := readHeader_append rem hr
    rw [hrem] at h1
    have h2 := readHeader_frame m []
    rw [List.append_nil, List.append_nil] at h2
    rw [h2] at h1
    simp only [Option.some.injEq, Prod.mk.injEq] at h1
    obtain ⟨rfl, hbody⟩ := h1
    have hsl : List.drop 16 (List.take ((headerName ++ digits (bytesOf m).length ++ headerEnd).length - 4)
        (headerName ++ digits (bytesOf m).length ++ headerEnd)) = digits (bytesOf m).length := by
      rw [List.take_left' (by simp [he]; omega), List.drop_left' hl]
    simp only
    rw [if_neg (by simp [hl, he]; omega), hsl, parseU32_digits _ h]
    simp only
    have hrl : rem.length ≠ 0 := by
      intro e
      have := congrArg List.length hrem
      simp only [List.length_append] at this
      omega
    have := congrArg List.length hbody
    simp only [List.length_append] at this
    rw [if_pos (by omega)]

end Verif.Srv
