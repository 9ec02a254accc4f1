import Verif.Server.Framing
/-!
# Property C20: message framing
-/
namespace Verif.Props
open Verif Verif.Srv

/-- C20. Any sequence of messages (of less than 4 GiB each) written with the server's framing is read back as exactly
this sequence, whatever the messages contain. -/
theorem c20_roundtrip (ms : List Text) (h : ∀ m ∈ ms, (bytesOf m).length < 2 ^ 32) :
    readAll (ms.flatMap frame) = (ms, .eof) := by
  have := readAll_frames ms [] h
  rw [List.append_nil, readAll_eof (input := []) (by rfl)] at this
  simpa using this

/-- C20. If the stream breaks off inside a message (the client died), all complete messages are delivered and the
incomplete one is not, in part or otherwise. -/
theorem c20_truncated (ms : List Text) (m : Text) (cut : List UInt8) (h : ∀ x ∈ ms, (bytesOf x).length < 2 ^ 32)
    (hm : (bytesOf m).length < 2 ^ 32) (hc : cut <+: frame m) (hlt : cut.length < (frame m).length) :
    readAll (ms.flatMap frame ++ cut) = (ms, .eof) := by
  rw [readAll_frames ms cut h, readAll_eof (readNext_truncated m cut hm hc hlt)]
  simp

/-- C20. What is read depends on the bytes only: a complete message is delivered as soon as its last byte is there,
whatever follows. -/
theorem c20_prompt (m : Text) (rest : List UInt8) (hm : (bytesOf m).length < 2 ^ 32) :
    readNext (frame m ++ rest) = .message m rest := readNext_frame m rest hm

-- a message that looks like a header and has multi-byte characters, and a truncation of it
example : (bytesOf ['C', '\r', '\n', '\r', '\n', 'é', '😀']).length < 2 ^ 32 ∧
    headerName <+: frame ['C', '\r', '\n', '\r', '\n', 'é', '😀'] := by
  refine ⟨by decide, ?_⟩
  unfold frame
  rw [List.append_assoc, List.append_assoc]
  exact List.prefix_append _ _

/-- `"Content-Length: 2\\r\\nContent-Type: x\\r\\n\\r\\n{}"`. -/
def c20TwoHeaders : List UInt8 :=
  headerName ++ [50, 13, 10] ++ [67, 111, 110, 116, 101, 110, 116, 45, 84, 121, 112, 101, 58, 32, 120] ++
    headerEnd ++ [123, 125]

/-- C20, negative: a message with the second header field the base protocol allows (`Content-Type`) stops the server
with a panic. -/
theorem c20_content_type_panics (rest : List UInt8) : readAll (c20TwoHeaders ++ rest) = ([], .panic) := by
  apply readAll_panic
  have h : readHeader [] c20TwoHeaders = some (c20TwoHeaders.take 38, [123, 125]) := by decide +kernel
  unfold readNext
  rw [readHeader_append rest h]
  have h2 : parseU32 (((c20TwoHeaders.take 38).take ((c20TwoHeaders.take 38).length - 4)).drop 16) = none := by
    decide +kernel
  simp only [h2]
  rw [if_neg (by decide)]

/-- C20, negative: the name of the header field is not checked; any 16 bytes will do. -/
theorem c20_header_name_ignored (name : List UInt8) (hl : name.length = 16) (hn : ∀ b ∈ name, b ≠ 13) (m : Text)
    (rest : List UInt8) (h : (bytesOf m).length < 2 ^ 32) :
    readNext (name ++ digits (bytesOf m).length ++ headerEnd ++ bytesOf m ++ rest) = .message m rest := by
  have he : headerEnd.length = 4 := rfl
  have hscan := readHeader_scan (name ++ digits (bytesOf m).length) [] (bytesOf m ++ rest) (by
    intro b hb
    simp only [List.mem_append] at hb
    rcases hb with h | h
    · exact hn b h
    · exact digits_clean _ b h) (by simp)
  unfold readNext
  rw [List.append_assoc _ (bytesOf m) rest, hscan]
  have hsl : List.drop 16 (List.take ((name ++ digits (bytesOf m).length ++ headerEnd).length - 4)
      (name ++ digits (bytesOf m).length ++ headerEnd)) = digits (bytesOf m).length := by
    rw [List.take_left' (by simp [he]; omega), List.drop_left' hl]
  simp only [List.nil_append]
  rw [if_neg (by simp [hl, he]; omega), hsl, parseU32_digits _ h]
  simp only
  rw [if_neg (by simp), List.take_left, textOf_bytesOf, List.drop_left]

end Verif.Props
