import Verif.Proof.Encoder
/-!
# C74: the decoder is the inverse of an encoder

`Spec/Encoder.lean` is a program that writes values as SCALE data. Decoding what it writes shows the value, and
writing what decoding shows gives the data back.
-/
namespace Verif
open Spec

variable {R : Registry}

/-- **C74.** Decoding what the encoder wrote, as the whole data: the value. -/
theorem decode_encode (hk : EmptyArraysGrounded R) {n id : Nat} {v : Value} {bs : Bytes}
    (h : Encoder.encode R n false id v = some bs) :
    ∃ d, decodeAllAsType R (Buf.ofBytes bs) id = .ok d ∧ edValue d = v :=
  decodeAllAsType_complete hk (Encoder'.encode_sound h)

/-- **C74.** Decoding what the encoder wrote, anywhere in larger data: the value, and the position right behind it. -/
theorem decode_encode_inside (hk : EmptyArraysGrounded R) {n id : Nat} {v : Value} {bs : Bytes}
    (h : Encoder.encode R n false id v = some bs) (before after : Bytes) :
    ∃ d, decodeAsTypeAtPosition R (Buf.ofBytes (before ++ bs ++ after)) id before.length = .ok (d, before.length + bs.length) ∧
      edValue d = v :=
  decode_complete hk (reliable_ofBytes _) (p := Propagated.new) ⟨rfl, rfl⟩ (Encoder'.encode_sound h)
    ⟨before, after, rfl, rfl⟩

/-- **C74.** The encoder writes exactly the values of the type. -/
theorem encode_iff_typed {id : Nat} {v : Value} : (∃ n bs, Encoder.encode R n false id v = some bs) ↔ Typed R false id v := by
  constructor
  · rintro ⟨n, bs, h⟩
    exact encoded_typed (Encoder'.encode_sound h)
  · intro h
    obtain ⟨n, hn⟩ := Encoder'.typed_written h
    obtain ⟨bs, hb⟩ := hn n (Nat.le_refl n)
    exact ⟨n, bs, hb⟩

/-- **C74.** Writing what decoding shows gives the data back, if names tell variants apart and the value leaves no
freedom. -/
theorem encode_decode (hn : NamesDistinct R) (hs : SignaturesDistinct R) {b : Buf} {id : Nat} {d : ED}
    (h : decodeAllAsType R b id = .ok d) (hf : Firm (edValue d)) :
    ∃ n0, ∀ n, n0 ≤ n → Encoder.encode R n false id (edValue d) = some b.bytes := by
  have he := decodeAllAsType_sound h
  obtain ⟨n0, hw⟩ := Encoder'.typed_written (encoded_typed he)
  refine ⟨n0, fun n hl => ?_⟩
  obtain ⟨bs, hb⟩ := hw n hl
  rw [hb, firm_encoding_unique hn hs hf (Encoder'.encode_sound hb) he]

/-- **C74.** The same at a position: the bytes that were consumed. -/
theorem encode_decode_inside (hn : NamesDistinct R) (hs : SignaturesDistinct R) {b : Buf} {id pos q : Nat} {d : ED}
    (h : decodeAsTypeAtPosition R b id pos = .ok (d, q)) (hf : Firm (edValue d)) :
    ∃ n0, ∀ n, n0 ≤ n → Encoder.encode R n false id (edValue d) = some (between b pos q) := by
  have he := decodeAsTypeAtPosition_sound h
  obtain ⟨n0, hw⟩ := Encoder'.typed_written (encoded_typed he)
  refine ⟨n0, fun n hl => ?_⟩
  obtain ⟨bs, hb⟩ := hw n hl
  rw [hb, firm_encoding_unique hn hs hf (Encoder'.encode_sound hb) he]

/-- **C74.** Without these conditions: whatever was decoded can be written, and decoding what was written shows the
same value. -/
theorem encode_decode_same (hk : EmptyArraysGrounded R) {b : Buf} {id : Nat} {d : ED} (h : decodeAllAsType R b id = .ok d) :
    ∃ n0, ∀ n, n0 ≤ n → ∃ bs d', Encoder.encode R n false id (edValue d) = some bs ∧
      decodeAllAsType R (Buf.ofBytes bs) id = .ok d' ∧ edValue d' = edValue d := by
  obtain ⟨n0, hw⟩ := Encoder'.typed_written (encoded_typed (decodeAllAsType_sound h))
  refine ⟨n0, fun n hl => ?_⟩
  obtain ⟨bs, hb⟩ := hw n hl
  obtain ⟨d', h1, h2⟩ := decode_encode hk hb
  exact ⟨bs, d', hb, h1, h2⟩

/-! ### Instances -/

/-- A struct with a compact and a vector. -/
theorem sValue_written : Encoder.encode Example.good 4 false 4 Example.sValue = some Example.sBytes := rfl

example : ∃ d, decodeAllAsType Example.good (Buf.ofBytes Example.sBytes) 4 = .ok d ∧ edValue d = Example.sValue :=
  decode_encode Example.good_ranked.emptyArrays sValue_written

example : ∃ d, decodeAsTypeAtPosition Example.good (Buf.ofBytes ([1, 2] ++ Example.sBytes ++ [3])) 4 2 = .ok (d, 8) ∧
    edValue d = Example.sValue :=
  decode_encode_inside Example.good_ranked.emptyArrays sValue_written [1, 2] [3]

example : ∃ d, decodeAllAsType Example.good (Buf.ofBytes Example.sBytes) 4 = .ok d ∧
    ∃ n0, ∀ n, n0 ≤ n → Encoder.encode Example.good n false 4 (edValue d) = some Example.sBytes :=
  ⟨_, rfl, encode_decode good_names good_signatures (b := Buf.ofBytes Example.sBytes) rfl sValue_firm⟩

/-- A variant that is shown as a signature, and one that is not (its field is a signature by path already). -/
def sigTypes' : List Typ :=
  [{ typeDef := .primitive .u8 }, { typeDef := .array 65 0 }, { path := ["sp_core", "ecdsa", "Signature"], typeDef := .composite [{ ty := 1 }] },
   { path := ["sp_runtime", "MultiSignature"], typeDef := .variant
      [{ name := "A", index := 1, fields := [{ ty := 1, typeName := some "ecdsa::Signature" }] },
       { name := "B", index := 2, fields := [{ ty := 2, typeName := some "ecdsa::Signature" }] }] }]

example : Encoder.encode (Registry.portable sigTypes') 3 false 3 (.fixed .signatureEcdsa (List.replicate 65 9)) =
    some (1 :: List.replicate 65 9) := by decide +kernel

example : Encoder.encode (Registry.portable sigTypes') 3 false 3
    (.variant "B" [(none, .fixed .signatureEcdsa (List.replicate 65 9))]) = some (2 :: List.replicate 65 9) := by decide +kernel

/-- Bits: the unused ones are written as zeros, whatever was read. -/
example : ∃ d, decodeAllAsType bitReg (Buf.ofBytes [0x0c, 0x35, 0xc0]) 2 = .ok d ∧
    Encoder.encode bitReg 1 false 2 (edValue d) = some [0x0c, 0x00, 0xc0] := ⟨_, rfl, by decide +kernel⟩

end Verif
