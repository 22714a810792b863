import Verif.Props.Decode
import Verif.Props.Compact
import Verif.Props.Era
import Verif.Props.Values
import Verif.Props.Sizes
import Verif.Props.CompactInside
import Verif.Props.BitPatch
import Verif.Props.Hints
import Verif.Props.Errors
/-!
# Every theorem applied to a concrete case: C01 to C21

In the modules `Verif/Witness` every theorem named in `MANIFEST.json` is applied to concrete, non-trivial data: all its
hypotheses are met at once, and the example states what follows. (`tools/witnesses.py` checks that none is left out.)
-/
namespace Verif.Witness.Values
open Spec

/-- `S { a: 7, b: 300, c: [1, 2] }` between other bytes. -/
def inside : Buf := Buf.ofBytes (9 :: Example.sBytes ++ [3])

/-- What is decoded there. -/
def out : ED := ((decode Example.reg inside (.symbol 4) 1 {}).toOption.map (·.1)).getD ⟨.uint .u8 0 .none, []⟩

theorem out_eq : decode Example.reg inside (.symbol 4) 1 {} = .ok (out, 7) := rfl

example : Enc Example.reg false 4 Example.sValue Example.sBytes := decode_sound (p := {}) ⟨rfl, rfl⟩ out_eq
example : Enc Example.reg false 4 Example.sValue Example.sBytes :=
  decodeAsTypeAtPosition_sound (b := inside) (pos := 1) (pos' := 7) (d := out) rfl
example : Enc Example.reg false 4 Example.sValue Example.sBytes :=
  decodeAllAsType_sound (b := Buf.ofBytes Example.sBytes) (d := out) rfl

example : ∃ d, decode Example.good inside (.symbol 4) 1 {} = .ok (d, 7) ∧ edValue d = Example.sValue :=
  decode_complete Example.good_ranked.emptyArrays (reliable_ofBytes _) (p := {}) ⟨rfl, rfl⟩ Example.s_enc
    ⟨[9], [3], rfl, rfl⟩
example : ∃ d, decodeAllAsType Example.good (Buf.ofBytes Example.sBytes) 4 = .ok d ∧ edValue d = Example.sValue :=
  decodeAllAsType_complete Example.good_ranked.emptyArrays Example.s_enc
example : Example.sValue = Example.sValue ∧ ([] : Bytes) = [] :=
  encoding_unambiguous Example.good_ranked.emptyArrays Example.s_enc Example.s_enc (by simp)

-- no hypotheses: a type that is not there, a type that contains itself, a position past the end
example := decode_total (R := Example.reg) (Buf.ofBytes [1]) (.symbol 99) 0 {}
example := (decode_recursive (R := Example.reg) inside).1 (.symbol 4) 1 {}
example : ∃ j, j = 10 ∧ decode Example.reg (Buf.ofBytes [1, 2]) (.symbol 10) 0 {} =
    .error (.err (.registry (.internal (.cyclicMetadata j)))) :=
  decode_cyclic (S := (· = 10)) (by
    rintro id rfl
    exact ⟨10, ⟨{ path := ["X"], typeDef := .composite [{ ty := 10 }] }, rfl, trivial, .inl ⟨_, _, rfl, rfl⟩⟩, rfl⟩)
    _ _ _ rfl rfl
example := huskType_total (R := Example.reg) 10 {}

example : 1 ≤ 7 ∧ (1 ≤ inside.len → 7 ≤ inside.len) ∧ (inside.len < 1 → 7 = 1) := decode_position out_eq
example : decode Example.reg (Buf.ofBytes ([5, 5, 5] ++ Example.sBytes)) (.symbol 4) 3 {} = .ok (out, 9) :=
  decode_local (reliable_ofBytes _) out_eq ⟨[5, 5, 5], [], rfl, rfl⟩
example : ∃ e, decode Example.reg (Buf.ofBytes [5, 7, 0xb1, 0x04, 8]) (.symbol 4) 1 {} = .error (.err e) :=
  decode_truncated out_eq (k := 4) (by decide) (pre := [5]) rfl
example := decode_hint_independent (R := Example.reg) (b := inside) 4 1 {} .none .fieldNonce
example := decode_identifier_independent (R := Example.reg) (b := inside) 1 1 "CheckNonce" "CheckSpecVersion"

/-- A memory that fails for all reads past the position 7. -/
def faulty : Buf := ⟨9 :: Example.sBytes ++ [3], fun p n => decide (7 < p + n)⟩

example : decode Example.reg inside (.symbol 4) 1 {} = .ok (out, 7) :=
  decode_faulty (b := faulty) (by decide) (d := out) rfl
example := decode_faulty_cases (R := Example.reg) (b := faulty) (tyIn := .symbol 4) (pos := 2) (p := {}) (by decide)
example := decode_faulty_exact (R := Example.reg) faulty (.symbol 4) 2 {}
example : decode Example.reg faulty (.symbol 1) 4 {} = .error (.err (.buffer .external)) := rfl

example : decode Example.reg (Buf.ofBytes Example.sBytes) (.symbol 4) 0 Propagated.new = .ok (out, 6) :=
  (decodeAllAsType_iff (id := 4) (b := Buf.ofBytes Example.sBytes)).1 rfl
example : ∃ d, decodeAsTypeAtPosition Example.reg (Buf.ofBytes (Example.sBytes ++ [3])) 4 0 = .ok (d, 6) ∧ 6 < 7 :=
  (decodeAllAsType_surplus_iff (b := Buf.ofBytes (Example.sBytes ++ [3]))).1 rfl
example := decodeAllAsType_surplus (R := Example.reg) (b := Buf.ofBytes (Example.sBytes ++ [3])) (id := 4) (pos := 6) rfl
example : decodeAllAsType Example.reg (Buf.ofBytes (Example.sBytes ++ [3])) 4 = .error (.err (.someDataNotUsedBlob 6)) :=
  decodeAllAsType_not_all (d := out) rfl (by decide)

/-! ### Compact numbers -/

example : getCompact (compactUInt .u64) (Buf.ofBytes ([7, 7] ++ compactEncode 123456789012 ++ [1])) 2 =
    .ok (123456789012, 2 + (compactEncode 123456789012).length) := getCompact_roundtrip .u64 (by decide) [7, 7] [1]
example : getCompact (compactUInt .u32) (Buf.ofBytes [9, 0x15, 0x01, 3]) 1 = .ok (69, 3) :=
  getCompact_roundtrip_at .u32 (v := 69) (by decide) (reliable_ofBytes _) ⟨[9], [3], by decide, rfl⟩
example := (getCompact_canonical (w := .u32) (b := Buf.ofBytes [9, 0x15, 0x01, 3]) (pos := 1) (v := 69) (q := 3) rfl).2.1
example : compactDecode .u32 [0x01, 0x00] = none := compactDecode_rejects (by
  intro v rest hv h
  have : compactDecode .u32 (compactEncode v ++ rest) = some (v, rest) := compactDecode_complete rest hv
  rw [← h, show compactDecode .u32 [0x01, 0x00] = none from by decide] at this
  cases this)
example : findCompact (compactUInt .u32) (Buf.ofBytes [0x15]) 3 = .error (.err (.buffer (.outOfRange 3 1))) :=
  (findCompact_outOfRange .u32 (reliable_ofBytes [0x15]) 3).2 (by decide)
example : ∀ v, v < 2 ^ 32 → ¬ At [0x15] 0 (compactEncode v) :=
  ((findCompact_noCompact .u32 (reliable_ofBytes [0x15]) 0).1 rfl).2
example := findCompact_cases .u32 (reliable_ofBytes [0xff, 0x15, 0x01]) 1
example : compactUInt .u32 [0x15, 0x01] = some 69 ∧ compactUInt .u32 [0x15] = none :=
  ⟨findCompact_shortest (b := Buf.ofBytes [0xff, 0x15, 0x01]) (pos := 1) (f := ⟨69, 3⟩) rfl 2 (by decide),
   findCompact_shortest (b := Buf.ofBytes [0xff, 0x15, 0x01]) (pos := 1) (f := ⟨69, 3⟩) rfl 1 (by decide)⟩

/-! ### Eras -/

theorem era_ok : EraOk (.mortal 64 35) := ⟨⟨6, by decide⟩, by decide, by decide⟩

example : specialCaseEra (Buf.ofBytes ([1] ++ [0x35, 0x02] ++ [9])) 1 = .ok (.mortal 64 35, 3) := era_roundtrip era_ok [1] [9]
example : 3 = 1 + 2 ∧ 3 ≤ 3 ∧ [0x35, 0x02] = (Era.mortal 64 35).encode :=
  era_reencode (b := Buf.ofBytes [9, 0x35, 0x02]) (pos := 1) (q := 3) (e := .mortal 64 35) rfl
example : Era.mortal 64 35 = .mortal (2 ^ 6) (70 / 2) := era_encode_injective era_ok era_ok rfl
example := era_wellformed (b := Buf.ofBytes [9, 0x35, 0x02]) (pos := 1) (q := 3) (period := 64) (phase := 35) rfl
example : ∃ x y, specialCaseEra (Buf.ofBytes [x, y]) 0 = .ok (.mortal 65536 65520, 2) :=
  era_all_reachable (k := 16) (by decide) (by decide) rfl (by decide) (by decide)

/-! ### Values -/

example : Ranged Example.sValue := enc_ranged Example.s_enc
example : Ranged Example.sValue := decode_ranged (p := {}) ⟨rfl, rfl⟩ out_eq
example : Ranged Example.sValue := decodeAllAsType_ranged (R := Example.reg) (id := 4) (b := Buf.ofBytes Example.sBytes) (d := out) rfl
example : (FixedKind.h512, 64) ∈ fixedSizes ↔ 64 = FixedKind.h512.len := sizes_documented.1 .h512 64

example : Compactable Example.good 1 :=
  decode_compactable (p := Propagated.new) (b := Buf.ofBytes [0xb1, 0x04]) (id := 2) (pos := 0) (pos' := 2)
    (t := { typeDef := .compact 1 }) (d := ⟨.uint .u32 300 .none, []⟩) ⟨rfl, rfl⟩ rfl trivial rfl rfl
example : decode Example.good (Buf.ofBytes [1]) (.symbol 12) 0 Propagated.new =
    .error (.err (.registry (.internal (.unexpectedCompactInsides 12)))) :=
  decode_uncompactable _ _ (t := { typeDef := .compact 11 }) ⟨rfl, rfl⟩ rfl trivial rfl
    (.primitive (t := { typeDef := .primitive .bool }) rfl trivial rfl (by decide))
example := decode_compact_vector
  (R := Registry.portable [{ typeDef := .compact 1 }, { typeDef := .sequence 2 }, { typeDef := .primitive .u8 }])
  (Buf.ofBytes [0x04, 1]) (id := 0) (inner := 1) (elem := 2) 0 (p := Propagated.new) (t := { typeDef := .compact 1 })
  (ti := { typeDef := .sequence 2 }) ⟨rfl, rfl⟩ rfl trivial rfl rfl trivial rfl

/-- Two variants with the same index. -/
def variants : List Variant := [{ name := "A", index := 4 }, { name := "B", index := 2 }, { name := "C", index := 2 }]

example : ∃ i, At [9, 2] 1 [i] ∧ Selects variants i { name := "B", index := 2 } :=
  (pickVariant_iff (reliable_ofBytes [9, 2]) (pos := 1)).1 rfl
example : pickVariant variants (Buf.ofBytes [9, 3]) 1 = .error (.err (.unexpectedEnumVariant 1)) :=
  (pickVariant_unknown (reliable_ofBytes [9, 3]) (pos := 1) (i := 3) ⟨[9], [], rfl, rfl⟩).2 (by decide)
example : pickVariant (variants.take 2) inside 0 = pickVariant (variants.take 2).reverse inside 0 :=
  pickVariant_perm (List.reverse_perm _).symm (by decide) _ _

example : sequenceValues (.uints .u8 [1, 2]) = [.uint .u8 1, .uint .u8 2] :=
  wrapSequence_lossless (l := [.uint .u8 1 .none, .uint .u8 2 .none]) rfl
example := wrapSequence_uints .u16 300 [1, 2]
example := wrapSequence_bytes [] [[1, 2], []] [3]

example : ∃ st o bits bs, IsBitOrder bitReg 0 o ∧ IsBitStore bitReg 1 st ∧
    PD.bitVec .u16 .msb0 [true, true, false] = .bitVec st o bits ∧ BitsEnc st o bits bs ∧
    At [7, 0x0c, 0x34, 0xc0, 9] 1 bs ∧ 4 = 1 + bs.length :=
  (decodeBitSequence_iff (reliable_ofBytes [7, 0x0c, 0x34, 0xc0, 9]) (id := 2)).1 rfl
example := bitsEnc_length patch_loses.2
example := bitsEnc_unique patch_loses.2 patch_loses.2

/-! ### Bit sequences on 32-bit targets -/

theorem stored_of_check {o : BitOrder} {bits : List Bool} {els : List Nat} (h1 : IsCeil bits.length 64 els.length)
    (h2 : ∀ e ∈ els, e < 2 ^ 64)
    (h3 : (List.range bits.length).all (fun i => match els[i / 64]? with
      | some e => bits[i]? == some (e.testBit (bitPlace o 64 (i % 64)))
      | none => false) = true) : Stored o bits els := by
  refine ⟨h1, h2, fun i hi => ?_⟩
  have h := List.all_eq_true.1 h3 i (List.mem_range.2 hi)
  cases he : els[i / 64]? with
  | none => simp [he] at h
  | some e => simp only [he] at h; exact ⟨e, rfl, by simpa using h⟩

/-- Five bits `10001`. -/
def five : List Bool := [true, false, false, false, true]

theorem five_stored : Stored .lsb0 five [17] :=
  stored_of_check (by unfold IsCeil; decide) (by decide) (by decide)

theorem five_start : ¬ ZeroStart .lsb0 [17] := by
  rintro ⟨e, h1, h2⟩
  cases h1
  exact absurd h2 (by decide)

/-- 40 bits, bit 32 is set. -/
def forty : List Bool := List.replicate 32 false ++ true :: List.replicate 7 false

theorem forty_stored : Stored .lsb0 forty [2 ^ 32] :=
  stored_of_check (by unfold IsCeil; decide) (by decide) (by decide +kernel)

theorem forty_start : ZeroStart .lsb0 [2 ^ 32] := ⟨2 ^ 32, rfl, by decide⟩

/-- Three bits `000`. -/
def three : List Bool := [false, false, false]

theorem three_stored : Stored .msb0 three [2 ^ 31] :=
  stored_of_check (by unfold IsCeil; decide) (by decide) (by decide +kernel)

theorem three_start : ZeroStart .msb0 [2 ^ 31] := ⟨2 ^ 31, rfl, by decide⟩

example : patchBitvecU64 .lsb0 (Buf.ofBytes [20, 17, 0, 0, 0, 0, 0, 0, 0]) 0 = .ok (five, 9) :=
  (patch_agrees_iff (b := Buf.ofBytes [20, 17, 0, 0, 0, 0, 0, 0, 0]) (pos := 0) (reliable_ofBytes _) five_stored
    ⟨[], [], by decide, rfl⟩ (by decide)).2 (fun h => absurd h five_start)
example : patchBitvecU64 .lsb0 (Buf.ofBytes [20, 17, 0, 0, 0, 0, 0, 0, 0]) 0 = .ok (five, 9) :=
  patch_agrees (b := Buf.ofBytes [20, 17, 0, 0, 0, 0, 0, 0, 0]) (pos := 0) (reliable_ofBytes _) five_stored
    ⟨[], [], by decide, rfl⟩ (by decide) five_start
example : patchBitvecU64 .lsb0 (Buf.ofBytes lostBits) 0 = .error .panic :=
  patch_panics (b := Buf.ofBytes lostBits) (pos := 0) (reliable_ofBytes _) forty_stored ⟨[], [], by decide, rfl⟩ (by decide)
    forty_start (by decide)
-- the first of three bits is read from the padding
example : ∃ bits', patchBitvecU64 .msb0 (Buf.ofBytes [12, 0, 0, 0, 128, 0, 0, 0, 0]) 0 = .ok (bits', 9) ∧ bits'.length = 3 ∧
    bits' ≠ three := by
  obtain ⟨bits', h1, h2, h3⟩ := patch_short (b := Buf.ofBytes [12, 0, 0, 0, 128, 0, 0, 0, 0]) (pos := 0) (reliable_ofBytes _)
    three_stored ⟨[], [], by decide, rfl⟩ (by decide) three_start (by decide)
  refine ⟨bits', h1, h2, fun h => ?_⟩
  rcases h3.1 h with h | h
  · cases h
  · exact h ⟨2 ^ 31, 0, rfl, by decide, by decide⟩
example := patch_sound (b := Buf.ofBytes shiftedBits) patch_misreads.1
example := stored_bitsEnc five_stored (by decide)
example := bitsEnc_stored patch_loses.2

end Verif.Witness.Values
