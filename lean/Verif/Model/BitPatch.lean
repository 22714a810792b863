import Verif.Model.BitSeq
/-!
# Bit sequences with `u64` store on 32-bit targets, `src/decoding_sci.rs:889-895`, `1003-1127`
-/
namespace Verif

/-- Loop collecting the 8-byte chunks in `patch_bitvec_u64`,
`src/decoding_sci.rs:1040-1059`: `n` chunks remain, the next one has number `i`. Any failure
to read is reported as too short data. -/
def readChunks (b : Buf) (p : BitVecPositions) : Nat → Nat → Res (List Bytes)
  | 0, _ => .ok []
  | n + 1, i =>
    match b.readSlice (p.dataStart + i * 8) 8 with
    | .ok s => do
      -- `try_into().expect(..)`
      if s.length = 8 then
        let rest ← readChunks b p n (i + 1)
        .ok (s :: rest)
      else .error .panic
    | .error .panic => .error .panic
    | .error _ => .error (.err (.buffer (.dataTooShort p.bitvecStart p.minimalLength)))

/-- `reform_vec_lsb0`, `src/decoding_sci.rs:1077-1096`. -/
def reformVecLsb0 (chunks : List Bytes) : List Nat :=
  chunks.zipIdx.flatMap fun (x, i) =>
    let e1 := leNat (x.take 4)
    let e2 := leNat (x.drop 4)
    e1 :: (if e1 ≠ 0 ∨ i ≠ chunks.length - 1 then [e2] else [])

/-- `reform_vec_msb0`, `src/decoding_sci.rs:1100-1121`: bytes reversed
(`from_le_bytes`, `to_be_bytes`), halves read as big-endian. -/
def reformVecMsb0 (chunks : List Bytes) : List Nat :=
  chunks.zipIdx.flatMap fun (x, i) =>
    let element := x.reverse
    let e1 := leNat (element.take 4).reverse
    let e2 := leNat (element.drop 4).reverse
    (if e1 ≠ 0 ∨ i ≠ chunks.length - 1 then [e1] else []) ++ [e2]

/-- Selection of the rearranging function, `src/decoding_sci.rs:1123-1127`. -/
def reformVec : BitOrder → List Bytes → List Nat
  | .lsb0 => reformVecLsb0
  | .msb0 => reformVecMsb0

/-- `patch_bitvec_u64`, `src/decoding_sci.rs:1028-1070`. External crate `bitvec` on a 32-bit
target: `from_vec` panics above `0x1fff_ffff` bits, `split_off` panics if the cut is past the
end. -/
def patchBitvecU64 (order : BitOrder) (b : Buf) (pos : Nat) : Res (List Bool × Nat) := do
  let p ← BitVecPositions.new .u64 b pos
  let chunks ← readChunks b p p.numberOfElements 0
  let reformed := reformVec order chunks
  if 0x1fffffff < reformed.length * 32 then .error .panic
  else
    let bv := reformed.flatMap (elementBits order 32)
    if bv.length < p.bitLength then .error .panic
    else .ok (bv.take p.bitLength, p.bitvecEnd)

end Verif
