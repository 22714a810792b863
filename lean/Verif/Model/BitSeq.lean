import Verif.Model.Special
/-!
# Bit sequences, `src/decoding_sci.rs:752-1127`
-/
namespace Verif

/-- `find_bit_order_ty`, `src/decoding_sci.rs:759-787`; errors are
`RegistryError`, lifted. -/
def findBitOrder (R : Registry) (order id : Nat) : Res BitOrder := do
  let t ← R.get order
  match t.typeDef with
  | .composite _ =>
    match t.ident with
    | some x =>
      if x = "Lsb0" then .ok .lsb0
      else if x = "Msb0" then .ok .msb0
      else failInternal (.notBitOrderType id)
    | none => failInternal (.notBitOrderType id)
  | _ => failInternal (.notBitOrderType id)

/-- Rounded-up division as written in `src/decoding_sci.rs:948-957`. -/
def ceilDiv (a d : Nat) : Nat := if a % d = 0 then a / d else a / d + 1

/-- `BitVecPositions`, `src/decoding_sci.rs:904-925`. -/
structure BitVecPositions where
  bitvecStart : Nat
  dataStart : Nat
  bitvecEnd : Nat
  bitLength : Nat
  numberOfElements : Nat
  minimalLength : Nat
  deriving DecidableEq, Repr

/-- `BitVecPositions::new`, `src/decoding_sci.rs:931-976`. -/
def BitVecPositions.new (store : BitStore) (b : Buf) (pos : Nat) : Res BitVecPositions := do
  let f ← findCompact (compactUInt .u32) b pos
  let byteLength := ceilDiv f.compact 8
  let numberOfElements := ceilDiv byteLength store.bytes
  let bitvecEnd := f.startNextUnit + numberOfElements * store.bytes
  .ok { bitvecStart := pos, dataStart := f.startNextUnit, bitvecEnd, bitLength := f.compact,
        numberOfElements, minimalLength := bitvecEnd - pos }

/-- `into_bitvec_decode`, `src/decoding_sci.rs:982-1000`. -/
def intoBitvecDecode (store : BitStore) (b : Buf) (pos : Nat) : Res (Bytes × Nat) := do
  let p ← BitVecPositions.new store b pos
  let s ← b.readSlice p.bitvecStart p.minimalLength
  .ok (s, p.bitvecEnd)

/-- Bits of one store element of `n` bits, in the given order (`bitvec`).
External crate; used by `src/decoding_sci.rs:823-885`. -/
def elementBits (order : BitOrder) (n v : Nat) : List Bool :=
  match order with
  | .lsb0 => (List.range n).map fun i => v.testBit i
  | .msb0 => (List.range n).map fun i => v.testBit (n - 1 - i)

/-- Read `k` little-endian elements of `n` bytes. External crate; used by `src/decoding_sci.rs:823-885`. -/
def readElements (n : Nat) : Nat → Bytes → Option (List Nat × Bytes)
  | 0, bs => some ([], bs)
  | k + 1, bs =>
    if bs.length < n then none
    else (readElements n k (bs.drop n)).map fun (l, r) => (leNat (bs.take n) :: l, r)

/-- `<BitVec<T, O> as DecodeAll>::decode_all` (`parity-scale-codec` with
`bitvec`, external crates): compact bit count, at most `0x1fff_ffff`, then the
elements; cut to the bit count; nothing may remain. Used by `src/decoding_sci.rs:823-885`. -/
def bitVecDecodeAll (store : BitStore) (order : BitOrder) (bs : Bytes) : Option (List Bool) :=
  match compactDecode .u32 bs with
  | none => none
  | some (bits, rest) =>
    if 0x1fffffff < bits then none
    else
      match readElements store.bytes (ceilDiv bits (8 * store.bytes)) rest with
      | some (els, []) =>
        some ((els.flatMap (elementBits order (8 * store.bytes))).take bits)
      | _ => none

/-- Name used in `TypeFailure`, `src/decoding_sci.rs:823-884`. -/
def bitVecName (store : BitStore) (order : BitOrder) : String :=
  "BitVec<" ++ (match store with | .u8 => "u8" | .u16 => "u16" | .u32 => "u32" | .u64 => "u64")
    ++ (match order with | .lsb0 => ", Lsb0>" | .msb0 => ", Msb0>")

/-- Bit store type of a primitive. The `match` on the store type, `src/decoding_sci.rs:815-899`. -/
def BitStore.ofPrim : Prim → Option BitStore
  | .u8 => some .u8 | .u16 => some .u16 | .u32 => some .u32 | .u64 => some .u64
  | _ => none

/-- `decode_type_def_bit_sequence` on 64-bit targets,
`src/decoding_sci.rs:798-900`. -/
def decodeBitSequence (R : Registry) (order store id : Nat) (b : Buf) (pos : Nat) :
    Res (PD × Nat) := do
  let o ← findBitOrder R order id
  let t ← R.get store
  match t.typeDef with
  | .primitive p =>
    match BitStore.ofPrim p with
    | some st => do
      let (s, pos') ← intoBitvecDecode st b pos
      match bitVecDecodeAll st o s with
      | some bits => .ok (.bitVec st o bits, pos')
      | none => .error (.err (.typeFailure pos (bitVecName st o)))
    | none => failInternal (.notBitStoreType id)
  | _ => failInternal (.notBitStoreType id)

end Verif
