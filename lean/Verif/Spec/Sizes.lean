import Verif.Model.Data
/-!
# Sizes of the basic types (specification)

The sizes and limits that the documentation of Substrate and of the SCALE codec gives for
the basic types. `Spec/Value.lean` writes `k.len`, `w.bytes`, `k.accuracy` … ; that these
are the numbers below is `sizes_documented` in `Props/Sizes.lean`.
-/
namespace Verif.Spec

/-- Bytes of the fixed-size types: a 160 bit and a 512 bit hash, 32 byte account and public
keys, compressed 33 byte ECDSA keys, 64 byte signatures, 65 byte recoverable ECDSA
signatures. -/
def fixedSizes : List (FixedKind × Nat) :=
  [(.h160, 160 / 8), (.h512, 512 / 8), (.id, 32), (.publicEd25519, 32), (.publicSr25519, 32),
   (.publicEcdsa, 33), (.signatureEd25519, 64), (.signatureSr25519, 64), (.signatureEcdsa, 65)]

/-- Bits of the unsigned integers. -/
def uintBits : List (UW × Nat) := [(.u8, 8), (.u16, 16), (.u32, 32), (.u64, 64), (.u128, 128)]

/-- Bits of the signed integers. -/
def intBits : List (IW × Nat) :=
  [(.i8, 8), (.i16, 16), (.i32, 32), (.i64, 64), (.i128, 128), (.i256, 256)]

/-- Bits of the stores of bit sequences. -/
def storeBits : List (BitStore × Nat) := [(.u8, 8), (.u16, 16), (.u32, 32), (.u64, 64)]

/-- Parts of one: the number that stands for one, and the integer it is stored in. -/
def perThings : List (PerKind × Nat × UW) :=
  [(.percent, 10 ^ 2, .u8), (.perU16, 2 ^ 16 - 1, .u16), (.permill, 10 ^ 6, .u32),
   (.perbill, 10 ^ 9, .u32), (.perquintill, 10 ^ 18, .u64)]

end Verif.Spec
