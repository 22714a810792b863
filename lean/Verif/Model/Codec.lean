import Verif.Model.Compact
import Verif.Model.Cards
import Verif.Model.Metadata
/-!
# Derived codecs of the public structures

`ShortSpecs`, `ExtrinsicTypeParams`, `SignedExtensionMetadata` and `SpecNameVersion`
derive `Encode` and `Decode` of `parity-scale-codec`: fields in the order of
declaration, nothing before, between or after. The result of a decoder is the value and
the remaining input; the content of the codec's own error is not modelled.
-/
namespace Verif

/-- `Decode` of an unsigned integer of `n` bytes (external crate). Fields of
`ShortSpecs`, `src/lib.rs:553-554`. -/
def takeUInt (n : Nat) (bs : Bytes) : Option (Nat × Bytes) :=
  if bs.length < n then none else some (leNat (bs.take n), bs.drop n)

/-- `Decode` of `String` (external crate): compact `u32` length, bytes, checked to be
UTF-8. Fields in `src/lib.rs:555`, `src/traits.rs:76`, `118-119`. -/
def takeString (bs : Bytes) : Option (String × Bytes) :=
  (compactDecode .u32 bs).bind fun (n, r) =>
  if r.length < n then none
  else (stringFromUtf8 (r.take n)).map fun s => (s, r.drop n)

/-- `Decode` of `UntrackedSymbol<TypeId>` (external crate): the id as compact `u32`.
Fields in `src/traits.rs:66-69`, `77-78`. -/
def takeSymbol (bs : Bytes) : Option (Nat × Bytes) := compactDecode .u32 bs

/-- `<ShortSpecs as Decode>::decode`, derived at `src/lib.rs:551-556`. -/
def decodeShortSpecs (bs : Bytes) : Option (ShortSpecs × Bytes) :=
  (takeUInt 2 bs).bind fun (base58prefix, bs) =>
  (takeUInt 1 bs).bind fun (decimals, bs) =>
  (takeString bs).bind fun (unit, bs) =>
  some ({ base58prefix, decimals, unit }, bs)

/-- `<ExtrinsicTypeParams as Decode>::decode`, derived at `src/traits.rs:64-70`. -/
def decodeExtrinsicParams (bs : Bytes) : Option (ExtrinsicParams × Bytes) :=
  (takeSymbol bs).bind fun (addressTy, bs) =>
  (takeSymbol bs).bind fun (callTy, bs) =>
  (takeSymbol bs).bind fun (signatureTy, bs) =>
  (takeSymbol bs).bind fun (extraTy, bs) =>
  some ({ addressTy, callTy, signatureTy, extraTy }, bs)

/-- `<SignedExtensionMetadata as Decode>::decode`, derived at `src/traits.rs:74-79`. -/
def decodeSignedExt (bs : Bytes) : Option (SignedExt × Bytes) :=
  (takeString bs).bind fun (identifier, bs) =>
  (takeSymbol bs).bind fun (ty, bs) =>
  (takeSymbol bs).bind fun (additionalSigned, bs) =>
  some ({ identifier, ty, additionalSigned }, bs)

/-- `<SpecNameVersion as Decode>::decode`, derived at `src/traits.rs:116-120`. -/
def decodeSpecNameVersion (bs : Bytes) : Option (SpecNameVersion × Bytes) :=
  (takeString bs).bind fun (printedSpecVersion, bs) =>
  (takeString bs).bind fun (specName, bs) =>
  some ({ printedSpecVersion, specName }, bs)

end Verif
