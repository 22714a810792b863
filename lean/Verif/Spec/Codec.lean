import Verif.Spec.Value
import Verif.Model.Cards
import Verif.Model.Metadata
/-!
# Encodings of the public structures (specification)

Each as the concatenation of the encodings of its fields, in the order of the
documentation; with the values that the Rust types can hold.
-/
namespace Verif.Spec

/-- Strings of a length a SCALE length prefix can hold. -/
def FitsPrefix (s : String) : Prop := (utf8 s).length < 2 ^ 32

/-- Values of `ShortSpecs`: prefix is `u16`, decimals `u8`. -/
def ShortSpecsFits (x : ShortSpecs) : Prop :=
  x.base58prefix < 2 ^ 16 ∧ x.decimals < 2 ^ 8 ∧ FitsPrefix x.unit

/-- Encoding of `ShortSpecs`. -/
def shortSpecsBytes (x : ShortSpecs) : Bytes :=
  leBytes 2 x.base58prefix ++ leBytes 1 x.decimals ++ strEncode x.unit

/-- Type ids are `u32`. -/
def ExtrinsicParamsFits (x : ExtrinsicParams) : Prop :=
  x.addressTy < 2 ^ 32 ∧ x.callTy < 2 ^ 32 ∧ x.signatureTy < 2 ^ 32 ∧ x.extraTy < 2 ^ 32

/-- Encoding of `ExtrinsicTypeParams`. -/
def extrinsicParamsBytes (x : ExtrinsicParams) : Bytes :=
  compactEncode x.addressTy ++ compactEncode x.callTy ++ compactEncode x.signatureTy ++
    compactEncode x.extraTy

/-- Type ids are `u32`. -/
def SignedExtFits (x : SignedExt) : Prop :=
  FitsPrefix x.identifier ∧ x.ty < 2 ^ 32 ∧ x.additionalSigned < 2 ^ 32

/-- Encoding of `SignedExtensionMetadata`. -/
def signedExtBytes (x : SignedExt) : Bytes :=
  strEncode x.identifier ++ compactEncode x.ty ++ compactEncode x.additionalSigned

/-- Two strings. -/
def SpecNameVersionFits (x : SpecNameVersion) : Prop :=
  FitsPrefix x.printedSpecVersion ∧ FitsPrefix x.specName

/-- Encoding of `SpecNameVersion`. -/
def specNameVersionBytes (x : SpecNameVersion) : Bytes :=
  strEncode x.printedSpecVersion ++ strEncode x.specName

end Verif.Spec
