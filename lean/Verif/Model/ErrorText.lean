import Verif.Model.Extrinsic
import Verif.Model.Storage
import Verif.Model.Show
/-!
# Texts of errors, `src/error.rs`

`Display` of every error type is `error_text`. The texts of `BufferError`
(`external_memory_tools`, external crate) and of errors of an external memory are
arbitrary: parameters of the model.
-/
namespace Verif

/-- Texts of errors from outside of the crate. Printed in `src/error.rs:115-165`. -/
structure OuterTexts where
  /-- `Display for BufferError<E>` -/
  buffer : BufErr → String
  /-- `Display for E::ExternalMemoryError`; the value is opaque in the model -/
  external : String

/-- `RegistryInternalError::error_text`, `src/error.rs:180-190`. -/
def RegInternal.text : RegInternal → String
  | .cyclicMetadata id =>
    "Resolving type id " ++ toString id ++ " in metadata type registry results in cycling."
  | .extrinsicNoCallParam => "Extrinsic type in provided metadata has no specified call parameter."
  | .notBitOrderType id =>
    "BitVec type " ++ toString id ++ " in metadata type registry has unexpected BitOrder type."
  | .notBitStoreType id =>
    "BitVec type " ++ toString id ++ " in metadata type registry has unexpected BitStore type."
  | .typeNotResolved id => "Unable to resolve type id " ++ toString id ++ " in metadata type registry."
  | .unexpectedCompactInsides id =>
    "Compact type " ++ toString id ++ " in metadata type registry has unexpected type inside compact."
  | .unexpectedExtrinsicType id =>
    "Decoding is based on assumption that extrinsic type resolves into a SCALE-encoded opaque `Vec<u8>`. Unexpected type description is found for type "
      ++ toString id ++ " in metadata type registry."

/-- `RegistryError::error_text`, `src/error.rs:155-165`. -/
def RegErr.text (o : OuterTexts) : RegErr → String
  | .external => "Error accessing type from external memory. " ++ o.external
  | .internal e => e.text

/-- `ParserError::error_text`, `src/error.rs:125-145`. -/
def PErr.text (o : OuterTexts) : PErr → String
  | .buffer e => o.buffer e
  | .registry e => e.text o
  | .noCompact position =>
    "Expected compact starting at position " ++ toString position ++ ", not found one."
  | .someDataNotUsedBlob fromPos =>
    "Some data (input positions [" ++ toString fromPos ++ "..]) remained unused after decoding."
  | .typeFailure position ty =>
    "Unable to decode data starting at position " ++ toString position ++ " as " ++ ty ++ "."
  | .unexpectedEnumVariant position =>
    "Encountered unexpected enum variant at position " ++ toString position ++ "."

/-- `ExtensionsError::error_text`, `src/error.rs:225-234`. -/
def ExtErr.text : ExtErr → String
  | .blockHashTwice => "Signable transaction extensions contain more than one block hash entry."
  | .eraTwice => "Signable transaction extensions contain more than one `Era` entry."
  | .genesisHashTwice =>
    "Signable transaction extensions contain more than one genesis hash entry. Unable to verify that correct chain is used for parsing."
  | .noGenesisHash =>
    "Signable transaction extensions do not include chain genesis hash. Unable to verify that correct chain is used for parsing."
  | .noSpecVersion =>
    "Signable transaction extensions do not include metadata spec version. Unable to verify that correct metadata version is used for parsing."
  | .specVersionTwice =>
    "Signable transaction extensions contain more than one metadata spec version. Unable to verify that correct metadata version is used for parsing."

/-- `MetaVersionErrorPallets::error_text`, `src/error.rs:296-325`. -/
def VersionErr.text : VersionErr → String
  | .noSpecName => "No spec name found in decoded `Version` constant."
  | .noSpecVersion => "No spec version found in decoded `Version` constant."
  | .noSystemPallet => "No `System` pallet in metadata."
  | .noVersionInConstants => "No `Version` constant in metadata `System` pallet."
  | .runtimeVersionNotDecodeable => "`Version` constant from metadata `System` pallet could not be decoded."
  | .specNameTwice => "Spec name associated identifier found twice when decoding `Version` constant."
  | .specVersionTwice => "Spec version associated identifier found twice when decoding `Version` constant."
  | .unexpectedRuntimeVersionFormat => "Decoded `Version` constant is not a composite."

/-- `MetaStructureErrorV14::error_text`, `src/error.rs:250-261`. -/
def V14Err.text : V14Err → String
  | .extrinsicTypeNotResolved e => "Unable to resolve in registry the chain extrinsic type. " ++ e.text
  | .noAddressParam => "Unchecked extrinsic type in provided metadata has no specified address parameter."
  | .noCallParam => "Unchecked extrinsic type in provided metadata has no specified call parameter."
  | .noExtraParam => "Unchecked extrinsic type in provided metadata has no specified extra parameter."
  | .noSignatureParam => "Unchecked extrinsic type in provided metadata has no specified signature parameter."
  | .unexpectedExtrinsicType id =>
    "Decoding is based on assumption that extrinsic type resolves into a SCALE-encoded opaque `Vec<u8>`. Unexpected type description is found for type "
      ++ toString id ++ " in metadata type registry."
  | .version e => e.text

/-- `SignableError::error_text`, `src/error.rs:52-65`; `m` is `Display` of the metadata error. -/
def SErr.text {ME : Type} (o : OuterTexts) (m : ME → String) : SErr ME → String
  | .cutSignable => "Unable to separate signable transaction data into call data and extensions data."
  | .extensionsList e => e.text
  | .immortalHashMismatch =>
    "Extensions error. Block hash does not match the chain genesis hash in transaction with immortal `Era`."
  | .metaStructure e => "Unexpected structure of the metadata. " ++ m e
  | .notACall id =>
    "Decoded signable transaction is not a call. Unexpected structure of calls descriptor type "
      ++ toString id ++ "."
  | .parsing e => "Parsing error. " ++ e.text o
  | .someDataNotUsedCall fromPos toPos =>
    "Some call data (input positions [" ++ toString fromPos ++ ".." ++ toString toPos
      ++ "]) remained unused after decoding."
  | .someDataNotUsedExtensions fromPos =>
    "Some extensions data (input positions [" ++ toString fromPos ++ "..]) remained unused after decoding."
  | .wrongGenesisHash asDecoded expected =>
    "Wrong chain. Apparent genesis hash in extensions " ++ hexBytes asDecoded
      ++ " does not match the expected one " ++ hexBytes expected ++ "."
  | .wrongSpecVersion asDecoded inMetadata =>
    "Wrong metadata spec version. When decoding extensions data with metadata version " ++ inMetadata
      ++ ", the apparent spec version in extensions is " ++ asDecoded ++ "."

/-- `StorageError::error_text`, `src/error.rs:82-110`. -/
def StErr.text (o : OuterTexts) : StErr → String
  | .keyPartHashMismatch => "Hash part of the storage key does not match the key data."
  | .keyPartsUnused => "During the storage key parsing a part of the key remained unused."
  | .keyShorterThanPrefix => "Provided storage key is shorter than the expected prefix."
  | .multipleHashesNotATuple => "Hashers length is not 1, but the key type is not a tuple."
  | .multipleHashesNumberMismatch => "Hashers length does not match the number of fields in a tuple key type."
  | .parsingKey e => "Error parsing the storage key. " ++ e.text o
  | .parsingValue e => "Error parsing the storage value. " ++ e.text o
  | .plainKeyExceedsPrefix => "Plain storage key contains data other than the prefix."

/-- `UncheckedExtrinsicError::error_text`, `src/error.rs:341-349`. -/
def UErr.text {ME : Type} (o : OuterTexts) (m : ME → String) : UErr ME → String
  | .formatNoCompact =>
    "Unchecked extrinsic was expected to be a SCALE-encoded opaque `Vec<u8>`. Have not found a compact indicating vector length."
  | .metaStructure e => "Unexpected structure of the metadata. " ++ m e
  | .parsing e => "Error parsing unchecked extrinsic data. " ++ e.text o
  | .versionMismatch versionByte version =>
    "Version byte in unchecked extrinsic " ++ toString versionByte.toNat ++ " does not match with version "
      ++ toString version.toNat ++ " from provided metadata. Last 7 bits were expected to be identical."
  | .unexpectedCallTy id =>
    "Parameter type for call " ++ toString id
      ++ " in metadata type registry is not a call type, and does not match known call type descriptors."

end Verif
