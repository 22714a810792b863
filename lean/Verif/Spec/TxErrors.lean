import Verif.Spec.Errors
import Verif.Spec.Storage
import Verif.Model.Extrinsic
/-!
# What the errors of calls, extensions, transactions, extrinsics and storage entries say
(specification)

Errors of the decoder inside are `TrueOf` of the data, see `Spec.Errors`.
-/
namespace Verif.Spec

variable {ME : Type}

/-! ### Extensions -/

/-- A true report about the content of the extensions. -/
inductive TrueOfContent (exts : List ED) (version : String) (expected : Option Bytes) : SErr ME → Prop
  | specVersionTwice : 2 ≤ (specVersions (lookedAt exts)).length →
      TrueOfContent exts version expected (.extensionsList .specVersionTwice)
  | genesisHashTwice : 2 ≤ (genesisHashes (lookedAt exts)).length →
      TrueOfContent exts version expected (.extensionsList .genesisHashTwice)
  | blockHashTwice : 2 ≤ (blockHashes (lookedAt exts)).length →
      TrueOfContent exts version expected (.extensionsList .blockHashTwice)
  | eraTwice : 2 ≤ (eras (lookedAt exts)).length → TrueOfContent exts version expected (.extensionsList .eraTwice)
  | noSpecVersion : specVersions (lookedAt exts) = [] →
      TrueOfContent exts version expected (.extensionsList .noSpecVersion)
  | noGenesisHash : genesisHashes (lookedAt exts) = [] →
      TrueOfContent exts version expected (.extensionsList .noGenesisHash)
  | wrongSpecVersion {v : Nat} : specVersions (lookedAt exts) = [v] → toString v ≠ version →
      TrueOfContent exts version expected (.wrongSpecVersion (toString v) version)
  | wrongGenesisHash {g e : Bytes} : genesisHashes (lookedAt exts) = [g] → expected = some e → g ≠ e →
      TrueOfContent exts version expected (.wrongGenesisHash g e)
  | immortalHashMismatch {g h : Bytes} : eras (lookedAt exts) = [.immortal] →
      genesisHashes (lookedAt exts) = [g] → blockHashes (lookedAt exts) = [h] → g ≠ h →
      TrueOfContent exts version expected .immortalHashMismatch

/-- A true report about the extensions in the data from `pos` to the end. -/
inductive TrueOfExtensions (M : Metadata ME) (b : Buf) (pos : Nat) (expected : Option Bytes) : SErr ME → Prop
  /-- the answers of the metadata -/
  | noExtensions {e : ME} : M.signedExtensions = .error (.err e) → TrueOfExtensions M b pos expected (.metaStructure e)
  | noVersion {e : ME} : M.specNameVersion = .error (.err e) → TrueOfExtensions M b pos expected (.metaStructure e)
  /-- what is said about the data is true -/
  | parsing {e : PErr} : TrueOf M.types b pos e → TrueOfExtensions M b pos expected (.parsing e)
  /-- all extensions were there, and data remain after them -/
  | notUsed {signed : List SignedExt} {exts : List ED} {bs : Bytes} : M.signedExtensions = .ok signed →
      ItemsAre M.types (extItems signed) exts bs → At b.bytes pos bs → pos + bs.length < b.bytes.length →
      TrueOfExtensions M b pos expected (.someDataNotUsedExtensions (pos + bs.length))
  /-- the position is past the end -/
  | pastEnd : b.bytes.length < pos → TrueOfExtensions M b pos expected (.someDataNotUsedExtensions pos)
  /-- all extensions were there, up to the end of the data; what is said about them is true -/
  | content {signed : List SignedExt} {spec : SpecNameVersion} {exts : List ED} {e : SErr ME} :
      M.signedExtensions = .ok signed → M.specNameVersion = .ok spec → pos ≤ b.bytes.length →
      ItemsAre M.types (extItems signed) exts (b.bytes.drop pos) →
      TrueOfContent exts spec.printedSpecVersion expected e → TrueOfExtensions M b pos expected e

/-! ### Calls -/

/-- A true report about the call in the data at `pos`. -/
inductive TrueOfCall (M : Metadata ME) (b : Buf) (pos : Nat) : SErr ME → Prop
  | noCallTy {e : ME} : M.callTy = .error (.err e) → TrueOfCall M b pos (.metaStructure e)
  | parsing {e : PErr} : TrueOf M.types b pos e → TrueOfCall M b pos (.parsing e)
  /-- there is a value of the call type of the metadata, but it is not a call -/
  | notACall {id : Nat} {v : Value} {bs : Bytes} : M.callTy = .ok id → Enc M.types false id v bs →
      (pos ≤ b.bytes.length → At b.bytes pos bs) → (∀ c, ¬ IsCall M.types id c bs) → TrueOfCall M b pos (.notACall id)

/-- The data are a compact length, that many bytes of the call, then the extensions. -/
def Frame (data call ext : Bytes) : Prop :=
  call.length < 2 ^ 32 ∧ data = compactEncode call.length ++ call ++ ext

/-- A true report about the call between its length and the extensions; the data without
the extensions are looked at. -/
inductive TrueOfMarkedCall (M : Metadata ME) (b : Buf) (call ext : Bytes) : SErr ME → Prop
  | call {e : SErr ME} :
      TrueOfCall M { b with bytes := compactEncode call.length ++ call } (compactEncode call.length).length e →
      TrueOfMarkedCall M b call ext e
  /-- the call was there, and bytes of it remain -/
  | notUsed {id : Nat} {c : Call} {bs more : Bytes} : M.callTy = .ok id → IsCall M.types id c bs → more ≠ [] →
      call = bs ++ more →
      TrueOfMarkedCall M b call ext (.someDataNotUsedCall ((compactEncode call.length).length + bs.length)
        ((compactEncode call.length).length + call.length))

/-- The memory failed on bytes that are in the data. -/
def MemoryFailed (b : Buf) : Prop := ∃ p n, p + n ≤ b.bytes.length ∧ b.fault p n = true

/-- A true report about a whole transaction. -/
inductive TrueOfTransaction (M : Metadata ME) (b : Buf) (expected : Option Bytes) : SErr ME → Prop
  /-- the call could not be separated -/
  | cut : (∀ call ext, ¬ Frame b.bytes call ext) ∨ MemoryFailed b → TrueOfTransaction M b expected .cutSignable
  | extensions {call ext : Bytes} {e : SErr ME} : Frame b.bytes call ext →
      TrueOfExtensions M b ((compactEncode call.length).length + call.length) expected e →
      TrueOfTransaction M b expected e

/-! ### Unchecked extrinsics -/

/-- A true report about an unchecked extrinsic. -/
inductive TrueOfExtrinsic (M : CompleteMetadata ME) (b : Buf) : UErr ME → Prop
  | noParams {e : ME} : M.extrinsicTypeParams = .error (.err e) → TrueOfExtrinsic M b (.metaStructure e)
  | noVersion {e : ME} : M.extrinsicVersion = .error (.err e) → TrueOfExtrinsic M b (.metaStructure e)
  /-- the data do not start with a length -/
  | noLength : (∀ n, n < 2 ^ 32 → ¬ At b.bytes 0 (compactEncode n)) ∨ MemoryFailed b →
      TrueOfExtrinsic M b .formatNoCompact
  /-- fewer bytes than announced; that many are missing after the end -/
  | tooShort {n missing : Nat} {rest : Bytes} : n < 2 ^ 32 → b.bytes = compactEncode n ++ rest →
      rest.length + missing = n → 0 < missing →
      TrueOfExtrinsic M b (.parsing (.buffer (.dataTooShort b.bytes.length missing)))
  /-- more bytes than announced; the announced ones end at the position -/
  | tooLong {body more : Bytes} : body.length < 2 ^ 32 → b.bytes = compactEncode body.length ++ body ++ more →
      more ≠ [] → TrueOfExtrinsic M b (.parsing (.someDataNotUsedBlob (compactEncode body.length ++ body).length))
  /-- the length is right; what is said about the data after it is true -/
  | parsing {body : Bytes} {e : PErr} : body.length < 2 ^ 32 → b.bytes = compactEncode body.length ++ body →
      TrueOf M.types b (compactEncode body.length).length e → TrueOfExtrinsic M b (.parsing e)
  | version {rest : Bytes} {vb version : UInt8} : rest.length + 1 < 2 ^ 32 →
      b.bytes = compactEncode (rest.length + 1) ++ vb :: rest → M.extrinsicVersion = .ok version →
      vb.toNat % 128 ≠ version.toNat → TrueOfExtrinsic M b (.versionMismatch vb version)
  /-- after the version byte there is a value of the call type, but it is not a call -/
  | notACall {rest front bs more : Bytes} {vb : UInt8} {params : ExtrinsicParams} {v : Value} :
      rest.length + 1 < 2 ^ 32 → b.bytes = compactEncode (rest.length + 1) ++ vb :: rest →
      M.extrinsicTypeParams = .ok params → rest = front ++ bs ++ more → Enc M.types false params.callTy v bs →
      (∀ c, ¬ IsCall M.types params.callTy c bs) → TrueOfExtrinsic M b (.unexpectedCallTy params.callTy)

/-! ### Storage entries -/

/-- The hash function and its length, for hashers that keep the key after the hash. -/
def hasherConcat (H : HashFns) : Hasher → Option (Nat × (Bytes → Bytes))
  | .blake2_128Concat => some (16, H.blake2_128)
  | .twox64Concat => some (8, H.twox64)
  | _ => none

/-- The hasher works on a key of the type `ty`: the key type itself for one hasher, else
the element of the tuple with the same number. -/
def HashedTy (R : Registry) (hashers : List Hasher) (keyTy : Nat) (h : Hasher) (ty : Nat) : Prop :=
  (hashers = [h] ∧ ty = keyTy) ∨ (hashers.length ≠ 1 ∧ ∃ t elems, R.resolve keyTy = .ok t ∧
    t.typeDef = .tuple elems ∧ elems.length = hashers.length ∧ (h, ty) ∈ hashers.zip elems)

/-- A true report about a storage entry. -/
inductive TrueOfStorage (H : HashFns) (R : Registry) (key value : Buf) (entry : Entry) : StErr → Prop
  | short : key.bytes.length < 32 → TrueOfStorage H R key value entry .keyShorterThanPrefix
  | plainLong {valueTy : Nat} : entry.ty = .plain valueTy → 32 < key.bytes.length →
      TrueOfStorage H R key value entry .plainKeyExceedsPrefix
  | notATuple {hashers : List Hasher} {keyTy valueTy : Nat} {t : Typ} : entry.ty = .map hashers keyTy valueTy →
      hashers.length ≠ 1 → R.resolve keyTy = .ok t → (∀ elems, t.typeDef ≠ .tuple elems) →
      TrueOfStorage H R key value entry .multipleHashesNotATuple
  | number {hashers : List Hasher} {keyTy valueTy : Nat} {t : Typ} {elems : List Nat} :
      entry.ty = .map hashers keyTy valueTy → hashers.length ≠ 1 → R.resolve keyTy = .ok t →
      t.typeDef = .tuple elems → elems.length ≠ hashers.length →
      TrueOfStorage H R key value entry .multipleHashesNumberMismatch
  /-- the whole key was there, and bytes remain after it -/
  | unused {hashers : List Hasher} {keyTy valueTy : Nat} {pre rest more : Bytes} {k : KeyData} :
      entry.ty = .map hashers keyTy valueTy → key.bytes = pre ++ rest ++ more → pre.length = 32 →
      KeyIs H R hashers keyTy k rest → more ≠ [] → TrueOfStorage H R key value entry .keyPartsUnused
  /-- somewhere in the key after the prefix there is a key part with a wrong hash before it -/
  | mismatch {hashers : List Hasher} {keyTy valueTy : Nat} {h : Hasher} {n ty : Nat} {f : Bytes → Bytes}
      {pre hash k more : Bytes} {v : Value} : entry.ty = .map hashers keyTy valueTy →
      HashedTy R hashers keyTy h ty → hasherConcat H h = some (n, f) → key.bytes = pre ++ hash ++ k ++ more →
      32 ≤ pre.length → hash.length = n → Enc R false ty v k → hash ≠ f k →
      TrueOfStorage H R key value entry .keyPartHashMismatch
  | key {e : PErr} : TrueOf R key 32 e → TrueOfStorage H R key value entry (.parsingKey e)
  | value {e : PErr} : TrueOf R value 0 e → TrueOfStorage H R key value entry (.parsingValue e)
  /-- a value was there, and bytes remain after it -/
  | valueUnused {v : Value} {ty : Nat} {bs more : Bytes} :
      (entry.ty = .plain ty ∨ ∃ hashers keyTy, entry.ty = .map hashers keyTy ty) → value.bytes = bs ++ more →
      Enc R false ty v bs → more ≠ [] →
      TrueOfStorage H R key value entry (.parsingValue (.someDataNotUsedBlob bs.length))

end Verif.Spec
