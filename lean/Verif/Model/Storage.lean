import Verif.Model.Metadata
/-!
# Storage entries, `src/storage_data.rs`
-/
namespace Verif

/-- `frame_metadata::v14::StorageHasher`. External crate; matched in `src/storage_data.rs:308-420`. -/
inductive Hasher
  | blake2_128 | blake2_256 | blake2_128Concat | twox128 | twox256 | twox64Concat | identity
  deriving DecidableEq, Repr

/-- The hash functions of `sp_crypto_hashing` that are called,
`src/storage_data.rs:27`: any functions. -/
structure HashFns where
  blake2_128 : Bytes → Bytes
  twox64 : Bytes → Bytes

/-- Variants of `Hash`, `src/storage_data.rs:108-114`. -/
inductive HashKind
  | blake2_128 | blake2_256 | twox128 | twox256
  deriving DecidableEq, Repr

/-- Lengths of hashes, `src/storage_data.rs:116-129`. -/
def HashKind.len : HashKind → Nat
  | .blake2_128 => 16 | .blake2_256 => 32 | .twox128 => 16 | .twox256 => 32

/-- `KeyPart`, `src/storage_data.rs:87-95`, with `HashData`, `src/storage_data.rs:97-105`. -/
inductive KeyPart
  | hash (kind : HashKind) (hash : Bytes) (typeId : Nat)
  | parsed (d : ED)

/-- `KeyData`, `src/storage_data.rs:58-85`. -/
inductive KeyData
  | plain
  | singleHash (content : KeyPart)
  | tupleHash (content : List KeyPart) (info : Info)

/-- `Storage`, `src/storage_data.rs:44-56`. -/
structure Storage where
  key : KeyData
  value : ED
  docs : String

/-- `StorageError`, `src/error.rs:71-80`. -/
inductive StErr
  | keyPartHashMismatch
  | keyPartsUnused
  | keyShorterThanPrefix
  | multipleHashesNotATuple
  | multipleHashesNumberMismatch
  | parsingKey (e : PErr)
  | parsingValue (e : PErr)
  | plainKeyExceedsPrefix
  deriving DecidableEq, Repr

/-- `frame_metadata::v14::StorageEntryType`. External crate; matched in `src/storage_data.rs:157-190`. -/
inductive EntryType
  | plain (valueTy : Nat)
  | map (hashers : List Hasher) (keyTy valueTy : Nat)
  deriving DecidableEq, Repr

/-- `frame_metadata::v14::StorageEntryMetadata`; only what the crate reads.
External crate; read in `src/storage_data.rs:137-190`. -/
structure Entry where
  ty : EntryType
  docs : List String := []
  deriving DecidableEq, Repr

/-- Result of storage functions. `src/storage_data.rs:137-150`. -/
abbrev StRes (α : Type) := Except (Out StErr) α

/-- `cut_hash!`, `src/storage_data.rs:192-218`. The length of the slice is checked by
`try_into().expect`. -/
def cutHash (kind : HashKind) (keyTy : Nat) (key : Buf) (pos : Nat) : StRes (KeyPart × Nat) := do
  let slice ← (key.readSlice pos kind.len).mapErr .parsingKey
  if slice.length ≠ kind.len then .error .panic
  else .ok (.hash kind slice keyTy, pos + kind.len)

/-- `check_hash!`, `src/storage_data.rs:231-281`; `hashLen` is 16 or 8, `f` the hash
function. The second `read_slice` is followed by an `expect`. -/
def checkHash (R : Registry) (hashLen : Nat) (f : Bytes → Bytes) (ty : Nat) (key : Buf) (pos : Nat) :
    StRes (KeyPart × Nat) := do
  let slice ← (key.readSlice pos hashLen).mapErr .parsingKey
  if slice.length ≠ hashLen then .error .panic
  else do
    let start := pos + hashLen
    let (d, pos) ← (decode R key (.symbol ty) start Propagated.new).mapErr .parsingKey
    match key.readSlice start (pos - start) with
    | .error _ => .error .panic
    | .ok bs => if slice ≠ f bs then .error (.err .keyPartHashMismatch) else .ok (.parsed d, pos)

/-- Processing of one hasher; the `match` on `StorageHasher`,
`src/storage_data.rs:308-353` and, for tuple elements, `src/storage_data.rs:367-420`. -/
def processHasher (H : HashFns) (R : Registry) (h : Hasher) (ty : Nat) (key : Buf) (pos : Nat) :
    StRes (KeyPart × Nat) :=
  match h with
  | .blake2_128 => cutHash .blake2_128 ty key pos
  | .blake2_256 => cutHash .blake2_256 ty key pos
  | .blake2_128Concat => checkHash R 16 H.blake2_128 ty key pos
  | .twox128 => cutHash .twox128 ty key pos
  | .twox256 => cutHash .twox256 ty key pos
  | .twox64Concat => checkHash R 8 H.twox64 ty key pos
  | .identity => do
    let (d, pos) ← (decode R key (.symbol ty) pos Propagated.new).mapErr .parsingKey
    .ok (.parsed d, pos)

/-- Loop over tuple elements, `src/storage_data.rs:366-421`. Hashers and elements are
indexed together; their numbers are equal. -/
def hashersLoop (H : HashFns) (R : Registry) (key : Buf) :
    List Hasher → List Nat → Nat → StRes (List KeyPart × Nat)
  | h :: hs, ty :: tys, pos => do
    let (part, pos) ← processHasher H R h ty key pos
    let (parts, pos) ← hashersLoop H R key hs tys pos
    .ok (part :: parts, pos)
  | _, _, pos => .ok ([], pos)

/-- `process_key_mapped`, `src/storage_data.rs:293-433`. -/
def processKeyMapped (H : HashFns) (R : Registry) (hashers : List Hasher) (keyTy : Nat) (key : Buf)
    (pos : Nat) : StRes KeyData := do
  let (data, pos) ←
    match hashers with
    | [h] => do
      let (content, pos) ← processHasher H R h keyTy key pos
      .ok (KeyData.singleHash content, pos)
    | _ => do
      let ty ← (R.get keyTy).mapErr .parsingKey
      match ty.typeDef with
      | .tuple elems =>
        if elems.length ≠ hashers.length then .error (.err .multipleHashesNumberMismatch)
        else do
          let (content, pos) ← hashersLoop H R key hashers elems pos
          .ok (KeyData.tupleHash content (Info.fromTy ty), pos)
      | _ => .error (.err .multipleHashesNotATuple)
  if pos = key.len then .ok data else .error (.err .keyPartsUnused)

/-- `decode_as_storage_entry`, `src/storage_data.rs:138-186`. -/
def decodeStorageEntry (H : HashFns) (R : Registry) (key value : Buf) (entry : Entry) : StRes Storage :=
  let docs := collectDocs entry.docs
  if key.len < 32 then .error (.err .keyShorterThanPrefix)
  else
    match entry.ty with
    | .plain valueTy =>
      if key.len ≠ 32 then .error (.err .plainKeyExceedsPrefix)
      else do
        let value ← (decodeAllAsType R value valueTy).mapErr .parsingValue
        .ok { key := .plain, value, docs }
    | .map hashers keyTy valueTy => do
      let key ← processKeyMapped H R hashers keyTy key 32
      let value ← (decodeAllAsType R value valueTy).mapErr .parsingValue
      .ok { key, value, docs }

end Verif
