import Verif.Model.Device
import Verif.Model.Transaction
import Verif.Model.Extrinsic
import Verif.Model.Storage
/-!
# Transactions, extrinsics and storage entries on a device

`src/lib.rs:580-765`, `src/decoding_sci.rs:166-226`, `src/decoding_sci_ext.rs`,
`src/unchecked_extrinsic.rs`, `src/storage_data.rs` once more, with memory that changes
between accesses and with machine words, as in `Model/Device.lean`. The metadata is
not in that memory: its methods take `&self` only (`src/traits.rs:47-60`).
-/
namespace Verif

/-- Computation that uses the external memory, with errors of type `ε`.
The parameter `ext_memory: &mut E`, `src/lib.rs:573-765`, `src/storage_data.rs:137-150`. -/
def DevO (σ ε α : Type) : Type := σ → Except (Out ε) α × σ

/-- Part of the code that does not touch the memory. As between the calls in `src/lib.rs:573-765`. -/
def DevO.of {σ ε α : Type} (r : Except (Out ε) α) : DevO σ ε α := fun s => (r, s)

/-- The `?` operator. As in `src/lib.rs:573-765`. -/
def DevO.bind {σ ε α β : Type} (x : DevO σ ε α) (k : α → DevO σ ε β) : DevO σ ε β := fun s =>
  match x s with
  | (.ok a, s) => k a s
  | (.error e, s) => (.error e, s)

/-- As `DevO.bind`, `src/lib.rs:573-765`. -/
instance {σ ε : Type} : Monad (DevO σ ε) where
  pure a := DevO.of (.ok a)
  bind := DevO.bind

/-- Conversion of the error (`?` with `From<ParserError>`, `map_err`).
As in `src/decoding_sci.rs:211`, `src/decoding_sci_ext.rs:90`, `src/storage_data.rs:163-166`. -/
def Dev.mapErr {σ ε α : Type} (f : PErr → ε) (x : Dev σ α) : DevO σ ε α := fun s =>
  ((x s).1.mapErr f, (x s).2)

variable {σ ME : Type} (D : Device σ)

/-- Arithmetic; there is no error, but a panic.
As in `src/storage_data.rs:205-209`, `246-270`, `src/unchecked_extrinsic.rs:92-120`. -/
def Device.arith {ε : Type} (r : Res Nat) : DevO σ ε Nat := fun s =>
  match r with
  | .ok n => (.ok n, s)
  | .error _ => (.error .panic, s)

/-- `AddressableBuffer::limit_length`: everything from `n` on is cut off, the rest is read as
before; error if `n` is past the end. Called in `src/lib.rs:611`. -/
def Device.limitLength (n : Nat) : Option (Device σ) :=
  if D.len < n then none
  else some { D with
    len := n
    read := fun pos k =>
      if n < pos then Dev.of (.error (.err (.buffer (.outOfRange pos n))))
      else if n < pos + k then Dev.of (.error (.err (.buffer (.dataTooShort pos k))))
      else D.read pos k }

/-! ### Transactions -/

/-- `MarkedData`, `src/lib.rs:560-571`, without the data. -/
structure Marks where
  callStart : Nat
  extensionsStart : Nat
  deriving DecidableEq, Repr

/-- `MarkedData::mark`, `src/lib.rs:580-595`. -/
def markD : DevO σ (SErr ME) Marks := do
  let c ← (getCompactD D (compactUInt .u32) 0).mapErr fun _ => .cutSignable
  let callLength := D.word.ofU32 c.1
  let extensionsStart ← Device.arith (D.word.add c.2 callLength)
  let _ ← (D.read c.2 callLength).mapErr fun _ => .cutSignable
  DevO.of (.ok { callStart := c.2, extensionsStart })

/-- `decode_as_call_unmarked`, `src/decoding_sci.rs:200-226`. -/
def decodeAsCallUnmarkedD (M : Metadata ME) (pos : Nat) : DevO σ (SErr ME) (Call × Nat) := do
  let callTy ← DevO.of (mapOut .metaStructure M.callTy)
  let r ← (decodeD D (.symbol callTy) pos Propagated.new).mapErr .parsing
  match r.1.data.asCall with
  | some call => DevO.of (.ok (call, r.2))
  | none => DevO.of (.error (.err (.notACall callTy)))

/-- `decode_as_call`, `src/decoding_sci.rs:166-188`, with `data_no_extensions`,
`src/lib.rs:609-613`, whose `expect` panics. -/
def decodeAsCallD (M : Metadata ME) (m : Marks) : DevO σ (SErr ME) Call :=
  match D.limitLength m.extensionsStart with
  | none => DevO.of (.error .panic)
  | some D' => do
    let r ← decodeAsCallUnmarkedD D' M m.callStart
    if r.2 ≠ m.extensionsStart then DevO.of (.error (.err (.someDataNotUsedCall r.2 m.extensionsStart)))
    else DevO.of (.ok r.1)

/-- One of the two loops of `decode_extensions_unmarked`,
`src/decoding_sci_ext.rs:91-100` and `src/decoding_sci_ext.rs:101-110`. -/
def extensionsLoopD (sel : SignedExt → Nat) : List SignedExt → Nat → DevO σ (SErr ME) (List ED × Nat)
  | [], pos => DevO.of (.ok ([], pos))
  | e :: es, pos => do
    let d ← (decodeD D (.symbol (sel e)) pos (.fromExtMeta e.identifier)).mapErr .parsing
    let rest ← extensionsLoopD sel es d.2
    DevO.of (.ok (d.1 :: rest.1, rest.2))

/-- `decode_extensions_unmarked`, `src/decoding_sci_ext.rs:74-124`. -/
def decodeExtensionsUnmarkedD (M : Metadata ME) (pos : Nat) (expected : Option Bytes) :
    DevO σ (SErr ME) (List ED) := do
  let signed ← DevO.of (mapOut .metaStructure M.signedExtensions)
  let first ← extensionsLoopD D (·.ty) signed pos
  let second ← extensionsLoopD D (·.additionalSigned) signed first.2
  if second.2 ≠ D.len then DevO.of (.error (.err (.someDataNotUsedExtensions second.2)))
  else do
    let spec ← DevO.of (mapOut .metaStructure M.specNameVersion)
    DevO.of (checkExtensions (first.1 ++ second.1) spec.printedSpecVersion expected)
    DevO.of (.ok (first.1 ++ second.1))

/-- `decode_as_call` as a value: its `Err` is kept, a panic is not, `src/lib.rs:693-701`. -/
def keepErr {α : Type} (x : DevO σ (SErr ME) α) : DevO σ (SErr ME) (Except (SErr ME) α) := fun s =>
  match x s with
  | (.ok a, s) => (.ok (.ok a), s)
  | (.error (.err e), s) => (.ok (.error e), s)
  | (.error .panic, s) => (.error .panic, s)
  | (.error .fuel, s) => (.error .fuel, s)

/-- `parse_transaction`, `src/lib.rs:675-702`. -/
def parseTransactionD (M : Metadata ME) (expected : Option Bytes) : DevO σ (SErr ME) (TransactionParsed ME) := do
  let m ← markD D
  let extensions ← decodeExtensionsUnmarkedD D M m.extensionsStart expected
  let callResult ← keepErr (decodeAsCallD D M m)
  DevO.of (.ok { callResult, extensions })

/-- `parse_transaction_unmarked`, `src/lib.rs:738-765`. -/
def parseTransactionUnmarkedD (M : Metadata ME) (expected : Option Bytes) :
    DevO σ (SErr ME) TransactionUnmarkedParsed := do
  let c ← decodeAsCallUnmarkedD D M 0
  let extensions ← decodeExtensionsUnmarkedD D M c.2 expected
  DevO.of (.ok { call := c.1, extensions })

/-! ### Unchecked extrinsics -/

/-- Decoding of one part, `src/unchecked_extrinsic.rs:132-138` and
`src/unchecked_extrinsic.rs:147-177`. -/
def extrinsicPartD (id pos : Nat) : DevO σ (UErr ME) (ED × Nat) :=
  (decodeAsTypeAtPositionD D id pos).mapErr .parsing

/-- Last part: the call, `src/unchecked_extrinsic.rs:132-145` and
`src/unchecked_extrinsic.rs:171-189`. -/
def extrinsicCallD (id pos : Nat) : DevO σ (UErr ME) Call := do
  let r ← extrinsicPartD D id pos
  match r.1.data.asCall with
  | some call => DevO.of (.ok call)
  | none => DevO.of (.error (.err (.unexpectedCallTy id)))

/-- `decode_as_unchecked_extrinsic` after the version byte,
`src/unchecked_extrinsic.rs:126-190`. -/
def extrinsicContentD (params : ExtrinsicParams) (versionByte version : UInt8) (pos : Nat) :
    DevO σ (UErr ME) UncheckedExtrinsic :=
  if versionByte &&& 0x7f ≠ version then DevO.of (.error (.err (.versionMismatch versionByte version)))
  else if versionByte &&& ~~~0x7f = 0 then do
    let call ← extrinsicCallD D params.callTy pos
    DevO.of (.ok (.unsigned call))
  else do
    let address ← extrinsicPartD D params.addressTy pos
    let signature ← extrinsicPartD D params.signatureTy address.2
    let extra ← extrinsicPartD D params.extraTy signature.2
    let call ← extrinsicCallD D params.callTy extra.2
    DevO.of (.ok (.signed address.1 signature.1 extra.1 call))

/-- `decode_as_unchecked_extrinsic` after the length prefix `n`, which ends at `start`,
`src/unchecked_extrinsic.rs:92-190`. -/
def extrinsicFrameD (M : CompleteMetadata ME) (params : ExtrinsicParams) (n start : Nat) :
    DevO σ (UErr ME) UncheckedExtrinsic := do
  let sum ← Device.arith (D.word.add start n)
  if D.len < sum then do
    let minimalLength ← Device.arith (D.word.sub sum D.len)
    DevO.of (.error (.err (.parsing (.buffer (.dataTooShort D.len minimalLength)))))
  else if sum < D.len then DevO.of (.error (.err (.parsing (.someDataNotUsedBlob sum))))
  else do
    let versionByte ← (D.readByte start).mapErr .parsing
    let pos ← Device.arith (D.word.add start 1)
    let version ← DevO.of (mapOut .metaStructure M.extrinsicVersion)
    extrinsicContentD D params versionByte version pos

/-- `decode_as_unchecked_extrinsic`, `src/unchecked_extrinsic.rs:72-191`. -/
def decodeUncheckedExtrinsicD (M : CompleteMetadata ME) : DevO σ (UErr ME) UncheckedExtrinsic := do
  let params ← DevO.of (mapOut .metaStructure M.extrinsicTypeParams)
  let c ← (getCompactD D (compactUInt .u32) 0).mapErr fun _ => .formatNoCompact
  extrinsicFrameD D M params (D.word.ofU32 c.1) c.2

/-! ### Storage entries -/

/-- `cut_hash!`, `src/storage_data.rs:192-218`. -/
def cutHashD (kind : HashKind) (keyTy pos : Nat) : DevO σ StErr (KeyPart × Nat) := do
  let slice ← (D.read pos kind.len).mapErr .parsingKey
  if slice.length ≠ kind.len then DevO.of (.error .panic)
  else do
    let q ← Device.arith (D.word.add pos kind.len)
    DevO.of (.ok (.hash kind slice keyTy, q))

/-- The `expect` after the second `read_slice` of `check_hash!`, `src/storage_data.rs:262-271`. -/
def expectD {α ε : Type} (x : Dev σ α) : DevO σ ε α := fun s =>
  match x s with
  | (.ok a, s) => (.ok a, s)
  | (.error _, s) => (.error .panic, s)

/-- `check_hash!`, `src/storage_data.rs:231-281`. -/
def checkHashD (hashLen : Nat) (f : Bytes → Bytes) (ty pos : Nat) : DevO σ StErr (KeyPart × Nat) := do
  let slice ← (D.read pos hashLen).mapErr .parsingKey
  if slice.length ≠ hashLen then DevO.of (.error .panic)
  else do
    let start ← Device.arith (D.word.add pos hashLen)
    let d ← (decodeD D (.symbol ty) start Propagated.new).mapErr .parsingKey
    let n ← Device.arith (D.word.sub d.2 start)
    let bs ← expectD (D.read start n)
    if slice ≠ f bs then DevO.of (.error (.err .keyPartHashMismatch)) else DevO.of (.ok (.parsed d.1, d.2))

/-- Processing of one hasher, `src/storage_data.rs:308-353` and
`src/storage_data.rs:367-420`. -/
def processHasherD (H : HashFns) (h : Hasher) (ty pos : Nat) : DevO σ StErr (KeyPart × Nat) :=
  match h with
  | .blake2_128 => cutHashD D .blake2_128 ty pos
  | .blake2_256 => cutHashD D .blake2_256 ty pos
  | .blake2_128Concat => checkHashD D 16 H.blake2_128 ty pos
  | .twox128 => cutHashD D .twox128 ty pos
  | .twox256 => cutHashD D .twox256 ty pos
  | .twox64Concat => checkHashD D 8 H.twox64 ty pos
  | .identity => do
    let d ← (decodeD D (.symbol ty) pos Propagated.new).mapErr .parsingKey
    DevO.of (.ok (.parsed d.1, d.2))

/-- Loop over tuple elements, `src/storage_data.rs:366-421`. -/
def hashersLoopD (H : HashFns) : List Hasher → List Nat → Nat → DevO σ StErr (List KeyPart × Nat)
  | h :: hs, ty :: tys, pos => do
    let part ← processHasherD D H h ty pos
    let rest ← hashersLoopD H hs tys part.2
    DevO.of (.ok (part.1 :: rest.1, rest.2))
  | _, _, pos => DevO.of (.ok ([], pos))

/-- Key data and the position after it, `src/storage_data.rs:306-425`. -/
def keyDataD (H : HashFns) (hashers : List Hasher) (keyTy pos : Nat) : DevO σ StErr (KeyData × Nat) :=
  match hashers with
  | [h] => do
    let c ← processHasherD D H h keyTy pos
    DevO.of (.ok (KeyData.singleHash c.1, c.2))
  | _ => do
    let ty ← (D.get keyTy).mapErr .parsingKey
    match ty.typeDef with
    | .tuple elems =>
      if elems.length ≠ hashers.length then DevO.of (.error (.err .multipleHashesNumberMismatch))
      else do
        let c ← hashersLoopD D H hashers elems pos
        DevO.of (.ok (KeyData.tupleHash c.1 (Info.fromTy ty), c.2))
    | _ => DevO.of (.error (.err .multipleHashesNotATuple))

/-- `process_key_mapped`, `src/storage_data.rs:293-433`. -/
def processKeyMappedD (H : HashFns) (hashers : List Hasher) (keyTy pos : Nat) : DevO σ StErr KeyData := do
  let r ← keyDataD D H hashers keyTy pos
  if r.2 = D.len then DevO.of (.ok r.1) else DevO.of (.error (.err .keyPartsUnused))

/-- `decode_as_storage_entry`, `src/storage_data.rs:138-186`: key and value are two buffers
(`DK`, `DV`) in the same memory. -/
def decodeStorageEntryD (H : HashFns) (DK DV : Device σ) (entry : Entry) : DevO σ StErr Storage :=
  let docs := collectDocs entry.docs
  if DK.len < 32 then DevO.of (.error (.err .keyShorterThanPrefix))
  else
    match entry.ty with
    | .plain valueTy =>
      if DK.len ≠ 32 then DevO.of (.error (.err .plainKeyExceedsPrefix))
      else do
        let value ← (decodeAllAsTypeD DV valueTy).mapErr .parsingValue
        DevO.of (.ok { key := .plain, value, docs })
    | .map hashers keyTy valueTy => do
      let key ← processKeyMappedD DK H hashers keyTy 32
      let value ← (decodeAllAsTypeD DV valueTy).mapErr .parsingValue
      DevO.of (.ok { key, value, docs })

end Verif
