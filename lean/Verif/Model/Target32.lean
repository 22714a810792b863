import Verif.Model.BitPatch
import Verif.Model.Extrinsic
import Verif.Model.Storage
/-!
# The crate on targets with 32-bit pointers

The only code of the crate that depends on `target_pointer_width` is the decoding of bit sequences,
`src/decoding_sci.rs:872-895`. This file has the decoder with the 32-bit branch, and the functions above
the decoder with the decoder as an argument: with `decode` they are the functions of the main model
(`Props/Target32.lean` proves it), with `decode32` they are the functions on 32-bit targets.
(Sums of positions that exceed a machine word are the subject of `Model/Device.lean` and
`Model/DeviceTx.lean`.)
-/
namespace Verif

/-- `<BitVec<T, O> as DecodeAll>::decode_all` (external crates, see `bitVecDecodeAll`) on 32-bit targets:
`BitVec::try_from_vec` refuses elements with more than `0x1fff_ffff` bits in total.
Called in `src/decoding_sci.rs:823-867`. -/
def bitVecDecodeAll32 (store : BitStore) (order : BitOrder) (bs : Bytes) : Option (List Bool) :=
  match compactDecode .u32 bs with
  | none => none
  | some (bits, rest) =>
    if 0x1fffffff < bits then none
    else
      match readElements store.bytes (ceilDiv bits (8 * store.bytes)) rest with
      | some (els, []) =>
        if 0x1fffffff < els.length * (8 * store.bytes) then none
        else some ((els.flatMap (elementBits order (8 * store.bytes))).take bits)
      | _ => none

/-- The stores `u8`, `u16`, `u32` of `decode_type_def_bit_sequence`, `src/decoding_sci.rs:820-871`. -/
def decodeBitsSmall (st : BitStore) (o : BitOrder) (b : Buf) (pos : Nat) : Res (List Bool × Nat) := do
  let (s, pos') ← intoBitvecDecode st b pos
  match bitVecDecodeAll32 st o s with
  | some bits => .ok (bits, pos')
  | none => .error (.err (.typeFailure pos (bitVecName st o)))

/-- All stores, with the branch for `u64` on 32-bit targets, `src/decoding_sci.rs:889-895`. -/
def decodeBits32 (st : BitStore) (o : BitOrder) (b : Buf) (pos : Nat) : Res (List Bool × Nat) :=
  match st with
  | .u64 => patchBitvecU64 o b pos
  | _ => decodeBitsSmall st o b pos

/-- `decode_type_def_bit_sequence` on 32-bit targets, `src/decoding_sci.rs:798-900`. -/
def decodeBitSequence32 (R : Registry) (order store id : Nat) (b : Buf) (pos : Nat) :
    Res (PD × Nat) := do
  let o ← findBitOrder R order id
  let t ← R.get store
  match t.typeDef with
  | .primitive p =>
    match BitStore.ofPrim p with
    | some st => do
      let (bits, pos') ← decodeBits32 st o b pos
      .ok (.bitVec st o bits, pos')
    | none => failInternal (.notBitStoreType id)
  | _ => failInternal (.notBitStoreType id)

/-- Branch `SpecialtyTypeChecked::None` of `decode_with_type` on 32-bit targets,
`src/decoding_sci.rs:280-394`. -/
def decodeTypeDef32 (R : Registry) (rec : Dec) (b : Buf) (ty : Typ) (id pos : Nat)
    (p : Propagated) : Res (ED × Nat) :=
  match ty.typeDef with
  | .bitSequence order store => do
    p.rejectCompact
    withInfo p.info (decodeBitSequence32 R order store id b pos)
  | _ => decodeTypeDef R rec b ty id pos p

/-- The `match` of `decode_with_type` on 32-bit targets, `src/decoding_sci.rs:279-570`. -/
def decodeChecked32 (R : Registry) (rec : Dec) (b : Buf) (sp : TypeChecked) (ty : Typ)
    (id pos : Nat) (p : Propagated) : Res (ED × Nat) :=
  match sp with
  | .none => decodeTypeDef32 R rec b ty id pos p
  | _ => decodeChecked R rec b sp ty id pos p

/-- `decode_with_type` on 32-bit targets, `src/decoding_sci.rs:260-571`, with recursive calls as an
argument. -/
def decodeStep32 (R : Registry) (b : Buf) (rec : Dec) : Dec := fun tyIn pos p => do
  let (ty, id) ← tyIn.resolve R
  let p := p.addInfo (Info.fromTy ty)
  let (sp, pos) ← TypeChecked.fromType R ty b pos
  decodeChecked32 R rec b sp ty id pos p

/-- `decode_with_type` on 32-bit targets with at most `n` nested calls, `src/decoding_sci.rs:260-571`. -/
def decodeF32 (R : Registry) (b : Buf) : Nat → Dec
  | 0 => fun _ _ _ => .error .fuel
  | n + 1 => decodeStep32 R b (decodeF32 R b n)

/-- `decode_with_type` on 32-bit targets, `src/decoding_sci.rs:260-571`. -/
def decode32 (R : Registry) (b : Buf) (tyIn : TyIn) (pos : Nat) (p : Propagated) : Res (ED × Nat) :=
  decodeF32 R b (depthBound R b pos) tyIn pos p

/-! ### The functions above the decoder -/

/-- A decoder, as called by the functions above it. `src/decoding_sci.rs:260-272`. -/
abbrev Decoder := Registry → Buf → TyIn → Nat → Propagated → Res (ED × Nat)

namespace With

variable {ME : Type} (dec : Decoder)

/-- `decode_as_type_at_position`, `src/lib.rs:776-796`. -/
def decodeAsTypeAtPosition (R : Registry) (b : Buf) (id pos : Nat) : Res (ED × Nat) :=
  dec R b (.symbol id) pos Propagated.new

/-- `decode_all_as_type`, `src/lib.rs:801-825`. -/
def decodeAllAsType (R : Registry) (b : Buf) (id : Nat) : Res ED := do
  let (out, pos) ← decodeAsTypeAtPosition dec R b id 0
  if pos ≠ b.len then .error (.err (.someDataNotUsedBlob pos)) else .ok out

/-- `decode_as_call_unmarked`, `src/decoding_sci.rs:200-226`. -/
def decodeAsCallUnmarked (M : Metadata ME) (data : Buf) (pos : Nat) : SRes ME (Call × Nat) := do
  let callTy ← mapOut .metaStructure M.callTy
  let (d, pos) ← (dec M.types data (.symbol callTy) pos Propagated.new).mapErr .parsing
  match d.data.asCall with
  | some call => .ok (call, pos)
  | none => .error (.err (.notACall callTy))

/-- `decode_as_call`, `src/decoding_sci.rs:166-188`. -/
def decodeAsCall (M : Metadata ME) (m : Marked) : SRes ME Call := do
  let data ← m.dataNoExtensions
  let (call, pos) ← decodeAsCallUnmarked dec M data m.callStart
  if pos ≠ m.extensionsStart then .error (.err (.someDataNotUsedCall pos m.extensionsStart))
  else .ok call

/-- Loops of `decode_extensions_unmarked`, `src/decoding_sci_ext.rs:91-110`. -/
def extensionsLoop (R : Registry) (data : Buf) (sel : SignedExt → Nat) :
    List SignedExt → Nat → SRes ME (List ED × Nat)
  | [], pos => .ok ([], pos)
  | e :: es, pos => do
    let (d, pos) ← (dec R data (.symbol (sel e)) pos (.fromExtMeta e.identifier)).mapErr .parsing
    let (ds, pos) ← extensionsLoop R data sel es pos
    .ok (d :: ds, pos)

/-- `decode_extensions_unmarked`, `src/decoding_sci_ext.rs:74-124`. -/
def decodeExtensionsUnmarked (M : Metadata ME) (data : Buf) (pos : Nat) (expected : Option Bytes) :
    SRes ME (List ED) := do
  let signed ← mapOut .metaStructure M.signedExtensions
  let (first, pos) ← extensionsLoop dec M.types data (·.ty) signed pos
  let (second, pos) ← extensionsLoop dec M.types data (·.additionalSigned) signed pos
  let exts := first ++ second
  if pos ≠ data.len then .error (.err (.someDataNotUsedExtensions pos))
  else do
    let spec ← mapOut .metaStructure M.specNameVersion
    checkExtensions exts spec.printedSpecVersion expected
    .ok exts

/-- `decode_extensions`, `src/decoding_sci_ext.rs:37-58`. -/
def decodeExtensions (M : Metadata ME) (m : Marked) (expected : Option Bytes) : SRes ME (List ED) :=
  decodeExtensionsUnmarked dec M m.data m.extensionsStart expected

/-- `parse_transaction`, `src/lib.rs:675-702`. -/
def parseTransaction (M : Metadata ME) (data : Buf) (expected : Option Bytes) :
    SRes ME (TransactionParsed ME) := do
  let m ← mark data
  let extensions ← decodeExtensions dec M m expected
  match decodeAsCall dec M m with
  | .ok call => .ok { callResult := .ok call, extensions }
  | .error (.err e) => .ok { callResult := .error e, extensions }
  | .error .panic => .error .panic
  | .error .fuel => .error .fuel

/-- `parse_transaction_unmarked`, `src/lib.rs:738-765`. -/
def parseTransactionUnmarked (M : Metadata ME) (data : Buf) (expected : Option Bytes) :
    SRes ME TransactionUnmarkedParsed := do
  let (call, pos) ← decodeAsCallUnmarked dec M data 0
  let extensions ← decodeExtensionsUnmarked dec M data pos expected
  .ok { call, extensions }

/-- Decoding of one part of an extrinsic, `src/unchecked_extrinsic.rs:132-138` and
`src/unchecked_extrinsic.rs:147-177`. -/
def extrinsicPart (R : Registry) (input : Buf) (id pos : Nat) : Except (Out (UErr ME)) (ED × Nat) :=
  (decodeAsTypeAtPosition dec R input id pos).mapErr .parsing

/-- The call of an extrinsic, `src/unchecked_extrinsic.rs:132-145` and
`src/unchecked_extrinsic.rs:171-189`. -/
def extrinsicCall (R : Registry) (input : Buf) (id pos : Nat) : Except (Out (UErr ME)) Call := do
  let (d, _) ← extrinsicPart dec R input id pos
  match d.data.asCall with
  | some call => .ok call
  | none => .error (.err (.unexpectedCallTy id))

/-- `decode_as_unchecked_extrinsic` after the version byte, `src/unchecked_extrinsic.rs:126-190`. -/
def extrinsicContent (R : Registry) (params : ExtrinsicParams) (input : Buf) (versionByte version : UInt8)
    (pos : Nat) : Except (Out (UErr ME)) UncheckedExtrinsic :=
  if versionByte &&& 0x7f ≠ version then .error (.err (.versionMismatch versionByte version))
  else if versionByte &&& ~~~0x7f = 0 then do
    let call ← extrinsicCall dec R input params.callTy pos
    .ok (.unsigned call)
  else do
    let (address, pos) ← extrinsicPart dec R input params.addressTy pos
    let (signature, pos) ← extrinsicPart dec R input params.signatureTy pos
    let (extra, pos) ← extrinsicPart dec R input params.extraTy pos
    let call ← extrinsicCall dec R input params.callTy pos
    .ok (.signed address signature extra call)

/-- `decode_as_unchecked_extrinsic`, `src/unchecked_extrinsic.rs:72-191`. -/
def decodeUncheckedExtrinsic (M : CompleteMetadata ME) (input : Buf) :
    Except (Out (UErr ME)) UncheckedExtrinsic := do
  let params ← mapOut .metaStructure M.extrinsicTypeParams
  let (length, start) ← (getCompact (compactUInt .u32) input 0).mapErr fun _ => .formatNoCompact
  let len := input.len
  if len < start + length then
    .error (.err (.parsing (.buffer (.dataTooShort len (start + length - len)))))
  else if start + length < len then .error (.err (.parsing (.someDataNotUsedBlob (start + length))))
  else do
    let versionByte ← (input.readByte start).mapErr .parsing
    let version ← mapOut .metaStructure M.extrinsicVersion
    extrinsicContent dec M.types params input versionByte version (start + 1)

/-- `check_hash!`, `src/storage_data.rs:231-281`. -/
def checkHash (R : Registry) (hashLen : Nat) (f : Bytes → Bytes) (ty : Nat) (key : Buf) (pos : Nat) :
    StRes (KeyPart × Nat) := do
  let slice ← (key.readSlice pos hashLen).mapErr .parsingKey
  if slice.length ≠ hashLen then .error .panic
  else do
    let start := pos + hashLen
    let (d, pos) ← (dec R key (.symbol ty) start Propagated.new).mapErr .parsingKey
    match key.readSlice start (pos - start) with
    | .error _ => .error .panic
    | .ok bs => if slice ≠ f bs then .error (.err .keyPartHashMismatch) else .ok (.parsed d, pos)

/-- The `match` on `StorageHasher`, `src/storage_data.rs:308-353` and `src/storage_data.rs:367-420`. -/
def processHasher (H : HashFns) (R : Registry) (h : Hasher) (ty : Nat) (key : Buf) (pos : Nat) :
    StRes (KeyPart × Nat) :=
  match h with
  | .blake2_128 => cutHash .blake2_128 ty key pos
  | .blake2_256 => cutHash .blake2_256 ty key pos
  | .blake2_128Concat => checkHash dec R 16 H.blake2_128 ty key pos
  | .twox128 => cutHash .twox128 ty key pos
  | .twox256 => cutHash .twox256 ty key pos
  | .twox64Concat => checkHash dec R 8 H.twox64 ty key pos
  | .identity => do
    let (d, pos) ← (dec R key (.symbol ty) pos Propagated.new).mapErr .parsingKey
    .ok (.parsed d, pos)

/-- Loop over tuple elements, `src/storage_data.rs:366-421`. -/
def hashersLoop (H : HashFns) (R : Registry) (key : Buf) :
    List Hasher → List Nat → Nat → StRes (List KeyPart × Nat)
  | h :: hs, ty :: tys, pos => do
    let (part, pos) ← processHasher dec H R h ty key pos
    let (parts, pos) ← hashersLoop H R key hs tys pos
    .ok (part :: parts, pos)
  | _, _, pos => .ok ([], pos)

/-- `process_key_mapped`, `src/storage_data.rs:293-433`. -/
def processKeyMapped (H : HashFns) (R : Registry) (hashers : List Hasher) (keyTy : Nat) (key : Buf)
    (pos : Nat) : StRes KeyData := do
  let (data, pos) ←
    match hashers with
    | [h] => do
      let (content, pos) ← processHasher dec H R h keyTy key pos
      .ok (KeyData.singleHash content, pos)
    | _ => do
      let ty ← (R.get keyTy).mapErr .parsingKey
      match ty.typeDef with
      | .tuple elems =>
        if elems.length ≠ hashers.length then .error (.err .multipleHashesNumberMismatch)
        else do
          let (content, pos) ← hashersLoop dec H R key hashers elems pos
          .ok (KeyData.tupleHash content (Info.fromTy ty), pos)
      | _ => .error (.err .multipleHashesNotATuple)
  if pos = key.len then .ok data else .error (.err .keyPartsUnused)

/-- `decode_as_storage_entry`, `src/storage_data.rs:138-186`. -/
def decodeStorageEntry (H : HashFns) (R : Registry) (key value : Buf) (entry : Entry) : StRes Storage :=
  let docs := collectDocs entry.docs
  if key.len < 32 then .error (.err .keyShorterThanPrefix)
  else
    match entry.ty with
    | .plain valueTy =>
      if key.len ≠ 32 then .error (.err .plainKeyExceedsPrefix)
      else do
        let value ← (decodeAllAsType dec R value valueTy).mapErr .parsingValue
        .ok { key := .plain, value, docs }
    | .map hashers keyTy valueTy => do
      let key ← processKeyMapped dec H R hashers keyTy key 32
      let value ← (decodeAllAsType dec R value valueTy).mapErr .parsingValue
      .ok { key, value, docs }

end With

end Verif
