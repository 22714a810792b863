import Verif.Model.Metadata
/-!
# Signable transactions: `src/lib.rs:558-765`, `src/decoding_sci.rs:143-226`,
`src/decoding_sci_ext.rs`
-/
namespace Verif

/-- `ExtensionsError`, `src/error.rs:215-222`. -/
inductive ExtErr
  | blockHashTwice
  | eraTwice
  | genesisHashTwice
  | noGenesisHash
  | noSpecVersion
  | specVersionTwice
  deriving DecidableEq, Repr

/-- `SignableError`, `src/error.rs:20-45`. -/
inductive SErr (ME : Type)
  | cutSignable
  | extensionsList (e : ExtErr)
  | immortalHashMismatch
  | metaStructure (e : ME)
  | notACall (id : Nat)
  | parsing (e : PErr)
  | someDataNotUsedCall (fromPos toPos : Nat)
  | someDataNotUsedExtensions (fromPos : Nat)
  | wrongGenesisHash (asDecoded expected : Bytes)
  | wrongSpecVersion (asDecoded inMetadata : String)
  deriving DecidableEq, Repr

/-- Result of the functions on signable transactions. `src/lib.rs:573-765`. -/
abbrev SRes (ME α : Type) := Except (Out (SErr ME)) α

variable {ME : Type}

/-- `Call`, `src/cards.rs:128-129` and `PalletSpecificData`, `src/cards.rs:117-126`. -/
structure Call where
  palletInfo : Info
  variantDocs : String
  palletName : String
  variantName : String
  fields : List FD

/-- The call in the data, `if let ParsedData::Call(call)`, `src/decoding_sci.rs:221`. -/
def PD.asCall : PD → Option Call
  | .pallet .call palletInfo variantDocs palletName variantName fields =>
    some { palletInfo, variantDocs, palletName, variantName, fields }
  | _ => none

/-- `MarkedData`, `src/lib.rs:560-571`. -/
structure Marked where
  data : Buf
  callStart : Nat
  extensionsStart : Nat

/-- An error becomes `CutSignable`, `src/lib.rs:583` and `src/lib.rs:593`. -/
def cut {α : Type} (r : Res α) : SRes ME α := r.mapErr fun _ => .cutSignable

/-- `MarkedData::mark`, `src/lib.rs:580-595`. -/
def mark (data : Buf) : SRes ME Marked := do
  let (callLength, callStart) ← cut (getCompact (compactUInt .u32) data 0)
  let extensionsStart := callStart + callLength
  let _ ← cut (data.readSlice callStart callLength)
  .ok { data, callStart, extensionsStart }

/-- `MarkedData::data_no_extensions`, `src/lib.rs:609-613`; the `expect` panics. -/
def Marked.dataNoExtensions (m : Marked) : SRes ME Buf :=
  match m.data.limitLength m.extensionsStart with
  | .ok b => .ok b
  | .error _ => .error .panic

/-- `decode_as_call_unmarked`, `src/decoding_sci.rs:200-226`. -/
def decodeAsCallUnmarked (M : Metadata ME) (data : Buf) (pos : Nat) : SRes ME (Call × Nat) := do
  let callTy ← mapOut .metaStructure M.callTy
  let (d, pos) ← (decode M.types data (.symbol callTy) pos Propagated.new).mapErr .parsing
  match d.data.asCall with
  | some call => .ok (call, pos)
  | none => .error (.err (.notACall callTy))

/-- `decode_as_call`, `src/decoding_sci.rs:166-188`. -/
def decodeAsCall (M : Metadata ME) (m : Marked) : SRes ME Call := do
  let data ← m.dataNoExtensions
  let (call, pos) ← decodeAsCallUnmarked M data m.callStart
  if pos ≠ m.extensionsStart then .error (.err (.someDataNotUsedCall pos m.extensionsStart))
  else .ok call

/-- One of the two loops of `decode_extensions_unmarked`,
`src/decoding_sci_ext.rs:91-100` and `src/decoding_sci_ext.rs:101-110`; `sel` selects `ty` or
`additional_signed`. -/
def extensionsLoop (R : Registry) (data : Buf) (sel : SignedExt → Nat) :
    List SignedExt → Nat → SRes ME (List ED × Nat)
  | [], pos => .ok ([], pos)
  | e :: es, pos => do
    let (d, pos) ← (decode R data (.symbol (sel e)) pos (.fromExtMeta e.identifier)).mapErr .parsing
    let (ds, pos) ← extensionsLoop R data sel es pos
    .ok (d :: ds, pos)

/-- `CollectedExt`, `src/decoding_sci_ext.rs:192-208`. -/
structure CollectedExt where
  era : Option Era := none
  genesisHash : Option Bytes := none
  blockHash : Option Bytes := none
  specVersionPrinted : Option String := none

/-- `CollectedExt::update`, `src/decoding_sci_ext.rs:211-241`, with `add_era`,
`add_genesis_hash`, `add_block_hash`, `add_spec_version`,
`src/decoding_sci_ext.rs:244-299`. -/
def CollectedExt.update (c : CollectedExt) (d : PD) : Except ExtErr CollectedExt :=
  match d with
  | .era era => if c.era.isSome then .error .eraTwice else .ok { c with era := some era }
  | .genesisHash h =>
    if c.genesisHash.isSome then .error .genesisHashTwice else .ok { c with genesisHash := some h }
  | .blockHash h =>
    if c.blockHash.isSome then .error .blockHashTwice else .ok { c with blockHash := some h }
  | .uint _ value .specVersion =>
    if c.specVersionPrinted.isSome then .error .specVersionTwice
    else .ok { c with specVersionPrinted := some (toString value) }
  | _ => .ok c

/-- Loop of `check_extensions`, `src/decoding_sci_ext.rs:137-146`. -/
def collectLoop : List ED → CollectedExt → Except ExtErr CollectedExt
  | [], c => .ok c
  | e :: es, c =>
    match e.data with
    | .composite fields =>
      match fields with
      | [f] => do
        let c ← c.update f.data.data
        collectLoop es c
      | _ => collectLoop es c
    | d => do
      let c ← c.update d
      collectLoop es c

/-- Last check of `check_extensions`, `src/decoding_sci_ext.rs:179-187`. -/
def checkImmortal (c : CollectedExt) : SRes ME Unit :=
  match c.era with
  | some .immortal =>
    match c.blockHash with
    | some blockHash =>
      match c.genesisHash with
      | some genesisHash =>
        if genesisHash ≠ blockHash then .error (.err .immortalHashMismatch) else .ok ()
      | none => .ok ()
    | none => .ok ()
  | _ => .ok ()

/-- Checks of `check_extensions` on the collected data,
`src/decoding_sci_ext.rs:147-189`. -/
def checkCollected (c : CollectedExt) (version : String) (expected : Option Bytes) : SRes ME Unit :=
  match c.specVersionPrinted with
  | some found =>
    if found ≠ version then .error (.err (.wrongSpecVersion found version))
    else
      match c.genesisHash with
      | some foundHash =>
        match expected with
        | some genesisHash =>
          if foundHash ≠ genesisHash then .error (.err (.wrongGenesisHash foundHash genesisHash))
          else checkImmortal c
        | none => checkImmortal c
      | none => .error (.err (.extensionsList .noGenesisHash))
  | none => .error (.err (.extensionsList .noSpecVersion))

/-- `check_extensions`, `src/decoding_sci_ext.rs:131-189`. -/
def checkExtensions (exts : List ED) (version : String) (expected : Option Bytes) : SRes ME Unit :=
  match collectLoop exts {} with
  | .ok c => checkCollected c version expected
  | .error e => .error (.err (.extensionsList e))

/-- `decode_extensions_unmarked`, `src/decoding_sci_ext.rs:74-124`. -/
def decodeExtensionsUnmarked (M : Metadata ME) (data : Buf) (pos : Nat) (expected : Option Bytes) :
    SRes ME (List ED) := do
  let signed ← mapOut .metaStructure M.signedExtensions
  let (first, pos) ← extensionsLoop M.types data (·.ty) signed pos
  let (second, pos) ← extensionsLoop M.types data (·.additionalSigned) signed pos
  let exts := first ++ second
  if pos ≠ data.len then .error (.err (.someDataNotUsedExtensions pos))
  else do
    let spec ← mapOut .metaStructure M.specNameVersion
    checkExtensions exts spec.printedSpecVersion expected
    .ok exts

/-- `decode_extensions`, `src/decoding_sci_ext.rs:37-58`. -/
def decodeExtensions (M : Metadata ME) (m : Marked) (expected : Option Bytes) : SRes ME (List ED) :=
  decodeExtensionsUnmarked M m.data m.extensionsStart expected

/-- `TransactionParsed`, `src/lib.rs:630-637`. -/
structure TransactionParsed (ME : Type) where
  callResult : Except (SErr ME) Call
  extensions : List ED

/-- `parse_transaction`, `src/lib.rs:675-702`. -/
def parseTransaction (M : Metadata ME) (data : Buf) (expected : Option Bytes) :
    SRes ME (TransactionParsed ME) := do
  let m ← mark data
  let extensions ← decodeExtensions M m expected
  match decodeAsCall M m with
  | .ok call => .ok { callResult := .ok call, extensions }
  | .error (.err e) => .ok { callResult := .error e, extensions }
  | .error .panic => .error .panic
  | .error .fuel => .error .fuel

/-- `TransactionUnmarkedParsed`, `src/lib.rs:706-709`. -/
structure TransactionUnmarkedParsed where
  call : Call
  extensions : List ED

/-- `parse_transaction_unmarked`, `src/lib.rs:738-765`. -/
def parseTransactionUnmarked (M : Metadata ME) (data : Buf) (expected : Option Bytes) :
    SRes ME TransactionUnmarkedParsed := do
  let (call, pos) ← decodeAsCallUnmarked M data 0
  let extensions ← decodeExtensionsUnmarked M data pos expected
  .ok { call, extensions }

end Verif
