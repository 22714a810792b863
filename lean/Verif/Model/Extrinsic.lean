import Verif.Model.Transaction
/-!
# Unchecked extrinsics, `src/unchecked_extrinsic.rs`
-/
namespace Verif

/-- `UncheckedExtrinsicError`, `src/error.rs:328-334`. -/
inductive UErr (ME : Type)
  | formatNoCompact
  | metaStructure (e : ME)
  | parsing (e : PErr)
  | versionMismatch (versionByte version : UInt8)
  | unexpectedCallTy (id : Nat)
  deriving DecidableEq, Repr

/-- `UncheckedExtrinsic`, `src/unchecked_extrinsic.rs:195-206`. -/
inductive UncheckedExtrinsic
  | signed (address signature extra : ED) (call : Call)
  | unsigned (call : Call)

variable {ME : Type}

/-- Decoding of one part, `decode_as_type_at_position` with `?`,
`src/unchecked_extrinsic.rs:132-138` and `src/unchecked_extrinsic.rs:147-177`. -/
def extrinsicPart (R : Registry) (input : Buf) (id pos : Nat) : Except (Out (UErr ME)) (ED × Nat) :=
  (decodeAsTypeAtPosition R input id pos).mapErr .parsing

/-- Last part: the call, `src/unchecked_extrinsic.rs:132-145` and
`src/unchecked_extrinsic.rs:171-189`. The position after the call is not used. -/
def extrinsicCall (R : Registry) (input : Buf) (id pos : Nat) : Except (Out (UErr ME)) Call := do
  let (d, _) ← extrinsicPart R input id pos
  match d.data.asCall with
  | some call => .ok call
  | none => .error (.err (.unexpectedCallTy id))

/-- `decode_as_unchecked_extrinsic` after the version byte,
`src/unchecked_extrinsic.rs:126-190`. -/
def extrinsicContent (R : Registry) (params : ExtrinsicParams) (input : Buf) (versionByte version : UInt8)
    (pos : Nat) : Except (Out (UErr ME)) UncheckedExtrinsic :=
  if versionByte &&& 0x7f ≠ version then .error (.err (.versionMismatch versionByte version))
  else if versionByte &&& ~~~0x7f = 0 then do
    let call ← extrinsicCall R input params.callTy pos
    .ok (.unsigned call)
  else do
    let (address, pos) ← extrinsicPart R input params.addressTy pos
    let (signature, pos) ← extrinsicPart R input params.signatureTy pos
    let (extra, pos) ← extrinsicPart R input params.extraTy pos
    let call ← extrinsicCall R input params.callTy pos
    .ok (.signed address signature extra call)

/-- `decode_as_unchecked_extrinsic`, `src/unchecked_extrinsic.rs:72-191`. -/
def decodeUncheckedExtrinsic (M : CompleteMetadata ME) (input : Buf) :
    Except (Out (UErr ME)) UncheckedExtrinsic := do
  let params ← mapOut .metaStructure M.extrinsicTypeParams
  let (length, start) ← (getCompact (compactUInt .u32) input 0).mapErr fun _ => .formatNoCompact
  let len := input.len
  if len < start + length then
    .error (.err (.parsing (.buffer (.dataTooShort len (start + length - len)))))
  else if start + length < len then .error (.err (.parsing (.someDataNotUsedBlob (start + length))))
  else do
    let versionByte ← (input.readByte start).mapErr .parsing
    let version ← mapOut .metaStructure M.extrinsicVersion
    extrinsicContent M.types params input versionByte version (start + 1)

end Verif
