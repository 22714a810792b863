import Verif.Spec.Pieces
import Verif.Spec.Wallet
import Verif.Spec.Node
/-!
# A transaction in pieces

What a caller gets that decodes the parts of a transaction with calls of `decode_as_type_at_position`, one after
another, and then looks at the values of the extensions. Only values, types and names of extensions are looked at here,
not the trees that are shown.
-/
namespace Verif.Spec

variable {ME : Type}

/-- What the item (name of the extension, type) counts as, see `CountsAs`. (Two steps through compacts: there are no
values of types that need more.) -/
def mark? (R : Registry) (item : String × Nat) : Option Mark := (Wallet.markOfItem R 2 item).join

/-- The values that count as something, in their order. -/
def counting (R : Registry) (items : List (String × Nat)) (vs : List Value) : List (Mark × Value) :=
  (items.zip vs).filterMap fun x => (mark? R x.1).map fun m => (m, x.2)

/-- The first mark that is there for the second time; `seen` are the ones before. -/
def secondTime (seen : List Mark) : List (Mark × Value) → Option Mark
  | [] => none
  | (m, _) :: l => if m ∈ seen then some m else secondTime (m :: seen) l

/-- The error about a mark that is there twice. -/
def twice : Mark → ExtErr
  | .specVersion => .specVersionTwice
  | .genesisHash => .genesisHashTwice
  | .blockHash => .blockHashTwice
  | .era => .eraTwice

/-- An immortal transaction has the genesis hash for block hash. -/
def immortalVerdict (l : List (Mark × Value)) (genesis : Bytes) : Option (SErr ME) :=
  match l.lookup .era, l.lookup .blockHash with
  | some (.era .immortal), some (.hash h) => if h = genesis then none else some .immortalHashMismatch
  | _, _ => none

/-- What is wrong with the values that count, if anything: first, whether something is there twice, then the spec
version, then the genesis hash, then the era. -/
def verdict (l : List (Mark × Value)) (version : String) (expected : Option Bytes) : Option (SErr ME) :=
  match secondTime [] l with
  | some m => some (.extensionsList (twice m))
  | none =>
    match l.lookup .specVersion with
    | some (.uint _ k) =>
      if toString k = version then
        match l.lookup .genesisHash with
        | some (.hash g) =>
          match expected with
          | some e => if g = e then immortalVerdict l g else some (.wrongGenesisHash g e)
          | none => immortalVerdict l g
        | _ => some (.extensionsList .noGenesisHash)
      else some (.wrongSpecVersion (toString k) version)
    | _ => some (.extensionsList .noSpecVersion)

/-- Extensions, in pieces: every part of every extension is decoded by a call of its own; all data is to be used; the
values are to be right. -/
def extensionsAs (M : Metadata ME) (b : Buf) (pos : Nat) (expected : Option Bytes) : SRes ME (List Value) := do
  let signed ← mapOut .metaStructure M.signedExtensions
  let (vs, q) ← (eachAs M.types b ((extItems signed).map (·.2)) pos).mapErr .parsing
  if q = b.len then do
    let spec ← mapOut .metaStructure M.specNameVersion
    match verdict (counting M.types (extItems signed) vs) spec.printedSpecVersion expected with
    | none => .ok vs
    | some e => .error (.err e)
  else .error (.err (.someDataNotUsedExtensions q))

/-- Is the type an enum? -/
def enumType (R : Registry) (id : Nat) : Bool :=
  match R.resolve id with
  | .ok t => match t.typeDef with | .variant _ => true | _ => false
  | .error _ => false

/-- The call among the values of the type. -/
def callIn (R : Registry) (id : Nat) : Value → Option CallOf
  | .pallet .call p n args => if enumType R id then some ⟨p, n, args⟩ else none
  | _ => none

/-- A call: the value of the call type, if it is a call. -/
def callAs (M : Metadata ME) (b : Buf) (pos : Nat) : SRes ME (CallOf × Nat) := do
  let id ← mapOut .metaStructure M.callTy
  let (v, q) ← (valueAs M.types b id pos).mapErr .parsing
  match callIn M.types id v with
  | some c => .ok (c, q)
  | none => .error (.err (.notACall id))

/-- The call of a marked transaction: nothing but the call is in the data before the extensions. -/
def markedCallAs (M : Metadata ME) (m : Marked) : SRes ME CallOf := do
  let data ← m.dataNoExtensions
  let (c, q) ← callAs M data m.callStart
  if q = m.extensionsStart then .ok c else .error (.err (.someDataNotUsedCall q m.extensionsStart))

/-- A transaction with call length: it is marked, the extensions are decoded and checked, then the call. An error with
the call does not hide the extensions. -/
def transactionAs (M : Metadata ME) (b : Buf) (expected : Option Bytes) :
    SRes ME (Except (SErr ME) CallOf × List Value) := do
  let m ← mark b
  let vs ← extensionsAs M b m.extensionsStart expected
  match markedCallAs M m with
  | .ok c => .ok (.ok c, vs)
  | .error (.err e) => .ok (.error e, vs)
  | .error .panic => .error .panic
  | .error .fuel => .error .fuel

/-- A transaction without call length: the call, then the extensions. -/
def unmarkedAs (M : Metadata ME) (b : Buf) (expected : Option Bytes) : SRes ME (CallOf × List Value) := do
  let (c, q) ← callAs M b 0
  let vs ← extensionsAs M b q expected
  .ok (c, vs)

/-- What a parsed transaction tells. -/
def toldTransaction (r : SRes ME (TransactionParsed ME)) : SRes ME (Except (SErr ME) CallOf × List Value) :=
  match r with
  | .ok t =>
    match t.callResult with
    | .ok c => .ok (.ok (callOf c), t.extensions.map edValue)
    | .error e => .ok (.error e, t.extensions.map edValue)
  | .error e => .error e

/-- Same for transactions without call length. -/
def toldUnmarked (r : SRes ME TransactionUnmarkedParsed) : SRes ME (CallOf × List Value) :=
  match r with
  | .ok t => .ok (callOf t.call, t.extensions.map edValue)
  | .error e => .error e

/-- The call of an extrinsic. -/
def extrinsicCallAs (R : Registry) (b : Buf) (id pos : Nat) : Except (Out (UErr ME)) CallOf := do
  let (v, _) ← (valueAs R b id pos).mapErr .parsing
  match callIn R id v with
  | some c => .ok c
  | none => .error (.err (.unexpectedCallTy id))

/-- An extrinsic in pieces, after the version byte. -/
def extrinsicPiecesAs (R : Registry) (params : ExtrinsicParams) (b : Buf) (signed : Bool) (pos : Nat) :
    Except (Out (UErr ME)) ExtrinsicOf :=
  if signed then do
    let (address, pos) ← (valueAs R b params.addressTy pos).mapErr .parsing
    let (signature, pos) ← (valueAs R b params.signatureTy pos).mapErr .parsing
    let (extra, pos) ← (valueAs R b params.extraTy pos).mapErr .parsing
    let c ← extrinsicCallAs R b params.callTy pos
    .ok (.signed address signature extra c)
  else do
    let c ← extrinsicCallAs R b params.callTy pos
    .ok (.unsigned c)

/-- An extrinsic in pieces: the length, the version byte (the highest bit says whether it is signed), the parts. -/
def extrinsicAs (M : CompleteMetadata ME) (b : Buf) : Except (Out (UErr ME)) ExtrinsicOf := do
  let params ← mapOut .metaStructure M.extrinsicTypeParams
  let (length, start) ← (getCompact (compactUInt .u32) b 0).mapErr fun _ => .formatNoCompact
  if b.len < start + length then
    .error (.err (.parsing (.buffer (.dataTooShort b.len (start + length - b.len)))))
  else if start + length < b.len then .error (.err (.parsing (.someDataNotUsedBlob (start + length))))
  else do
    let versionByte ← (b.readByte start).mapErr .parsing
    let version ← mapOut .metaStructure M.extrinsicVersion
    if versionByte.toNat % 128 = version.toNat then
      extrinsicPiecesAs M.types params b (decide (128 ≤ versionByte.toNat)) (start + 1)
    else .error (.err (.versionMismatch versionByte version))

/-- What a decoded extrinsic tells. -/
def toldExtrinsic (r : Except (Out (UErr ME)) UncheckedExtrinsic) : Except (Out (UErr ME)) ExtrinsicOf :=
  match r with
  | .ok x => .ok (extrinsicOf x)
  | .error e => .error e

end Verif.Spec
