import Verif.Model.Decode
/-!
# The decoder on a device

The other model files treat the external memory as a fixed thing: the bytes, the
type registry, and which reads fail are given once and for all. In the Rust code
every access goes through `ext_memory: &mut E` (`src/traits.rs:123-129`,
`external_memory_tools`), that is, through a state that each access may change,
so that the same access may fail now and succeed later. This file models the
decoder with that state: the same functions once more, each passing the memory
state on, also when an access has failed and the error is discarded.

Here positions and lengths are machine words (`usize`), too: every sum, product
and difference that the code forms is computed by `Word`, and panics or wraps
around if it does not fit, as the compiled program does with or without overflow
checks.
-/
namespace Verif

/-- Computation that uses the external memory (`&mut E`): the outcome and the
state left behind, in case of an error too. The parameter `ext_memory: &mut E`, `src/decoding_sci.rs:260-272`. -/
def Dev (σ α : Type) : Type := σ → Res α × σ

/-- Part of the code that does not touch the memory. As between the calls in `src/decoding_sci.rs:273-573`. -/
def Dev.of {σ α : Type} (r : Res α) : Dev σ α := fun s => (r, s)

/-- The `?` operator: an error ends the function, the memory stays as it is then.
As in `src/decoding_sci.rs:273-573`. -/
def Dev.bind {σ α β : Type} (x : Dev σ α) (k : α → Dev σ β) : Dev σ β := fun s =>
  match x s with
  | (.ok a, s) => k a s
  | (.error e, s) => (.error e, s)

/-- As `Dev.bind`, `src/decoding_sci.rs:273-573`. -/
instance {σ : Type} : Monad (Dev σ) where
  pure a := Dev.of (.ok a)
  bind := Dev.bind

/-- `usize`: `cap` is `usize::MAX + 1`. If a result does not fit, a program compiled
with overflow checks panics, one without (`wraps`) goes on with the remainder.
The type of positions, `src/decoding_sci.rs:264`, `904-925`. -/
structure Word where
  cap : Nat
  wraps : Bool

/-- `a + b` on `usize`. As in `src/decoding_sci.rs:950-962`, `src/special_types.rs:37-39`. -/
def Word.add (w : Word) (a b : Nat) : Res Nat :=
  if a + b < w.cap then .ok (a + b)
  else if w.wraps then .ok ((a + b) % w.cap) else .error .panic

/-- `a * b` on `usize`. As in `src/decoding_sci.rs:960`. -/
def Word.mul (w : Word) (a b : Nat) : Res Nat :=
  if a * b < w.cap then .ok (a * b)
  else if w.wraps then .ok ((a * b) % w.cap) else .error .panic

/-- `a - b` on `usize`. As in `src/decoding_sci.rs:964`, `src/compacts.rs:44-54`. -/
def Word.sub (w : Word) (a b : Nat) : Res Nat :=
  if b ≤ a then .ok (a - b)
  else if w.wraps then .ok ((a + w.cap - b) % w.cap) else .error .panic

/-- `n as usize` for `n: u32`. As in `src/decoding_sci.rs:134`, `945`. -/
def Word.ofU32 (w : Word) (n : Nat) : Nat := n % w.cap

/-- Memory holding data (`AddressableBuffer`) and a type registry
(`ResolveType`, `src/traits.rs:123-129`). `len` is the length of the data; `size`
only bounds the iterations of the model. `word` is the machine's `usize`. -/
structure Device (σ : Type) where
  len : Nat
  read : Nat → Nat → Dev σ Bytes
  resolve : Nat → σ → Except RegErr Typ × σ
  size : Nat
  word : Word

variable {σ : Type} (D : Device σ)

/-- `resolve_ty` with `?` (`src/error.rs:413-417`). -/
def Device.get (id : Nat) : Dev σ Typ := fun s =>
  match D.resolve id s with
  | (.ok t, s) => (.ok t, s)
  | (.error e, s) => (.error (.err (.registry e)), s)

/-- `AddressableBuffer::read_byte`. Called in `src/decoding_sci.rs:701`, `src/unchecked_extrinsic.rs:116`. -/
def Device.readByte (pos : Nat) : Dev σ UInt8 := do
  let x ← D.read pos 1
  match x with
  | x :: _ => Dev.of (.ok x)
  | [] => Dev.of (.error .panic)

/-- `position += n`. As in `src/special_types.rs:37-39`, `src/decoding_sci.rs:732`. -/
def Device.add (pos n : Nat) : Dev σ Nat := Dev.of (D.word.add pos n)

/-- Expression whose `Err` is discarded. As in `src/special_indicators.rs:279-286`, `636`, `678-684`. -/
def swallowD {α : Type} (x : Dev σ α) : Dev σ (Option α) := fun s =>
  match x s with
  | (.ok a, s) => (.ok (some a), s)
  | (.error (.err _), s) => (.ok none, s)
  | (.error f, s) => (.error f, s)

/-! ### Compacts, `src/compacts.rs` -/

/-- Loop of `find_compact`, `src/compacts.rs:43-67`. -/
def findCompactLoopD (dec : Bytes → Option Nat) (pos : Nat) : (left i : Nat) → Dev σ (Option FoundCompact)
  | 0, _ => Dev.of (.ok none)
  | left + 1, i =>
    if maxCompactLen < i then Dev.of (.ok none)
    else do
      let hippo ← D.read pos (i + 1)
      match dec hippo with
      | some v =>
        if D.len - pos = i then Dev.of (.ok (some { compact := v, startNextUnit := D.len }))
        else do
          let q ← D.add pos i
          let q ← D.add q 1
          Dev.of (.ok (some { compact := v, startNextUnit := q }))
      | none => findCompactLoopD dec pos left (i + 1)

/-- `find_compact`, `src/compacts.rs:26-72`. -/
def findCompactD (dec : Bytes → Option Nat) (pos : Nat) : Dev σ FoundCompact :=
  if D.len < pos then Dev.of (.error (.err (.buffer (.outOfRange pos D.len))))
  else do
    match ← findCompactLoopD D dec pos (D.len - pos) 0 with
    | some c => Dev.of (.ok c)
    | none => Dev.of (.error (.err (.noCompact pos)))

/-- `get_compact`, `src/compacts.rs:74-88`. -/
def getCompactD (dec : Bytes → Option Nat) (pos : Nat) : Dev σ (Nat × Nat) := do
  let f ← findCompactD D dec pos
  Dev.of (.ok (f.compact, f.startNextUnit))

/-! ### Leaves, `src/special_types.rs`, `src/decoding_sci.rs:50-156` -/

/-- `cut_and_decode` for unsigned integers, `src/special_types.rs:57-96`. -/
def cutUIntD (w : UW) (pos : Nat) : Dev σ (Nat × Nat) := do
  let x ← D.read pos w.bytes
  let q ← D.add pos w.bytes
  Dev.of (.ok (leNat x, q))

/-- `cut_and_decode` for signed integers, `src/special_types.rs:57-129`. -/
def cutIntD (w : IW) (pos : Nat) : Dev σ (Int × Nat) := do
  let x ← D.read pos w.bytes
  let q ← D.add pos w.bytes
  Dev.of (.ok (twosComplement w.bytes (leNat x), q))

/-- `cut_and_decode` for `BigUint`, `src/special_types.rs:106-128`. -/
def cutU256D (pos : Nat) : Dev σ (Nat × Nat) := do
  let x ← D.read pos 32
  let q ← D.add pos 32
  Dev.of (.ok (leNat x, q))

/-- `cut_and_decode` for `bool`, `src/special_types.rs:57-96`. -/
def cutBoolD (pos : Nat) : Dev σ (Bool × Nat) := do
  let x ← D.read pos 1
  if x = [0] then do
    let q ← D.add pos 1
    Dev.of (.ok (false, q))
  else if x = [1] then do
    let q ← D.add pos 1
    Dev.of (.ok (true, q))
  else Dev.of (.error (.err (.typeFailure pos "bool")))

/-- `cut_and_decode` for `char`, `src/special_types.rs:131-161`. -/
def cutCharD (pos : Nat) : Dev σ (Char × Nat) := do
  let x ← D.read pos 4
  if x.length ≠ 4 then Dev.of (.error .panic)
  else
    match charFromU32 (leNat x) with
    | some ch => do
      let q ← D.add pos 4
      Dev.of (.ok (ch, q))
    | none => Dev.of (.error (.err (.typeFailure pos "char")))

/-- `cut_and_decode` for a `PerThing`, `src/special_types.rs:57-96`. -/
def cutPerD (k : PerKind) (pos : Nat) : Dev σ (Nat × Nat) := do
  let x ← D.read pos k.inner.bytes
  if leNat x ≤ k.accuracy then do
    let q ← D.add pos k.inner.bytes
    Dev.of (.ok (leNat x, q))
  else Dev.of (.error (.err (.typeFailure pos k.name)))

/-- `cut_and_decode` for hashes and arrays, `src/special_types.rs:164-201`. -/
def cutArrayD (n : Nat) (pos : Nat) : Dev σ (Bytes × Nat) := do
  let x ← D.read pos n
  if x.length ≠ n then Dev.of (.error .panic)
  else do
    let q ← D.add pos n
    Dev.of (.ok (x, q))

/-- `parse_unsigned_integer`, `src/special_types.rs:220-238`. -/
def parseUIntD (w : UW) (pos : Nat) (s : SpecialtySet) : Dev σ (PD × Nat) := do
  let r ← if s.compactAt.isSome then getCompactD D (compactUInt w) pos else cutUIntD D w pos
  Dev.of (.ok (.uint w r.1 s.hint.unsignedInteger, r.2))

/-- `parse_check_compact` for a `PerThing`, `src/special_types.rs:261-281`. -/
def parsePerD (k : PerKind) (pos : Nat) (compactAt : Option Nat) : Dev σ (PD × Nat) := do
  let r ← if compactAt.isSome then getCompactD D (compactPer k) pos else cutPerD D k pos
  Dev.of (.ok (.perThing k r.1, r.2))

/-- `parse_check_compact` for fixed-size items, `src/special_types.rs:284-321`. -/
def parseFixedD (k : FixedKind) (pos : Nat) (compactAt : Option Nat) : Dev σ (PD × Nat) := do
  Dev.of (blockCompact compactAt)
  let r ← cutArrayD D k.len pos
  Dev.of (.ok (.fixed k r.1, r.2))

/-- `special_case_h256`, `src/special_types.rs:424-440`. -/
def specialCaseH256D (pos : Nat) (s : SpecH256) : Dev σ (PD × Nat) := do
  let r ← cutArrayD D 32 pos
  match s with
  | .genesisHash => Dev.of (.ok (.genesisHash r.1, r.2))
  | .blockHash => Dev.of (.ok (.blockHash r.1, r.2))
  | .none => Dev.of (.ok (.h256 r.1, r.2))

/-- `special_case_era`, `src/special_types.rs:451-481`. -/
def specialCaseEraD (pos : Nat) : Dev σ (Era × Nat) := do
  let one ← D.read pos 1
  match Era.decodeAll one with
  | some e => do
    let q ← D.add pos 1
    Dev.of (.ok (e, q))
  | none =>
    let two ← D.read pos 2
    match Era.decodeAll two with
    | some e => do
      let q ← D.add pos 2
      Dev.of (.ok (e, q))
    | none => Dev.of (.error (.err (.typeFailure pos "Era")))

/-- `decode_str`, `src/decoding_sci.rs:123-150`. -/
def decodeStrD (pos : Nat) (hint : Hint) : Dev σ (PD × Nat) := do
  let f ← findCompactD D (compactUInt .u32) pos
  let length := D.word.ofU32 f.compact
  let x ← D.read f.startNextUnit length
  match stringFromUtf8 x with
  | some text => do
    let q ← D.add f.startNextUnit length
    Dev.of (.ok (.text text hint.string, q))
  | none => Dev.of (.error (.err (.typeFailure pos "str")))

/-- Signed integers through `parse_check_compact`, `src/special_types.rs:306-311`. -/
def parseIntD (w : IW) (pos : Nat) (compactAt : Option Nat) : Dev σ (PD × Nat) := do
  Dev.of (blockCompact compactAt)
  let r ← cutIntD D w pos
  Dev.of (.ok (.int w r.1, r.2))

/-- `decode_type_def_primitive`, `src/decoding_sci.rs:50-115`. -/
def decodePrimitiveD (p : Prim) (pos : Nat) (s : SpecialtySet) : Dev σ (PD × Nat) :=
  match p with
  | .bool => do
    Dev.of (blockCompact s.compactAt)
    let r ← cutBoolD D pos
    Dev.of (.ok (.bool r.1, r.2))
  | .char => do
    Dev.of (blockCompact s.compactAt)
    let r ← cutCharD D pos
    Dev.of (.ok (.char r.1, r.2))
  | .str => do
    Dev.of s.rejectCompact
    decodeStrD D pos s.hint
  | .u8 => parseUIntD D .u8 pos s
  | .u16 => parseUIntD D .u16 pos s
  | .u32 => parseUIntD D .u32 pos s
  | .u64 => parseUIntD D .u64 pos s
  | .u128 => parseUIntD D .u128 pos s
  | .u256 => do
    Dev.of (blockCompact s.compactAt)
    let r ← cutU256D D pos
    Dev.of (.ok (.u256 r.1, r.2))
  | .i8 => parseIntD D .i8 pos s.compactAt
  | .i16 => parseIntD D .i16 pos s.compactAt
  | .i32 => parseIntD D .i32 pos s.compactAt
  | .i64 => parseIntD D .i64 pos s.compactAt
  | .i128 => parseIntD D .i128 pos s.compactAt
  | .i256 => parseIntD D .i256 pos s.compactAt

/-! ### Bit sequences, `src/decoding_sci.rs:752-1127` -/

/-- Bit order of a resolved type, `src/decoding_sci.rs:766-786`. -/
def bitOrderOf (t : Typ) (id : Nat) : Res BitOrder :=
  match t.typeDef with
  | .composite _ =>
    match t.ident with
    | some x =>
      if x = "Lsb0" then .ok .lsb0
      else if x = "Msb0" then .ok .msb0
      else failInternal (.notBitOrderType id)
    | none => failInternal (.notBitOrderType id)
  | _ => failInternal (.notBitOrderType id)

/-- `find_bit_order_ty`, `src/decoding_sci.rs:759-787`. -/
def findBitOrderD (order id : Nat) : Dev σ BitOrder := do
  let t ← D.get order
  Dev.of (bitOrderOf t id)

/-- Number of parts of `n` things, `k` in each: quotient, plus one if there is a rest,
`src/decoding_sci.rs:947-958`. -/
def Word.ceilDiv (w : Word) (n k : Nat) : Res Nat :=
  if n % k = 0 then .ok (n / k) else w.add (n / k) 1

/-- `BitVecPositions::new`, `src/decoding_sci.rs:931-976`: `bitvec_end` and `minimal_length`. -/
def bitVecPositionsD (store : BitStore) (pos : Nat) : Dev σ (Nat × Nat) := do
  let f ← findCompactD D (compactUInt .u32) pos
  let byteLength ← Dev.of (D.word.ceilDiv (D.word.ofU32 f.compact) 8)
  let elements ← Dev.of (D.word.ceilDiv byteLength store.bytes)
  let sliceLength ← Dev.of (D.word.mul elements store.bytes)
  let fin ← D.add f.startNextUnit sliceLength
  let minimalLength ← Dev.of (D.word.sub fin pos)
  Dev.of (.ok (fin, minimalLength))

/-- `into_bitvec_decode`, `src/decoding_sci.rs:982-1000`. -/
def intoBitvecDecodeD (store : BitStore) (pos : Nat) : Dev σ (Bytes × Nat) := do
  let p ← bitVecPositionsD D store pos
  let x ← D.read pos p.2
  Dev.of (.ok (x, p.1))

/-- `decode_type_def_bit_sequence`, `src/decoding_sci.rs:798-900`. -/
def decodeBitSequenceD (order store id pos : Nat) : Dev σ (PD × Nat) := do
  let o ← findBitOrderD D order id
  let t ← D.get store
  match t.typeDef with
  | .primitive p =>
    match BitStore.ofPrim p with
    | some st => do
      let r ← intoBitvecDecodeD D st pos
      match bitVecDecodeAll st o r.1 with
      | some bits => Dev.of (.ok (.bitVec st o bits, r.2))
      | none => Dev.of (.error (.err (.typeFailure pos (bitVecName st o))))
    | none => Dev.of (failInternal (.notBitStoreType id))
  | _ => Dev.of (failInternal (.notBitStoreType id))

/-! ### Types, `src/decoding_sci.rs:1137-1210`, `src/special_indicators.rs:270-328`, `589-703` -/

/-- Loop of `husk_type`, `src/decoding_sci.rs:1170-1203`. -/
def huskLoopD : Nat → Typ → Nat → List Info → Checker → Dev σ HuskedType
  | 0, _, _, _, _ => Dev.of (.error .fuel)
  | n + 1, ty, id, info, checker =>
    let infoTy := Info.fromTy ty
    let info := if infoTy.isEmpty then info else info ++ [infoTy]
    if TypeHinted.fromType ty = .none then
      match ty.typeDef with
      | .composite [f] => do
        let checker ← Dev.of (checker.checkId f.ty)
        let ty ← D.get f.ty
        huskLoopD n ty f.ty info (checker.hintFromField f)
      | .compact inner => do
        Dev.of checker.rejectCompact
        let checker ← Dev.of ({ checker with
          specialtySet := { checker.specialtySet with compactAt := some id } }.checkId inner)
        let ty ← D.get inner
        huskLoopD n ty inner info checker
      | _ => Dev.of (.ok { info, checker, ty, id })
    else Dev.of (.ok { info, checker, ty, id })

/-- `husk_type`, `src/decoding_sci.rs:1148-1210`. -/
def huskTypeD (entry : Nat) (checker : Checker) : Dev σ HuskedType := do
  let checker ← Dev.of (checker.checkId entry)
  let ty ← D.get entry
  huskLoopD D (D.size + 1) ty entry [] { checker with specialtySet := {} }

/-- `pick_variant`, `src/decoding_sci.rs:691-714`. -/
def pickVariantD (variants : List Variant) (pos : Nat) : Dev σ Variant := do
  let i ← D.readByte pos
  match variants.find? (fun v => v.index == i) with
  | some v => Dev.of (.ok v)
  | none => Dev.of (.error (.err (.unexpectedEnumVariant pos)))

/-- `SignatureIndicator::from_field`, `src/special_indicators.rs:270-328`. -/
def signatureIndicatorD (f : Field) : Dev σ (Option FixedKind) := do
  match ← swallowD (huskTypeD D f.ty Checker.new) with
  | none => Dev.of (.ok none)
  | some husked =>
    match husked.ty.typeDef with
    | .array len elem =>
      match ← swallowD (D.get elem) with
      | none => Dev.of (.ok none)
      | some t =>
        if t.typeDef = .primitive .u8 then
          match f.typeName with
          | some typeName =>
            if signatureEcdsaIdSet.contains typeName then
              Dev.of (.ok (if len = FixedKind.signatureEcdsa.len then some .signatureEcdsa else none))
            else if signatureEd25519IdSet.contains typeName then
              Dev.of (.ok (if len = FixedKind.signatureEd25519.len then some .signatureEd25519 else none))
            else if signatureSr25519IdSet.contains typeName then
              Dev.of (.ok (if len = FixedKind.signatureSr25519.len then some .signatureSr25519 else none))
            else Dev.of (.ok none)
          | none => Dev.of (.ok none)
        else Dev.of (.ok none)
    | _ => Dev.of (.ok none)

/-- `SpecialtyTypeChecked::from_type`, `MultiSignature` branch,
`src/special_indicators.rs:607-642`. -/
def checkMultiSignatureD (ty : Typ) (pos : Nat) : Dev σ (TypeChecked × Nat) :=
  match ty.typeDef with
  | .variant variants => do
    match ← swallowD (pickVariantD D variants pos) with
    | some v =>
      match v.fields with
      | [f] =>
        match ← signatureIndicatorD D f with
        | some k => do
          let q ← D.add pos 1
          Dev.of (.ok (.fixed k, q))
        | none => Dev.of (.ok (.none, pos))
      | _ => Dev.of (.ok (.none, pos))
    | none => Dev.of (.ok (.none, pos))
  | _ => Dev.of (.ok (.none, pos))

/-- `SpecialtyTypeChecked::from_type`, `PalletSpecific` branch,
`src/special_indicators.rs:643-689`. -/
def checkPalletSpecificD (item : PalletItem) (ty : Typ) (pos : Nat) : Dev σ (TypeChecked × Nat) :=
  match ty.typeDef with
  | .variant variants => do
    match ← swallowD (pickVariantD D variants pos) with
    | some palletVariant =>
      match palletVariant.fields with
      | [f] =>
        match ← swallowD (D.get f.ty) with
        | some variantsTy =>
          match TypeHinted.fromType variantsTy with
          | .palletSpecific itemRepeated =>
            if item ≠ itemRepeated then Dev.of (.ok (.none, pos))
            else
              match variantsTy.typeDef with
              | .variant vs => do
                let q ← D.add pos 1
                Dev.of (.ok (.palletSpecific palletVariant.name (Info.fromTy variantsTy) vs item, q))
              | _ => Dev.of (.ok (.none, pos))
          | _ => Dev.of (.ok (.none, pos))
        | none => Dev.of (.ok (.none, pos))
      | _ => Dev.of (.ok (.none, pos))
    | none => Dev.of (.ok (.none, pos))
  | _ => Dev.of (.ok (.none, pos))

/-- `SpecialtyTypeChecked::from_type`, `src/special_indicators.rs:589-703`. -/
def fromTypeD (ty : Typ) (pos : Nat) : Dev σ (TypeChecked × Nat) :=
  match TypeHinted.fromType ty with
  | .none => Dev.of (.ok (.none, pos))
  | .fixed k => Dev.of (.ok (.fixed k, pos))
  | .era => Dev.of (.ok (.era, pos))
  | .h256 => Dev.of (.ok (.h256, pos))
  | .multiSignature => checkMultiSignatureD D ty pos
  | .palletSpecific item => checkPalletSpecificD D item ty pos
  | .perThing k => Dev.of (.ok (.perThing k, pos))
  | .uncheckedExtrinsic => Dev.of (.ok (.none, pos))

/-! ### `decode_with_type`, `src/decoding_sci.rs:260-685` -/

/-- Type of the recursive calls. `decode_with_type`, `src/decoding_sci.rs:260-272`. -/
abbrev DecD (σ : Type) := TyIn → Nat → Propagated → Dev σ (ED × Nat)

/-- Loop of `decode_fields`, `src/decoding_sci.rs:601-620`. -/
def decodeFieldsLoopD (rec : DecD σ) (checker : Checker) : List Field → Nat → Dev σ (List FD × Nat)
  | [], pos => Dev.of (.ok ([], pos))
  | f :: fs, pos => do
    let p ← Dev.of (Propagated.forField checker f)
    let d ← rec (.symbol f.ty) pos p
    let rest ← decodeFieldsLoopD rec checker fs d.2
    Dev.of (.ok ({ fieldName := f.name, typeName := f.typeName, fieldDocs := collectDocs f.docs,
                   data := d.1 } :: rest.1, rest.2))

/-- `decode_fields`, `src/decoding_sci.rs:579-622`. -/
def decodeFieldsD (rec : DecD σ) (fields : List Field) (pos : Nat) (checker : Checker) :
    Dev σ (List FD × Nat) :=
  if 1 < fields.length then do
    Dev.of checker.rejectCompact
    decodeFieldsLoopD rec checker.forgetHint fields pos
  else decodeFieldsLoopD rec checker fields pos

/-- Loop of `decode_elements_set`, `src/decoding_sci.rs:654-669`. -/
def decodeElementsLoopD (rec : DecD σ) (h : HuskedType) : Nat → Nat → Dev σ (List PD × Nat)
  | 0, pos => Dev.of (.ok ([], pos))
  | n + 1, pos => do
    let d ← rec (.resolved h.ty h.id) pos (Propagated.withChecker h.checker)
    let rest ← decodeElementsLoopD rec h n d.2
    Dev.of (.ok (d.1.data :: rest.1, rest.2))

/-- `decode_elements_set`, `src/decoding_sci.rs:628-685`. -/
def decodeElementsSetD (rec : DecD σ) (elem n pos : Nat) (p : Propagated) : Dev σ (ED × Nat) := do
  Dev.of p.rejectCompact
  let h ← huskTypeD D elem p.checker
  if n = 0 then Dev.of (.ok ({ data := .sequenceRaw h.info [], info := p.info }, pos))
  else do
    let out ← decodeElementsLoopD rec h n pos
    match wrapSequence out.1 with
    | some x => Dev.of (.ok ({ data := .sequence h.info x, info := p.info }, out.2))
    | none => Dev.of (.ok ({ data := .sequenceRaw h.info out.1, info := p.info }, out.2))

/-- `decode_variant`, `src/decoding_sci.rs:719-749`. -/
def decodeVariantD (rec : DecD σ) (variants : List Variant) (pos : Nat) :
    Dev σ (Variant × List FD × Nat) := do
  let v ← pickVariantD D variants pos
  let q ← D.add pos 1
  let r ← decodeFieldsD rec v.fields q Checker.new
  Dev.of (.ok (v, r.1, r.2))

/-- Loop over tuple elements, `src/decoding_sci.rs:345-360`. -/
def decodeTupleLoopD (rec : DecD σ) (checker : Checker) : List Nat → Nat → Dev σ (List ED × Nat)
  | [], pos => Dev.of (.ok ([], pos))
  | id :: ids, pos => do
    let ty ← D.get id
    let p ← Dev.of (Propagated.forTy checker ty id)
    let d ← rec (.resolved ty id) pos p
    let rest ← decodeTupleLoopD rec checker ids d.2
    Dev.of (.ok (d.1 :: rest.1, rest.2))

/-- Tuple branch, `src/decoding_sci.rs:339-365`. -/
def decodeTupleD (rec : DecD σ) (elems : List Nat) (pos : Nat) (p : Propagated) : Dev σ (ED × Nat) := do
  let p' ← Dev.of (if 1 < elems.length then (p.rejectCompact >>= fun _ => .ok p.forgetHint) else .ok p)
  let r ← decodeTupleLoopD D rec p'.checker elems pos
  Dev.of (.ok ({ data := .tuple r.1, info := p'.info }, r.2))

/-- Attach the collected info to decoded data (`ExtendedData { data, info }`). `src/decoding_sci.rs:290-394`. -/
def withInfoD (info : List Info) (x : Dev σ (PD × Nat)) : Dev σ (ED × Nat) := do
  let r ← x
  Dev.of (.ok ({ data := r.1, info }, r.2))

/-- Branch `SpecialtyTypeChecked::None`, `src/decoding_sci.rs:280-394`. -/
def decodeTypeDefD (rec : DecD σ) (ty : Typ) (id pos : Nat) (p : Propagated) : Dev σ (ED × Nat) :=
  match ty.typeDef with
  | .composite fields => do
    let r ← decodeFieldsD rec fields pos p.checker
    Dev.of (.ok ({ data := .composite r.1, info := p.info }, r.2))
  | .variant variants => do
    Dev.of p.rejectCompact
    if variants.isEmpty then Dev.of (.ok ({ data := .emptyEnum, info := p.info }, pos))
    else do
      let r ← decodeVariantD D rec variants pos
      Dev.of (.ok ({ data := .variant r.1.name (collectDocs r.1.docs) r.2.1, info := p.info }, r.2.2))
  | .sequence elem => do
    let r ← getCompactD D (compactUInt .u32) pos
    decodeElementsSetD D rec elem r.1 r.2 { p with checker := p.checker.dropCycleCheck }
  | .array len elem => decodeElementsSetD D rec elem len pos p
  | .tuple elems => decodeTupleD D rec elems pos p
  | .primitive prim => withInfoD p.info (decodePrimitiveD D prim pos p.checker.specialtySet)
  | .compact inner => do
    Dev.of p.rejectCompact
    let checker ← Dev.of ({ p.checker with
      specialtySet := { p.checker.specialtySet with compactAt := some id } }.checkId inner)
    rec (.symbol inner) pos { p with checker }
  | .bitSequence order store => do
    Dev.of p.rejectCompact
    withInfoD p.info (decodeBitSequenceD D order store id pos)

/-- Type and id of the input, `src/decoding_sci.rs:273-276`. -/
def TyIn.resolveD : TyIn → Dev σ (Typ × Nat)
  | .resolved ty id => Dev.of (.ok (ty, id))
  | .symbol id => do
    let ty ← D.get id
    Dev.of (.ok (ty, id))

/-- The `match` of `decode_with_type` on the type specialty,
`src/decoding_sci.rs:279-570`. -/
def decodeCheckedD (rec : DecD σ) (sp : TypeChecked) (ty : Typ) (id pos : Nat) (p : Propagated) :
    Dev σ (ED × Nat) :=
  match sp with
  | .none => decodeTypeDefD D rec ty id pos p
  | .fixed k => withInfoD p.info (parseFixedD D k pos p.compactAt)
  | .era => do
    Dev.of p.rejectCompact
    let r ← specialCaseEraD D pos
    Dev.of (.ok ({ data := .era r.1, info := p.info }, r.2))
  | .h256 => do
    Dev.of p.rejectCompact
    withInfoD p.info (specialCaseH256D D pos p.checker.specialtySet.hint.hash256)
  | .palletSpecific palletName palletInfo variants item => do
    Dev.of p.rejectCompact
    let r ← decodeVariantD D rec variants pos
    Dev.of (.ok ({ data := .pallet item palletInfo (collectDocs r.1.docs) palletName r.1.name r.2.1,
                   info := p.info }, r.2.2))
  | .perThing k => withInfoD p.info (parsePerD D k pos p.compactAt)

/-- `decode_with_type`, `src/decoding_sci.rs:260-571`, with recursive calls as an
argument. -/
def decodeStepD (rec : DecD σ) : DecD σ := fun tyIn pos p => do
  let t ← tyIn.resolveD D
  let r ← fromTypeD D t.1 pos
  decodeCheckedD D rec r.1 t.1 t.2 r.2 (p.addInfo (Info.fromTy t.1))

/-- `decode_with_type` with at most `n` nested calls.
`src/decoding_sci.rs:260-573`; the bound is a simplification, see `depthBound`. -/
def decodeFD : Nat → DecD σ
  | 0 => fun _ _ _ => Dev.of (.error .fuel)
  | n + 1 => decodeStepD D (decodeFD n)

/-- `decode_with_type`, `src/decoding_sci.rs:260-571`. -/
def decodeD (tyIn : TyIn) (pos : Nat) (p : Propagated) : Dev σ (ED × Nat) :=
  decodeFD D ((D.len - pos) * (D.size + 1) + D.size + 2) tyIn pos p

/-- `decode_as_type_at_position`, `src/lib.rs:776-796`. -/
def decodeAsTypeAtPositionD (id pos : Nat) : Dev σ (ED × Nat) :=
  decodeD D (.symbol id) pos Propagated.new

/-- `decode_all_as_type`, `src/lib.rs:801-825`. -/
def decodeAllAsTypeD (id : Nat) : Dev σ ED := do
  let r ← decodeAsTypeAtPositionD D id 0
  if r.2 ≠ D.len then Dev.of (.error (.err (.someDataNotUsedBlob r.2))) else Dev.of (.ok r.1)

end Verif
