import Verif.Model.BitSeq
/-!
# General decoder, `src/decoding_sci.rs`
-/
namespace Verif

/-- `HuskedType`, `src/decoding_sci.rs:1137-1142`. -/
structure HuskedType where
  info : List Info
  checker : Checker
  ty : Typ
  id : Nat
  deriving DecidableEq, Repr

/-- Loop of `husk_type`, `src/decoding_sci.rs:1170-1203`. First argument bounds
the number of iterations. -/
def huskLoop (R : Registry) : Nat → Typ → Nat → List Info → Checker → Res HuskedType
  | 0, _, _, _, _ => .error .fuel
  | n + 1, ty, id, info, checker =>
    let infoTy := Info.fromTy ty
    let info := if infoTy.isEmpty then info else info ++ [infoTy]
    if TypeHinted.fromType ty = .none then
      match ty.typeDef with
      | .composite [f] => do
        let checker ← checker.checkId f.ty
        let ty ← R.get f.ty
        huskLoop R n ty f.ty info (checker.hintFromField f)
      | .compact inner => do
        checker.rejectCompact
        let checker := { checker with
          specialtySet := { checker.specialtySet with compactAt := some id } }
        let checker ← checker.checkId inner
        let ty ← R.get inner
        huskLoop R n ty inner info checker
      | _ => .ok { info, checker, ty, id }
    else .ok { info, checker, ty, id }

/-- `husk_type`, `src/decoding_sci.rs:1148-1210`. -/
def huskType (R : Registry) (entry : Nat) (checker : Checker) : Res HuskedType := do
  let checker ← checker.checkId entry
  let checker := { checker with specialtySet := {} }
  let ty ← R.get entry
  huskLoop R (R.size + 1) ty entry [] checker

/-- `pick_variant`, `src/decoding_sci.rs:691-714`. -/
def pickVariant (variants : List Variant) (b : Buf) (pos : Nat) : Res Variant := do
  let i ← b.readByte pos
  match variants.find? (fun v => v.index == i) with
  | some v => .ok v
  | none => .error (.err (.unexpectedEnumVariant pos))

/-- Result of a Rust expression whose `Err` is discarded (`if let Ok`,
`Err(_) =>`): parser errors become `none`, panics and fuel stay,
as in `src/special_indicators.rs:279-286`, `636`, `678-684`. -/
def swallow {α : Type} (r : Res α) : Res (Option α) :=
  match r with
  | .ok a => .ok (some a)
  | .error (.err _) => .ok none
  | .error f => .error f

/-- `SignatureIndicator::from_field`, `src/special_indicators.rs:270-328`; the
kind of signature, if any. -/
def signatureIndicator (R : Registry) (f : Field) : Res (Option FixedKind) := do
  match ← swallow (huskType R f.ty Checker.new) with
  | none => .ok none
  | some husked =>
    match husked.ty.typeDef with
    | .array len elem =>
      match ← swallow (R.get elem) with
      | none => .ok none
      | some t =>
        if t.typeDef = .primitive .u8 then
          match f.typeName with
          | some typeName =>
            if signatureEcdsaIdSet.contains typeName then
              .ok (if len = FixedKind.signatureEcdsa.len then some .signatureEcdsa else none)
            else if signatureEd25519IdSet.contains typeName then
              .ok (if len = FixedKind.signatureEd25519.len then some .signatureEd25519 else none)
            else if signatureSr25519IdSet.contains typeName then
              .ok (if len = FixedKind.signatureSr25519.len then some .signatureSr25519 else none)
            else .ok none
          | none => .ok none
        else .ok none
    | _ => .ok none

/-- `SpecialtyTypeChecked`, `src/special_indicators.rs:556-582`, fixed-size and
`PerThing` cases grouped; fields `pallet_variant` and `item_ty_id` are not read by
the decoder and left out. -/
inductive TypeChecked
  | none
  | fixed (k : FixedKind)
  | era
  | h256
  | palletSpecific (palletName : String) (palletInfo : Info) (variants : List Variant)
      (item : PalletItem)
  | perThing (k : PerKind)
  deriving DecidableEq, Repr

/-- `SpecialtyTypeChecked::from_type`, `MultiSignature` branch,
`src/special_indicators.rs:607-642`. -/
def checkMultiSignature (R : Registry) (ty : Typ) (b : Buf) (pos : Nat) :
    Res (TypeChecked × Nat) :=
  match ty.typeDef with
  | .variant variants => do
    match ← swallow (pickVariant variants b pos) with
    | some v =>
      match v.fields with
      | [f] =>
        match ← signatureIndicator R f with
        | some k => .ok (.fixed k, pos + 1)
        | none => .ok (.none, pos)
      | _ => .ok (.none, pos)
    | none => .ok (.none, pos)
  | _ => .ok (.none, pos)

/-- `SpecialtyTypeChecked::from_type`, `PalletSpecific` branch,
`src/special_indicators.rs:643-689`. -/
def checkPalletSpecific (R : Registry) (item : PalletItem) (ty : Typ) (b : Buf) (pos : Nat) :
    Res (TypeChecked × Nat) :=
  match ty.typeDef with
  | .variant variants => do
    match ← swallow (pickVariant variants b pos) with
    | some palletVariant =>
      match palletVariant.fields with
      | [f] =>
        match ← swallow (R.get f.ty) with
        | some variantsTy =>
          match TypeHinted.fromType variantsTy with
          | .palletSpecific itemRepeated =>
            if item ≠ itemRepeated then .ok (.none, pos)
            else
              match variantsTy.typeDef with
              | .variant vs =>
                .ok (.palletSpecific palletVariant.name (Info.fromTy variantsTy) vs item, pos + 1)
              | _ => .ok (.none, pos)
          | _ => .ok (.none, pos)
        | none => .ok (.none, pos)
      | _ => .ok (.none, pos)
    | none => .ok (.none, pos)
  | _ => .ok (.none, pos)

/-- `SpecialtyTypeChecked::from_type`, `src/special_indicators.rs:589-703`. -/
def TypeChecked.fromType (R : Registry) (ty : Typ) (b : Buf) (pos : Nat) :
    Res (TypeChecked × Nat) :=
  match TypeHinted.fromType ty with
  | .none => .ok (.none, pos)
  | .fixed k => .ok (.fixed k, pos)
  | .era => .ok (.era, pos)
  | .h256 => .ok (.h256, pos)
  | .multiSignature => checkMultiSignature R ty b pos
  | .palletSpecific item => checkPalletSpecific R item ty b pos
  | .perThing k => .ok (.perThing k, pos)
  | .uncheckedExtrinsic => .ok (.none, pos)

/-- `Ty`, `src/decoding_sci.rs:1214-1227`. -/
inductive TyIn
  | resolved (ty : Typ) (id : Nat)
  | symbol (id : Nat)
  deriving DecidableEq, Repr

/-- Type of the recursive calls of `decode_with_type`. `src/decoding_sci.rs:260-272`. -/
abbrev Dec := TyIn → Nat → Propagated → Res (ED × Nat)

/-- Loop of `decode_fields`, `src/decoding_sci.rs:601-620`. -/
def decodeFieldsLoop (rec : Dec) (checker : Checker) : List Field → Nat → Res (List FD × Nat)
  | [], pos => .ok ([], pos)
  | f :: fs, pos => do
    let p ← Propagated.forField checker f
    let (d, pos) ← rec (.symbol f.ty) pos p
    let (rest, pos) ← decodeFieldsLoop rec checker fs pos
    .ok ({ fieldName := f.name, typeName := f.typeName, fieldDocs := collectDocs f.docs,
           data := d } :: rest, pos)

/-- `decode_fields`, `src/decoding_sci.rs:579-622`. -/
def decodeFields (rec : Dec) (fields : List Field) (pos : Nat) (checker : Checker) :
    Res (List FD × Nat) :=
  if 1 < fields.length then do
    checker.rejectCompact
    decodeFieldsLoop rec checker.forgetHint fields pos
  else decodeFieldsLoop rec checker fields pos

/-- Loop of `decode_elements_set`, `src/decoding_sci.rs:654-669`. -/
def decodeElementsLoop (rec : Dec) (h : HuskedType) : Nat → Nat → Res (List PD × Nat)
  | 0, pos => .ok ([], pos)
  | n + 1, pos => do
    let (d, pos) ← rec (.resolved h.ty h.id) pos (Propagated.withChecker h.checker)
    let (rest, pos) ← decodeElementsLoop rec h n pos
    .ok (d.data :: rest, pos)

/-- `decode_elements_set`, `src/decoding_sci.rs:628-685`. -/
def decodeElementsSet (R : Registry) (rec : Dec) (elem n pos : Nat) (p : Propagated) :
    Res (ED × Nat) := do
  p.rejectCompact
  let h ← huskType R elem p.checker
  if n = 0 then .ok ({ data := .sequenceRaw h.info [], info := p.info }, pos)
  else do
    let (out, pos) ← decodeElementsLoop rec h n pos
    match wrapSequence out with
    | some s => .ok ({ data := .sequence h.info s, info := p.info }, pos)
    | none => .ok ({ data := .sequenceRaw h.info out, info := p.info }, pos)

/-- `decode_variant`, `src/decoding_sci.rs:719-749`: the picked variant and its
decoded fields. -/
def decodeVariant (rec : Dec) (variants : List Variant) (b : Buf) (pos : Nat) :
    Res (Variant × List FD × Nat) := do
  let v ← pickVariant variants b pos
  let (fs, pos) ← decodeFields rec v.fields (pos + 1) Checker.new
  .ok (v, fs, pos)

/-- Loop over tuple elements, `src/decoding_sci.rs:345-360`. -/
def decodeTupleLoop (R : Registry) (rec : Dec) (checker : Checker) :
    List Nat → Nat → Res (List ED × Nat)
  | [], pos => .ok ([], pos)
  | id :: ids, pos => do
    let ty ← R.get id
    let p ← Propagated.forTy checker ty id
    let (d, pos) ← rec (.resolved ty id) pos p
    let (rest, pos) ← decodeTupleLoop R rec checker ids pos
    .ok (d :: rest, pos)

/-- Tuple branch, `src/decoding_sci.rs:339-365`. -/
def decodeTuple (R : Registry) (rec : Dec) (elems : List Nat) (pos : Nat) (p : Propagated) :
    Res (ED × Nat) := do
  let p' ← if 1 < elems.length then (do p.rejectCompact; .ok p.forgetHint) else .ok p
  let (es, pos) ← decodeTupleLoop R rec p'.checker elems pos
  .ok ({ data := .tuple es, info := p'.info }, pos)

/-- Attach the collected info to decoded data (`ExtendedData { data, info }`). `src/decoding_sci.rs:290-394`. -/
def withInfo (info : List Info) (r : Res (PD × Nat)) : Res (ED × Nat) := do
  let (d, pos) ← r
  .ok ({ data := d, info }, pos)

/-- Branch `SpecialtyTypeChecked::None` of `decode_with_type`,
`src/decoding_sci.rs:280-394`. -/
def decodeTypeDef (R : Registry) (rec : Dec) (b : Buf) (ty : Typ) (id pos : Nat)
    (p : Propagated) : Res (ED × Nat) :=
  match ty.typeDef with
  | .composite fields => do
    let (fs, pos) ← decodeFields rec fields pos p.checker
    .ok ({ data := .composite fs, info := p.info }, pos)
  | .variant variants => do
    p.rejectCompact
    if variants.isEmpty then .ok ({ data := .emptyEnum, info := p.info }, pos)
    else do
      let (v, fs, pos) ← decodeVariant rec variants b pos
      .ok ({ data := .variant v.name (collectDocs v.docs) fs, info := p.info }, pos)
  | .sequence elem => do
    let (n, pos) ← getCompact (compactUInt .u32) b pos
    decodeElementsSet R rec elem n pos { p with checker := p.checker.dropCycleCheck }
  | .array len elem => decodeElementsSet R rec elem len pos p
  | .tuple elems => decodeTuple R rec elems pos p
  | .primitive prim => withInfo p.info (decodePrimitive prim b pos p.checker.specialtySet)
  | .compact inner => do
    p.rejectCompact
    let checker := { p.checker with
      specialtySet := { p.checker.specialtySet with compactAt := some id } }
    let checker ← checker.checkId inner
    rec (.symbol inner) pos { p with checker }
  | .bitSequence order store => do
    p.rejectCompact
    withInfo p.info (decodeBitSequence R order store id b pos)

/-- Type and id of the input, `src/decoding_sci.rs:273-276`. -/
def TyIn.resolve (R : Registry) : TyIn → Res (Typ × Nat)
  | .resolved ty id => .ok (ty, id)
  | .symbol id => do
    let ty ← R.get id
    .ok (ty, id)

/-- The `match` of `decode_with_type` on the type specialty,
`src/decoding_sci.rs:279-570`. -/
def decodeChecked (R : Registry) (rec : Dec) (b : Buf) (sp : TypeChecked) (ty : Typ)
    (id pos : Nat) (p : Propagated) : Res (ED × Nat) :=
  match sp with
  | .none => decodeTypeDef R rec b ty id pos p
  | .fixed k => withInfo p.info (parseFixed k b pos p.compactAt)
  | .era => do
    p.rejectCompact
    let (e, pos) ← specialCaseEra b pos
    .ok ({ data := .era e, info := p.info }, pos)
  | .h256 => do
    p.rejectCompact
    withInfo p.info (specialCaseH256 b pos p.checker.specialtySet.hint.hash256)
  | .palletSpecific palletName palletInfo variants item => do
    p.rejectCompact
    let (v, fs, pos) ← decodeVariant rec variants b pos
    .ok ({ data := .pallet item palletInfo (collectDocs v.docs) palletName v.name fs,
           info := p.info }, pos)
  | .perThing k => withInfo p.info (parsePer k b pos p.compactAt)

/-- `decode_with_type`, `src/decoding_sci.rs:260-571`, with recursive calls as an
argument. -/
def decodeStep (R : Registry) (b : Buf) (rec : Dec) : Dec := fun tyIn pos p => do
  let (ty, id) ← tyIn.resolve R
  let p := p.addInfo (Info.fromTy ty)
  let (sp, pos) ← TypeChecked.fromType R ty b pos
  decodeChecked R rec b sp ty id pos p

/-- `decode_with_type` with at most `n` nested calls.
`src/decoding_sci.rs:260-573`; the bound is a simplification, see `depthBound`. -/
def decodeF (R : Registry) (b : Buf) : Nat → Dec
  | 0 => fun _ _ _ => .error .fuel
  | n + 1 => decodeStep R b (decodeF R b n)

/-- Bound on the nesting of calls: proved sufficient in `Verif.Props.Decode`.
There is no bound in `src/decoding_sci.rs:260-573`. -/
def depthBound (R : Registry) (b : Buf) (pos : Nat) : Nat :=
  (b.len - pos) * (R.size + 1) + R.size + 2

/-- `decode_with_type`, `src/decoding_sci.rs:260-571`. -/
def decode (R : Registry) (b : Buf) (tyIn : TyIn) (pos : Nat) (p : Propagated) : Res (ED × Nat) :=
  decodeF R b (depthBound R b pos) tyIn pos p

/-- `decode_as_type_at_position`, `src/lib.rs:776-796`. -/
def decodeAsTypeAtPosition (R : Registry) (b : Buf) (id pos : Nat) : Res (ED × Nat) :=
  decode R b (.symbol id) pos Propagated.new

/-- `decode_all_as_type`, `src/lib.rs:801-825`. -/
def decodeAllAsType (R : Registry) (b : Buf) (id : Nat) : Res ED := do
  let (out, pos) ← decodeAsTypeAtPosition R b id 0
  if pos ≠ b.len then .error (.err (.someDataNotUsedBlob pos)) else .ok out

end Verif
