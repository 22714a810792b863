import Verif.Model.DeviceTx
/-!
# The caller's `&mut position` and `&mut ext_memory`, also after an error

`Model/Position.lean` keeps the position on errors, but has memory that answers the same
question always in the same way; `Model/Device.lean` has memory that changes with each
access, but drops the position on errors. Here both are states, as in the code:
`decode_as_type_at_position` (`src/lib.rs:776-796`), `decode_as_call_unmarked`
(`src/decoding_sci.rs:200-226`) and `decode_extensions_unmarked`
(`src/decoding_sci_ext.rs:74-124`) take `ext_memory: &mut E` and `position: &mut usize`.

Functions that read and move the position as their last step (`cut_and_decode`,
`get_compact`, `decode_str`, `special_case_era`, …) are taken from `Model/Device.lean`
with `atomic`. Everything else of the decoder is written out once more.
-/
namespace Verif

/-- A function with access to `position: &mut usize` and `ext_memory: &mut E`: outcome,
position left behind and memory left behind, in every case. `src/decoding_sci.rs:260-272`. -/
def PosDev (σ ε α : Type) : Type := Nat → σ → (Except ε α × Nat) × σ

namespace PosDev
variable {σ ε ε' α β : Type}

/-- `Ok`, everything as it is. As in `src/decoding_sci.rs:290-394`. -/
def ok (a : α) : PosDev σ ε α := fun pos s => ((.ok a, pos), s)

/-- Code that can reach neither position nor memory. As `src/propagated.rs:168-181`. -/
def still (r : Except ε α) : PosDev σ ε α := fun pos s => ((r, pos), s)

/-- Code that uses the memory, and gets the position by value or not at all.
As `src/decoding_sci.rs:691-714`, `src/decoding_sci.rs:1148-1210`. -/
def mem (x : σ → Except ε α × σ) : PosDev σ ε α := fun pos s => (((x s).1, pos), (x s).2)

/-- `?`: position and memory stay where the failing part left them.
As in `src/decoding_sci.rs:273-573`. -/
def bind (x : PosDev σ ε α) (f : α → PosDev σ ε β) : PosDev σ ε β := fun pos s =>
  match x pos s with
  | ((.ok a, q), s) => f a q s
  | ((.error e, q), s) => ((.error e, q), s)

/-- As `PosDev.bind`, `src/decoding_sci.rs:273-573`. -/
instance : Monad (PosDev σ ε) where
  pure := ok
  bind := bind

/-- `*position`. As in `src/decoding_sci.rs:141`. -/
def get : PosDev σ ε Nat := fun pos s => ((.ok pos, pos), s)

/-- `*position = q`. As in `src/decoding_sci.rs:148`, `src/compacts.rs:86`. -/
def set (q : Nat) : PosDev σ ε Unit := fun _ s => ((.ok (), q), s)

/-- A function of `Model/Device.lean` that moves the position as its last step.
As `src/special_types.rs:64-74`, `src/compacts.rs:75-88`. -/
def atomic (f : Nat → σ → Except ε (α × Nat) × σ) : PosDev σ ε α := fun pos s =>
  match f pos s with
  | (.ok (a, q), s) => ((.ok a, q), s)
  | (.error e, s) => ((.error e, pos), s)

/-- Conversion of the error by `?` or `map_err`. As in `src/decoding_sci.rs:211-250`. -/
def mapE (g : Except ε α → Except ε' α) (x : PosDev σ ε α) : PosDev σ ε' α := fun pos s =>
  ((g (x pos s).1.1, (x pos s).1.2), (x pos s).2)

end PosDev

/-- Such functions with parser errors. As `src/decoding_sci.rs:260-272`. -/
abbrev PosDR (σ α : Type) := PosDev σ Fail α

/-- Type of the recursive calls of `decode_with_type`. `src/decoding_sci.rs:260-272`. -/
abbrev DecPosD (σ : Type) := TyIn → Propagated → PosDR σ ED

variable {σ : Type}

/-- Loop of `decode_fields`, `src/decoding_sci.rs:601-620`. -/
def posFieldsLoopD (rec : DecPosD σ) (checker : Checker) : List Field → PosDR σ (List FD)
  | [] => PosDev.ok []
  | f :: fs => do
    let p ← PosDev.still (Propagated.forField checker f)
    let d ← rec (.symbol f.ty) p
    let rest ← posFieldsLoopD rec checker fs
    PosDev.ok ({ fieldName := f.name, typeName := f.typeName, fieldDocs := collectDocs f.docs,
                 data := d } :: rest)

/-- `decode_fields`, `src/decoding_sci.rs:579-622`. -/
def posFieldsD (rec : DecPosD σ) (fields : List Field) (checker : Checker) : PosDR σ (List FD) :=
  if 1 < fields.length then do
    PosDev.still checker.rejectCompact
    posFieldsLoopD rec checker.forgetHint fields
  else posFieldsLoopD rec checker fields

/-- Loop of `decode_elements_set`, `src/decoding_sci.rs:654-669`. -/
def posElementsLoopD (rec : DecPosD σ) (h : HuskedType) : Nat → PosDR σ (List PD)
  | 0 => PosDev.ok []
  | n + 1 => do
    let d ← rec (.resolved h.ty h.id) (Propagated.withChecker h.checker)
    let rest ← posElementsLoopD rec h n
    PosDev.ok (d.data :: rest)

variable (D : Device σ)

/-- `decode_elements_set`, `src/decoding_sci.rs:628-685`. -/
def posElementsSetD (rec : DecPosD σ) (elem n : Nat) (p : Propagated) : PosDR σ ED := do
  PosDev.still p.rejectCompact
  let h ← PosDev.mem (huskTypeD D elem p.checker)
  if n = 0 then PosDev.ok { data := .sequenceRaw h.info [], info := p.info }
  else do
    let out ← posElementsLoopD rec h n
    match wrapSequence out with
    | some x => PosDev.ok { data := .sequence h.info x, info := p.info }
    | none => PosDev.ok { data := .sequenceRaw h.info out, info := p.info }

/-- `pick_variant` and `*position += ENUM_INDEX_ENCODED_LEN` of `decode_variant`,
`src/decoding_sci.rs:731-732`: the index is passed before the fields are looked at. -/
def posPickD (variants : List Variant) : PosDR σ Variant := do
  let pos ← PosDev.get
  let v ← PosDev.mem (pickVariantD D variants pos)
  let q ← PosDev.mem (D.add pos 1)
  PosDev.set q
  PosDev.ok v

/-- `decode_variant`, `src/decoding_sci.rs:719-749`. -/
def posVariantD (rec : DecPosD σ) (variants : List Variant) : PosDR σ (Variant × List FD) := do
  let v ← posPickD D variants
  let fs ← posFieldsD rec v.fields Checker.new
  PosDev.ok (v, fs)

/-- Loop over tuple elements, `src/decoding_sci.rs:345-360`. -/
def posTupleLoopD (rec : DecPosD σ) (checker : Checker) : List Nat → PosDR σ (List ED)
  | [] => PosDev.ok []
  | id :: ids => do
    let ty ← PosDev.mem (D.get id)
    let p ← PosDev.still (Propagated.forTy checker ty id)
    let d ← rec (.resolved ty id) p
    let rest ← posTupleLoopD rec checker ids
    PosDev.ok (d :: rest)

/-- Tuple branch, `src/decoding_sci.rs:339-365`. -/
def posTupleD (rec : DecPosD σ) (elems : List Nat) (p : Propagated) : PosDR σ ED := do
  let p' ← PosDev.still (if 1 < elems.length then (p.rejectCompact >>= fun _ => .ok p.forgetHint) else .ok p)
  let es ← posTupleLoopD D rec p'.checker elems
  PosDev.ok { data := .tuple es, info := p'.info }

/-- `into_bitvec_decode`, `src/decoding_sci.rs:982-1000`: the position is moved past
the bytes that were read, before they are decoded. -/
def posIntoBitvecD (store : BitStore) : PosDR σ Bytes := do
  let pos ← PosDev.get
  let p ← PosDev.mem (bitVecPositionsD D store pos)
  let x ← PosDev.mem (D.read pos p.2)
  PosDev.set p.1
  PosDev.ok x

/-- One branch of `decode_type_def_bit_sequence`, `src/decoding_sci.rs:820-884`; the error
names the start of the bit vector (`bitvec_start`, `src/decoding_sci.rs:811`). -/
def posBitsD (st : BitStore) (o : BitOrder) : PosDR σ PD := do
  let start ← PosDev.get
  let x ← posIntoBitvecD D st
  match bitVecDecodeAll st o x with
  | some bits => PosDev.ok (.bitVec st o bits)
  | none => PosDev.still (.error (.err (.typeFailure start (bitVecName st o))))

/-- `decode_type_def_bit_sequence` on 64-bit targets, `src/decoding_sci.rs:798-900`. -/
def posBitSequenceD (order store id : Nat) : PosDR σ PD := do
  let o ← PosDev.mem (findBitOrderD D order id)
  let t ← PosDev.mem (D.get store)
  match t.typeDef with
  | .primitive p =>
    match BitStore.ofPrim p with
    | some st => posBitsD D st o
    | none => PosDev.still (failInternal (.notBitStoreType id))
  | _ => PosDev.still (failInternal (.notBitStoreType id))

/-- Attach the collected info to decoded data (`ExtendedData { data, info }`). `src/decoding_sci.rs:290-394`. -/
def posInfoD (info : List Info) (r : PosDR σ PD) : PosDR σ ED := do
  let d ← r
  PosDev.ok { data := d, info }

/-- Branch `SpecialtyTypeChecked::None` of `decode_with_type`,
`src/decoding_sci.rs:280-394`. -/
def posTypeDefD (rec : DecPosD σ) (ty : Typ) (id : Nat) (p : Propagated) : PosDR σ ED :=
  match ty.typeDef with
  | .composite fields => do
    let fs ← posFieldsD rec fields p.checker
    PosDev.ok { data := .composite fs, info := p.info }
  | .variant variants => do
    PosDev.still p.rejectCompact
    if variants.isEmpty then PosDev.ok { data := .emptyEnum, info := p.info }
    else do
      let r ← posVariantD D rec variants
      PosDev.ok { data := .variant r.1.name (collectDocs r.1.docs) r.2, info := p.info }
  | .sequence elem => do
    let n ← PosDev.atomic (getCompactD D (compactUInt .u32))
    posElementsSetD D rec elem n { p with checker := p.checker.dropCycleCheck }
  | .array len elem => posElementsSetD D rec elem len p
  | .tuple elems => posTupleD D rec elems p
  | .primitive prim =>
    posInfoD p.info (PosDev.atomic fun pos => decodePrimitiveD D prim pos p.checker.specialtySet)
  | .compact inner => do
    PosDev.still p.rejectCompact
    let checker ← PosDev.still ({ p.checker with
      specialtySet := { p.checker.specialtySet with compactAt := some id } }.checkId inner)
    rec (.symbol inner) { p with checker }
  | .bitSequence order store => do
    PosDev.still p.rejectCompact
    posInfoD p.info (posBitSequenceD D order store id)

/-- The `match` of `decode_with_type` on the type specialty,
`src/decoding_sci.rs:279-570`. -/
def posCheckedD (rec : DecPosD σ) (sp : TypeChecked) (ty : Typ) (id : Nat) (p : Propagated) : PosDR σ ED :=
  match sp with
  | .none => posTypeDefD D rec ty id p
  | .fixed k => posInfoD p.info (PosDev.atomic fun pos => parseFixedD D k pos p.compactAt)
  | .era => do
    PosDev.still p.rejectCompact
    let e ← PosDev.atomic (specialCaseEraD D)
    PosDev.ok { data := .era e, info := p.info }
  | .h256 => do
    PosDev.still p.rejectCompact
    posInfoD p.info (PosDev.atomic fun pos => specialCaseH256D D pos p.checker.specialtySet.hint.hash256)
  | .palletSpecific palletName palletInfo variants item => do
    PosDev.still p.rejectCompact
    let r ← posVariantD D rec variants
    PosDev.ok { data := .pallet item palletInfo (collectDocs r.1.docs) palletName r.1.name r.2,
                info := p.info }
  | .perThing k => posInfoD p.info (PosDev.atomic fun pos => parsePerD D k pos p.compactAt)

/-- `decode_with_type`, `src/decoding_sci.rs:260-571`, with recursive calls as an
argument. Recognition of special types (`src/special_indicators.rs:589-703`) moves the
position only when it succeeds. -/
def posStepD (rec : DecPosD σ) : DecPosD σ := fun tyIn p => do
  let t ← PosDev.mem (tyIn.resolveD D)
  let sp ← PosDev.atomic (fromTypeD D t.1)
  posCheckedD D rec sp t.1 t.2 (p.addInfo (Info.fromTy t.1))

/-- `decode_with_type` with at most `n` nested calls.
`src/decoding_sci.rs:260-573`; the bound is a simplification, see `depthBound`. -/
def posFD : Nat → DecPosD σ
  | 0 => fun _ _ => PosDev.still (.error .fuel)
  | n + 1 => posStepD D (posFD n)

/-- `decode_with_type`, `src/decoding_sci.rs:260-571`. -/
def posDecodeD (tyIn : TyIn) (p : Propagated) : PosDR σ ED := fun pos =>
  posFD D ((D.len - pos) * (D.size + 1) + D.size + 2) tyIn p pos

/-- `decode_as_type_at_position`, `src/lib.rs:776-796`: outcome, position and memory left
behind. -/
def posAsTypeD (id : Nat) : PosDR σ ED := posDecodeD D (.symbol id) Propagated.new

variable {ME : Type}

/-- `decode_as_call_unmarked`, `src/decoding_sci.rs:200-226`: outcome, position and memory
left behind. -/
def posAsCallUnmarkedD (M : Metadata ME) : PosDev σ (Out (SErr ME)) Call := do
  let callTy ← PosDev.still (mapOut .metaStructure M.callTy)
  let d ← PosDev.mapE (Res.mapErr .parsing) (posDecodeD D (.symbol callTy) Propagated.new)
  match d.data.asCall with
  | some call => PosDev.ok call
  | none => PosDev.still (.error (.err (.notACall callTy)))

/-- One of the two loops of `decode_extensions_unmarked`,
`src/decoding_sci_ext.rs:91-100` and `src/decoding_sci_ext.rs:101-110`. -/
def posExtensionsLoopD (sel : SignedExt → Nat) : List SignedExt → PosDev σ (Out (SErr ME)) (List ED)
  | [] => PosDev.ok []
  | e :: es => do
    let d ← PosDev.mapE (Res.mapErr .parsing) (posDecodeD D (.symbol (sel e)) (.fromExtMeta e.identifier))
    let ds ← posExtensionsLoopD sel es
    PosDev.ok (d :: ds)

/-- `decode_extensions_unmarked`, `src/decoding_sci_ext.rs:74-124`: outcome, position and
memory left behind. -/
def posExtensionsUnmarkedD (M : Metadata ME) (expected : Option Bytes) : PosDev σ (Out (SErr ME)) (List ED) := do
  let signed ← PosDev.still (mapOut .metaStructure M.signedExtensions)
  let first ← posExtensionsLoopD D (·.ty) signed
  let second ← posExtensionsLoopD D (·.additionalSigned) signed
  let pos ← PosDev.get
  if pos ≠ D.len then PosDev.still (.error (.err (.someDataNotUsedExtensions pos)))
  else do
    let spec ← PosDev.still (mapOut .metaStructure M.specNameVersion)
    PosDev.still (checkExtensions (first ++ second) spec.printedSpecVersion expected)
    PosDev.ok (first ++ second)

end Verif
