import Verif.Model.Transaction
/-!
# The caller's `&mut position`, also after an error

The other modules of the model hand the position on as a value and drop it when a
function fails. The public functions `decode_as_type_at_position`
(`src/lib.rs:776-796`), `decode_as_call_unmarked` (`src/decoding_sci.rs:200-226`) and
`decode_extensions_unmarked` (`src/decoding_sci_ext.rs:74-124`) take it as
`position: &mut usize`, so that its value after an `Err` is seen by the caller. Here
the position is a state, kept on errors.

Functions that read and move the position as their last step (`cut_and_decode`,
`get_compact`, `decode_str`, `special_case_era`, …) are taken from the other modules
with `atomic`. Everything else of the decoder is written out once more.
-/
namespace Verif

/-- A function with access to `position: &mut usize`: outcome and position left
behind, in every case. `src/decoding_sci.rs:264`. -/
abbrev PosM (ε α : Type) := Nat → Except ε α × Nat

namespace PosM
variable {ε ε' α β : Type}

/-- `Ok` with the position as it is. As in `src/decoding_sci.rs:290-394`. -/
def ok (a : α) : PosM ε α := fun pos => (.ok a, pos)

/-- Code that can not reach the position. As `src/decoding_sci.rs:691-714`, where the position is given by value. -/
def still (r : Except ε α) : PosM ε α := fun pos => (r, pos)

/-- `?`: the position stays where the failing part left it. As in `src/decoding_sci.rs:273-573`. -/
def bind (x : PosM ε α) (f : α → PosM ε β) : PosM ε β := fun pos =>
  match x pos with
  | (.ok a, q) => f a q
  | (.error e, q) => (.error e, q)

/-- As `PosM.bind`, `src/decoding_sci.rs:273-573`. -/
instance : Monad (PosM ε) where
  pure := ok
  bind := bind

/-- `*position`. As in `src/decoding_sci.rs:141`. -/
def get : PosM ε Nat := fun pos => (.ok pos, pos)

/-- `*position = q`. As in `src/decoding_sci.rs:148`, `src/compacts.rs:86`. -/
def set (q : Nat) : PosM ε Unit := fun _ => (.ok (), q)

/-- A function of the other modules that moves the position as its last step.
As `src/special_types.rs:64-74`, `src/compacts.rs:75-88`. -/
def atomic (f : Nat → Except ε (α × Nat)) : PosM ε α := fun pos =>
  match f pos with
  | .ok (a, q) => (.ok a, q)
  | .error e => (.error e, pos)

/-- Conversion of the error by `?` or `map_err`. As in `src/decoding_sci.rs:211-250`. -/
def mapE (g : Except ε α → Except ε' α) (x : PosM ε α) : PosM ε' α := fun pos =>
  ((g (x pos).1), (x pos).2)

end PosM

/-- Position functions with parser errors. As `src/decoding_sci.rs:260-272`. -/
abbrev PosR (α : Type) := PosM Fail α

/-- Type of the recursive calls of `decode_with_type`. `src/decoding_sci.rs:260-272`. -/
abbrev DecPos := TyIn → Propagated → PosR ED

/-- Loop of `decode_fields`, `src/decoding_sci.rs:601-620`. -/
def posFieldsLoop (rec : DecPos) (checker : Checker) : List Field → PosR (List FD)
  | [] => PosM.ok []
  | f :: fs => do
    let p ← PosM.still (Propagated.forField checker f)
    let d ← rec (.symbol f.ty) p
    let rest ← posFieldsLoop rec checker fs
    PosM.ok ({ fieldName := f.name, typeName := f.typeName, fieldDocs := collectDocs f.docs,
               data := d } :: rest)

/-- `decode_fields`, `src/decoding_sci.rs:579-622`. -/
def posFields (rec : DecPos) (fields : List Field) (checker : Checker) : PosR (List FD) :=
  if 1 < fields.length then do
    PosM.still checker.rejectCompact
    posFieldsLoop rec checker.forgetHint fields
  else posFieldsLoop rec checker fields

/-- Loop of `decode_elements_set`, `src/decoding_sci.rs:654-669`. -/
def posElementsLoop (rec : DecPos) (h : HuskedType) : Nat → PosR (List PD)
  | 0 => PosM.ok []
  | n + 1 => do
    let d ← rec (.resolved h.ty h.id) (Propagated.withChecker h.checker)
    let rest ← posElementsLoop rec h n
    PosM.ok (d.data :: rest)

/-- `decode_elements_set`, `src/decoding_sci.rs:628-685`. -/
def posElementsSet (R : Registry) (rec : DecPos) (elem n : Nat) (p : Propagated) : PosR ED := do
  PosM.still p.rejectCompact
  let h ← PosM.still (huskType R elem p.checker)
  if n = 0 then PosM.ok { data := .sequenceRaw h.info [], info := p.info }
  else do
    let out ← posElementsLoop rec h n
    match wrapSequence out with
    | some s => PosM.ok { data := .sequence h.info s, info := p.info }
    | none => PosM.ok { data := .sequenceRaw h.info out, info := p.info }

/-- `decode_variant`, `src/decoding_sci.rs:719-749`: the index is passed before the
fields are looked at. -/
def posVariant (rec : DecPos) (variants : List Variant) (b : Buf) : PosR (Variant × List FD) := do
  let pos ← PosM.get
  let v ← PosM.still (pickVariant variants b pos)
  PosM.set (pos + 1)
  let fs ← posFields rec v.fields Checker.new
  PosM.ok (v, fs)

/-- Loop over tuple elements, `src/decoding_sci.rs:345-360`. -/
def posTupleLoop (R : Registry) (rec : DecPos) (checker : Checker) : List Nat → PosR (List ED)
  | [] => PosM.ok []
  | id :: ids => do
    let ty ← PosM.still (R.get id)
    let p ← PosM.still (Propagated.forTy checker ty id)
    let d ← rec (.resolved ty id) p
    let rest ← posTupleLoop R rec checker ids
    PosM.ok (d :: rest)

/-- Tuple branch, `src/decoding_sci.rs:339-365`. -/
def posTuple (R : Registry) (rec : DecPos) (elems : List Nat) (p : Propagated) : PosR ED := do
  let p' ← PosM.still (if 1 < elems.length then (do p.rejectCompact; .ok p.forgetHint) else .ok p)
  let es ← posTupleLoop R rec p'.checker elems
  PosM.ok { data := .tuple es, info := p'.info }

/-- `into_bitvec_decode`, `src/decoding_sci.rs:982-1000`: the position is moved past
the bytes that were read, before they are decoded. -/
def posIntoBitvec (store : BitStore) (b : Buf) : PosR Bytes := do
  let pos ← PosM.get
  let p ← PosM.still (BitVecPositions.new store b pos)
  let s ← PosM.still (b.readSlice p.bitvecStart p.minimalLength)
  PosM.set p.bitvecEnd
  PosM.ok s

/-- One branch of `decode_type_def_bit_sequence`, `src/decoding_sci.rs:820-884`; the error
names the start of the bit vector (`bitvec_start`, `src/decoding_sci.rs:811`). -/
def posBits (st : BitStore) (o : BitOrder) (b : Buf) : PosR PD := do
  let start ← PosM.get
  let s ← posIntoBitvec st b
  match bitVecDecodeAll st o s with
  | some bits => PosM.ok (.bitVec st o bits)
  | none => PosM.still (.error (.err (.typeFailure start (bitVecName st o))))

/-- `decode_type_def_bit_sequence` on 64-bit targets, `src/decoding_sci.rs:798-900`. -/
def posBitSequence (R : Registry) (order store id : Nat) (b : Buf) : PosR PD := do
  let o ← PosM.still (findBitOrder R order id)
  let t ← PosM.still (R.get store)
  match t.typeDef with
  | .primitive p =>
    match BitStore.ofPrim p with
    | some st => posBits st o b
    | none => PosM.still (failInternal (.notBitStoreType id))
  | _ => PosM.still (failInternal (.notBitStoreType id))

/-- Attach the collected info to decoded data (`ExtendedData { data, info }`). `src/decoding_sci.rs:290-394`. -/
def posInfo (info : List Info) (r : PosR PD) : PosR ED := do
  let d ← r
  PosM.ok { data := d, info }

/-- Branch `SpecialtyTypeChecked::None` of `decode_with_type`,
`src/decoding_sci.rs:280-394`. -/
def posTypeDef (R : Registry) (rec : DecPos) (b : Buf) (ty : Typ) (id : Nat) (p : Propagated) :
    PosR ED :=
  match ty.typeDef with
  | .composite fields => do
    let fs ← posFields rec fields p.checker
    PosM.ok { data := .composite fs, info := p.info }
  | .variant variants => do
    PosM.still p.rejectCompact
    if variants.isEmpty then PosM.ok { data := .emptyEnum, info := p.info }
    else do
      let (v, fs) ← posVariant rec variants b
      PosM.ok { data := .variant v.name (collectDocs v.docs) fs, info := p.info }
  | .sequence elem => do
    let n ← PosM.atomic (getCompact (compactUInt .u32) b)
    posElementsSet R rec elem n { p with checker := p.checker.dropCycleCheck }
  | .array len elem => posElementsSet R rec elem len p
  | .tuple elems => posTuple R rec elems p
  | .primitive prim =>
    posInfo p.info (PosM.atomic fun pos => decodePrimitive prim b pos p.checker.specialtySet)
  | .compact inner => do
    PosM.still p.rejectCompact
    let checker := { p.checker with
      specialtySet := { p.checker.specialtySet with compactAt := some id } }
    let checker ← PosM.still (checker.checkId inner)
    rec (.symbol inner) { p with checker }
  | .bitSequence order store => do
    PosM.still p.rejectCompact
    posInfo p.info (posBitSequence R order store id b)

/-- The `match` of `decode_with_type` on the type specialty,
`src/decoding_sci.rs:279-570`. -/
def posChecked (R : Registry) (rec : DecPos) (b : Buf) (sp : TypeChecked) (ty : Typ) (id : Nat)
    (p : Propagated) : PosR ED :=
  match sp with
  | .none => posTypeDef R rec b ty id p
  | .fixed k => posInfo p.info (PosM.atomic fun pos => parseFixed k b pos p.compactAt)
  | .era => do
    PosM.still p.rejectCompact
    let e ← PosM.atomic (specialCaseEra b)
    PosM.ok { data := .era e, info := p.info }
  | .h256 => do
    PosM.still p.rejectCompact
    posInfo p.info (PosM.atomic fun pos => specialCaseH256 b pos p.checker.specialtySet.hint.hash256)
  | .palletSpecific palletName palletInfo variants item => do
    PosM.still p.rejectCompact
    let (v, fs) ← posVariant rec variants b
    PosM.ok { data := .pallet item palletInfo (collectDocs v.docs) palletName v.name fs,
              info := p.info }
  | .perThing k => posInfo p.info (PosM.atomic fun pos => parsePer k b pos p.compactAt)

/-- `decode_with_type`, `src/decoding_sci.rs:260-571`, with recursive calls as an
argument. Recognition of special types (`src/special_indicators.rs:589-703`) moves the
position only when it succeeds. -/
def posStep (R : Registry) (b : Buf) (rec : DecPos) : DecPos := fun tyIn p => do
  let (ty, id) ← PosM.still (tyIn.resolve R)
  let p := p.addInfo (Info.fromTy ty)
  let sp ← PosM.atomic (TypeChecked.fromType R ty b)
  posChecked R rec b sp ty id p

/-- `decode_with_type` with at most `n` nested calls.
`src/decoding_sci.rs:260-573`; the bound is a simplification, see `depthBound`. -/
def posF (R : Registry) (b : Buf) : Nat → DecPos
  | 0 => fun _ _ => PosM.still (.error .fuel)
  | n + 1 => posStep R b (posF R b n)

/-- `decode_with_type`, `src/decoding_sci.rs:260-571`. -/
def posDecode (R : Registry) (b : Buf) (tyIn : TyIn) (p : Propagated) : PosR ED := fun pos =>
  posF R b (depthBound R b pos) tyIn p pos

/-- `decode_as_type_at_position`, `src/lib.rs:776-796`: outcome and position left
behind. -/
def posAsType (R : Registry) (b : Buf) (id : Nat) : PosR ED :=
  posDecode R b (.symbol id) Propagated.new

variable {ME : Type}

/-- `decode_as_call_unmarked`, `src/decoding_sci.rs:200-226`: outcome and position left
behind. -/
def posAsCallUnmarked (M : Metadata ME) (data : Buf) : PosM (Out (SErr ME)) Call := do
  let callTy ← PosM.still (mapOut .metaStructure M.callTy)
  let d ← PosM.mapE (Res.mapErr .parsing)
    (posDecode M.types data (.symbol callTy) Propagated.new)
  match d.data.asCall with
  | some call => PosM.ok call
  | none => PosM.still (.error (.err (.notACall callTy)))

/-- One of the two loops of `decode_extensions_unmarked`,
`src/decoding_sci_ext.rs:91-100` and `src/decoding_sci_ext.rs:101-110`. -/
def posExtensionsLoop (R : Registry) (data : Buf) (sel : SignedExt → Nat) :
    List SignedExt → PosM (Out (SErr ME)) (List ED)
  | [] => PosM.ok []
  | e :: es => do
    let d ← PosM.mapE (Res.mapErr .parsing)
      (posDecode R data (.symbol (sel e)) (.fromExtMeta e.identifier))
    let ds ← posExtensionsLoop R data sel es
    PosM.ok (d :: ds)

/-- `decode_extensions_unmarked`, `src/decoding_sci_ext.rs:74-124`: outcome and position
left behind. -/
def posExtensionsUnmarked (M : Metadata ME) (data : Buf) (expected : Option Bytes) :
    PosM (Out (SErr ME)) (List ED) := do
  let signed ← PosM.still (mapOut .metaStructure M.signedExtensions)
  let first ← posExtensionsLoop M.types data (·.ty) signed
  let second ← posExtensionsLoop M.types data (·.additionalSigned) signed
  let exts := first ++ second
  let pos ← PosM.get
  if pos ≠ data.len then PosM.still (.error (.err (.someDataNotUsedExtensions pos)))
  else do
    let spec ← PosM.still (mapOut .metaStructure M.specNameVersion)
    PosM.still (checkExtensions exts spec.printedSpecVersion expected)
    PosM.ok exts

/-- `parse_transaction_unmarked`, `src/lib.rs:738-765`, with its local `position`
handed from the call to the extensions. -/
def posTransactionUnmarked (M : Metadata ME) (data : Buf) (expected : Option Bytes) :
    PosM (Out (SErr ME)) TransactionUnmarkedParsed := do
  PosM.set 0
  let call ← posAsCallUnmarked M data
  let extensions ← posExtensionsUnmarked M data expected
  PosM.ok { call, extensions }

end Verif
