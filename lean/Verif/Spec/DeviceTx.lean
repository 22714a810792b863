import Verif.Spec.Device
import Verif.Spec.Reach
import Verif.Spec.Transaction
import Verif.Spec.Storage
import Verif.Model.Extrinsic
/-!
# Transactions, extrinsics and storage in unsteady memory (specification)

As in `Spec/Transaction.lean` and `Spec/Storage.lean`, with `EncLoose` in place of `Enc`: inside a value,
calls, events and signatures may be told as the plain enums they are.
-/
namespace Verif.Spec

/-- As `IsCall`: two selected enums, the pallet and its call, and then the fields. -/
def IsCallLoose (R : Registry) (id : Nat) (c : Call) (bs : Bytes) : Prop :=
  ∃ (t : Typ) (i j : UInt8) (inner : List Variant) (v : Variant) (ps : Parts),
    R.resolve id = .ok t ∧ IsPallet R t i .call c.palletName inner ∧
    Selects inner j v ∧ c.variantName = v.name ∧ ps.length = v.fields.length ∧
    (∀ x ∈ (v.fields.map (·.ty)).zip ps, EncLoose R false x.1 x.2.1 x.2.2) ∧
    fdsValue c.fields = Parts.named v.fields ps ∧ bs = i :: j :: ps.bytes

/-- As `ItemsAre`. An item whose type has no calls, events and signatures in it is decoded and labelled
as in reliable memory. -/
def ItemsLoose (R : Registry) (items : List (String × Nat)) (ds : List ED) (bs : Bytes) : Prop :=
  ∃ chunks : List Bytes, chunks.flatten = bs ∧ chunks.length = items.length ∧ ds.length = items.length ∧
    ∀ x ∈ items.zip (ds.zip chunks), EncLoose R false x.1.2 (edValue x.2.1) x.2.2 ∧
      (LabelFree R x.1.2 → Enc R false x.1.2 (edValue x.2.1) x.2.2 ∧ Shown R (extLabel x.1.1) [] x.1.2 x.2.1)

/-- The bytes `bs` after the version byte are the parts of the extrinsic, then `tail`. -/
def ExtrinsicPartsLoose (R : Registry) (params : ExtrinsicParams) (isSigned : Bool) (u : UncheckedExtrinsic)
    (bs tail : Bytes) : Prop :=
  match u with
  | .unsigned call => isSigned = false ∧ ∃ c, IsCallLoose R params.callTy call c ∧ bs = c ++ tail
  | .signed address signature extra call => isSigned = true ∧ ∃ a s e c,
      EncLoose R false params.addressTy (edValue address) a ∧
      EncLoose R false params.signatureTy (edValue signature) s ∧
      EncLoose R false params.extraTy (edValue extra) e ∧ IsCallLoose R params.callTy call c ∧
      bs = a ++ s ++ e ++ c ++ tail

/-- Hashers that keep the key beside the hash. -/
def Concat (h : Hasher) : Prop := h = .blake2_128Concat ∨ h = .twox64Concat

/-- As `KeyPartIs`. -/
inductive KeyPartLoose (H : HashFns) (R : Registry) : Hasher → Nat → KeyPart → Bytes → Prop
  | blake2_128 {ty hash} : hash.length = 16 → KeyPartLoose H R .blake2_128 ty (.hash .blake2_128 hash ty) hash
  | blake2_256 {ty hash} : hash.length = 32 → KeyPartLoose H R .blake2_256 ty (.hash .blake2_256 hash ty) hash
  | twox128 {ty hash} : hash.length = 16 → KeyPartLoose H R .twox128 ty (.hash .twox128 hash ty) hash
  | twox256 {ty hash} : hash.length = 32 → KeyPartLoose H R .twox256 ty (.hash .twox256 hash ty) hash
  | blake2_128Concat {ty d k} : EncLoose R false ty (edValue d) k → (H.blake2_128 k).length = 16 →
      KeyPartLoose H R .blake2_128Concat ty (.parsed d) (H.blake2_128 k ++ k)
  | twox64Concat {ty d k} : EncLoose R false ty (edValue d) k → (H.twox64 k).length = 8 →
      KeyPartLoose H R .twox64Concat ty (.parsed d) (H.twox64 k ++ k)
  | identity {ty d k} : EncLoose R false ty (edValue d) k → KeyPartLoose H R .identity ty (.parsed d) k

/-- As `KeyPartsAre`. -/
inductive KeyPartsLoose (H : HashFns) (R : Registry) : List Hasher → List Nat → List KeyPart → Bytes → Prop
  | nil : KeyPartsLoose H R [] [] [] []
  | cons {h ty part bs hs tys parts rest} : KeyPartLoose H R h ty part bs → KeyPartsLoose H R hs tys parts rest →
      KeyPartsLoose H R (h :: hs) (ty :: tys) (part :: parts) (bs ++ rest)

/-- As `KeyIs`. -/
def KeyLoose (H : HashFns) (R : Registry) (hashers : List Hasher) (keyTy : Nat) : KeyData → Bytes → Prop
  | .plain, _ => False
  | .singleHash part, bs => ∃ h, hashers = [h] ∧ KeyPartLoose H R h keyTy part bs
  | .tupleHash parts info, bs => hashers.length ≠ 1 ∧ ∃ t elems, R.resolve keyTy = .ok t ∧
      t.typeDef = .tuple elems ∧ info = Info.fromTy t ∧ KeyPartsLoose H R hashers elems parts bs

/-- As `StorageIs`. -/
def StorageLoose (H : HashFns) (R : Registry) (entry : Entry) (key value : Bytes) (s : Storage) : Prop :=
  s.docs = collectDocs entry.docs ∧
  match entry.ty with
  | .plain valueTy => key.length = 32 ∧ s.key = .plain ∧ EncLoose R false valueTy (edValue s.value) value
  | .map hashers keyTy valueTy => ∃ pre rest, key = pre ++ rest ∧ pre.length = 32 ∧
      KeyLoose H R hashers keyTy s.key rest ∧ EncLoose R false valueTy (edValue s.value) value

/-- The entry has a hasher that keeps the key beside the hash. -/
def UsesConcat (entry : Entry) : Prop :=
  match entry.ty with
  | .plain _ => False
  | .map hashers _ _ => ∃ h ∈ hashers, Concat h

/-- Fields with the same names, and the same values but for labels. -/
def SameFields (l l' : List (Option String × Value)) : Prop :=
  l.length = l'.length ∧ ∀ x ∈ l.zip l', x.1.1 = x.2.1 ∧ SameButLabels x.1.2 x.2.2

/-- The same call of the same pallet, and the same arguments but for labels. -/
def SameCall (c c' : Call) : Prop :=
  c.palletName = c'.palletName ∧ c.variantName = c'.variantName ∧ SameFields (fdsValue c.fields) (fdsValue c'.fields)

/-- There is no valid data behind the outcome: an error, or a result with the value of an enum without
variants in it. -/
def Void {ε α : Type} (empty : α → Prop) (r : Except ε α) : Prop := (∃ e, r = .error e) ∨ ∃ a, r = .ok a ∧ empty a

/-- An outcome on memory that fails now and then, beside the outcome on reliable memory: an error that
the failures caused; or success in both cases, with the same result in the given sense; or an error
in both cases, where in place of an error there may be a result that no valid data has. -/
def AgreesBut {ε α : Type} (caused : Out ε → Prop) (same : α → α → Prop) (empty : α → Prop)
    (reliable flaky : Except (Out ε) α) : Prop :=
  (∃ e, flaky = .error e ∧ caused e) ∨ (∃ a a', reliable = .ok a ∧ flaky = .ok a' ∧ same a a') ∨
    (Void empty reliable ∧ Void empty flaky)

/-- An argument of the call has the value of an enum without variants in it. -/
def EmptyCall (R : Registry) (c : Call) : Prop := ∃ f ∈ fdsValue c.fields, TellsEmpty R f.2

/-- The memory's own error, as an error of transactions. -/
def MemoryErrorS {ME : Type} (e : SErr ME) : Prop := ∃ pe, MemoryError (.err pe) ∧ e = .parsing pe

/-- Errors from failures while decoding a call: the memory's own, or that there is no call (its type was
not recognized). -/
def CallCaused {ME : Type} (M : Metadata ME) (e : SErr ME) : Prop :=
  MemoryErrorS e ∨ ∃ id, M.callTy = .ok id ∧ e = .notACall id

/-- The same extensions; and the same call, or an error from failures in its place, or an error in both. -/
def SameTransaction {ME : Type} (M : Metadata ME) (r r' : TransactionParsed ME) : Prop :=
  r.extensions = r'.extensions ∧
    ((∃ e, r'.callResult = .error e ∧ CallCaused M e) ∨
      (∃ c c', r.callResult = .ok c ∧ r'.callResult = .ok c' ∧ SameCall c c') ∨
      (Void (EmptyCall M.types) r.callResult ∧ Void (EmptyCall M.types) r'.callResult))

/-- The same call, the same extensions. -/
def SameUnmarked (r r' : TransactionUnmarkedParsed) : Prop := SameCall r.call r'.call ∧ r.extensions = r'.extensions

/-- The same extrinsic but for labels. -/
def SameExtrinsic : UncheckedExtrinsic → UncheckedExtrinsic → Prop
  | .unsigned c, .unsigned c' => SameCall c c'
  | .signed a s x c, .signed a' s' x' c' => SameButLabels (edValue a) (edValue a') ∧ SameButLabels (edValue s) (edValue s') ∧
      SameButLabels (edValue x) (edValue x') ∧ SameCall c c'
  | _, _ => False

/-- A part of the extrinsic has the value of an enum without variants in it. -/
def EmptyExtrinsic (R : Registry) : UncheckedExtrinsic → Prop
  | .unsigned c => EmptyCall R c
  | .signed a s x c => TellsEmpty R (edValue a) ∨ TellsEmpty R (edValue s) ∨ TellsEmpty R (edValue x) ∨ EmptyCall R c

/-- Errors from failures while decoding an extrinsic. -/
def ExtrinsicCaused {ME : Type} (e : UErr ME) : Prop :=
  e = .formatNoCompact ∨ (∃ pe, MemoryError (.err pe) ∧ e = .parsing pe) ∨ ∃ id, e = .unexpectedCallTy id

/-- The same part of a key but for labels. -/
def KeyPartButLabels : KeyPart → KeyPart → Prop
  | .hash k h ty, p => p = .hash k h ty
  | .parsed d, .parsed d' => SameButLabels (edValue d) (edValue d')
  | _, _ => False

/-- The same key but for labels. -/
def KeyButLabels : KeyData → KeyData → Prop
  | .plain, .plain => True
  | .singleHash p, .singleHash p' => KeyPartButLabels p p'
  | .tupleHash ps i, .tupleHash ps' i' => i = i' ∧ ps.length = ps'.length ∧ ∀ x ∈ ps.zip ps', KeyPartButLabels x.1 x.2
  | _, _ => False

/-- The same storage entry but for labels. -/
def StorageButLabels (s s' : Storage) : Prop :=
  KeyButLabels s.key s'.key ∧ SameButLabels (edValue s.value) (edValue s'.value) ∧ s.docs = s'.docs

/-- The part of a key has the value of an enum without variants in it. -/
def EmptyPart (R : Registry) : KeyPart → Prop
  | .hash _ _ _ => False
  | .parsed d => TellsEmpty R (edValue d)

/-- The key has the value of an enum without variants in it. -/
def EmptyKey (R : Registry) : KeyData → Prop
  | .plain => False
  | .singleHash p => EmptyPart R p
  | .tupleHash ps _ => ∃ p ∈ ps, EmptyPart R p

/-- The entry has the value of an enum without variants in it. -/
def EmptyStorage (R : Registry) (s : Storage) : Prop := EmptyKey R s.key ∨ TellsEmpty R (edValue s.value)

/-- Errors from failures while decoding a storage entry; a panic, if some hasher keeps the key. -/
def StorageCaused (entry : Entry) (e : Out StErr) : Prop :=
  (∃ pe, MemoryError (.err pe) ∧ (e = .err (.parsingKey pe) ∨ e = .err (.parsingValue pe))) ∨ (UsesConcat entry ∧ e = .panic)

/-- No call, event or signature takes part in the extensions. -/
def ExtensionsLabelFree {ME : Type} (M : Metadata ME) : Prop :=
  ∀ signed, M.signedExtensions = .ok signed → ∀ x ∈ extItems signed, LabelFree M.types x.2

/-- What to assume of a registry, if failures of the memory are to change labels only: elements of empty arrays are not
infinite, arrays and primitives have no names, no compact arrays, and no errors of memory of its own. -/
structure Regular (R : Registry) : Prop where
  emptyArrays : EmptyArraysGrounded R
  nameless : LeavesNameless R
  noCompactArray : NoCompactArray R
  reliable : ∀ id, R.resolve id ≠ .error .external

end Verif.Spec
