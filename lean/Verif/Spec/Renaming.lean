import Verif.Model.Extrinsic
import Verif.Model.Storage
import Verif.Spec.Reach
/-!
# Registries that differ in the numbers of their types (specification)
-/
namespace Verif.Spec

/-- The field, with its type renumbered. -/
def renField (f : Nat → Nat) (x : Field) : Field := { x with ty := f x.ty }

/-- The variant, with the types of its fields renumbered. -/
def renVariant (f : Nat → Nat) (v : Variant) : Variant := { v with fields := v.fields.map (renField f) }

/-- The definition, with the types it mentions renumbered. -/
def renDef (f : Nat → Nat) : TypeDef → TypeDef
  | .composite fields => .composite (fields.map (renField f))
  | .variant vs => .variant (vs.map (renVariant f))
  | .sequence e => .sequence (f e)
  | .array n e => .array n (f e)
  | .tuple ids => .tuple (ids.map f)
  | .primitive p => .primitive p
  | .compact i => .compact (f i)
  | .bitSequence o s => .bitSequence (f o) (f s)

/-- Errors of the registry, with the types they name renumbered. -/
def renInternal (f : Nat → Nat) : RegInternal → RegInternal
  | .cyclicMetadata id => .cyclicMetadata (f id)
  | .extrinsicNoCallParam => .extrinsicNoCallParam
  | .notBitOrderType id => .notBitOrderType (f id)
  | .notBitStoreType id => .notBitStoreType (f id)
  | .typeNotResolved id => .typeNotResolved (f id)
  | .unexpectedCompactInsides id => .unexpectedCompactInsides (f id)
  | .unexpectedExtrinsicType id => .unexpectedExtrinsicType (f id)

/-- Errors of the registry, with the types they name renumbered. -/
def renReg (f : Nat → Nat) : RegErr → RegErr
  | .external => .external
  | .internal e => .internal (renInternal f e)

/-- Errors of the parser, with the types they name renumbered. -/
def renErr (f : Nat → Nat) : PErr → PErr
  | .registry e => .registry (renReg f e)
  | e => e

/-- What the registry says of a type, renumbered: path, docs and definition are the same, errors are the same. Type
parameters may differ. -/
def SameEntry (f : Nat → Nat) : Except RegErr Typ → Except RegErr Typ → Prop
  | .ok t, .ok t' => t'.path = t.path ∧ t'.docs = t.docs ∧ t'.typeDef = renDef f t.typeDef
  | .error e, .error e' => e' = renReg f e
  | _, _ => False

/-- The types that decoding of type `id` can look at: the type itself; the parts of types that are not known by their
path; the elements of arrays. -/
inductive Seen (R : Registry) (id : Nat) : Nat → Prop
  | self : Seen R id id
  | part {mid id' : Nat} {t : Typ} : Seen R id mid → R.resolve mid = .ok t → Structural t.path →
      id' ∈ partIds t → Seen R id id'
  | elem {mid id' n : Nat} {t : Typ} : Seen R id mid → R.resolve mid = .ok t → t.typeDef = .array n id' →
      Seen R id id'

/-- `f` renumbers the types of `R` that decoding of type `id` can look at: it takes no two of them to one number, and at
the new number `R'` says what `R` says at the old one. Nothing is asked of the other types. -/
structure Renumbered (f : Nat → Nat) (R R' : Registry) (id : Nat) : Prop where
  inj : ∀ x y, Seen R id x → Seen R id y → f x = f y → x = y
  same : ∀ x, Seen R id x → SameEntry f (R.resolve x) (R'.resolve (f x))

/-- Failures, with the types they name renumbered. -/
def renFail (f : Nat → Nat) : Fail → Fail
  | .err e => .err (renErr f e)
  | .panic => .panic
  | .fuel => .fuel

/-- An outcome of decoding, with the types named in errors renumbered: a value stays as it is. -/
def renRes {α : Type} (f : Nat → Nat) : Res α → Res α
  | .ok a => .ok a
  | .error e => .error (renFail f e)

/-- An outcome, with the value changed by `h` and the error by `g`. -/
def moved {ε ε' α β : Type} (g : ε → ε') (h : α → β) : Except (Out ε) α → Except (Out ε') β
  | .ok a => .ok (h a)
  | .error (.err e) => .error (.err (g e))
  | .error .panic => .error .panic
  | .error .fuel => .error .fuel

/-! ### Metadata -/

/-- A signed extension, renumbered. -/
def renExt (f : Nat → Nat) (e : SignedExt) : SignedExt := { e with ty := f e.ty, additionalSigned := f e.additionalSigned }

/-- The parts of an extrinsic, renumbered. -/
def renParams (f : Nat → Nat) (p : ExtrinsicParams) : ExtrinsicParams :=
  { addressTy := f p.addressTy, callTy := f p.callTy, signatureTy := f p.signatureTy, extraTy := f p.extraTy }

/-- `M'` is `M` with the types renumbered by `f`, as far as transactions need them: the type of calls, and the types of the
extensions; errors of the metadata are changed by `g`. -/
structure RenumberedMeta {ME ME' : Type} (f : Nat → Nat) (g : ME → ME') (M : Metadata ME) (M' : Metadata ME') : Prop where
  version : M'.specNameVersion = moved g id M.specNameVersion
  call : M'.callTy = moved g f M.callTy
  callTypes : ∀ id, M.callTy = .ok id → Renumbered f M.types M'.types id
  extensions : M'.signedExtensions = moved g (List.map (renExt f)) M.signedExtensions
  extTypes : ∀ es, M.signedExtensions = .ok es → ∀ e ∈ es,
    Renumbered f M.types M'.types e.ty ∧ Renumbered f M.types M'.types e.additionalSigned

/-- The same for unchecked extrinsics. -/
structure RenumberedParams {ME ME' : Type} (f : Nat → Nat) (g : ME → ME') (M : CompleteMetadata ME) (M' : CompleteMetadata ME') :
    Prop where
  params : M'.extrinsicTypeParams = moved g (renParams f) M.extrinsicTypeParams
  version : M'.extrinsicVersion = moved g id M.extrinsicVersion
  types : ∀ p, M.extrinsicTypeParams = .ok p → ∀ id ∈ [p.addressTy, p.callTy, p.signatureTy, p.extraTy],
    Renumbered f M.types M'.types id

/-- Errors of transactions, renumbered. -/
def renSErr {ME ME' : Type} (f : Nat → Nat) (g : ME → ME') : SErr ME → SErr ME'
  | .cutSignable => .cutSignable
  | .extensionsList e => .extensionsList e
  | .immortalHashMismatch => .immortalHashMismatch
  | .metaStructure e => .metaStructure (g e)
  | .notACall id => .notACall (f id)
  | .parsing e => .parsing (renErr f e)
  | .someDataNotUsedCall i j => .someDataNotUsedCall i j
  | .someDataNotUsedExtensions i => .someDataNotUsedExtensions i
  | .wrongGenesisHash a e => .wrongGenesisHash a e
  | .wrongSpecVersion a e => .wrongSpecVersion a e

/-- A transaction, with the types named in the error of its call renumbered. -/
def renTx {ME ME' : Type} (f : Nat → Nat) (g : ME → ME') (t : TransactionParsed ME) : TransactionParsed ME' :=
  { callResult := match t.callResult with
      | .ok c => .ok c
      | .error e => .error (renSErr f g e)
    extensions := t.extensions }

/-- Errors of unchecked extrinsics, renumbered. -/
def renUErr {ME ME' : Type} (f : Nat → Nat) (g : ME → ME') : UErr ME → UErr ME'
  | .formatNoCompact => .formatNoCompact
  | .metaStructure e => .metaStructure (g e)
  | .parsing e => .parsing (renErr f e)
  | .versionMismatch a b => .versionMismatch a b
  | .unexpectedCallTy id => .unexpectedCallTy (f id)

/-! ### Runtime metadata -/

/-- A type parameter, renumbered. -/
def renParam (f : Nat → Nat) (p : String × Option Nat) : String × Option Nat := (p.1, p.2.map f)

/-- A constant, with its type renumbered. -/
def renConstant (f : Nat → Nat) (c : Constant) : Constant := { c with ty := f c.ty }

/-- A pallet, with the types of its constants renumbered. -/
def renPallet (f : Nat → Nat) (p : Pallet) : Pallet := { p with constants := p.constants.map (renConstant f) }

/-- All types of a registry renumbered, with their parameters. -/
structure RenumberedTypes (f : Nat → Nat) (ts ts' : List Typ) : Prop where
  inj : ∀ x y, f x = f y → x = y
  same : ∀ x, SameEntry f ((Registry.portable ts).resolve x) ((Registry.portable ts').resolve (f x))
  params : ∀ (x : Nat) (t t' : Typ), ts[x]? = some t → ts'[f x]? = some t' → t'.params = t.params.map (renParam f)

/-- Errors of V14 metadata, renumbered. -/
def renV14Err (f : Nat → Nat) : V14Err → V14Err
  | .extrinsicTypeNotResolved e => .extrinsicTypeNotResolved (renInternal f e)
  | .unexpectedExtrinsicType id => .unexpectedExtrinsicType (f id)
  | e => e

/-- V14 metadata, renumbered as a whole. -/
structure RenumberedV14 (f : Nat → Nat) (m m' : V14) : Prop where
  types : RenumberedTypes f m.types m'.types
  pallets : m'.pallets = m.pallets.map (renPallet f)
  extrinsicTy : m'.extrinsicTy = f m.extrinsicTy
  extrinsicVersion : m'.extrinsicVersion = m.extrinsicVersion
  extensions : m'.signedExtensions = m.signedExtensions.map (renExt f)

/-- V15 metadata, renumbered as a whole. -/
structure RenumberedV15 (f : Nat → Nat) (m m' : V15) : Prop where
  types : RenumberedTypes f m.types m'.types
  pallets : m'.pallets = m.pallets.map (renPallet f)
  params : m'.params = renParams f m.params
  extrinsicVersion : m'.extrinsicVersion = m.extrinsicVersion
  extensions : m'.signedExtensions = m.signedExtensions.map (renExt f)

/-! ### Storage -/

/-- A storage entry, renumbered. -/
def renEntry (f : Nat → Nat) (e : Entry) : Entry :=
  { e with ty := match e.ty with
      | .plain v => .plain (f v)
      | .map hs k v => .map hs (f k) (f v) }

/-- Types that decoding of a storage entry starts from: that of the value; that of the key; its elements if it is a tuple. -/
inductive EntryType (R : Registry) : Verif.EntryType → Nat → Prop
  | plain {v : Nat} : EntryType R (.plain v) v
  | value {hs : List Hasher} {k v : Nat} : EntryType R (.map hs k v) v
  | key {hs : List Hasher} {k v : Nat} : EntryType R (.map hs k v) k
  | part {hs : List Hasher} {k v x : Nat} {t : Typ} {ids : List Nat} : R.resolve k = .ok t → t.typeDef = .tuple ids → x ∈ ids →
      EntryType R (.map hs k v) x

/-- A part of a key, with the type it names renumbered. -/
def renKeyPart (f : Nat → Nat) : KeyPart → KeyPart
  | .hash k h id => .hash k h (f id)
  | .parsed d => .parsed d

/-- A key, with the types it names renumbered. -/
def renKey (f : Nat → Nat) : KeyData → KeyData
  | .plain => .plain
  | .singleHash c => .singleHash (renKeyPart f c)
  | .tupleHash cs i => .tupleHash (cs.map (renKeyPart f)) i

/-- A storage item, with the types named in the key renumbered. -/
def renStorage (f : Nat → Nat) (s : Storage) : Storage := { s with key := renKey f s.key }

/-- Errors of storage items, renumbered. -/
def renStErr (f : Nat → Nat) : StErr → StErr
  | .parsingKey e => .parsingKey (renErr f e)
  | .parsingValue e => .parsingValue (renErr f e)
  | e => e

end Verif.Spec
