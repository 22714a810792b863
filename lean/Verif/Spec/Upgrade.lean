import Verif.Model.Extrinsic
import Verif.Model.Storage
import Verif.Spec.Renaming
/-!
# Metadata that knows more variants (specification)

Runtime upgrades that add pallets, calls, events, errors or other enum variants, and types, and leave the
rest as it was.
-/
namespace Verif.Spec

/-- Every index that stood for a variant stands for the same variant. Others may have been added, at any
place in the list. -/
def KeepsVariants (vs vs' : List Variant) : Prop := ∀ i v, Selects vs i v → Selects vs' i v

/-- What a newer registry says of a type: path and docs are the same; the definition is the same, or both
are enums and the newer has more variants. (An enum without variants stays as it is: it takes no bytes at
all.) Type parameters may differ. -/
def GrownTyp (t t' : Typ) : Prop :=
  t'.path = t.path ∧ t'.docs = t.docs ∧
  (t'.typeDef = t.typeDef ∨
    ∃ vs vs', t.typeDef = .variant vs ∧ t'.typeDef = .variant vs' ∧ vs ≠ [] ∧ KeepsVariants vs vs')

/-- Answers of the older and of the newer registry. -/
def GrownEntry : Except RegErr Typ → Except RegErr Typ → Prop
  | .ok t, .ok t' => GrownTyp t t'
  | .error e, .error e' => e' = e
  | _, _ => False

/-- `R'` is newer than `R`, as far as decoding of type `id` with `R` can look. Nothing is asked of
other types. -/
def Upgraded (R R' : Registry) (id : Nat) : Prop := ∀ x, Seen R id x → GrownEntry (R.resolve x) (R'.resolve x)

/-- The newer outcome is the older, or the older is an error for which `isNew` holds. -/
def SameUnless {ε α : Type} (isNew : ε → Prop) (old new : Except (Out ε) α) : Prop :=
  new = old ∨ ∃ e, isNew e ∧ old = .error (.err e)

/-- The newer outcome is the older, or the older is this error: an enum index that the older metadata does
not know. -/
def SameUnlessNewVariant {α : Type} (old new : Res α) : Prop :=
  new = old ∨ ∃ pos, old = .error (.err (.unexpectedEnumVariant pos))

/-- Metadata for transactions, as far as it is used: only enums have grown. -/
structure UpgradedMeta {ME : Type} (M M' : Metadata ME) : Prop where
  version : M'.specNameVersion = M.specNameVersion
  call : M'.callTy = M.callTy
  callTypes : ∀ id, M.callTy = .ok id → Upgraded M.types M'.types id
  extensions : M'.signedExtensions = M.signedExtensions
  extTypes : ∀ es, M.signedExtensions = .ok es → ∀ e ∈ es,
    Upgraded M.types M'.types e.ty ∧ Upgraded M.types M'.types e.additionalSigned

/-- Metadata for extrinsics, as far as it is used. -/
structure UpgradedParams {ME : Type} (M M' : CompleteMetadata ME) : Prop where
  params : M'.extrinsicTypeParams = M.extrinsicTypeParams
  version : M'.extrinsicVersion = M.extrinsicVersion
  types : ∀ p, M.extrinsicTypeParams = .ok p → ∀ id ∈ [p.addressTy, p.callTy, p.signatureTy, p.extraTy],
    Upgraded M.types M'.types id

/-- Errors of transactions that say that an enum index is not known. -/
def NewInTransaction {ME : Type} : SErr ME → Prop
  | .parsing (.unexpectedEnumVariant _) => True
  | _ => False

/-- The newer transaction is the older; or the older has no call, because of an enum index that is not
known, and the same extensions. -/
def SameTxUnless {ME : Type} (old new : TransactionParsed ME) : Prop :=
  new.extensions = old.extensions ∧
  (new.callResult = old.callResult ∨ ∃ e, NewInTransaction e ∧ old.callResult = .error e)

/-- Outcomes of `parse_transaction`. -/
def SameParsedUnless {ME : Type} (old new : SRes ME (TransactionParsed ME)) : Prop :=
  (∃ t t', old = .ok t ∧ new = .ok t' ∧ SameTxUnless t t') ∨ SameUnless NewInTransaction old new

/-- Errors of extrinsics that say that an enum index is not known. -/
def NewInExtrinsic {ME : Type} : UErr ME → Prop
  | .parsing (.unexpectedEnumVariant _) => True
  | _ => False

/-- Errors of storage entries that say that an enum index is not known. -/
def NewInStorage : StErr → Prop
  | .parsingKey (.unexpectedEnumVariant _) => True
  | .parsingValue (.unexpectedEnumVariant _) => True
  | _ => False

/-! ### The same, with the types renumbered

Runtime upgrades usually give the types other numbers. -/

/-- What a newer registry says of a type, in which type `x` is numbered `f x`. -/
def GrownTypBy (f : Nat → Nat) (t t' : Typ) : Prop :=
  t'.path = t.path ∧ t'.docs = t.docs ∧
  (t'.typeDef = renDef f t.typeDef ∨
    ∃ vs vs', t.typeDef = .variant vs ∧ t'.typeDef = .variant vs' ∧ vs ≠ [] ∧ KeepsVariants (vs.map (renVariant f)) vs')

/-- Answers of the older and of the newer registry. -/
def GrownEntryBy (f : Nat → Nat) : Except RegErr Typ → Except RegErr Typ → Prop
  | .ok t, .ok t' => GrownTypBy f t t'
  | .error e, .error e' => e' = renReg f e
  | _, _ => False

/-- `R'` is newer than `R` on the types for which `sees` holds, which are numbered by `f`, no two of them
alike. -/
structure UpgradedBy (f : Nat → Nat) (R R' : Registry) (sees : Nat → Prop) : Prop where
  inj : ∀ x y, sees x → sees y → f x = f y → x = y
  grown : ∀ x, sees x → GrownEntryBy f (R.resolve x) (R'.resolve (f x))

/-- The types that decoding of transactions can look at. -/
inductive TxSees {ME : Type} (M : Metadata ME) : Nat → Prop
  | call {id x : Nat} : M.callTy = .ok id → Seen M.types id x → TxSees M x
  | ext {es : List SignedExt} {e : SignedExt} {x : Nat} : M.signedExtensions = .ok es → e ∈ es → Seen M.types e.ty x → TxSees M x
  | additional {es : List SignedExt} {e : SignedExt} {x : Nat} : M.signedExtensions = .ok es → e ∈ es →
      Seen M.types e.additionalSigned x → TxSees M x

/-- Metadata for transactions: only enums have grown, and types are renumbered. -/
structure UpgradedMetaBy {ME ME' : Type} (f : Nat → Nat) (g : ME → ME') (M : Metadata ME) (M' : Metadata ME') : Prop where
  version : M'.specNameVersion = moved g id M.specNameVersion
  call : M'.callTy = moved g f M.callTy
  extensions : M'.signedExtensions = moved g (List.map (renExt f)) M.signedExtensions
  types : UpgradedBy f M.types M'.types (TxSees M)

/-- The types that decoding of extrinsics can look at. -/
def ExtrinsicSees {ME : Type} (M : CompleteMetadata ME) (x : Nat) : Prop :=
  ∃ p, M.extrinsicTypeParams = .ok p ∧ ∃ id ∈ [p.addressTy, p.callTy, p.signatureTy, p.extraTy], Seen M.types id x

/-- Metadata for extrinsics: only enums have grown, and types are renumbered. -/
structure UpgradedParamsBy {ME ME' : Type} (f : Nat → Nat) (g : ME → ME') (M : CompleteMetadata ME) (M' : CompleteMetadata ME') :
    Prop where
  params : M'.extrinsicTypeParams = moved g (renParams f) M.extrinsicTypeParams
  version : M'.extrinsicVersion = moved g id M.extrinsicVersion
  types : UpgradedBy f M.types M'.types (ExtrinsicSees M)

/-- The types that decoding of a storage entry can look at. -/
def EntrySees (R : Registry) (e : Entry) (x : Nat) : Prop := ∃ id, EntryType R e.ty id ∧ Seen R id x

end Verif.Spec
