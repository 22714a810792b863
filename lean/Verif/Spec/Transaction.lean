import Verif.Spec.Meaning
import Verif.Spec.Shown
import Verif.Model.Transaction
/-!
# Calls and extensions (specification)

Shared with the model are only plain data types: `Call`, `SignedExt`, `ED`.
-/
namespace Verif.Spec

/-- `bs` is the encoding of the call `c`, as the enums of the call type `id` describe
it: the first byte selects the pallet, the second byte selects the call of the
pallet, then the fields follow. -/
def IsCall (R : Registry) (id : Nat) (c : Call) (bs : Bytes) : Prop :=
  ∃ (t : Typ) (i j : UInt8) (inner : List Variant) (v : Variant) (ps : Parts),
    R.resolve id = .ok t ∧ IsPallet R t i .call c.palletName inner ∧
    Selects inner j v ∧ c.variantName = v.name ∧ ps.length = v.fields.length ∧
    (∀ x ∈ (v.fields.map (·.ty)).zip ps, Enc R false x.1 x.2.1 x.2.2) ∧
    fdsValue c.fields = Parts.named v.fields ps ∧ bs = i :: j :: ps.bytes

/-- Label given by the identifier of a signed extension. -/
def extLabel (identifier : String) : Hint :=
  ([("CheckSpecVersion", Hint.checkSpecVersion), ("CheckTxVersion", .checkTxVersion),
    ("CheckGenesis", .checkGenesis), ("CheckMortality", .checkMortality), ("CheckNonce", .checkNonce),
    ("ChargeAssetTxPayment", .chargeAssetTxPayment),
    ("ChargeTransactionPayment", .chargeTransactionPayment)].lookup identifier).getD .none

/-- Parts of the extensions in their order: the types of all signed extensions, then
the additional signed types of all, each with the identifier. -/
def extItems (signed : List SignedExt) : List (String × Nat) :=
  signed.map (fun e => (e.identifier, e.ty)) ++ signed.map (fun e => (e.identifier, e.additionalSigned))

/-- `bs` is the encoding of the items, one after another, without gaps, into the data
`ds`. -/
def ItemsAre (R : Registry) (items : List (String × Nat)) (ds : List ED) (bs : Bytes) : Prop :=
  ∃ chunks : List Bytes, chunks.flatten = bs ∧ chunks.length = items.length ∧ ds.length = items.length ∧
    ∀ x ∈ items.zip (ds.zip chunks), Enc R false x.1.2 (edValue x.2.1) x.2.2 ∧
      Shown R (extLabel x.1.1) [] x.1.2 x.2.1

/-- Data looked at by the checks for one extension: the data itself if it is not a
struct, the field of a single-field struct, else nothing. -/
def lookAt : PD → Option PD
  | .composite [f] => some f.data.data
  | .composite _ => none
  | d => some d

/-- Data of the extensions that are looked at by the checks. -/
def lookedAt (exts : List ED) : List PD := exts.filterMap fun e => lookAt e.data

/-- Spec versions among the data. -/
def specVersions (l : List PD) : List Nat :=
  l.filterMap fun d => match d with | .uint _ v .specVersion => some v | _ => none

/-- Genesis hashes among the data. -/
def genesisHashes (l : List PD) : List Bytes :=
  l.filterMap fun d => match d with | .genesisHash h => some h | _ => none

/-- Block hashes among the data. -/
def blockHashes (l : List PD) : List Bytes :=
  l.filterMap fun d => match d with | .blockHash h => some h | _ => none

/-- Eras among the data. -/
def eras (l : List PD) : List Era :=
  l.filterMap fun d => match d with | .era e => some e | _ => none

/-- What is asked of the extensions. -/
structure Accepted (exts : List ED) (version : String) (expected : Option Bytes) : Prop where
  specVersion : ∃ v, specVersions (lookedAt exts) = [v] ∧ toString v = version
  genesis : ∃ g, genesisHashes (lookedAt exts) = [g] ∧ ∀ e, expected = some e → g = e
  oneEra : (eras (lookedAt exts)).length ≤ 1
  oneBlockHash : (blockHashes (lookedAt exts)).length ≤ 1
  immortal : Era.immortal ∈ eras (lookedAt exts) → ∀ h ∈ blockHashes (lookedAt exts),
    ∀ g ∈ genesisHashes (lookedAt exts), h = g

/-- The type is such, or is a single-field struct around such a type. -/
def Holds (R : Registry) (id : Nat) (P : Typ → Prop) : Prop :=
  ∃ t, R.resolve id = .ok t ∧
    (P t ∨ (Structural t.path ∧ ∃ f t', t.typeDef = .composite [f] ∧ R.resolve f.ty = .ok t' ∧ P t'))

/-- Unsigned integer type of the width. -/
def IsUIntTy (w : UW) (t : Typ) : Prop := Structural t.path ∧ ∃ p, t.typeDef = .primitive p ∧ IsUInt p w

/-- 32-byte hash type. -/
def IsHashTy (t : Typ) : Prop := special t.path = some .hash

/-- Era type. -/
def IsEraTy (t : Typ) : Prop := special t.path = some .era

end Verif.Spec
