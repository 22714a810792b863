import Verif.Spec.Transaction
import Verif.Model.Storage
/-!
# Storage keys (specification)

Shared with the model are only plain data types: `Hasher`, `HashFns`, `KeyPart`,
`KeyData`, `Storage`, `Entry`.
-/
namespace Verif.Spec

/-- `bs` is the key part made by the hasher for a key of the type `ty`, and `part` is
what is shown of it. Hashers without the key keep only the hash; the concatenating
hashers keep the hash, then the key; `identity` keeps the key only. -/
inductive KeyPartIs (H : HashFns) (R : Registry) : Hasher → Nat → KeyPart → Bytes → Prop
  | blake2_128 {ty hash} : hash.length = 16 → KeyPartIs H R .blake2_128 ty (.hash .blake2_128 hash ty) hash
  | blake2_256 {ty hash} : hash.length = 32 → KeyPartIs H R .blake2_256 ty (.hash .blake2_256 hash ty) hash
  | twox128 {ty hash} : hash.length = 16 → KeyPartIs H R .twox128 ty (.hash .twox128 hash ty) hash
  | twox256 {ty hash} : hash.length = 32 → KeyPartIs H R .twox256 ty (.hash .twox256 hash ty) hash
  | blake2_128Concat {ty d k} : Enc R false ty (edValue d) k → (H.blake2_128 k).length = 16 →
      KeyPartIs H R .blake2_128Concat ty (.parsed d) (H.blake2_128 k ++ k)
  | twox64Concat {ty d k} : Enc R false ty (edValue d) k → (H.twox64 k).length = 8 →
      KeyPartIs H R .twox64Concat ty (.parsed d) (H.twox64 k ++ k)
  | identity {ty d k} : Enc R false ty (edValue d) k → KeyPartIs H R .identity ty (.parsed d) k

/-- Key parts one after another, one for every hasher and element type. -/
inductive KeyPartsAre (H : HashFns) (R : Registry) : List Hasher → List Nat → List KeyPart → Bytes → Prop
  | nil : KeyPartsAre H R [] [] [] []
  | cons {h ty part bs hs tys parts rest} : KeyPartIs H R h ty part bs → KeyPartsAre H R hs tys parts rest →
      KeyPartsAre H R (h :: hs) (ty :: tys) (part :: parts) (bs ++ rest)

/-- `bs` is the key after the prefix. One hasher takes the key as a whole; any other
number of hashers takes the elements of a tuple. -/
def KeyIs (H : HashFns) (R : Registry) (hashers : List Hasher) (keyTy : Nat) : KeyData → Bytes → Prop
  | .plain, _ => False
  | .singleHash part, bs => ∃ h, hashers = [h] ∧ KeyPartIs H R h keyTy part bs
  | .tupleHash parts info, bs => hashers.length ≠ 1 ∧ ∃ t elems, R.resolve keyTy = .ok t ∧
      t.typeDef = .tuple elems ∧ info = Info.fromTy t ∧ KeyPartsAre H R hashers elems parts bs

/-- The key and the value are those of a storage entry, and `s` shows them. -/
def StorageIs (H : HashFns) (R : Registry) (entry : Entry) (key value : Bytes) (s : Storage) : Prop :=
  s.docs = collectDocs entry.docs ∧
  match entry.ty with
  | .plain valueTy => key.length = 32 ∧ s.key = .plain ∧ Enc R false valueTy (edValue s.value) value
  | .map hashers keyTy valueTy => ∃ pre rest, key = pre ++ rest ∧ pre.length = 32 ∧
      KeyIs H R hashers keyTy s.key rest ∧ Enc R false valueTy (edValue s.value) value

/-- Same hash or same value. -/
def SamePart : KeyPart → KeyPart → Prop
  | .hash k h t, .hash k' h' t' => k = k' ∧ h = h' ∧ t = t'
  | .parsed d, .parsed d' => edValue d = edValue d'
  | _, _ => False

/-- Same parts in the same order. -/
inductive SameParts : List KeyPart → List KeyPart → Prop
  | nil : SameParts [] []
  | cons {p p' ps ps'} : SamePart p p' → SameParts ps ps' → SameParts (p :: ps) (p' :: ps')

/-- Same key up to annotations. -/
def SameKey : KeyData → KeyData → Prop
  | .plain, .plain => True
  | .singleHash p, .singleHash p' => SamePart p p'
  | .tupleHash ps i, .tupleHash ps' i' => i = i' ∧ SameParts ps ps'
  | _, _ => False

/-- Same storage entry up to annotations. -/
def SameStorage (s s' : Storage) : Prop :=
  SameKey s.key s'.key ∧ edValue s.value = edValue s'.value ∧ s.docs = s'.docs

end Verif.Spec
