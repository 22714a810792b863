import Verif.Spec.Payload
import Verif.Spec.Encoder
import Verif.Spec.Storage
import Verif.Model.Extrinsic
/-!
# A node (specification)

Programs that write extrinsics and storage entries, from values. As in `Spec/Encoder.lean`, recursion is bounded by `n`.
-/
namespace Verif.Spec

/-- An extrinsic, as values. -/
inductive ExtrinsicOf
  | signed (address signature extra : Value) (call : CallOf)
  | unsigned (call : CallOf)

/-- The extrinsic that was decoded, as values. -/
def extrinsicOf : UncheckedExtrinsic → ExtrinsicOf
  | .signed a s e c => .signed (edValue a) (edValue s) (edValue e) (callOf c)
  | .unsigned c => .unsigned (callOf c)

/-- `bs` are the encodings of the parts of the extrinsic, one after another. -/
def ExtrinsicEnc (R : Registry) (params : ExtrinsicParams) : ExtrinsicOf → Bytes → Prop
  | .signed a s e c, bs => ∃ ab sb eb cb, bs = ab ++ sb ++ eb ++ cb ∧ Enc R false params.addressTy a ab ∧
      Enc R false params.signatureTy s sb ∧ Enc R false params.extraTy e eb ∧ CallEnc R params.callTy c cb
  | .unsigned c, bs => CallEnc R params.callTy c bs

/-- The first byte of an extrinsic: the version, and 128 more if it is signed. -/
def versionByteOf (version : Nat) : ExtrinsicOf → Nat
  | .signed .. => version + 128
  | .unsigned _ => version

/-- What is shown of a part of a key: the hash, or the value. -/
inductive PartOf
  | hash (kind : HashKind) (hash : Bytes) (typeId : Nat)
  | value (v : Value)

/-- What is shown of a key. -/
inductive KeyOf
  | plain
  | single (part : PartOf)
  | tuple (parts : List PartOf)

/-- The part of a key that was decoded, as a value. -/
def partOf : KeyPart → PartOf
  | .hash k h t => .hash k h t
  | .parsed d => .value (edValue d)

/-- The key that was decoded, as values. -/
def keyOf : KeyData → KeyOf
  | .plain => .plain
  | .singleHash p => .single (partOf p)
  | .tupleHash ps _ => .tuple (ps.map partOf)

namespace Node

/-- The bytes of a call: its type is an enum. -/
def call (R : Registry) (n id : Nat) (c : CallOf) : Option Bytes :=
  match R.resolve id with
  | .ok { typeDef := .variant _, .. } => Encoder.encode R n false id (.pallet .call c.pallet c.call c.args)
  | _ => none

/-- The bytes of the parts of an extrinsic. -/
def extrinsicBody (R : Registry) (n : Nat) (params : ExtrinsicParams) : ExtrinsicOf → Option Bytes
  | .signed a s e c =>
    match Encoder.encode R n false params.addressTy a, Encoder.encode R n false params.signatureTy s,
      Encoder.encode R n false params.extraTy e, call R n params.callTy c with
    | some ab, some sb, some eb, some cb => some (ab ++ sb ++ eb ++ cb)
    | _, _, _, _ => none
  | .unsigned c => call R n params.callTy c

/-- The bytes of an extrinsic: length, version byte, parts. -/
def extrinsic {ME : Type} (M : CompleteMetadata ME) (n : Nat) (x : ExtrinsicOf) : Option Bytes :=
  match M.extrinsicTypeParams, M.extrinsicVersion with
  | .ok params, .ok version =>
    match extrinsicBody M.types n params x with
    | some body =>
      if version.toNat < 128 ∧ body.length + 1 < 2 ^ 32 then
        some (compactEncode (body.length + 1) ++ UInt8.ofNat (versionByteOf version.toNat x) :: body)
      else none
    | none => none
  | _, _ => none

/-- All hash functions of storage keys. -/
structure Hashes where
  blake2_128 : Bytes → Bytes
  blake2_256 : Bytes → Bytes
  twox64 : Bytes → Bytes
  twox128 : Bytes → Bytes
  twox256 : Bytes → Bytes

/-- The hashes have their lengths. -/
structure Hashes.Good (H : Hashes) : Prop where
  blake2_128 : ∀ b, (H.blake2_128 b).length = 16
  blake2_256 : ∀ b, (H.blake2_256 b).length = 32
  twox64 : ∀ b, (H.twox64 b).length = 8
  twox128 : ∀ b, (H.twox128 b).length = 16
  twox256 : ∀ b, (H.twox256 b).length = 32

/-- Those that the crate uses. -/
def Hashes.fns (H : Hashes) : HashFns := ⟨H.blake2_128, H.twox64⟩

/-- The bytes of a part of a key, from the encoded value. -/
def hashed (H : Hashes) : Hasher → Bytes → Bytes
  | .blake2_128, b => H.blake2_128 b
  | .blake2_256, b => H.blake2_256 b
  | .blake2_128Concat, b => H.blake2_128 b ++ b
  | .twox128, b => H.twox128 b
  | .twox256, b => H.twox256 b
  | .twox64Concat, b => H.twox64 b ++ b
  | .identity, b => b

/-- What can be seen of the value `v`, encoded as `b`, in a part of a key. -/
def seen (H : Hashes) (h : Hasher) (ty : Nat) (v : Value) (b : Bytes) : PartOf :=
  match h with
  | .blake2_128 => .hash .blake2_128 (H.blake2_128 b) ty
  | .blake2_256 => .hash .blake2_256 (H.blake2_256 b) ty
  | .twox128 => .hash .twox128 (H.twox128 b) ty
  | .twox256 => .hash .twox256 (H.twox256 b) ty
  | .blake2_128Concat | .twox64Concat | .identity => .value v

/-- Parts of a key, one for every hasher: the bytes, and what can be seen. -/
def keyParts (H : Hashes) (R : Registry) (n : Nat) : List Hasher → List Nat → List Value → Option (Bytes × List PartOf)
  | [], [], [] => some ([], [])
  | h :: hs, ty :: tys, v :: vs =>
    match Encoder.encode R n false ty v, keyParts H R n hs tys vs with
    | some b, some (rest, ps) => some (hashed H h b ++ rest, seen H h ty v b :: ps)
    | _, _ => none
  | _, _, _ => none

/-- The key of an entry, for the values `vs`: 32 bytes of the names of pallet and entry, then a part for every hasher
and value. Several hashers (or none) belong to the elements of a tuple type. -/
def key (H : Hashes) (R : Registry) (n : Nat) (pallet entryName : Bytes) (entry : Entry) (vs : List Value) :
    Option (Bytes × KeyOf) :=
  let start := H.twox128 pallet ++ H.twox128 entryName
  match entry.ty with
  | .plain _ => if vs.isEmpty then some (start, .plain) else none
  | .map [h] keyTy _ =>
    match keyParts H R n [h] [keyTy] vs with
    | some (bs, [p]) => some (start ++ bs, .single p)
    | _ => none
  | .map hs keyTy _ =>
    match R.resolve keyTy with
    | .ok { typeDef := .tuple tys, .. } => (keyParts H R n hs tys vs).map fun (bs, ps) => (start ++ bs, .tuple ps)
    | _ => none

/-- Type of the values of an entry. -/
def valueTy (entry : Entry) : Nat :=
  match entry.ty with
  | .plain ty => ty
  | .map _ _ ty => ty

end Node
end Verif.Spec
