import Verif.Spec.Node
import Verif.Spec.Canonical
/-!
# Storage entries read back (specification)
-/
namespace Verif.Spec

/-- The same length, and the same from position `k` on: bytes and failing reads. -/
structure SameFrom (k : Nat) (b b' : Buf) : Prop where
  len : b'.bytes.length = b.bytes.length
  data : b'.bytes.drop k = b.bytes.drop k
  fault : ∀ p n, k ≤ p → b'.fault p n = b.fault p n

/-- The bytes of a part of a key from what is shown of it: a hash is there as it is; a value is encoded, and hashed
as the hasher says. -/
def shownPart (H : HashFns) (R : Registry) (n : Nat) (h : Hasher) (ty : Nat) : PartOf → Option Bytes
  | .hash _ hash _ => some hash
  | .value v =>
    match Encoder.encode R n false ty v with
    | some b =>
      match h with
      | .blake2_128Concat => some (H.blake2_128 b ++ b)
      | .twox64Concat => some (H.twox64 b ++ b)
      | .identity => some b
      | _ => none
    | none => none

/-- Parts one after another. -/
def shownParts (H : HashFns) (R : Registry) (n : Nat) : List Hasher → List Nat → List PartOf → Option Bytes
  | [], [], [] => some []
  | h :: hs, ty :: tys, p :: ps =>
    match shownPart H R n h ty p, shownParts H R n hs tys ps with
    | some b, some rest => some (b ++ rest)
    | _, _ => none
  | _, _, _ => none

/-- The key after its first 32 bytes, from what is shown of it. -/
def shownKey (H : HashFns) (R : Registry) (n : Nat) (entry : Entry) (k : KeyOf) : Option Bytes :=
  match entry.ty, k with
  | .plain _, .plain => some []
  | .map [h] keyTy _, .single p => shownPart H R n h keyTy p
  | .map hs keyTy _, .tuple ps =>
    match R.resolve keyTy with
    | .ok { typeDef := .tuple tys, .. } => shownParts H R n hs tys ps
    | _ => none
  | _, _ => none

/-- The values shown leave no freedom to who writes them. -/
def PartOf.Firm : PartOf → Prop
  | .hash .. => True
  | .value v => Spec.Firm v

/-- All values shown of a key leave no freedom. -/
def KeyOf.Firm : KeyOf → Prop
  | .plain => True
  | .single p => p.Firm
  | .tuple ps => ∀ p ∈ ps, p.Firm

end Verif.Spec
