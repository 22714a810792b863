import Verif.Spec.DeviceTx
/-!
# Memory that is not to be trusted (specification)

Nothing is known of what the memory answers. It may answer the same question differently at different
times, as a slow bus with noise on it does, or an attacker who knows when the data is read.
-/
namespace Verif.Spec

/-- Memory with any answers: a read of `n` bytes inside the data yields some `n` bytes or an error, a
read outside yields an error; an id yields some type or an error. `D.size` bounds the ids that are
answered at all (there are 2^32 ids), `D.len` is what the memory says its length is. -/
structure Untrusted {σ : Type} (D : Device σ) : Prop where
  word : Fits D.word D.len
  read : ∀ pos n s, (∃ bs, (D.read pos n s).1 = .ok bs ∧ bs.length = n ∧ pos + n ≤ D.len) ∨
    ∃ e, (D.read pos n s).1 = .error (.err e)
  resolve : ∀ id s t, (D.resolve id s).1 = .ok t → id < D.size

/-- The types in the memory are those of `R`, if they are answered. Nothing is said about the data. -/
structure TellsTypes {σ : Type} (D : Device σ) (R : Registry) : Prop where
  size : D.size = R.size
  resolve : ∀ id s t, (D.resolve id s).1 = .ok t → R.resolve id = .ok t

/-- The sum of a position and a 32-bit length prefix is a machine word, or overflows silently.
On 64-bit machines this is so. -/
def PrefixFits {σ : Type} (D : Device σ) : Prop := D.word.wraps = true ∨ D.len + 2 ^ 32 ≤ D.word.cap

/-- The value is one of the type: some bytes encode it (calls, events and signatures may be told as the
plain enums they are). -/
def ValueAs (R : Registry) (id : Nat) (v : Value) : Prop := ∃ bs, EncLoose R false id v bs

/-- The call is one of the type of calls: some bytes encode it. -/
def CallAs (R : Registry) (id : Nat) (c : Call) : Prop := ∃ bs, IsCallLoose R id c bs

/-- One value for each item, of its type. -/
def ItemsAs (R : Registry) (items : List (String × Nat)) (ds : List ED) : Prop :=
  ds.length = items.length ∧ ∀ x ∈ items.zip ds, ValueAs R x.1.2 (edValue x.2)

/-- Each part of the extrinsic is a value of its type. -/
def ExtrinsicAs (R : Registry) (params : ExtrinsicParams) : UncheckedExtrinsic → Prop
  | .unsigned call => CallAs R params.callTy call
  | .signed address signature extra call => ValueAs R params.addressTy (edValue address) ∧
      ValueAs R params.signatureTy (edValue signature) ∧ ValueAs R params.extraTy (edValue extra) ∧
      CallAs R params.callTy call

/-- A key part is what its hasher makes of a value of the type: a hash of the right length, or the value. -/
def KeyPartAs (R : Registry) (h : Hasher) (ty : Nat) (p : KeyPart) : Prop :=
  match h with
  | .blake2_128 => ∃ bs : Bytes, bs.length = 16 ∧ p = .hash .blake2_128 bs ty
  | .blake2_256 => ∃ bs : Bytes, bs.length = 32 ∧ p = .hash .blake2_256 bs ty
  | .twox128 => ∃ bs : Bytes, bs.length = 16 ∧ p = .hash .twox128 bs ty
  | .twox256 => ∃ bs : Bytes, bs.length = 32 ∧ p = .hash .twox256 bs ty
  | .blake2_128Concat | .twox64Concat | .identity => ∃ d, p = .parsed d ∧ ValueAs R ty (edValue d)

/-- The key has one part for each hasher. -/
def KeyAs (R : Registry) (hashers : List Hasher) (keyTy : Nat) : KeyData → Prop
  | .plain => False
  | .singleHash part => ∃ h, hashers = [h] ∧ KeyPartAs R h keyTy part
  | .tupleHash parts info => hashers.length ≠ 1 ∧ ∃ t elems, R.resolve keyTy = .ok t ∧ t.typeDef = .tuple elems ∧
      info = Info.fromTy t ∧ parts.length = hashers.length ∧ elems.length = hashers.length ∧
      ∀ x ∈ hashers.zip (elems.zip parts), KeyPartAs R x.1 x.2.1 x.2.2

/-- Key and value are of the types of the entry. -/
def StorageAs (R : Registry) (entry : Entry) (s : Storage) : Prop :=
  s.docs = collectDocs entry.docs ∧
  match entry.ty with
  | .plain valueTy => s.key = .plain ∧ ValueAs R valueTy (edValue s.value)
  | .map hashers keyTy valueTy => KeyAs R hashers keyTy s.key ∧ ValueAs R valueTy (edValue s.value)

end Verif.Spec
