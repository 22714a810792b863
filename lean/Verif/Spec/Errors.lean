import Verif.Spec.Value
/-!
# What an error says (specification)

Every error carries a position in the data, or a type of the registry. This says when such
a report is true.
-/
namespace Verif.Spec

/-! ### Types inside types -/

/-- The type `id` has a part of the type `j`, with no enum and no vector in between. -/
inductive Part (R : Registry) : (id j : Nat) → Prop
  | field {id : Nat} {t : Typ} {fields : List Field} {f : Field} : R.resolve id = .ok t →
      t.typeDef = .composite fields → f ∈ fields → Part R id f.ty
  | tuple {id j : Nat} {t : Typ} {ids : List Nat} : R.resolve id = .ok t → t.typeDef = .tuple ids →
      j ∈ ids → Part R id j
  | array {id j : Nat} {t : Typ} {n : Nat} : R.resolve id = .ok t → t.typeDef = .array n j → Part R id j
  | compact {id j : Nat} {t : Typ} : R.resolve id = .ok t → t.typeDef = .compact j → Part R id j

/-- Part of a part of … -/
inductive Within (R : Registry) : (id j : Nat) → Prop
  | part {id j : Nat} : Part R id j → Within R id j
  | step {id i j : Nat} : Within R id i → Part R i j → Within R id j

/-! ### Types named in errors -/

/-- Types named in `TypeFailure`. -/
inductive Named
  | bool | char | str | era
  | per (k : PerKind)
  | bits (s : BitStore) (o : BitOrder)

/-- Their names. -/
def Named.name : Named → String
  | .bool => "bool"
  | .char => "char"
  | .str => "str"
  | .era => "Era"
  | .per .perU16 => "PerU16"
  | .per .percent => "Percent"
  | .per .permill => "Permill"
  | .per .perbill => "Perbill"
  | .per .perquintill => "Perquintill"
  | .bits .u8 .lsb0 => "BitVec<u8, Lsb0>"
  | .bits .u16 .lsb0 => "BitVec<u16, Lsb0>"
  | .bits .u32 .lsb0 => "BitVec<u32, Lsb0>"
  | .bits .u64 .lsb0 => "BitVec<u64, Lsb0>"
  | .bits .u8 .msb0 => "BitVec<u8, Msb0>"
  | .bits .u16 .msb0 => "BitVec<u16, Msb0>"
  | .bits .u32 .msb0 => "BitVec<u32, Msb0>"
  | .bits .u64 .msb0 => "BitVec<u64, Msb0>"

/-- Their encodings. -/
inductive Named.Enc : Named → Bytes → Prop
  | bool {v : Value} {bs : Bytes} : EncPrim false .bool v bs → Named.bool.Enc bs
  | char {v : Value} {bs : Bytes} : EncPrim false .char v bs → Named.char.Enc bs
  | str {v : Value} {bs : Bytes} : EncPrim false .str v bs → Named.str.Enc bs
  | era {e : Era} : EraOk e → Named.era.Enc (eraEncode e)
  | per {k : PerKind} {v : Nat} : v ≤ k.accuracy → (Named.per k).Enc (leBytes k.inner.bytes v)
  | bits {s : BitStore} {o : BitOrder} {l : List Bool} {bs : Bytes} : BitsEnc s o l bs →
      (Named.bits s o).Enc bs

/-! ### True reports -/

/-- A true report about the registry. -/
inductive TrueOfTypes (R : Registry) : RegErr → Prop
  /-- what the registry itself answered -/
  | unresolved {id : Nat} {e : RegErr} : R.resolve id = .error e → TrueOfTypes R e
  /-- the type contains itself -/
  | cyclic {id : Nat} : Within R id id → TrueOfTypes R (.internal (.cyclicMetadata id))
  /-- the type is a compact, and nothing it could hold has a compact encoding -/
  | compact {id inner : Nat} {t : Typ} : R.resolve id = .ok t → t.typeDef = .compact inner →
      (∀ v bs, ¬ Enc R true inner v bs) → TrueOfTypes R (.internal (.unexpectedCompactInsides id))
  /-- the type is a bit sequence whose order is not a bit order -/
  | bitOrder {id order store : Nat} {t : Typ} : R.resolve id = .ok t →
      t.typeDef = .bitSequence order store → (∀ o, ¬ IsBitOrder R order o) →
      TrueOfTypes R (.internal (.notBitOrderType id))
  /-- the type is a bit sequence whose store is not an unsigned integer up to 64 bits -/
  | bitStore {id order store : Nat} {t : Typ} : R.resolve id = .ok t →
      t.typeDef = .bitSequence order store → (∀ s, ¬ IsBitStore R store s) →
      TrueOfTypes R (.internal (.notBitStoreType id))

/-- A true report about the data `b`, read from the position `start` on. -/
inductive TrueOf (R : Registry) (b : Buf) (start : Nat) : PErr → Prop
  /-- the position is past the end -/
  | outOfRange {p : Nat} : start ≤ p → b.bytes.length < p →
      TrueOf R b start (.buffer (.outOfRange p b.bytes.length))
  /-- the position is in the data, but that many bytes are not -/
  | tooShort {p n : Nat} : start ≤ p → p ≤ b.bytes.length → b.bytes.length < p + n →
      TrueOf R b start (.buffer (.dataTooShort p n))
  /-- the memory failed on bytes that are in the data -/
  | memory {p n : Nat} : p + n ≤ b.bytes.length → b.fault p n = true → TrueOf R b start (.buffer .external)
  /-- at the position there is no compact number of a width -/
  | noCompact {p : Nat} {w : UW} : start ≤ p → p ≤ b.bytes.length →
      (∀ v, v < 2 ^ (8 * w.bytes) → ¬ At b.bytes p (compactEncode v)) → TrueOf R b start (.noCompact p)
  /-- at the position there is no value of the named type -/
  | typeFailure {p : Nat} {ty : Named} : start ≤ p → p < b.bytes.length → (∀ bs, ty.Enc bs → ¬ At b.bytes p bs) →
      TrueOf R b start (.typeFailure p ty.name)
  /-- at the position there is a byte that is no index of some enum of the registry -/
  | enumVariant {p : Nat} {i : UInt8} {id : Nat} {t : Typ} {vs : List Variant} : start ≤ p →
      b.bytes[p]? = some i → R.resolve id = .ok t → t.typeDef = .variant vs → (∀ v ∈ vs, v.index ≠ i) →
      TrueOf R b start (.unexpectedEnumVariant p)
  | registry {e : RegErr} : TrueOfTypes R e → TrueOf R b start (.registry e)

end Verif.Spec
