import Verif.Spec.Leaf
import Verif.Spec.Region
/-!
# Values and their SCALE encodings, as a type registry describes them

This is the specification for soundness and completeness of decoding. It is
written as an *encoding* relation over the registry; nothing here refers to the
decoder. Shared with the model are only plain data types (registry, kinds).
-/
namespace Verif.Spec

/-- Values. Single-field structs and compacts are transparent: their value is the
value of what they hold (this is how a sequence shows its elements). Named fields
are pairs of an optional name and a value. -/
inductive Value
  | bool (v : Bool)
  | char (v : Char)
  | str (v : String)
  | uint (w : UW) (v : Nat)
  | u256 (v : Nat)
  | int (w : IW) (v : Int)
  | seq (elems : List Value)
  | tuple (elems : List Value)
  | record (fields : List (Option String × Value))
  | variant (name : String) (fields : List (Option String × Value))
  | pallet (item : PalletItem) (pallet name : String) (fields : List (Option String × Value))
  | fixed (k : FixedKind) (bytes : Bytes)
  | hash (bytes : Bytes)
  | per (k : PerKind) (v : Nat)
  | era (e : Era)
  | bits (store : BitStore) (order : BitOrder) (v : List Bool)
  | never

/-! ### Types known by their path -/

/-- Types with a layout known from their path. -/
inductive Special
  | fixed (k : FixedKind)
  | era
  | hash
  | per (k : PerKind)
  | multiSignature
  | pallet (item : PalletItem)
  | extrinsic
  deriving DecidableEq

/-- Types known by the last path segment. -/
def specialByName : List (String × Special) :=
  [("AccountId32", .fixed .id), ("AccountId20", .fixed .h160), ("H160", .fixed .h160),
   ("H256", .hash), ("H512", .fixed .h512), ("Era", .era),
   ("MultiSignature", .multiSignature),
   ("Call", .pallet .call), ("RuntimeCall", .pallet .call),
   ("Event", .pallet .event), ("RuntimeEvent", .pallet .event),
   ("Percent", .per .percent), ("PerU16", .per .perU16), ("Permill", .per .permill),
   ("Perbill", .per .perbill), ("Perquintill", .per .perquintill)]

/-- Types known by the whole path. -/
def specialByPath : List (List String × Special) :=
  [(["sp_core", "ed25519", "Public"], .fixed .publicEd25519),
   (["sp_core", "sr25519", "Public"], .fixed .publicSr25519),
   (["sp_core", "ecdsa", "Public"], .fixed .publicEcdsa),
   (["sp_core", "ed25519", "Signature"], .fixed .signatureEd25519),
   (["sp_core", "sr25519", "Signature"], .fixed .signatureSr25519),
   (["sp_core", "ecdsa", "Signature"], .fixed .signatureEcdsa),
   (["sp_runtime", "generic", "unchecked_extrinsic", "UncheckedExtrinsic"], .extrinsic)]

/-- Special type of a path. -/
def special (path : List String) : Option Special :=
  match specialByPath.lookup path with
  | some s => some s
  | none => path.getLast?.bind fun name => specialByName.lookup name

/-- The path does not fix the layout: the type definition does. -/
def Structural (path : List String) : Prop :=
  match special path with
  | some (.fixed _) | some .era | some .hash | some (.per _) => False
  | _ => True

/-! ### What a type is once wrappers are taken off -/

/-- Looking through `k` single-field structs and compacts (at most one compact on
the way; `c` says whether there was one above), the type `id` is `core`, with id
`coreId`. -/
inductive Core (R : Registry) : (c : Bool) → (id : Nat) → (c' : Bool) → (core : Typ) →
    (coreId : Nat) → (k : Nat) → Prop
  | stop {c : Bool} {id : Nat} {t : Typ} : R.resolve id = .ok t →
      (special t.path = none → (∀ f, t.typeDef ≠ .composite [f]) ∧ (∀ i, t.typeDef ≠ .compact i)) →
      Core R c id c t id 0
  | struct {c c' : Bool} {id : Nat} {t core : Typ} {f : Field} {coreId k : Nat} :
      R.resolve id = .ok t → special t.path = none → t.typeDef = .composite [f] →
      Core R c f.ty c' core coreId k → Core R c id c' core coreId (k + 1)
  | compact {c' : Bool} {id : Nat} {t core : Typ} {inner : Nat} {coreId k : Nat} :
      R.resolve id = .ok t → special t.path = none → t.typeDef = .compact inner →
      Core R true inner c' core coreId k → Core R false id c' core coreId (k + 1)

/-- The type can be looked through to a known type. -/
def Known (R : Registry) (id : Nat) : Prop :=
  ∃ c' core coreId k, Core R false id c' core coreId k

/-- Field of a `MultiSignature` variant that is shown as a signature: named by its
type name, and in fact a byte array of the right length. -/
def IsSignatureField (R : Registry) (f : Field) (k : FixedKind) : Prop :=
  ((k = .signatureEcdsa ∧ f.typeName = some "ecdsa::Signature") ∨
   (k = .signatureEd25519 ∧ f.typeName = some "ed25519::Signature") ∨
   (k = .signatureSr25519 ∧ f.typeName = some "sr25519::Signature")) ∧
  ∃ c' core coreId j elem elemTy, Core R false f.ty c' core coreId j ∧
    core.typeDef = .array k.len elem ∧ R.resolve elem = .ok elemTy ∧
    elemTy.typeDef = .primitive .u8

/-- `v` is the first variant with index `i`. -/
def Selects (vs : List Variant) (i : UInt8) (v : Variant) : Prop :=
  ∃ before after, vs = before ++ v :: after ∧ v.index = i ∧ ∀ u ∈ before, u.index ≠ i

/-- The enum type, at index `i`, is shown as a signature of kind `k`. -/
def IsSignature (R : Registry) (t : Typ) (i : UInt8) (k : FixedKind) : Prop :=
  special t.path = some .multiSignature ∧
  ∃ vs v f, t.typeDef = .variant vs ∧ Selects vs i v ∧ v.fields = [f] ∧ IsSignatureField R f k

/-- The enum type, at index `i`, is shown as a call or event of pallet `name`,
whose own enum has variants `inner`. -/
def IsPallet (R : Registry) (t : Typ) (i : UInt8) (item : PalletItem) (name : String)
    (inner : List Variant) : Prop :=
  special t.path = some (.pallet item) ∧
  ∃ vs v f t', t.typeDef = .variant vs ∧ Selects vs i v ∧ v.name = name ∧ v.fields = [f] ∧
    R.resolve f.ty = .ok t' ∧ special t'.path = some (.pallet item) ∧ t'.typeDef = .variant inner

/-- Bit order of a bit sequence type. -/
def IsBitOrder (R : Registry) (order : Nat) (o : BitOrder) : Prop :=
  ∃ t fields, R.resolve order = .ok t ∧ t.typeDef = .composite fields ∧
    ((o = .lsb0 ∧ t.path.getLast? = some "Lsb0") ∨ (o = .msb0 ∧ t.path.getLast? = some "Msb0"))

/-- Store of a bit sequence type. -/
def IsBitStore (R : Registry) (store : Nat) (s : BitStore) : Prop :=
  ∃ t p, R.resolve store = .ok t ∧ t.typeDef = .primitive p ∧
    ((s = .u8 ∧ p = .u8) ∨ (s = .u16 ∧ p = .u16) ∨ (s = .u32 ∧ p = .u32) ∨ (s = .u64 ∧ p = .u64))

/-! ### Encodings -/

/-- Unsigned integer primitive. -/
inductive IsUInt : Prim → UW → Prop
  | u8 : IsUInt .u8 .u8
  | u16 : IsUInt .u16 .u16
  | u32 : IsUInt .u32 .u32
  | u64 : IsUInt .u64 .u64
  | u128 : IsUInt .u128 .u128

/-- Signed integer primitive. -/
inductive IsInt : Prim → IW → Prop
  | i8 : IsInt .i8 .i8
  | i16 : IsInt .i16 .i16
  | i32 : IsInt .i32 .i32
  | i64 : IsInt .i64 .i64
  | i128 : IsInt .i128 .i128
  | i256 : IsInt .i256 .i256

/-- Encodings of primitives; `c`: as a compact. -/
inductive EncPrim : (c : Bool) → Prim → Value → Bytes → Prop
  | false : EncPrim false .bool (.bool false) [0]
  | true : EncPrim false .bool (.bool true) [1]
  | char (v : Char) : EncPrim false .char (.char v) (leBytes 4 v.val.toNat)
  | str (v : String) : (utf8 v).length < 2 ^ 32 → EncPrim false .str (.str v) (strEncode v)
  | uint {p : Prim} {w : UW} {v : Nat} : IsUInt p w → v < 2 ^ (8 * w.bytes) →
      EncPrim false p (.uint w v) (leBytes w.bytes v)
  | compact {p : Prim} {w : UW} {v : Nat} : IsUInt p w → v < 2 ^ (8 * w.bytes) →
      EncPrim true p (.uint w v) (compactEncode v)
  | u256 {v : Nat} : v < 2 ^ 256 → EncPrim false .u256 (.u256 v) (leBytes 32 v)
  | int {p : Prim} {w : IW} {v : Int} : IsInt p w →
      -(2 ^ (8 * w.bytes - 1) : Nat) ≤ v → v < (2 ^ (8 * w.bytes - 1) : Nat) →
      EncPrim false p (.int w v) (signedBytes w.bytes v)

/-- Values and bytes of consecutive parts. -/
abbrev Parts := List (Value × Bytes)

/-- Bytes of the parts, one after another. -/
def Parts.bytes (ps : Parts) : Bytes := ps.flatMap (·.2)

/-- Values of the parts. -/
def Parts.values (ps : Parts) : List Value := ps.map (·.1)

/-- Values of the parts with the names of the fields. -/
def Parts.named (fields : List Field) (ps : Parts) : List (Option String × Value) :=
  (fields.map (·.name)).zip ps.values

/-- `Enc R c id v bs`: `bs` is an encoding of the value `v` of the type `id`; `c`:
inside a compact. -/
inductive Enc (R : Registry) : (c : Bool) → (id : Nat) → Value → Bytes → Prop
  /- types known by path -/
  | fixed {id : Nat} {t : Typ} {k : FixedKind} {bs : Bytes} : R.resolve id = .ok t →
      special t.path = some (.fixed k) → bs.length = k.len → Enc R false id (.fixed k bs) bs
  | hash {id : Nat} {t : Typ} {bs : Bytes} : R.resolve id = .ok t →
      special t.path = some .hash → bs.length = 32 → Enc R false id (.hash bs) bs
  | era {id : Nat} {t : Typ} {e : Era} : R.resolve id = .ok t → special t.path = some .era →
      EraOk e → Enc R false id (.era e) (eraEncode e)
  | per {id : Nat} {t : Typ} {k : PerKind} {v : Nat} : R.resolve id = .ok t →
      special t.path = some (.per k) → v ≤ k.accuracy →
      Enc R false id (.per k v) (leBytes k.inner.bytes v)
  | perCompact {id : Nat} {t : Typ} {k : PerKind} {v : Nat} : R.resolve id = .ok t →
      special t.path = some (.per k) → v < 2 ^ (8 * k.inner.bytes) →
      Enc R true id (.per k (min v k.accuracy)) (compactEncode v)
  /- structs -/
  | newtype {c : Bool} {id : Nat} {t : Typ} {f : Field} {v : Value} {bs : Bytes} :
      R.resolve id = .ok t → Structural t.path → t.typeDef = .composite [f] →
      Enc R c f.ty v bs → Enc R c id v bs
  | unit {c : Bool} {id : Nat} {t : Typ} : R.resolve id = .ok t → Structural t.path →
      t.typeDef = .composite [] → Enc R c id (.record []) []
  | record {id : Nat} {t : Typ} {fields : List Field} {ps : Parts} : R.resolve id = .ok t →
      Structural t.path → t.typeDef = .composite fields → 2 ≤ fields.length →
      ps.length = fields.length →
      (∀ x ∈ (fields.map (·.ty)).zip ps, Enc R false x.1 x.2.1 x.2.2) →
      Enc R false id (.record (ps.named fields)) ps.bytes
  /- enums -/
  | never {id : Nat} {t : Typ} : R.resolve id = .ok t → Structural t.path →
      t.typeDef = .variant [] → Enc R false id .never []
  | variant {id : Nat} {t : Typ} {vs : List Variant} {v : Variant} {i : UInt8} {ps : Parts} :
      R.resolve id = .ok t → Structural t.path → t.typeDef = .variant vs → Selects vs i v →
      (∀ k, ¬ IsSignature R t i k) → (∀ item n inner, ¬ IsPallet R t i item n inner) →
      ps.length = v.fields.length →
      (∀ x ∈ (v.fields.map (·.ty)).zip ps, Enc R false x.1 x.2.1 x.2.2) →
      Enc R false id (.variant v.name (ps.named v.fields)) (i :: ps.bytes)
  | signature {id : Nat} {t : Typ} {i : UInt8} {k : FixedKind} {bs : Bytes} :
      R.resolve id = .ok t → IsSignature R t i k → bs.length = k.len →
      Enc R false id (.fixed k bs) (i :: bs)
  | pallet {id : Nat} {t : Typ} {inner : List Variant} {v : Variant} {i j : UInt8}
      {item : PalletItem} {name : String} {ps : Parts} :
      R.resolve id = .ok t → IsPallet R t i item name inner → Selects inner j v →
      ps.length = v.fields.length →
      (∀ x ∈ (v.fields.map (·.ty)).zip ps, Enc R false x.1 x.2.1 x.2.2) →
      Enc R false id (.pallet item name v.name (ps.named v.fields)) (i :: j :: ps.bytes)
  /- lists -/
  | sequence {id : Nat} {t : Typ} {elem : Nat} {ps : Parts} : R.resolve id = .ok t →
      Structural t.path → t.typeDef = .sequence elem → Known R elem → ps.length < 2 ^ 32 →
      (∀ x ∈ ps, Enc R false elem x.1 x.2) →
      Enc R false id (.seq ps.values) (compactEncode ps.length ++ ps.bytes)
  | array {id : Nat} {t : Typ} {elem : Nat} {ps : Parts} : R.resolve id = .ok t →
      Structural t.path → t.typeDef = .array ps.length elem → Known R elem →
      (∀ x ∈ ps, Enc R false elem x.1 x.2) →
      Enc R false id (.seq ps.values) ps.bytes
  /- tuples: the empty one and the one-element one may be inside a compact -/
  | tuple {c : Bool} {id : Nat} {t : Typ} {ids : List Nat} {ps : Parts} : R.resolve id = .ok t →
      Structural t.path → t.typeDef = .tuple ids → (2 ≤ ids.length → c = false) →
      ps.length = ids.length →
      (∀ x ∈ ids.zip ps, Enc R c x.1 x.2.1 x.2.2) →
      Enc R c id (.tuple ps.values) ps.bytes
  /- leaves -/
  | primitive {c : Bool} {id : Nat} {t : Typ} {p : Prim} {v : Value} {bs : Bytes} :
      R.resolve id = .ok t → Structural t.path → t.typeDef = .primitive p → EncPrim c p v bs →
      Enc R c id v bs
  | compact {id : Nat} {t : Typ} {inner : Nat} {v : Value} {bs : Bytes} : R.resolve id = .ok t →
      Structural t.path → t.typeDef = .compact inner → Enc R true inner v bs →
      Enc R false id v bs
  | bits {id : Nat} {t : Typ} {order store : Nat} {o : BitOrder} {s : BitStore} {l : List Bool}
      {bs : Bytes} : R.resolve id = .ok t → Structural t.path →
      t.typeDef = .bitSequence order store → IsBitOrder R order o → IsBitStore R store s →
      BitsEnc s o l bs → Enc R false id (.bits s o l) bs

/-- No type contains itself without an enum or a vector in between: some ranking
of type ids goes strictly down from a struct to its fields, from a tuple or array
to its elements, from a compact to its content. -/
def Ranked (R : Registry) (rk : Nat → Nat) : Prop :=
  ∀ id t, R.resolve id = .ok t →
    (∀ fields, t.typeDef = .composite fields → ∀ f ∈ fields, rk f.ty < rk id) ∧
    (∀ ids, t.typeDef = .tuple ids → ∀ i ∈ ids, rk i < rk id) ∧
    (∀ n elem, t.typeDef = .array n elem → rk elem < rk id) ∧
    (∀ inner, t.typeDef = .compact inner → rk inner < rk id)

/-- Types that are part of every value of a type: fields of a struct, elements of a tuple or an array, content
of a compact. Not: fields of enum variants, elements of vectors. -/
def TypeDef.directIds : TypeDef → List Nat
  | .composite fields => fields.map (·.ty)
  | .tuple ids => ids
  | .array _ elem => [elem]
  | .compact inner => [inner]
  | _ => []

/-- The type does not contain itself, or any type that contains itself, without an enum or a vector in
between: unfolding its direct parts comes to an end. (Types known by path have no parts.) -/
inductive Grounded (R : Registry) : Nat → Prop
  | mk {id : Nat} : (∀ t, R.resolve id = .ok t → Structural t.path → ∀ i ∈ TypeDef.directIds t.typeDef, Grounded R i) →
      Grounded R id

/-- Arrays of zero length have elements of types that do not contain themselves without an enum or a vector
in between. (Types that do contain themselves so have no values at all, save for zero-length arrays.) -/
def EmptyArraysGrounded (R : Registry) : Prop :=
  ∀ id t elem, R.resolve id = .ok t → Structural t.path → t.typeDef = .array 0 elem → Grounded R elem

end Verif.Spec
