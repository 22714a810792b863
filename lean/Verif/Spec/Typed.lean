import Verif.Spec.Value
/-!
# The values of a type (specification)

What the values of a type are, without a word about bytes.
-/
namespace Verif.Spec

/-- Values of primitives; `c`: as a compact. -/
inductive PrimTyped : (c : Bool) → Prim → Value → Prop
  | bool (v : Bool) : PrimTyped false .bool (.bool v)
  | char (v : Char) : PrimTyped false .char (.char v)
  | str (v : String) : (utf8 v).length < 2 ^ 32 → PrimTyped false .str (.str v)
  | uint (c : Bool) {p : Prim} {w : UW} {v : Nat} : IsUInt p w → v < 2 ^ (8 * w.bytes) → PrimTyped c p (.uint w v)
  | u256 {v : Nat} : v < 2 ^ 256 → PrimTyped false .u256 (.u256 v)
  | int {p : Prim} {w : IW} {v : Int} : IsInt p w →
      -(2 ^ (8 * w.bytes - 1) : Nat) ≤ v → v < (2 ^ (8 * w.bytes - 1) : Nat) → PrimTyped false p (.int w v)

/-- Values with the names of their fields. -/
def named (fields : List Field) (vs : List Value) : List (Option String × Value) := (fields.map (·.name)).zip vs

/-- `Typed R c id v`: `v` is a value of the type `id`; `c`: inside a compact. -/
inductive Typed (R : Registry) : (c : Bool) → (id : Nat) → Value → Prop
  /- types known by path -/
  | fixed {id : Nat} {t : Typ} {k : FixedKind} {bs : Bytes} : R.resolve id = .ok t →
      special t.path = some (.fixed k) → bs.length = k.len → Typed R false id (.fixed k bs)
  | hash {id : Nat} {t : Typ} {bs : Bytes} : R.resolve id = .ok t →
      special t.path = some .hash → bs.length = 32 → Typed R false id (.hash bs)
  | era {id : Nat} {t : Typ} {e : Era} : R.resolve id = .ok t → special t.path = some .era →
      EraOk e → Typed R false id (.era e)
  | per {c : Bool} {id : Nat} {t : Typ} {k : PerKind} {v : Nat} : R.resolve id = .ok t →
      special t.path = some (.per k) → v ≤ k.accuracy → Typed R c id (.per k v)
  /- structs: with one field, the value of the field -/
  | newtype {c : Bool} {id : Nat} {t : Typ} {f : Field} {v : Value} : R.resolve id = .ok t →
      Structural t.path → t.typeDef = .composite [f] → Typed R c f.ty v → Typed R c id v
  | unit {c : Bool} {id : Nat} {t : Typ} : R.resolve id = .ok t → Structural t.path →
      t.typeDef = .composite [] → Typed R c id (.record [])
  | record {id : Nat} {t : Typ} {fields : List Field} {vs : List Value} : R.resolve id = .ok t →
      Structural t.path → t.typeDef = .composite fields → 2 ≤ fields.length →
      vs.length = fields.length → (∀ x ∈ (fields.map (·.ty)).zip vs, Typed R false x.1 x.2) →
      Typed R false id (.record (named fields vs))
  /- enums -/
  | never {id : Nat} {t : Typ} : R.resolve id = .ok t → Structural t.path →
      t.typeDef = .variant [] → Typed R false id .never
  | variant {id : Nat} {t : Typ} {us : List Variant} {u : Variant} {i : UInt8} {vs : List Value} :
      R.resolve id = .ok t → Structural t.path → t.typeDef = .variant us → Selects us i u →
      (∀ k, ¬ IsSignature R t i k) → (∀ item n inner, ¬ IsPallet R t i item n inner) →
      vs.length = u.fields.length → (∀ x ∈ (u.fields.map (·.ty)).zip vs, Typed R false x.1 x.2) →
      Typed R false id (.variant u.name (named u.fields vs))
  | signature {id : Nat} {t : Typ} {i : UInt8} {k : FixedKind} {bs : Bytes} :
      R.resolve id = .ok t → IsSignature R t i k → bs.length = k.len → Typed R false id (.fixed k bs)
  | pallet {id : Nat} {t : Typ} {inner : List Variant} {u : Variant} {i j : UInt8}
      {item : PalletItem} {name : String} {vs : List Value} :
      R.resolve id = .ok t → IsPallet R t i item name inner → Selects inner j u →
      vs.length = u.fields.length → (∀ x ∈ (u.fields.map (·.ty)).zip vs, Typed R false x.1 x.2) →
      Typed R false id (.pallet item name u.name (named u.fields vs))
  /- lists -/
  | sequence {id : Nat} {t : Typ} {elem : Nat} {vs : List Value} : R.resolve id = .ok t →
      Structural t.path → t.typeDef = .sequence elem → Known R elem → vs.length < 2 ^ 32 →
      (∀ v ∈ vs, Typed R false elem v) → Typed R false id (.seq vs)
  | array {id : Nat} {t : Typ} {elem : Nat} {vs : List Value} : R.resolve id = .ok t →
      Structural t.path → t.typeDef = .array vs.length elem → Known R elem →
      (∀ v ∈ vs, Typed R false elem v) → Typed R false id (.seq vs)
  | tuple {c : Bool} {id : Nat} {t : Typ} {ids : List Nat} {vs : List Value} : R.resolve id = .ok t →
      Structural t.path → t.typeDef = .tuple ids → (2 ≤ ids.length → c = false) →
      vs.length = ids.length → (∀ x ∈ ids.zip vs, Typed R c x.1 x.2) → Typed R c id (.tuple vs)
  /- leaves -/
  | primitive {c : Bool} {id : Nat} {t : Typ} {p : Prim} {v : Value} : R.resolve id = .ok t →
      Structural t.path → t.typeDef = .primitive p → PrimTyped c p v → Typed R c id v
  | compact {id : Nat} {t : Typ} {inner : Nat} {v : Value} : R.resolve id = .ok t →
      Structural t.path → t.typeDef = .compact inner → Typed R true inner v → Typed R false id v
  | bits {id : Nat} {t : Typ} {order store : Nat} {o : BitOrder} {s : BitStore} {l : List Bool} :
      R.resolve id = .ok t → Structural t.path → t.typeDef = .bitSequence order store →
      IsBitOrder R order o → IsBitStore R store s → l.length ≤ 0x1fffffff → Typed R false id (.bits s o l)

end Verif.Spec
