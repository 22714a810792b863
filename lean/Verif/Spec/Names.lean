import Verif.Spec.Meaning
/-!
# Registries that differ in names only (specification)

Two registries with the same types under the same ids, but other names: of fields, of variants, of types, of the
types of fields; and other docs and type parameters.
-/
namespace Verif.Spec

/-- New names for old ones: of variants and of fields (a field may have none). -/
structure Names where
  variant : String → String
  field : Option String → Option String

/-- The lists correspond element by element. -/
inductive Matched {α β : Type} (r : α → β → Prop) : List α → List β → Prop
  | nil : Matched r [] []
  | cons {a : α} {b : β} {l : List α} {l' : List β} : r a b → Matched r l l' → Matched r (a :: l) (b :: l')

/-- The kind of signature that the type name of a field in a `MultiSignature` stands for. -/
def signatureNamed : Option String → Option FixedKind
  | some "ecdsa::Signature" => some .signatureEcdsa
  | some "ed25519::Signature" => some .signatureEd25519
  | some "sr25519::Signature" => some .signatureSr25519
  | _ => none

/-- The bit order that a type name stands for. -/
def orderNamed : Option String → Option BitOrder
  | some "Lsb0" => some .lsb0
  | some "Msb0" => some .msb0
  | _ => none

/-- The field under its new name: of the same type. Docs may differ, and the type name, unless it is the name of a
signature. -/
structure RenamedField (N : Names) (f f' : Field) : Prop where
  ty : f'.ty = f.ty
  name : f'.name = N.field f.name
  signature : signatureNamed f'.typeName = signatureNamed f.typeName

/-- The variant under its new name: with the same index and the same fields, renamed. -/
structure RenamedVariant (N : Names) (v v' : Variant) : Prop where
  index : v'.index = v.index
  name : v'.name = N.variant v.name
  fields : Matched (RenamedField N) v.fields v'.fields

/-- The same definition with other names. -/
inductive RenamedDef (N : Names) : TypeDef → TypeDef → Prop
  | composite {l l' : List Field} : Matched (RenamedField N) l l' → RenamedDef N (.composite l) (.composite l')
  | variant {l l' : List Variant} : Matched (RenamedVariant N) l l' → RenamedDef N (.variant l) (.variant l')
  | sequence (e : Nat) : RenamedDef N (.sequence e) (.sequence e)
  | array (n e : Nat) : RenamedDef N (.array n e) (.array n e)
  | tuple (ids : List Nat) : RenamedDef N (.tuple ids) (.tuple ids)
  | primitive (p : Prim) : RenamedDef N (.primitive p) (.primitive p)
  | compact (i : Nat) : RenamedDef N (.compact i) (.compact i)
  | bitSequence (o s : Nat) : RenamedDef N (.bitSequence o s) (.bitSequence o s)

/-- The same type with other names: the path may differ, but not in whether and as what it is known. -/
structure RenamedTyp (N : Names) (t t' : Typ) : Prop where
  special : Spec.special t'.path = Spec.special t.path
  order : orderNamed t'.path.getLast? = orderNamed t.path.getLast?
  typeDef : RenamedDef N t.typeDef t'.typeDef

/-- What the registries say of an id. -/
def RenamedEntry (N : Names) : Except RegErr Typ → Except RegErr Typ → Prop
  | .ok t, .ok t' => RenamedTyp N t t'
  | .error e, .error e' => e' = e
  | _, _ => False

/-- `R'` is `R` with other names. -/
structure RenamedIn (N : Names) (R R' : Registry) : Prop where
  size : R'.size = R.size
  entry : ∀ id, RenamedEntry N (R.resolve id) (R'.resolve id)

mutual
/-- The value with the new names in it. -/
def renamed (N : Names) : Value → Value
  | .seq l => .seq (renamedAll N l)
  | .tuple l => .tuple (renamedAll N l)
  | .record fs => .record (renamedFields N fs)
  | .variant n fs => .variant (N.variant n) (renamedFields N fs)
  | .pallet item p n fs => .pallet item (N.variant p) (N.variant n) (renamedFields N fs)
  | .bool v => .bool v
  | .char v => .char v
  | .str v => .str v
  | .uint w v => .uint w v
  | .u256 v => .u256 v
  | .int w v => .int w v
  | .fixed k bs => .fixed k bs
  | .hash bs => .hash bs
  | .per k v => .per k v
  | .era e => .era e
  | .bits s o l => .bits s o l
  | .never => .never
/-- Same for a list of values. -/
def renamedAll (N : Names) : List Value → List Value
  | [] => []
  | v :: vs => renamed N v :: renamedAll N vs
/-- Same for fields: values and names. -/
def renamedFields (N : Names) : List (Option String × Value) → List (Option String × Value)
  | [] => []
  | (n, v) :: fs => (N.field n, renamed N v) :: renamedFields N fs
end

/-- The outcome with the new names in the value; positions and errors are as they were. -/
def renamedOutcome (N : Names) (r : Res (Value × Nat)) : Res (Value × Nat) :=
  match r with
  | .ok (v, q) => .ok (renamed N v, q)
  | .error e => .error e

end Verif.Spec
