import Verif.Spec.Canonical
import Verif.Spec.Shortened
import Verif.Spec.DeviceTx
/-!
# Checks of registries

Some theorems assume something of the registry that holds of registries made by Rust compilers.
These are programs that check the assumptions for a given list of types; `Props/Checkers.lean` proves
that a registry that passes has the property. `Verif/Test/Conformance.lean` runs them on the metadata
of real chains.
-/
namespace Verif.Spec.Check

/-- In the enum `vs`, `key` tells the variants apart. -/
def distinctBy {κ : Type} [BEq κ] (key : Variant → κ) (vs : List Variant) : Bool :=
  vs.all fun v => vs.all fun w => !(key v == key w) || decide (v = w)

/-- Check of `NamesDistinct`. -/
def namesDistinct (ts : List Typ) : Bool :=
  ts.all fun t => match t.typeDef with | .variant vs => distinctBy (·.name) vs | _ => true

/-- Check of `IndicesDistinct`. -/
def indicesDistinct (ts : List Typ) : Bool :=
  ts.all fun t => match t.typeDef with | .variant vs => distinctBy (·.index) vs | _ => true

/-- Check of `LeavesNameless` (and so of `ArraysNameless`). -/
def leavesNameless (ts : List Typ) : Bool :=
  ts.all fun t => match t.typeDef with | .array _ _ => t.path.isEmpty | .primitive _ => t.path.isEmpty | _ => true

/-- Type names of the fields of variants with a single field, with the index of the variant. -/
def loneFields (vs : List Variant) : List (Option String × UInt8) :=
  vs.filterMap fun v => match v.fields with | [f] => some (f.typeName, v.index) | _ => none

/-- Check of `SignaturesDistinct`. -/
def signaturesDistinct (ts : List Typ) : Bool :=
  ts.all fun t => match t.typeDef with
    | .variant vs => special t.path != some .multiSignature ||
      (loneFields vs).all fun a => (loneFields vs).all fun b => a.1 != b.1 || a.2 == b.2
    | _ => true

/-- `rk` is a ranking for `Ranked`; ids without a type have any rank. -/
def ranked (ts : List Typ) (rk : Nat → Nat) : Bool :=
  (ts.zipIdx).all fun (t, id) => match t.typeDef with
    | .composite fields => fields.all fun f => rk f.ty < rk id
    | .tuple ids => ids.all fun i => rk i < rk id
    | .array _ elem => rk elem < rk id
    | .compact inner => rk inner < rk id
    | _ => true

/-- Within `n` steps through structs with a single field, the type `id` turns out not to be an array. -/
def notArray (ts : List Typ) : Nat → Nat → Bool
  | 0, _ => false
  | n + 1, id =>
    match ts[id]? with
    | none => true
    | some t =>
      match t.typeDef with
      | .array _ _ => false
      | .composite [f] => (special t.path).isSome || notArray ts n f.ty
      | _ => true

/-- Check of `NoCompactArray`. -/
def noCompactArray (ts : List Typ) : Bool :=
  ts.all fun t => match t.typeDef with | .compact inner => notArray ts (ts.length + 1) inner | _ => true

/-- Check of `PalletsNonempty`. -/
def palletsNonempty (ts : List Typ) : Bool :=
  ts.all fun t => match t.typeDef, special t.path with
    | .variant vs, some (.pallet item) =>
      vs.all fun v => match v.fields with
        | [f] => match ts[f.ty]? with
          | some { path, typeDef := .variant [], .. } => special path != some (.pallet item)
          | _ => true
        | _ => true
    | _, _ => true


/-- The type may have a label: call, event, signature. -/
def labelled (t : Typ) : Bool :=
  match t.typeDef, special t.path with
  | .variant _, some .multiSignature => true
  | .variant _, some (.pallet _) => true
  | _, _ => false

/-- The path does not fix the layout. -/
def structural (path : List String) : Bool :=
  match special path with
  | some (.fixed _) | some .era | some .hash | some (.per _) => false
  | _ => true

/-- Within `n` steps, unfolding the type `id` through its direct parts comes to an end. -/
def grounded (ts : List Typ) : Nat → Nat → Bool
  | 0, _ => false
  | n + 1, id =>
    match ts[id]? with
    | none => true
    | some t => !structural t.path || (TypeDef.directIds t.typeDef).all (grounded ts n)

/-- Check of `EmptyArraysGrounded`. -/
def emptyArrays (ts : List Typ) : Bool :=
  ts.all fun t => match t.typeDef with | .array 0 elem => grounded ts (ts.length + 1) elem | _ => true

/-- Check of `Regular`. -/
def regular (ts : List Typ) : Bool :=
  emptyArrays ts && leavesNameless ts && noCompactArray ts

/-- The set `ids` is closed under parts, and none of its types has a label. -/
def plainSet (ts : List Typ) (ids : List Nat) : Bool :=
  ids.all fun id => match ts[id]? with
    | none => true
    | some t => !labelled t && (!structural t.path || (partIds t).all ids.contains)

/-- Check of `LabelFree` for all of `roots`. -/
def labelFree (ts : List Typ) (ids roots : List Nat) : Bool := plainSet ts ids && roots.all ids.contains

/-- Within `n` levels it turns out that values of the type `id` take at least one byte. -/
def takesBytes (ts : List Typ) : Nat → Nat → Bool
  | 0, _ => false
  | n + 1, id =>
    match ts[id]? with
    | none => true
    | some t =>
      !structural t.path ||
      match t.typeDef with
      | .composite fields => fields.any fun f => takesBytes ts n f.ty
      | .tuple ids => ids.any fun i => takesBytes ts n i
      | .array len elem => len != 0 && takesBytes ts n elem
      | .compact inner => takesBytes ts n inner
      | .variant vs => !vs.isEmpty
      | _ => true

/-- Check of `SolidVectors`. -/
def solidVectors (ts : List Typ) : Bool :=
  ts.all fun t => match t.typeDef with | .sequence elem => takesBytes ts (ts.length + 1) elem | _ => true

/-- Check that there are no bit sequences with `u64` store (`HasU64Bits` does not hold). -/
def noU64Bits (ts : List Typ) : Bool :=
  ts.all fun t => match t.typeDef with
    | .bitSequence _ store => match ts[store]? with
      | some t' => t'.typeDef != .primitive .u64
      | none => true
    | _ => true

end Verif.Spec.Check
