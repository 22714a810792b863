import Verif.Spec.Value
/-!
# Types that take part in decoding a type (specification)
-/
namespace Verif.Spec

/-- Types mentioned by a type as its parts. -/
def partIds (t : Typ) : List Nat :=
  match t.typeDef with
  | .composite fields => fields.map (·.ty)
  | .variant vs => vs.flatMap fun v => v.fields.map (·.ty)
  | .sequence e => [e]
  | .array _ e => [e]
  | .tuple ids => ids
  | .compact inner => [inner]
  | .primitive _ => []
  | .bitSequence order store => [order, store]

/-- The type `id'` is the type `id`, or takes part in it. Types known by their path (accounts,
hashes, eras and so on) have no parts. -/
inductive Reaches (R : Registry) (id : Nat) : Nat → Prop
  | self : Reaches R id id
  | part {mid id' : Nat} {t : Typ} : Reaches R id mid → R.resolve mid = .ok t → Structural t.path →
      id' ∈ partIds t → Reaches R id id'

/-- No call, event or signature takes part in the type. -/
def LabelFree (R : Registry) (id : Nat) : Prop :=
  ∀ id' t vs, Reaches R id id' → R.resolve id' = .ok t → t.typeDef = .variant vs →
    special t.path ≠ some .multiSignature ∧ ∀ item, special t.path ≠ some (.pallet item)

end Verif.Spec
