import Verif.Spec.Weight
import Verif.Spec.Device
import Verif.Model.DeviceTx
/-!
# Cost of memory accesses (specification)

An access to the external memory costs one, plus one for every byte that it hands over.
-/
namespace Verif.Spec

/-- Bytes handed over by an access. -/
def delivered : Res Bytes → Nat
  | .ok x => x.length
  | .error _ => 0

/-- `c` tells what the accesses to the memory have cost so far. -/
structure Metered {σ : Type} (D : Device σ) (c : σ → Nat) : Prop where
  read : ∀ pos n s, c (D.read pos n s).2 ≤ c s + 1 + delivered (D.read pos n s).1
  resolve : ∀ id s, c (D.resolve id s).2 ≤ c s + 1

/-- The memory `D` with a meter: the second part of the state adds up the cost of all accesses. -/
def metered {σ : Type} (D : Device σ) : Device (σ × Nat) where
  len := D.len
  size := D.size
  word := D.word
  read pos n s := ((D.read pos n s.1).1, (D.read pos n s.1).2, s.2 + 1 + delivered (D.read pos n s.1).1)
  resolve id s := ((D.resolve id s.1).1, (D.resolve id s.1).2, s.2 + 1)

/-- What the accesses for a type itself cost at most, without its parts. -/
def ownCost : Nat := 400

/-- Costs of the types of the fields. -/
def fieldsCost (sz : Nat → Nat) (fs : List Field) : Nat := (fs.map fun f => sz f.ty).sum

/-- `sz id` is enough for the accesses of a value of the type `id` before the first enum or vector; `K`
is enough for all of these, and for the fields of an enum. -/
structure Toll (R : Registry) (sz : Nat → Nat) (K : Nat) : Prop where
  within : ∀ id, sz id ≤ K
  lookup : ∀ id, 1 ≤ sz id
  own : ∀ {id t}, R.resolve id = .ok t → ownCost ≤ sz id
  struct : ∀ {id t fields}, R.resolve id = .ok t → t.typeDef = .composite fields →
    ownCost + fieldsCost sz fields ≤ sz id
  tuple : ∀ {id t ids}, R.resolve id = .ok t → t.typeDef = .tuple ids → ownCost + (ids.map sz).sum ≤ sz id
  array : ∀ {id t n elem}, R.resolve id = .ok t → t.typeDef = .array n elem → ownCost + (n + 1) * sz elem ≤ sz id
  compact : ∀ {id t inner}, R.resolve id = .ok t → t.typeDef = .compact inner → ownCost + sz inner ≤ sz id
  enum : ∀ {id t vs v}, R.resolve id = .ok t → t.typeDef = .variant vs → v ∈ vs →
    ownCost + 2 * fieldsCost sz v.fields ≤ K

/-- Costs of types, through at most `n` levels. -/
def costUpTo (R : Registry) : Nat → Nat → Nat
  | 0, _ => 1
  | n + 1, id =>
    match R.resolve id with
    | .error _ => 1
    | .ok t => ownCost +
      match t.typeDef with
      | .composite fs => fieldsCost (costUpTo R n) fs
      | .tuple ids => (ids.map (costUpTo R n)).sum
      | .array m e => (m + 1) * costUpTo R n e
      | .compact i => costUpTo R n i
      | _ => 0

/-- Cost of a value of a type before the first enum or vector. -/
def typeCost (R : Registry) (rk : Nat → Nat) (id : Nat) : Nat := costUpTo R (rk id + 1) id

/-- Largest cost of a variant of the enum `id`. -/
def variantCost (R : Registry) (sz : Nat → Nat) (id : Nat) : Nat :=
  match R.resolve id with
  | .ok { typeDef := .variant vs, .. } => largest (vs.map fun v => ownCost + 2 * fieldsCost sz v.fields)
  | _ => 0

/-- Largest cost of a type, or a variant of an enum. -/
def largestCost (R : Registry) (rk : Nat → Nat) : Nat :=
  max 1 (largest ((List.range R.size).map fun id => max (typeCost R rk id) (variantCost R (typeCost R rk) id)))

/-- Number of signed extensions. -/
def extensionCount {ME : Type} (X : Metadata ME) : Nat :=
  match X.signedExtensions with
  | .ok l => l.length
  | .error _ => 0

end Verif.Spec
