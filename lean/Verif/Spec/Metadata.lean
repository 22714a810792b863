import Verif.Spec.Value
import Verif.Model.Metadata
/-!
# Metadata lookups (specification)

Shared with the model are only plain data types: `Pallet`, `Constant`, `Typ`, `FD`.
-/
namespace Verif.Spec

/-- `c` is the last constant named `Version` of the first pallet named `System`. -/
def IsVersionConstant (pallets : List Pallet) (c : Constant) : Prop :=
  ∃ before p after cs cs', pallets = before ++ p :: after ∧ (∀ q ∈ before, q.name ≠ "System") ∧
    p.name = "System" ∧ p.constants = cs ++ c :: cs' ∧ c.name = "Version" ∧ ∀ x ∈ cs', x.name ≠ "Version"

/-- Unsigned integers among the fields with the name. -/
def numbersNamed (name : String) (fs : List FD) : List Nat :=
  (fs.filter fun f => decide (f.fieldName = some name)).filterMap fun f =>
    match f.data.data with | .uint _ v _ => some v | _ => none

/-- Texts among the fields with the name. -/
def textsNamed (name : String) (fs : List FD) : List String :=
  (fs.filter fun f => decide (f.fieldName = some name)).filterMap fun f =>
    match f.data.data with | .text s _ => some s | _ => none

/-- Type of the last type parameter with the name. -/
def paramTy (params : List (String × Option Nat)) (name : String) : Option Nat :=
  (params.filter fun x => decide (x.1 = name)).getLast?.bind (·.2)

/-- The type definition is a vector of `u8`. -/
def IsByteVec (R : Registry) (d : TypeDef) : Prop :=
  ∃ elem t, d = .sequence elem ∧ R.resolve elem = .ok t ∧ t.typeDef = .primitive .u8

/-- The type definition is a vector of `u8` or a single-field struct with one. -/
def IsExtrinsicDef (R : Registry) (d : TypeDef) : Prop :=
  IsByteVec R d ∨ ∃ f t, d = .composite [f] ∧ R.resolve f.ty = .ok t ∧ IsByteVec R t.typeDef

end Verif.Spec
