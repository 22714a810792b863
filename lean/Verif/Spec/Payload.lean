import Verif.Spec.Proper
import Verif.Model.Metadata
/-!
# Transactions as values (specification)

A transaction said in terms of values: a call, its arguments, the values of the extensions. Nothing is said about
the trees that are shown.
-/
namespace Verif.Spec

/-- The call `call` of the pallet `pallet` with the arguments `args` (name and value of each). -/
structure CallOf where
  pallet : String
  call : String
  args : List (Option String × Value)

/-- `bs` encodes the call, as a value of the type `id`, which is an enum (not a struct around one). -/
def CallEnc (R : Registry) (id : Nat) (c : CallOf) (bs : Bytes) : Prop :=
  (∃ t vs, R.resolve id = .ok t ∧ t.typeDef = .variant vs) ∧ Enc R false id (.pallet .call c.pallet c.call c.args) bs

/-- `bs` encodes the values of the items, one after another. -/
def ItemsEnc (R : Registry) (items : List (String × Nat)) (vs : List Value) (bs : Bytes) : Prop :=
  ∃ ps : Parts, ps.values = vs ∧ ps.bytes = bs ∧ ps.length = items.length ∧
    ∀ x ∈ items.zip ps, Enc R false x.1.2 x.2.1 x.2.2

/-- A proper transaction: the call is encoded by `callBytes` and the values of the extensions by `extBytes`, the way
the metadata says, and the extensions are proper for this metadata and the genesis hash that is expected, if any. -/
def ProperTransaction {ME : Type} (M : Metadata ME) (expected : Option Bytes) (c : CallOf) (vs : List Value)
    (callBytes extBytes : Bytes) : Prop :=
  ∃ id signed spec, M.callTy = .ok id ∧ M.signedExtensions = .ok signed ∧ M.specNameVersion = .ok spec ∧
    CallEnc M.types id c callBytes ∧ ItemsEnc M.types (extItems signed) vs extBytes ∧
    Proper M.types (extItems signed) vs spec.printedSpecVersion expected

/-- The call that was decoded, as values. -/
def callOf (c : Call) : CallOf := ⟨c.palletName, c.variantName, fdsValue c.fields⟩

end Verif.Spec
