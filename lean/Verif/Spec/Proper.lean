import Verif.Spec.Transaction
/-!
# Proper extensions of a transaction (specification)

When the extensions of a transaction are right, said of the types and values of the extensions only: nothing about
the trees that are shown, and nothing about how they are made.
-/
namespace Verif.Spec

/-- The type is `t` once compacts are taken off. -/
inductive Through (R : Registry) : Nat → Typ → Prop
  | stop {id : Nat} {t : Typ} : R.resolve id = .ok t → (Structural t.path → ∀ i, t.typeDef ≠ .compact i) → Through R id t
  | compact {id inner : Nat} {t t' : Typ} : R.resolve id = .ok t → Structural t.path → t.typeDef = .compact inner →
      Through R inner t' → Through R id t'

/-- What a value can count as. -/
inductive Mark
  | specVersion
  | genesisHash
  | blockHash
  | era
  deriving DecidableEq

/-- What values of the type `t` count as, under the label `h`: unsigned integers under the label of the spec version,
32-byte hashes under the labels of the genesis hash and of the block hash, eras always. -/
def MarkedAs (h : Hint) (t : Typ) : Mark → Prop
  | .specVersion => (h = .checkSpecVersion ∨ h = .fieldSpecVersion) ∧ Structural t.path ∧
      ∃ p w, t.typeDef = .primitive p ∧ IsUInt p w
  | .genesisHash => h = .checkGenesis ∧ special t.path = some .hash
  | .blockHash => h = .checkMortality ∧ special t.path = some .hash
  | .era => special t.path = some .era

/-- What an extension item (name of the extension, type of the item) counts as: the item itself, or the field of a
struct with a single field, which may have a label by its own name. -/
def CountsAs (R : Registry) (item : String × Nat) (m : Mark) : Prop :=
  ∃ t, Through R item.2 t ∧
    (MarkedAs (extLabel item.1) t m ∨
     ∃ f t', Structural t.path ∧ t.typeDef = .composite [f] ∧ Through R f.ty t' ∧
       MarkedAs (first (extLabel item.1) (fieldLabel f)) t' m)

/-- The item at place `i`, with value `v`, counts as `m`. -/
def CountsAt (R : Registry) (items : List (String × Nat)) (vs : List Value) (m : Mark) (i : Nat) (v : Value) : Prop :=
  ∃ item, items[i]? = some item ∧ vs[i]? = some v ∧ CountsAs R item m

/-- Proper extensions: exactly one value counts as spec version, and it is that of the metadata; exactly one counts
as genesis hash, and it is the expected one, if one is expected; at most one era, at most one block hash; with an
immortal era the block hash is the genesis hash. -/
structure Proper (R : Registry) (items : List (String × Nat)) (vs : List Value) (version : String)
    (expected : Option Bytes) : Prop where
  specVersion : ∃ i w n, CountsAt R items vs .specVersion i (.uint w n) ∧ toString n = version ∧
    ∀ j v, CountsAt R items vs .specVersion j v → j = i
  genesis : ∃ i g, CountsAt R items vs .genesisHash i (.hash g) ∧ (∀ e, expected = some e → g = e) ∧
    ∀ j v, CountsAt R items vs .genesisHash j v → j = i
  oneEra : ∀ i j v w, CountsAt R items vs .era i v → CountsAt R items vs .era j w → i = j
  oneBlockHash : ∀ i j v w, CountsAt R items vs .blockHash i v → CountsAt R items vs .blockHash j w → i = j
  immortal : ∀ i j k h g, CountsAt R items vs .era i (.era .immortal) → CountsAt R items vs .blockHash j (.hash h) →
    CountsAt R items vs .genesisHash k (.hash g) → h = g

end Verif.Spec
