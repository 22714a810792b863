import Verif.Spec.Value
/-!
# When a value has one encoding (specification)
-/
namespace Verif.Spec

/-- In every enum of the registry, names tell the variants apart. -/
def NamesDistinct (R : Registry) : Prop :=
  ∀ id t vs, R.resolve id = .ok t → t.typeDef = .variant vs → ∀ v ∈ vs, ∀ w ∈ vs, v.name = w.name → v = w

/-- In every enum of the registry, at most one index stands for each kind of signature. -/
def SignaturesDistinct (R : Registry) : Prop :=
  ∀ id t i j k, R.resolve id = .ok t → IsSignature R t i k → IsSignature R t j k → i = j

/-- The value leaves no freedom to the encoding: bit sequences fill their last store element,
and parts of one are below one (the compact encoding of a larger number is read as one),
unless nothing larger can be encoded. -/
inductive Firm : Value → Prop
  | bool (v : Bool) : Firm (.bool v)
  | char (v : Char) : Firm (.char v)
  | str (v : String) : Firm (.str v)
  | uint (w : UW) (v : Nat) : Firm (.uint w v)
  | u256 (v : Nat) : Firm (.u256 v)
  | int (w : IW) (v : Int) : Firm (.int w v)
  | seq {l : List Value} : (∀ v ∈ l, Firm v) → Firm (.seq l)
  | tuple {l : List Value} : (∀ v ∈ l, Firm v) → Firm (.tuple l)
  | record {l : List (Option String × Value)} : (∀ f ∈ l, Firm f.2) → Firm (.record l)
  | variant {n : String} {l : List (Option String × Value)} : (∀ f ∈ l, Firm f.2) → Firm (.variant n l)
  | pallet {item : PalletItem} {p n : String} {l : List (Option String × Value)} :
      (∀ f ∈ l, Firm f.2) → Firm (.pallet item p n l)
  | fixed (k : FixedKind) (bs : Bytes) : Firm (.fixed k bs)
  | hash (bs : Bytes) : Firm (.hash bs)
  | per {k : PerKind} {v : Nat} : v < k.accuracy ∨ k = .perU16 → Firm (.per k v)
  | era (e : Era) : Firm (.era e)
  | bits {s : BitStore} {o : BitOrder} {l : List Bool} : 8 * s.bytes ∣ l.length → Firm (.bits s o l)
  | never : Firm .never

end Verif.Spec
