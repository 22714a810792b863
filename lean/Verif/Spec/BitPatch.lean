import Verif.Spec.Leaf
/-!
# Bit sequences on 32-bit targets (specification)
-/
namespace Verif.Spec

/-- The bit sequence `bits` is stored in the 64-bit elements `els`: the smallest number of
elements, bit `i` is bit `i % 64` (in the bit order) of element `i / 64`. -/
structure Stored (order : BitOrder) (bits : List Bool) (els : List Nat) : Prop where
  count : IsCeil bits.length 64 els.length
  range : ∀ e ∈ els, e < 2 ^ 64
  bit : ∀ i, i < bits.length → ∃ e, els[i / 64]? = some e ∧
    bits[i]? = some (e.testBit (bitPlace order 64 (i % 64)))

/-- SCALE encoding of it. -/
def storedEncode (bits : List Bool) (els : List Nat) : Bytes :=
  compactEncode bits.length ++ els.flatMap (leBytes 8)

/-- Half of an element that holds the first 32 bits in the bit order. -/
def firstHalf : BitOrder → Nat → Nat
  | .lsb0, e => e % 2 ^ 32
  | .msb0, e => e / 2 ^ 32

/-- Other half. -/
def secondHalf : BitOrder → Nat → Nat
  | .lsb0, e => e / 2 ^ 32
  | .msb0, e => e % 2 ^ 32

/-- Number of bits of the sequence in the last element. -/
def usedInLast (bits : List Bool) (els : List Nat) : Nat := bits.length - 64 * (els.length - 1)

/-- The last element starts with 32 zero bits. -/
def ZeroStart (order : BitOrder) (els : List Nat) : Prop :=
  ∃ e, els.getLast? = some e ∧ firstHalf order e = 0

/-- In the second half of the last element, one of the first `n` bits is set. -/
def SetInSecond (order : BitOrder) (els : List Nat) (n : Nat) : Prop :=
  ∃ e i, els.getLast? = some e ∧ i < n ∧ (secondHalf order e).testBit (bitPlace order 32 i) = true

end Verif.Spec
