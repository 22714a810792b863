import Verif.Spec.Value
import Verif.Spec.Region
import Verif.Model.Metadata
/-!
# Targets with 32-bit pointers (specification)
-/
namespace Verif.Spec

/-- The registry has a bit sequence with `u64` store. -/
def HasU64Bits (R : Registry) : Prop :=
  ∃ id t order store, R.resolve id = .ok t ∧ t.typeDef = .bitSequence order store ∧ IsBitStore R store .u64

/-- The bit sequences with `u64` store in the registry are not of order `Msb0`. -/
def NoMsb0U64Bits (R : Registry) : Prop :=
  ∀ id t order store, R.resolve id = .ok t → t.typeDef = .bitSequence order store →
    IsBitStore R store .u64 → ¬ IsBitOrder R order .msb0

/-- Data for which a 32-bit program may report an error that a 64-bit one does not report: the memory fails
on some of it, or it has 64 MiB or more. -/
def Strained (b : Buf) : Prop :=
  (∃ p n, p + n ≤ b.bytes.length ∧ b.fault p n = true) ∨ 2 ^ 26 ≤ b.bytes.length

/-- The decoder: outcome `x` of the 32-bit program, outcome `y` of the 64-bit program. They are the same, or
`x` is a panic where that is allowed (`P`), or an error where that is allowed (`S`). -/
def NarrowRes (P S : Prop) {α : Type} (x y : Res α) : Prop :=
  x = y ∨ (P ∧ x = .error .panic) ∨ (S ∧ ∃ e, x = .error (.err e))

/-- The functions above the decoder: the outcomes are the same, or `x` is a panic where that is allowed. -/
def OrPanic (P : Prop) {ε α : Type} (x y : Except (Out ε) α) : Prop :=
  x = y ∨ (P ∧ x = .error .panic)

/-- Reliable memory and less than 64 MiB of data. -/
structure Usual (b : Buf) : Prop where
  reliable : Reliable b
  short : b.bytes.length < 2 ^ 26

end Verif.Spec
