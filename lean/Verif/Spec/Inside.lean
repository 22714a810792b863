import Verif.Model.Transaction
/-!
# What has to be readable (specification)
-/
namespace Verif.Spec

/-- `b'` has the same content as `b`, and answers every request for bytes at positions from `lo`
on and below `hi`. Any other request may fail. -/
structure Answers (lo hi : Nat) (b b' : Buf) : Prop where
  data : b'.bytes = b.bytes
  fault : ∀ p n, lo ≤ p → p + n ≤ hi → b'.fault p n = false

/-- Every request for the byte at `j` fails. -/
def Blocked (j : Nat) (b : Buf) : Prop := ∀ p n, p ≤ j → j < p + n → b.fault p n = true

end Verif.Spec
