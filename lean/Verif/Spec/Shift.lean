import Verif.Model.Extrinsic
/-!
# The same data further on (specification)
-/
namespace Verif.Spec

/-- The error of the same data `k` bytes further on: positions (and the length of all
data) are larger by `k`, nothing else changes. -/
def shiftErr (k : Nat) : PErr → PErr
  | .buffer (.outOfRange p total) => .buffer (.outOfRange (p + k) (total + k))
  | .buffer (.dataTooShort p n) => .buffer (.dataTooShort (p + k) n)
  | .buffer .external => .buffer .external
  | .registry e => .registry e
  | .noCompact p => .noCompact (p + k)
  | .someDataNotUsedBlob p => .someDataNotUsedBlob (p + k)
  | .typeFailure p ty => .typeFailure (p + k) ty
  | .unexpectedEnumVariant p => .unexpectedEnumVariant (p + k)

/-- The outcome of the same data `k` bytes further on: the value is the same. -/
def shiftRes {α : Type} (k : Nat) : Res (α × Nat) → Res (α × Nat)
  | .ok (a, p) => .ok (a, p + k)
  | .error (.err e) => .error (.err (shiftErr k e))
  | .error .panic => .error .panic
  | .error .fuel => .error .fuel

/-- Errors about transactions `k` bytes further on. -/
def shiftSErr {ME : Type} (k : Nat) : SErr ME → SErr ME
  | .parsing e => .parsing (shiftErr k e)
  | .someDataNotUsedCall p q => .someDataNotUsedCall (p + k) (q + k)
  | .someDataNotUsedExtensions p => .someDataNotUsedExtensions (p + k)
  | e => e

/-- Outcomes about transactions `k` bytes further on; `f` moves positions in the value. -/
def shiftOut {ME α : Type} (k : Nat) (f : α → α) : SRes ME α → SRes ME α
  | .ok a => .ok (f a)
  | .error (.err e) => .error (.err (shiftSErr k e))
  | .error .panic => .error .panic
  | .error .fuel => .error .fuel

/-- `b` holds the data `tail` after `k` other bytes, in the same memory. -/
structure Behind (k : Nat) (tail b : Buf) : Prop where
  data : ∃ pre, pre.length = k ∧ b.bytes = pre ++ tail.bytes
  fault : ∀ p n, b.fault (p + k) n = tail.fault p n

end Verif.Spec
