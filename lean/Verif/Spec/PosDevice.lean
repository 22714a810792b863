import Verif.Spec.Position
import Verif.Spec.Hostile
import Verif.Model.DeviceTx
/-!
# Where a failure leaves the position, with memory that fails at times (specification)
-/
namespace Verif.Spec

/-- Position between the start and the end of data of `len` bytes; a start past the end can only
go further on. -/
def Ahead (len start stop : Nat) : Prop := start ≤ stop ∧ (start ≤ len → stop ≤ len)

/-- An error of `decode_as_call_unmarked` on a call that began at `start` in memory state `s`, which
left the position at `stop` and the memory in state `s'`. -/
inductive LocatedCallD {σ ME : Type} (D : Device σ) (data : Bytes) (start : Nat) (s : σ) (stop : Nat) (s' : σ) :
    SErr ME → Prop
  | parsing {e : PErr} : Located data start stop e → LocatedCallD D data start s stop s' (.parsing e)
  /-- nothing was read yet -/
  | metadata {e : ME} : stop = start → LocatedCallD D data start s stop s' (.metaStructure e)
  /-- a whole value was read, and passed -/
  | notACall {id : Nat} {d : ED} : decodeAsTypeAtPositionD D id start s = (.ok (d, stop), s') →
      LocatedCallD D data start s stop s' (.notACall id)

end Verif.Spec
