import Verif.Model.Buffer
/-! Where bytes are in a buffer (specification vocabulary). -/
namespace Verif.Spec

/-- The data holds the bytes `bs` at position `pos`. -/
def At (data : Bytes) (pos : Nat) (bs : Bytes) : Prop :=
  ∃ pre post, data = pre ++ bs ++ post ∧ pre.length = pos

/-- No read of the buffer fails. -/
def Reliable (b : Buf) : Prop := ∀ pos n, b.fault pos n = false

end Verif.Spec
