import Verif.Spec.Scale
import Verif.Spec.Region
/-!
# Data that stop too early (specification)
-/
namespace Verif.Spec

/-- The error blames the end of the data: what is asked for begins in the data and
goes past their end. -/
inductive AtEnd (data : Bytes) : PErr → Prop
  /-- that many bytes at the position, and there are fewer -/
  | tooShort {p n : Nat} : p ≤ data.length → data.length < p + n → AtEnd data (.buffer (.dataTooShort p n))
  /-- all that is left is the beginning of a compact number -/
  | compact {p v : Nat} {more : Bytes} : p ≤ data.length → v < 2 ^ 128 → more ≠ [] →
      compactEncode v = data.drop p ++ more → AtEnd data (.noCompact p)

/-- The error asks for bytes before `stop` only. -/
inductive AsksUpTo (data : Bytes) (stop : Nat) : PErr → Prop
  | tooShort {p n : Nat} : data.length < p + n → p + n ≤ stop →
      AsksUpTo data stop (.buffer (.dataTooShort p n))
  | compact {p v : Nat} {more : Bytes} : more ≠ [] → compactEncode v = data.drop p ++ more →
      p + (compactEncode v).length ≤ stop → AsksUpTo data stop (.noCompact p)

end Verif.Spec
