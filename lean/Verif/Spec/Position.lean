import Verif.Spec.Errors
import Verif.Model.Transaction
/-!
# Where a failure leaves the position (specification)
-/
namespace Verif.Spec

/-- An error of a call that began at `start` and left the position at `stop`: the item
that could not be read begins at `stop`. -/
inductive Located (data : Bytes) (start stop : Nat) : PErr → Prop
  /-- the position itself is past the end -/
  | outOfRange {n : Nat} : Located data start stop (.buffer (.outOfRange stop n))
  /-- the item at the position is longer than the data -/
  | tooShort {n : Nat} : Located data start stop (.buffer (.dataTooShort stop n))
  /-- the length of a text is at the position, the text itself is longer than the data -/
  | textTooShort {n : Nat} : n < 2 ^ 32 → At data stop (compactEncode n) →
      Located data start stop (.buffer (.dataTooShort (stop + (compactEncode n).length) n))
  | memory : Located data start stop (.buffer .external)
  | noCompact : Located data start stop (.noCompact stop)
  | enumVariant : Located data start stop (.unexpectedEnumVariant stop)
  | typeFailure {ty : Named} : Located data start stop (.typeFailure stop ty.name)
  /-- only a bit vector that was read, and then not accepted, is passed -/
  | bits {p n : Nat} {s : BitStore} {o : BitOrder} : start ≤ p → 0x1fffffff < n → n < 2 ^ 32 →
      At data p (compactEncode n) → p + (compactEncode n).length < stop →
      Located data start stop (.typeFailure p (Named.bits s o).name)
  | registry {e : RegErr} : Located data start stop (.registry e)

/-- Position between the start and the end of the data; a start past the end can only
go further on. -/
def Forward (data : Bytes) (start stop : Nat) : Prop :=
  start ≤ stop ∧ (start ≤ data.length → stop ≤ data.length)

/-- An error of `decode_as_call_unmarked` on a call that began at `start`. -/
inductive LocatedCall {ME : Type} (M : Metadata ME) (b : Buf) (start stop : Nat) : SErr ME → Prop
  | parsing {e : PErr} : Located b.bytes start stop e → LocatedCall M b start stop (.parsing e)
  /-- nothing was read yet -/
  | metadata {e : ME} : stop = start → LocatedCall M b start stop (.metaStructure e)
  /-- a whole value was read, and passed -/
  | notACall {id : Nat} {d : ED} : decodeAsTypeAtPosition M.types b id start = .ok (d, stop) →
      LocatedCall M b start stop (.notACall id)

/-- An error of `decode_extensions_unmarked` on extensions that began at `start`. -/
inductive LocatedExts {ME : Type} (b : Buf) (start stop : Nat) : SErr ME → Prop
  | parsing {e : PErr} : Located b.bytes start stop e → LocatedExts b start stop (.parsing e)
  /-- nothing was read yet, or everything was -/
  | metadata {e : ME} : stop = start ∨ stop = b.bytes.length → LocatedExts b start stop (.metaStructure e)
  | unused : stop ≠ b.bytes.length → LocatedExts b start stop (.someDataNotUsedExtensions stop)
  /-- the contents are compared when everything was read -/
  | list {e : ExtErr} : stop = b.bytes.length → LocatedExts b start stop (.extensionsList e)
  | immortal : stop = b.bytes.length → LocatedExts b start stop .immortalHashMismatch
  | genesis {x y : Bytes} : stop = b.bytes.length → LocatedExts b start stop (.wrongGenesisHash x y)
  | version {x y : String} : stop = b.bytes.length → LocatedExts b start stop (.wrongSpecVersion x y)

end Verif.Spec
