import Verif.Spec.Scale
import Verif.Model.Era
import Verif.Model.Data
/-!
# Encoding of leaf values (specification)

Written as encodings, independent of the model's decoders. `Era` and the kind
enumerations are plain data types shared with the model.
-/
namespace Verif.Spec

/-- UTF-8 bytes of a text: the encodings of its characters, one after another. -/
def utf8 (s : String) : Bytes := s.toList.flatMap String.utf8EncodeChar

/-- SCALE text: compact byte length, then UTF-8. -/
def strEncode (s : String) : Bytes := compactEncode (utf8 s).length ++ utf8 s

/-- Step by which a phase is quantized: one for periods up to 4096. -/
def quantum (period : Nat) : Nat := max (period / 4096) 1

/-- Well-formed era: period a power of two between 4 and 65536, phase below the
period and a multiple of the quantum. -/
def EraOk : Era → Prop
  | .immortal => True
  | .mortal period phase =>
    (∃ k, 2 ≤ k ∧ k ≤ 16 ∧ period = 2 ^ k) ∧ phase < period ∧ quantum period ∣ phase

/-- Era encoding: a zero byte, or two bytes, little-endian: lower four bits
`log2 period - 1`, upper twelve bits the phase in quanta. -/
def eraEncode : Era → Bytes
  | .immortal => [0]
  | .mortal period phase =>
    leBytes 2 ((Nat.log2 period - 1) + 16 * (phase / quantum period))

/-- Place of the `i`-th bit of an element of `n` bits. -/
def bitPlace (order : BitOrder) (n i : Nat) : Nat :=
  match order with
  | .lsb0 => i
  | .msb0 => n - 1 - i

/-- Smallest `k` with `a ≤ k * n`, as a predicate. -/
def IsCeil (a n k : Nat) : Prop := a ≤ k * n ∧ k * n < a + n

/-- `bs` is an encoding of a bit sequence: compact number of bits, then the
smallest number of little-endian store elements that holds them; bit `i` of the
sequence is bit `i % n` (in the bit order) of element `i / n`. Unused bits of the
last element are arbitrary. -/
def BitsEnc (store : BitStore) (order : BitOrder) (bits : List Bool) (bs : Bytes) : Prop :=
  ∃ els : List Nat,
    bits.length ≤ 0x1fffffff ∧
    IsCeil bits.length (8 * store.bytes) els.length ∧
    (∀ e ∈ els, e < 2 ^ (8 * store.bytes)) ∧
    (∀ i, i < bits.length → ∃ e, els[i / (8 * store.bytes)]? = some e ∧
      bits[i]? = some (e.testBit (bitPlace order (8 * store.bytes) (i % (8 * store.bytes))))) ∧
    bs = compactEncode bits.length ++ els.flatMap (leBytes store.bytes)

end Verif.Spec
