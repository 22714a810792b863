import Verif.Model.Types
/-!
# SCALE encoding of numbers (specification)

Written from the SCALE documentation, as *encoders*; independent of the model's
decoders.
-/
namespace Verif.Spec

/-- Little-endian encoding of `v` in `k` bytes. -/
def leBytes : Nat → Nat → Bytes
  | 0, _ => []
  | k + 1, v => UInt8.ofNat (v % 256) :: leBytes k (v / 256)

/-- Number of bytes of a positive number in base 256. -/
def byteLen (v : Nat) : Nat := Nat.log2 v / 8 + 1

/-- SCALE compact encoding:
* `v < 2^6`: one byte, value in the upper six bits, mode 0;
* `v < 2^14`: two bytes, mode 1;
* `v < 2^30`: four bytes, mode 2;
* otherwise: mode 3, upper six bits of the first byte hold the number of
  following bytes minus four, then the value in the smallest possible number of
  bytes (at least four). -/
def compactEncode (v : Nat) : Bytes :=
  if v < 2 ^ 6 then leBytes 1 (4 * v)
  else if v < 2 ^ 14 then leBytes 2 (4 * v + 1)
  else if v < 2 ^ 30 then leBytes 4 (4 * v + 2)
  else UInt8.ofNat (4 * (byteLen v - 4) + 3) :: leBytes (byteLen v) v

/-- Two's complement encoding of an integer in `k` bytes. -/
def signedBytes (k : Nat) (v : Int) : Bytes := leBytes k (v % (2 ^ (8 * k) : Nat)).toNat

end Verif.Spec
