import Verif.Model.Types
/-!
# Addressable buffers

Model of `external_memory_tools::AddressableBuffer` (external crate, contract
taken from its documentation and its uses in `/repo`).
-/
namespace Verif

/-- Input data. `bytes` is the content; `fault p n` says that the external
memory fails when `n` bytes at position `p` are requested. For `&[u8]` there
are no faults. Simplification: a fault depends only on the requested range
(`Model/Device.lean` is the decoder without this simplification).
The parameters `data: &B` and `ext_memory: &mut E` of `src/decoding_sci.rs:260-272` and of all other parser functions. -/
structure Buf where
  bytes : Bytes
  fault : Nat → Nat → Bool := fun _ _ => false

/-- Plain in-memory data `&[u8]`. As in `src/traits.rs:157`, `259`. -/
def Buf.ofBytes (bs : Bytes) : Buf := { bytes := bs }

/-- `AddressableBuffer::total_len`.
External crate; called in `src/compacts.rs:37-55`, `src/lib.rs:820`, `src/decoding_sci_ext.rs:112`. -/
def Buf.len (b : Buf) : Nat := b.bytes.length

/-- `AddressableBuffer::read_slice`: `OutOfRange` if the position is past the
end, `DataTooShort` if the slice does not fit, an external memory error if the
memory fails.
Called in `src/compacts.rs:50`, `src/decoding_sci.rs:136`, `993`, `1039`, `src/special_types.rs:69`, `118`, `144`, `176`, `460`, `468`, `src/storage_data.rs:205`, `246`, `266`, `src/lib.rs:585`. -/
def Buf.readSlice (b : Buf) (pos n : Nat) : Res Bytes :=
  if b.len < pos then .error (.err (.buffer (.outOfRange pos b.len)))
  else if b.len < pos + n then .error (.err (.buffer (.dataTooShort pos n)))
  else if b.fault pos n then .error (.err (.buffer .external))
  else .ok ((b.bytes.drop pos).take n)

/-- `AddressableBuffer::read_byte`: a one-byte slice, first element.
Called in `src/decoding_sci.rs:701`, `src/unchecked_extrinsic.rs:116`. -/
def Buf.readByte (b : Buf) (pos : Nat) : Res UInt8 := do
  let s ← b.readSlice pos 1
  match s with
  | x :: _ => .ok x
  | [] => .error .panic

/-- `AddressableBuffer::limit_length`: same data with everything from `n` on cut
off; error if `n` is past the end. Called in `src/lib.rs:611`. -/
def Buf.limitLength (b : Buf) (n : Nat) : Res Buf :=
  if b.len < n then .error (.err (.buffer (.dataTooShort 0 n)))
  else .ok { b with bytes := b.bytes.take n }

/-- Little-endian number of a byte run (`from_le_bytes`).
Used for `src/special_types.rs:69-71`, `118-119`, `145`, `src/decoding_sci.rs:1080-1103`. -/
def leNat : Bytes → Nat
  | [] => 0
  | b :: bs => b.toNat + 256 * leNat bs

/-- Two's complement reading of a number of `n` bytes
(`i8..i128::from_le_bytes`, `BigInt::from_signed_bytes_le`). Used for `src/special_types.rs:69-71`, `118-119`. -/
def twosComplement (n : Nat) (v : Nat) : Int :=
  if v < 2 ^ (8 * n - 1) then (v : Int) else (v : Int) - (2 ^ (8 * n) : Nat)

end Verif
