import Verif.Model.Propagated
/-!
# Decoders for special types and primitives,
`src/special_types.rs`, `src/decoding_sci.rs:50-156`
-/
namespace Verif

/-- `cut_and_decode` for unsigned integers, `src/special_types.rs:57-96`: the
slice has the exact length, so `decode_all` can not fail. -/
def cutUInt (w : UW) (b : Buf) (pos : Nat) : Res (Nat × Nat) := do
  let s ← b.readSlice pos w.bytes
  .ok (leNat s, pos + w.bytes)

/-- `cut_and_decode` for `i8..i128` (`src/special_types.rs:57-96`) and `BigInt`
(`src/special_types.rs:106-129`). -/
def cutInt (w : IW) (b : Buf) (pos : Nat) : Res (Int × Nat) := do
  let s ← b.readSlice pos w.bytes
  .ok (twosComplement w.bytes (leNat s), pos + w.bytes)

/-- `cut_and_decode` for `BigUint`, `src/special_types.rs:106-128`. -/
def cutU256 (b : Buf) (pos : Nat) : Res (Nat × Nat) := do
  let s ← b.readSlice pos 32
  .ok (leNat s, pos + 32)

/-- `cut_and_decode` for `bool`, `src/special_types.rs:57-96`; the codec accepts
only the bytes 0 and 1. -/
def cutBool (b : Buf) (pos : Nat) : Res (Bool × Nat) := do
  let s ← b.readSlice pos 1
  if s = [0] then .ok (false, pos + 1)
  else if s = [1] then .ok (true, pos + 1)
  else .error (.err (.typeFailure pos "bool"))

/-- `char::from_u32`. Called in `src/special_types.rs:145`. -/
def charFromU32 (n : Nat) : Option Char :=
  if n < 0xd800 ∨ (0xdfff < n ∧ n < 0x110000) then some (Char.ofNat n) else none

/-- `cut_and_decode` for `char`, `src/special_types.rs:131-161`. The `expect` on
the 4-byte conversion is the `panic` branch. -/
def cutChar (b : Buf) (pos : Nat) : Res (Char × Nat) := do
  let s ← b.readSlice pos 4
  if s.length ≠ 4 then .error .panic
  else
    match charFromU32 (leNat s) with
    | some ch => .ok (ch, pos + 4)
    | none => .error (.err (.typeFailure pos "char"))

/-- `cut_and_decode` for a `PerThing`, `src/special_types.rs:57-96`; the codec
rejects values above the maximum. -/
def cutPer (k : PerKind) (b : Buf) (pos : Nat) : Res (Nat × Nat) := do
  let s ← b.readSlice pos k.inner.bytes
  if leNat s ≤ k.accuracy then .ok (leNat s, pos + k.inner.bytes)
  else .error (.err (.typeFailure pos k.name))

/-- `cut_and_decode` for hashes and arrays, `src/special_types.rs:164-201`. The
`expect` on the array conversion is the `panic` branch. -/
def cutArray (n : Nat) (b : Buf) (pos : Nat) : Res (Bytes × Nat) := do
  let s ← b.readSlice pos n
  if s.length ≠ n then .error .panic else .ok (s, pos + n)

/-- `parse_unsigned_integer`, `src/special_types.rs:220-238`. -/
def parseUInt (w : UW) (b : Buf) (pos : Nat) (s : SpecialtySet) : Res (PD × Nat) := do
  let (v, pos) ← if s.compactAt.isSome then getCompact (compactUInt w) b pos else cutUInt w b pos
  .ok (.uint w v s.hint.unsignedInteger, pos)

/-- `<Compact<PerThing>>::decode(..).0`: compact of the inner integer, saturated
to the maximum (`sp_arithmetic`, external crate). Called in `src/compacts.rs:51` for `src/special_types.rs:271`. -/
def compactPer (k : PerKind) (bs : Bytes) : Option Nat :=
  (compactUInt k.inner bs).map fun v => min v k.accuracy

/-- `parse_check_compact` for a `PerThing`, `src/special_types.rs:261-281`. -/
def parsePer (k : PerKind) (b : Buf) (pos : Nat) (compactAt : Option Nat) : Res (PD × Nat) := do
  let (v, pos) ← if compactAt.isSome then getCompact (compactPer k) b pos else cutPer k b pos
  .ok (.perThing k v, pos)

/-- Compact check of `parse_check_compact` for types that can not be compact,
`src/special_types.rs:294`. -/
def blockCompact (compactAt : Option Nat) : Res Unit :=
  match compactAt with
  | some id => failInternal (.unexpectedCompactInsides id)
  | none => .ok ()

/-- `parse_check_compact` for fixed-size items, `src/special_types.rs:284-321`. -/
def parseFixed (k : FixedKind) (b : Buf) (pos : Nat) (compactAt : Option Nat) :
    Res (PD × Nat) := do
  blockCompact compactAt
  let (v, pos) ← cutArray k.len b pos
  .ok (.fixed k v, pos)

/-- `special_case_h256`, `src/special_types.rs:424-440`. -/
def specialCaseH256 (b : Buf) (pos : Nat) (s : SpecH256) : Res (PD × Nat) := do
  let (h, pos) ← cutArray 32 b pos
  match s with
  | .genesisHash => .ok (.genesisHash h, pos)
  | .blockHash => .ok (.blockHash h, pos)
  | .none => .ok (.h256 h, pos)

/-- `String::from_utf8`. Called in `src/decoding_sci.rs:137`, `src/cards.rs:643`, `676`. -/
def stringFromUtf8 (bs : Bytes) : Option String := String.fromUTF8? ⟨bs.toArray⟩

/-- `decode_str`, `src/decoding_sci.rs:123-150`. -/
def decodeStr (b : Buf) (pos : Nat) (hint : Hint) : Res (PD × Nat) := do
  let f ← findCompact (compactUInt .u32) b pos
  let s ← b.readSlice f.startNextUnit f.compact
  match stringFromUtf8 s with
  | some text => .ok (.text text hint.string, f.startNextUnit + f.compact)
  | none => .error (.err (.typeFailure pos "str"))

/-- Signed integers and `i256` through `parse_check_compact`,
`src/special_types.rs:306-311`. -/
def parseInt (w : IW) (b : Buf) (pos : Nat) (compactAt : Option Nat) : Res (PD × Nat) := do
  blockCompact compactAt
  let (v, pos) ← cutInt w b pos
  .ok (.int w v, pos)

/-- `decode_type_def_primitive`, `src/decoding_sci.rs:50-115`. -/
def decodePrimitive (p : Prim) (b : Buf) (pos : Nat) (s : SpecialtySet) : Res (PD × Nat) :=
  match p with
  | .bool => do
    blockCompact s.compactAt
    let (v, pos) ← cutBool b pos
    .ok (.bool v, pos)
  | .char => do
    blockCompact s.compactAt
    let (v, pos) ← cutChar b pos
    .ok (.char v, pos)
  | .str => do
    s.rejectCompact
    decodeStr b pos s.hint
  | .u8 => parseUInt .u8 b pos s
  | .u16 => parseUInt .u16 b pos s
  | .u32 => parseUInt .u32 b pos s
  | .u64 => parseUInt .u64 b pos s
  | .u128 => parseUInt .u128 b pos s
  | .u256 => do
    blockCompact s.compactAt
    let (v, pos) ← cutU256 b pos
    .ok (.u256 v, pos)
  | .i8 => parseInt .i8 b pos s.compactAt
  | .i16 => parseInt .i16 b pos s.compactAt
  | .i32 => parseInt .i32 b pos s.compactAt
  | .i64 => parseInt .i64 b pos s.compactAt
  | .i128 => parseInt .i128 b pos s.compactAt
  | .i256 => parseInt .i256 b pos s.compactAt

/-- `Collectable::husk_set` for unsigned integers,
`src/special_types.rs:333-360`. -/
def huskUInts (w : UW) : List PD → Option (List Nat)
  | [] => some []
  | .uint w' v .none :: rest =>
    if w' = w then (huskUInts w rest).map (v :: ·) else none
  | _ => none

/-- `Collectable::husk_set` for `Vec<u8>`, `src/special_types.rs:362-402`:
`inner` is `inner_element_info`. -/
def huskVecU8 (inner : Option (List Info)) : List PD → Option (List (List Nat) × Option (List Info))
  | [] => some ([], inner)
  | .sequence elementInfo (.uints .u8 a) :: rest =>
    match inner with
    | some i =>
      if i ≠ elementInfo then none
      else (huskVecU8 (some i) rest).map fun (l, i) => (a :: l, i)
    | none => (huskVecU8 (some elementInfo) rest).map fun (l, i) => (a :: l, i)
  | .sequenceRaw _ [] :: rest => (huskVecU8 inner rest).map fun (l, i) => ([] :: l, i)
  | _ => none

/-- `wrap_sequence`, `src/special_types.rs:406-419`. -/
def wrapSequence (set : List PD) : Option Sequence :=
  match set with
  | .uint w _ _ :: _ => (huskUInts w set).map (.uints w)
  | .sequence _ (.uints .u8 _) :: _ =>
    (huskVecU8 none set).map fun (l, i) => .vecU8 l (i.getD [])
  | _ => none

end Verif
