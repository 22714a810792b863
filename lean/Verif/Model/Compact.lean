import Verif.Model.Buffer
/-!
# Compact integers, `src/compacts.rs`
-/
namespace Verif

/-- Unsigned integers with `HasCompact`: `u8, u16, u32, u64, u128`
(`src/special_types.rs:219-244`). -/
inductive UW
  | u8 | u16 | u32 | u64 | u128
  deriving DecidableEq, Repr

/-- `size_of` in bytes. As in `src/special_types.rs:61-63`, `110-112`. -/
def UW.bytes : UW → Nat
  | .u8 => 1 | .u16 => 2 | .u32 => 4 | .u64 => 8 | .u128 => 16

/-- `<Compact<T> as Decode>::decode` of `parity-scale-codec` (external crate):
value and remaining input. Two-bit mode in the first byte; non-minimal and out of
range encodings are rejected. Called in `src/compacts.rs:51`. -/
def compactDecode (w : UW) : Bytes → Option (Nat × Bytes)
  | [] => none
  | p :: rest =>
    if p.toNat % 4 = 0 then some (p.toNat / 4, rest)
    else if p.toNat % 4 = 1 then
      if rest.length < 1 then none
      else
        let x := leNat (p :: rest.take 1) / 4
        if 63 < x ∧ x < 2 ^ (8 * w.bytes) then some (x, rest.drop 1) else none
    else if p.toNat % 4 = 2 then
      if w = .u8 then none
      else if rest.length < 3 then none
      else
        let x := leNat (p :: rest.take 3) / 4
        if 2 ^ 14 - 1 < x ∧ x < 2 ^ (8 * w.bytes) then some (x, rest.drop 3) else none
    else
      let n := p.toNat / 4 + 4
      if w.bytes < n then none
      else if rest.length < n then none
      else
        let x := leNat (rest.take n)
        if (if n = 4 then 2 ^ 30 - 1 else 2 ^ (8 * (n - 1)) - 1) < x then
          some (x, rest.drop n)
        else none

/-- `MAX_COMPACT_LEN`, `src/compacts.rs:20`. -/
def maxCompactLen : Nat := 17

/-- `FoundCompact`, `src/compacts.rs:9-15`. -/
structure FoundCompact where
  compact : Nat
  startNextUnit : Nat
  deriving DecidableEq, Repr

/-- Loop of `find_compact`, `src/compacts.rs:43-67`: `left` iterations remain,
`i` is the current one; `dec` is `<Compact<T>>::decode` without the remaining
input. -/
def findCompactLoop (dec : Bytes → Option Nat) (b : Buf) (pos : Nat) :
    (left i : Nat) → Res (Option FoundCompact)
  | 0, _ => .ok none
  | left + 1, i =>
    if maxCompactLen < i then .ok none
    else do
      let hippo ← b.readSlice pos (i + 1)
      match dec hippo with
      | some v =>
        let next := if b.len - pos = i then b.len else pos + i + 1
        .ok (some { compact := v, startNextUnit := next })
      | none => findCompactLoop dec b pos left (i + 1)

/-- `find_compact`, `src/compacts.rs:26-72`. -/
def findCompact (dec : Bytes → Option Nat) (b : Buf) (pos : Nat) : Res FoundCompact :=
  if b.len < pos then .error (.err (.buffer (.outOfRange pos b.len)))
  else do
    match ← findCompactLoop dec b pos (b.len - pos) 0 with
    | some c => .ok c
    | none => .error (.err (.noCompact pos))

/-- `<Compact<T>>::decode(..).0` for an unsigned integer `T`. As in `src/compacts.rs:51-60`. -/
def compactUInt (w : UW) (bs : Bytes) : Option Nat := (compactDecode w bs).map (·.1)

/-- `get_compact`, `src/compacts.rs:74-88`: value and new position. -/
def getCompact (dec : Bytes → Option Nat) (b : Buf) (pos : Nat) : Res (Nat × Nat) := do
  let f ← findCompact dec b pos
  .ok (f.compact, f.startNextUnit)

end Verif
