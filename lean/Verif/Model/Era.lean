import Verif.Model.Buffer
/-!
# Era, `src/additional_types.rs` and `src/special_types.rs:442-481`
-/
namespace Verif

/-- `Era`, `src/additional_types.rs:12-16`. Period and phase are `u64`. -/
inductive Era
  | immortal
  | mortal (period phase : Nat)
  deriving DecidableEq, Repr

/-- `Era::decode`, `src/additional_types.rs:19-36`: value and remaining input.
All intermediate values are below `2^64`, so `Nat` arithmetic is exact. -/
def Era.decode : Bytes → Option (Era × Bytes)
  | [] => none
  | first :: rest =>
    if first = 0 then some (.immortal, rest)
    else
      match rest with
      | [] => none
      | second :: rest =>
        let encoded := first.toNat + second.toNat * 2 ^ 8
        let period := 2 * 2 ^ (encoded % 2 ^ 4)
        let quantizeFactor := max (period / 2 ^ 12) 1
        let phase := encoded / 2 ^ 4 * quantizeFactor
        if 4 ≤ period ∧ phase < period then some (.mortal period phase, rest) else none

/-- `DecodeAll::decode_all` for `Era`: decode and require that nothing is left.
External trait; called in `src/special_types.rs:461`, `469`. -/
def Era.decodeAll (bs : Bytes) : Option Era :=
  match Era.decode bs with
  | some (e, []) => some e
  | _ => none

/-- `u64::trailing_zeros`: 64 for zero. Counted with bound 64. Called in `src/additional_types.rs:45`. -/
def trailingZeros (n : Nat) : Nat :=
  go 64 n
where
  go : Nat → Nat → Nat
    | 0, _ => 0
    | k + 1, m => if m % 2 = 1 then 0 else 1 + go k (m / 2)

/-- `Era::encode_to`, `src/additional_types.rs:39-51`. For period with
`trailing_zeros = 0` the Rust `u32` subtraction would underflow; in the model
`Nat` subtraction gives 0, then clamped to 1. Casts to `u16` truncate. -/
def Era.encode : Era → Bytes
  | .immortal => [0]
  | .mortal period phase =>
    let quantizeFactor := max (period / 2 ^ 12) 1
    let low := min (max (trailingZeros period - 1) 1) 15
    let high := (phase / quantizeFactor * 2 ^ 4) % 2 ^ 16
    let encoded := low ||| high
    [UInt8.ofNat (encoded % 256), UInt8.ofNat (encoded / 256)]

/-- `special_case_era`, `src/special_types.rs:451-481`. -/
def specialCaseEra (b : Buf) (pos : Nat) : Res (Era × Nat) := do
  let one ← b.readSlice pos 1
  match Era.decodeAll one with
  | some e => .ok (e, pos + 1)
  | none =>
    let two ← b.readSlice pos 2
    match Era.decodeAll two with
    | some e => .ok (e, pos + 2)
    | none => .error (.err (.typeFailure pos "Era"))

end Verif
