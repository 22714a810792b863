/-!
# Balance printing, `src/printing_balance.rs`

Strings of ASCII digits are character lists. Every operation that panics in Rust
(`u8`/`i8`/`usize` overflow, slicing out of range, `unreachable!()`) yields `none`.
-/
namespace Verif

/-- `Currency`, `src/printing_balance.rs:113-121`. -/
structure Currency where
  number : String
  units : String
  deriving DecidableEq, Repr

/-- `CutNumber`, `src/printing_balance.rs:84-111`. -/
structure CutNumber where
  beforePoint : List Char
  afterPoint : Option (List Char)
  mag : Int
  deriving DecidableEq, Repr

/-- `MAG_HIGHEST_POS`, `src/printing_balance.rs:124`. -/
def magHighestPos : Nat := 6

/-- `MAG_LOWEST_NEG`, `src/printing_balance.rs:127`. -/
def magLowestNeg : Nat := 4

/-- `u8` addition, panics on overflow, as in `src/printing_balance.rs:298-333` and the `match` arms before. -/
def addU8 (a b : Nat) : Option Nat := if a + b < 256 then some (a + b) else none

/-- `u8` (and `usize`) subtraction, panics below zero, as in `src/printing_balance.rs:291-333`. -/
def subUnsigned (a b : Nat) : Option Nat := if b ≤ a then some (a - b) else none

/-- `u8` multiplication, panics on overflow, as in `src/printing_balance.rs:326`. -/
def mulU8 (a b : Nat) : Option Nat := if a * b < 256 then some (a * b) else none

/-- `as i8` on a `u8`, as in `src/printing_balance.rs:163-327`. -/
def asI8 (a : Nat) : Int := if a < 128 then (a : Int) else (a : Int) - 256

/-- An `i8` result, panics out of range, as in `src/printing_balance.rs:193`, `294-295`, `320`. -/
def i8 (a : Int) : Option Int := if -128 ≤ a ∧ a ≤ 127 then some a else none

/-- `s[..n]`, panics past the end, as in `src/printing_balance.rs:219-331`. -/
def sliceTo (s : List Char) (n : Nat) : Option (List Char) := if n ≤ s.length then some (s.take n) else none

/-- `s[n..]`, panics past the end, as in `src/printing_balance.rs:220-332`. -/
def sliceFrom (s : List Char) (n : Nat) : Option (List Char) := if n ≤ s.length then some (s.drop n) else none

/-- `assist`, `src/printing_balance.rs:138-145`. -/
def assist (balance : List Char) (zeroes : Nat) : Option CutNumber :=
  some ⟨['0'], some (List.replicate zeroes '0' ++ balance), magHighestPos⟩

/-- Too many decimals: `assist(balance, decimals - order - MAG_HIGHEST_POS * 3 - 1)`,
`src/printing_balance.rs:178`, `199`, `229`, `266`, `303` (with `order = 0` not
subtracted in the first two). -/
def assistFor (balance : List Char) (decimals order : Nat) : Option CutNumber := do
  let m ← mulU8 magHighestPos 3
  let a ← subUnsigned decimals order
  let b ← subUnsigned a m
  let z ← subUnsigned b 1
  assist balance z

/-- Zero input, `src/printing_balance.rs:158-186`. -/
def cutZero (balance : List Char) (decimals : Nat) : Option CutNumber := do
  let m ← mulU8 magHighestPos 3
  if decimals ≤ m then
    match decimals % 3 with
    | 0 => some ⟨balance, none, asI8 (decimals / 3)⟩
    | 1 => some ⟨balance, some ['0'], asI8 (decimals / 3)⟩
    | 2 => some ⟨balance, some ['0', '0'], asI8 (decimals / 3)⟩
    | _ => none
  else assistFor balance decimals 0

/-- Non-zero single digit, `src/printing_balance.rs:187-206`. -/
def cutOne (balance : List Char) (decimals : Nat) : Option CutNumber := do
  let m ← mulU8 magHighestPos 3
  if decimals ≤ m then
    match decimals % 3 with
    | 0 => some ⟨balance, none, asI8 (decimals / 3)⟩
    | 1 => do
      let mag ← i8 (asI8 (decimals / 3) + 1)
      some ⟨balance ++ ['0', '0'], none, mag⟩
    | 2 => do
      let mag ← i8 (asI8 (decimals / 3) + 1)
      some ⟨balance ++ ['0'], none, mag⟩
    | _ => none
  else assistFor balance decimals 0

/-- Two digits, `src/printing_balance.rs:209-241`. -/
def cutTwo (balance : List Char) (decimals order : Nat) : Option CutNumber := do
  if order ≤ decimals then
    let a ← subUnsigned decimals order
    let m ← mulU8 magHighestPos 3
    if a ≤ m then
      let x ← addU8 decimals 2
      match x % 3 with
      | 0 => do
        let before ← sliceTo balance 1
        let after ← sliceFrom balance 1
        some ⟨before, some after, asI8 (decimals / 3)⟩
      | 1 => do
        let mag ← i8 (asI8 (decimals / 3) + 1)
        some ⟨balance ++ ['0'], none, mag⟩
      | 2 => some ⟨balance, none, asI8 (decimals / 3)⟩
      | _ => none
    else assistFor balance decimals order
  else some ⟨balance, none, 0⟩

/-- Three digits, `src/printing_balance.rs:242-281`. -/
def cutThree (balance : List Char) (decimals order : Nat) : Option CutNumber := do
  if order ≤ decimals then
    let a ← subUnsigned decimals order
    let m ← mulU8 magHighestPos 3
    if a ≤ m then
      let x ← addU8 decimals 1
      match x % 3 with
      | 0 => do
        let before ← sliceTo balance 1
        let after ← sliceFrom balance 1
        some ⟨before, some after, asI8 (decimals / 3)⟩
      | 1 => some ⟨balance, none, asI8 (decimals / 3)⟩
      | 2 => do
        let before ← sliceTo balance 2
        let after ← sliceFrom balance 2
        some ⟨before, some after, asI8 (decimals / 3)⟩
      | _ => none
    else assistFor balance decimals order
  else if decimals = 0 then some ⟨balance, none, 0⟩
  else do
    let before ← sliceTo balance 2
    let after ← sliceFrom balance 2
    some ⟨before, some after, 0⟩

/-- `length` characters go after the point, `src/printing_balance.rs:298-300`, `331-332`. -/
def cutAt (balance : List Char) (length : Nat) (mag : Int) : Option CutNumber := do
  let k ← subUnsigned balance.length length
  let before ← sliceTo balance k
  let after ← sliceFrom balance k
  some ⟨before, some after, mag⟩

/-- Four or more digits, `src/printing_balance.rs:283-339`. -/
def cutMany (balance : List Char) (decimals order : Nat) : Option CutNumber := do
  if order ≤ decimals then
    let a ← subUnsigned decimals order
    let m ← mulU8 magHighestPos 3
    if a ≤ m then
      match a % 3 with
      | 0 => cutAt balance order (asI8 (a / 3))
      | 1 => do
        let length ← subUnsigned order 2
        let mag ← i8 (asI8 (a / 3) + 1)
        cutAt balance length mag
      | 2 => do
        let length ← subUnsigned order 1
        let mag ← i8 (asI8 (a / 3) + 1)
        cutAt balance length mag
      | _ => none
    else assistFor balance decimals order
  else
    let a ← subUnsigned order decimals
    let m ← mulU8 magLowestNeg 3
    if a ≤ m then
      let length ← subUnsigned order (a % 3)
      let mag ← i8 (-((asI8 a).tdiv 3))
      cutAt balance length mag
    else
      let length ← addU8 m decimals
      let mag ← i8 (-(asI8 magLowestNeg))
      cutAt balance length mag

/-- The `match order` of `convert_balance_string`, `src/printing_balance.rs:154-340`. -/
def cutNumber (balance : List Char) (decimals : Nat) : Option CutNumber := do
  let order ← subUnsigned (balance.length % 256) 1
  match order with
  | 0 => if balance = ['0'] then cutZero balance decimals else cutOne balance decimals
  | 1 => cutTwo balance decimals order
  | 2 => cutThree balance decimals order
  | _ => cutMany balance decimals order

/-- The prefix table, `src/printing_balance.rs:341-354`. -/
def unitPrefix (mag : Int) : Option String :=
  match mag with
  | -4 => some "T"
  | -3 => some "G"
  | -2 => some "M"
  | -1 => some "k"
  | 0 => some ""
  | 1 => some "m"
  | 2 => some "u"
  | 3 => some "n"
  | 4 => some "p"
  | 5 => some "f"
  | 6 => some "a"
  | _ => none

/-- Number text, `src/printing_balance.rs:356-359`. -/
def CutNumber.number (c : CutNumber) : String :=
  match c.afterPoint with
  | some x => String.ofList (c.beforePoint ++ '.' :: x)
  | none => String.ofList c.beforePoint

/-- `convert_balance_string`, `src/printing_balance.rs:148-365`. -/
def convertBalanceString (balance : List Char) (decimals : Nat) (unit : String) : Option Currency := do
  let c ← cutNumber balance decimals
  let p ← unitPrefix c.mag
  some ⟨c.number, p ++ unit⟩

/-- `AsBalance::convert_balance_pretty`, `src/printing_balance.rs:64-81`, for `u8..u128`:
`value.to_string()` are the decimal digits without leading zeros. -/
def convertBalancePretty (value decimals : Nat) (unit : String) : Option Currency :=
  convertBalanceString (Nat.toDigits 10 value) decimals unit

end Verif
