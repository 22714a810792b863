import Verif.Model.Show
/-!
# Addresses (specification)

The crate prints keys with `to_base58_string` of `substrate_crypto_light` (used in
`src/cards.rs:914-937`), whose source is not in `/repo`. It prints the SS58 address format:
one or two bytes that name the chain, the key, two bytes of a checksum, in base 58. The
checksum is a parameter here: nothing is assumed of it.
-/
namespace Verif.Spec

/-- The bytes as a number, the first byte is the highest. -/
def beNat (bs : Bytes) : Nat := bs.foldl (fun n b => n * 256 + b.toNat) 0

/-- Digits of a number in base 58, the highest first, none for zero. -/
def digits58 (n : Nat) : List Nat :=
  if h : n = 0 then [] else digits58 (n / 58) ++ [n % 58]
  decreasing_by omega

/-- The 58 characters: digits and letters without `0`, `O`, `I`, `l`. -/
def alphabet58 : List Char := "123456789ABCDEFGHJKLMNPQRSTUVWXYZabcdefghijkmnopqrstuvwxyz".toList

/-- The character of a digit. -/
def char58 (d : Nat) : Char := alphabet58.getD d '?'

/-- Bytes in base 58: one `1` for every zero byte at the start, then the number. -/
def base58 (bs : Bytes) : String :=
  String.ofList (List.replicate (bs.takeWhile (· == 0)).length '1' ++ (digits58 (beNat bs)).map char58)

/-- The bytes that name the chain: one byte below 64, else two, with 14 bits in them. -/
def ss58Prefix (p : Nat) : Bytes :=
  let ident := p % 16384
  if ident < 64 then [UInt8.ofNat ident]
  else [UInt8.ofNat (ident % 256 / 4 + 64), UInt8.ofNat (ident / 256 + ident % 4 * 64)]

/-- The address of a key on a chain. -/
def ss58 (checksum : Bytes → UInt8 × UInt8) (key : Bytes) (p : Nat) : String :=
  let body := ss58Prefix p ++ key
  base58 (body ++ [(checksum body).1, (checksum body).2])

/-- Keys are printed as addresses; icons are arbitrary. -/
def ss58Printers (checksum : Bytes → UInt8 × UInt8) (icon : Bytes → Bytes) : Printers where
  base58 _ key p := ss58 checksum key p
  identicon := icon

/-- A text of bits shows them in order: without all characters but `0` and `1` (brackets,
commas, spaces) it is the bits. -/
def ShowsBits (showBits : BitStore → BitOrder → List Bool → String) : Prop :=
  ∀ s o l, (showBits s o l).toList.filter (fun c => c == '0' || c == '1') =
    l.map fun b => if b then '1' else '0'

end Verif.Spec
