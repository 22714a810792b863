import Verif.Spec.Scale
import Verif.Spec.Node
import Verif.Spec.Screen
/-!
# Accounts in the storage of Westend 9111 and Polkadot 1003003 (specification)

How a chain keeps an account, byte by byte, without a look at any metadata.
-/
namespace Verif.Spec

/-- What is kept of an account. The last two numbers are `misc_frozen` and `fee_frozen` on Westend 9111, `frozen` and `flags` on
Polkadot 1003003. -/
structure AccountInfo where
  nonce : Nat
  consumers : Nat
  providers : Nat
  sufficients : Nat
  free : Nat
  reserved : Nat
  third : Nat
  fourth : Nat

/-- The numbers fit their types. -/
structure AccountInfo.Valid (x : AccountInfo) : Prop where
  nonce : x.nonce < 2 ^ 32
  consumers : x.consumers < 2 ^ 32
  providers : x.providers < 2 ^ 32
  sufficients : x.sufficients < 2 ^ 32
  free : x.free < 2 ^ 128
  reserved : x.reserved < 2 ^ 128
  third : x.third < 2 ^ 128
  fourth : x.fourth < 2 ^ 128

/-- The bytes: four numbers of four bytes, four numbers of sixteen bytes. -/
def AccountInfo.bytes (x : AccountInfo) : Bytes :=
  leBytes 4 x.nonce ++ leBytes 4 x.consumers ++ leBytes 4 x.providers ++ leBytes 4 x.sufficients ++
    leBytes 16 x.free ++ leBytes 16 x.reserved ++ leBytes 16 x.third ++ leBytes 16 x.fourth

/-- The same as a value, with these names of the last two numbers. -/
def AccountInfo.value (third fourth : String) (x : AccountInfo) : Value :=
  .record [(some "nonce", .uint .u32 x.nonce), (some "consumers", .uint .u32 x.consumers), (some "providers", .uint .u32 x.providers),
    (some "sufficients", .uint .u32 x.sufficients),
    (some "data", .record [(some "free", .uint .u128 x.free), (some "reserved", .uint .u128 x.reserved), (some third, .uint .u128 x.third),
      (some fourth, .uint .u128 x.fourth)])]

/-- The storage key of an account: 32 bytes for pallet and entry, 16 bytes of hash, 32 bytes of account. -/
def IsAccountKey (H : HashFns) (account key : Bytes) : Prop :=
  account.length = 32 ∧ (H.blake2_128 account).length = 16 ∧ ∃ entry : Bytes, entry.length = 32 ∧ key = entry ++ H.blake2_128 account ++ account

/-- `s` shows the account `a` with the numbers `x`. -/
def ShowsAccount (third fourth : String) (s : Storage) (a : Bytes) (x : AccountInfo) : Prop :=
  keyOf s.key = .single (.value (.fixed .id a)) ∧ edValue s.value = x.value third fourth

/-- The entry `System.Account`: a map from accounts (type 0), hashed with blake2-128 and kept behind the hash, to what is kept of them
(type 3). -/
def systemAccount : Entry := ⟨.map [.blake2_128Concat] 0 3, []⟩

/-! ### The screen -/

/-- The line for a balance: with the unit of the chain, or the mere number. -/
def balanceLine (specs : ShortSpecs) (display : Bool) (n : Nat) : String :=
  if display then "        Balance: " ++ Westend.amountText specs n else "        Balance Raw: " ++ toString n

/-- The lines of what is kept of an account. `name` and `name'` are the names of the last two numbers, `line` is the line of the last. -/
def accountScreen (specs : ShortSpecs) (display : Bool) (name name' line : String) (x : AccountInfo) : List String :=
  ["Struct: 5 field(s)",
   "  Field Name: nonce",
   "    Nonce: " ++ toString x.nonce,
   "  Field Name: consumers",
   "    u32: " ++ toString x.consumers,
   "  Field Name: providers",
   "    u32: " ++ toString x.providers,
   "  Field Name: sufficients",
   "    u32: " ++ toString x.sufficients,
   "  Field Name: data",
   "    Struct: 4 field(s)",
   "      Field Name: free",
   balanceLine specs display x.free,
   "      Field Name: reserved",
   balanceLine specs display x.reserved,
   "      Field Name: " ++ name,
   balanceLine specs display x.third,
   "      Field Name: " ++ name',
   line]

/-- The lines of the value of a storage entry. -/
def valueScreen (P : Printers) (specs : ShortSpecs) (chain : String) (showBits : BitStore → BitOrder → List Bool → String) (display : Bool)
    (s : Storage) : List String := Westend.screen showBits (s.value.card P specs chain 0 display)

/-- The lines of the key of a storage entry, if it is one value. -/
def keyScreen (P : Printers) (specs : ShortSpecs) (chain : String) (showBits : BitStore → BitOrder → List Bool → String) (display : Bool)
    (s : Storage) : List String :=
  match s.key with
  | .singleHash (.parsed d) => Westend.screen showBits (d.card P specs chain 0 display)
  | _ => []

end Verif.Spec
