import Verif.Spec.Payload
import Verif.Spec.Node
import Verif.Spec.Westend
/-!
# Transactions of Polkadot 1003003 (specification)

How a transaction of this chain looks, byte by byte, without a look at any metadata.
-/
namespace Verif.Spec.Polkadot
open Westend (Scheme)

/-- What the extensions of a transaction say. -/
structure Extensions where
  era : Era
  nonce : Nat
  tip : Nat
  /-- Whether the transaction says that it vouches for a hash of the metadata. -/
  mode : Bool
  txVersion : Nat
  genesis : Bytes
  blockHash : Bytes
  metadataHash : Option Bytes

/-- The numbers and hashes fit their types; with an immortal era the block hash is the genesis hash; the genesis hash
is the one that is expected, if one is. Nothing relates the mode and the hash of the metadata. -/
structure Extensions.Valid (x : Extensions) (expected : Option Bytes) : Prop where
  era : EraOk x.era
  nonce : x.nonce < 2 ^ 32
  tip : x.tip < 2 ^ 128
  txVersion : x.txVersion < 2 ^ 32
  genesis : x.genesis.length = 32
  blockHash : x.blockHash.length = 32
  metadataHash : ∀ h, x.metadataHash = some h → h.length = 32
  immortal : x.era = .immortal → x.blockHash = x.genesis
  expected : ∀ g, expected = some g → x.genesis = g

/-- The bytes of the mode. -/
def modeBytes (m : Bool) : Bytes := if m then [1] else [0]

/-- The mode as a value. -/
def modeValue (m : Bool) : Value := .variant (if m then "Enabled" else "Disabled") []

/-- The bytes of the hash of the metadata. -/
def hashBytes : Option Bytes → Bytes
  | none => [0]
  | some h => 1 :: h

/-- The hash of the metadata as a value: bytes as numbers. -/
def hashValue : Option Bytes → Value
  | none => .variant "None" []
  | some h => .variant "Some" [(none, .seq (h.map fun x => .uint .u8 x.toNat))]

/-- The bytes: era, nonce and tip (compact), mode, then the spec version 1003003, the transaction version (four bytes each),
the genesis hash, the block hash, and the hash of the metadata, if any. -/
def Extensions.bytes (x : Extensions) : Bytes :=
  eraEncode x.era ++ compactEncode x.nonce ++ compactEncode x.tip ++ modeBytes x.mode ++ [0xfb, 0x4d, 0x0f, 0] ++
    leBytes 4 x.txVersion ++ x.genesis ++ x.blockHash ++ hashBytes x.metadataHash

/-- The values: of the ten extensions, then of what they add to the payload. -/
def Extensions.values (x : Extensions) : List Value :=
  [.record [], .record [], .record [], .record [], .era x.era, .uint .u32 x.nonce, .record [], .uint .u128 x.tip, .record [],
   modeValue x.mode,
   .tuple [], .uint .u32 1003003, .uint .u32 x.txVersion, .hash x.genesis, .hash x.blockHash, .tuple [], .tuple [], .tuple [],
   .tuple [], hashValue x.metadataHash]

/-- A payload for signing: length of the call (compact), call, extensions. -/
def payload (call : Bytes) (x : Extensions) : Bytes := compactEncode call.length ++ call ++ x.bytes

/-- The call `Balances.transfer_keep_alive`: pallet 5, call 3, address by account (0), 32 bytes of the account, amount (compact). -/
def transferKeepAlive (account : Bytes) (amount : Nat) : Bytes := [5, 3, 0] ++ account ++ compactEncode amount

/-- The same as a value. -/
def transfer (account : Bytes) (amount : Nat) : CallOf where
  pallet := "Balances"
  call := "transfer_keep_alive"
  args := [(some "dest", .variant "Id" [(none, .fixed .id account)]), (some "value", .uint .u128 amount)]

/-- What a signed extrinsic says, except for its call. -/
structure Signed where
  sender : Bytes
  scheme : Scheme
  signature : Bytes
  era : Era
  nonce : Nat
  tip : Nat
  mode : Bool

/-- The numbers fit their types, account and signature have their lengths. -/
structure Signed.Valid (x : Signed) : Prop where
  sender : x.sender.length = 32
  signature : x.signature.length = x.scheme.length
  era : EraOk x.era
  nonce : x.nonce < 2 ^ 32
  tip : x.tip < 2 ^ 128

/-- The bytes of a signed extrinsic without its length: version 4 and the bit for signed ones; sender, by account;
kind of signature and signature; era, nonce, tip and mode; the call. -/
def Signed.bytes (x : Signed) (call : Bytes) : Bytes :=
  [0x84, 0] ++ x.sender ++ [x.scheme.index] ++ x.signature ++ eraEncode x.era ++ compactEncode x.nonce ++ compactEncode x.tip ++
    modeBytes x.mode ++ call

/-- The same as values. -/
def Signed.extrinsic (x : Signed) (call : CallOf) : ExtrinsicOf :=
  .signed (.variant "Id" [(none, .fixed .id x.sender)]) (.fixed x.scheme.kind x.signature)
    (.tuple [.record [], .record [], .record [], .record [], .era x.era, .uint .u32 x.nonce, .record [], .uint .u128 x.tip, .record [],
      modeValue x.mode]) call

end Verif.Spec.Polkadot
