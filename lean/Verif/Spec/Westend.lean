import Verif.Spec.Payload
import Verif.Spec.Node
/-!
# Transactions of Westend 9111 (specification)

How a transaction of this chain looks, byte by byte, without a look at any metadata.
-/
namespace Verif.Spec.Westend

/-- What the extensions of a transaction say. -/
structure Extensions where
  era : Era
  nonce : Nat
  tip : Nat
  txVersion : Nat
  genesis : Bytes
  blockHash : Bytes

/-- The numbers and hashes fit their types; with an immortal era the block hash is the genesis hash; the genesis hash
is the one that is expected, if one is. -/
structure Extensions.Valid (x : Extensions) (expected : Option Bytes) : Prop where
  era : EraOk x.era
  nonce : x.nonce < 2 ^ 32
  tip : x.tip < 2 ^ 128
  txVersion : x.txVersion < 2 ^ 32
  genesis : x.genesis.length = 32
  blockHash : x.blockHash.length = 32
  immortal : x.era = .immortal → x.blockHash = x.genesis
  expected : ∀ g, expected = some g → x.genesis = g

/-- The bytes: era, nonce and tip (compact), then the spec version 9111, the transaction version (four bytes each), the
genesis hash and the block hash. -/
def Extensions.bytes (x : Extensions) : Bytes :=
  eraEncode x.era ++ compactEncode x.nonce ++ compactEncode x.tip ++ [0x97, 0x23, 0, 0] ++ leBytes 4 x.txVersion ++
    x.genesis ++ x.blockHash

/-- The values: of the seven extensions, then of what they add to the payload. -/
def Extensions.values (x : Extensions) : List Value :=
  [.record [], .record [], .record [], .era x.era, .uint .u32 x.nonce, .record [], .uint .u128 x.tip,
   .uint .u32 9111, .uint .u32 x.txVersion, .hash x.genesis, .hash x.blockHash, .tuple [], .tuple [], .tuple []]

/-- A payload for signing: length of the call (compact), call, extensions. -/
def payload (call : Bytes) (x : Extensions) : Bytes := compactEncode call.length ++ call ++ x.bytes

/-- The call `Balances.transfer_keep_alive`: pallet 4, call 3, address by account (0), 32 bytes of the account, amount (compact). -/
def transferKeepAlive (account : Bytes) (amount : Nat) : Bytes := [4, 3, 0] ++ account ++ compactEncode amount

/-- The same as a value. -/
def transfer (account : Bytes) (amount : Nat) : CallOf where
  pallet := "Balances"
  call := "transfer_keep_alive"
  args := [(some "dest", .variant "Id" [(none, .fixed .id account)]), (some "value", .uint .u128 amount)]

/-- The kinds of signatures. -/
inductive Scheme
  | ed25519 | sr25519 | ecdsa

/-- Name of the kind. -/
def Scheme.name : Scheme → String
  | .ed25519 => "Ed25519" | .sr25519 => "Sr25519" | .ecdsa => "Ecdsa"

/-- What is shown. -/
def Scheme.kind : Scheme → FixedKind
  | .ed25519 => .signatureEd25519 | .sr25519 => .signatureSr25519 | .ecdsa => .signatureEcdsa

/-- Number of the kind. -/
def Scheme.index : Scheme → UInt8
  | .ed25519 => 0 | .sr25519 => 1 | .ecdsa => 2

/-- Bytes of a signature. -/
def Scheme.length : Scheme → Nat
  | .ed25519 | .sr25519 => 64 | .ecdsa => 65

/-- What a signed extrinsic says, except for its call. -/
structure Signed where
  sender : Bytes
  scheme : Scheme
  signature : Bytes
  era : Era
  nonce : Nat
  tip : Nat

/-- The numbers fit their types, account and signature have their lengths. -/
structure Signed.Valid (x : Signed) : Prop where
  sender : x.sender.length = 32
  signature : x.signature.length = x.scheme.length
  era : EraOk x.era
  nonce : x.nonce < 2 ^ 32
  tip : x.tip < 2 ^ 128

/-- The bytes of a signed extrinsic without its length: version 4 and the bit for signed ones; sender, by account;
kind of signature and signature; era, nonce and tip; the call. -/
def Signed.bytes (x : Signed) (call : Bytes) : Bytes :=
  [0x84, 0] ++ x.sender ++ [x.scheme.index] ++ x.signature ++ eraEncode x.era ++ compactEncode x.nonce ++ compactEncode x.tip ++ call

/-- The same as values. -/
def Signed.extrinsic (x : Signed) (call : CallOf) : ExtrinsicOf :=
  .signed (.variant "Id" [(none, .fixed .id x.sender)]) (.variant x.scheme.name [(none, .fixed x.scheme.kind x.signature)])
    (.tuple [.record [], .record [], .record [], .era x.era, .uint .u32 x.nonce, .record [], .uint .u128 x.tip]) call

end Verif.Spec.Westend
