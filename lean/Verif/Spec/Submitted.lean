import Verif.Spec.Payload
import Verif.Spec.Node
/-!
# From a signed payload to an extrinsic (specification)

A wallet shows a payload, signs it, and the signature is sent in an extrinsic: address, signature, the first halves of
the extensions, the call. The second halves of the extensions (spec version, genesis hash, block hash, …) are signed
but not sent.
-/
namespace Verif.Spec

/-- What is in the payload and in the extrinsic: the values of the extensions themselves. -/
def sentItems (signed : List SignedExt) : List (String × Nat) := signed.map fun e => (e.identifier, e.ty)

/-- What is in the payload only. -/
def unsentItems (signed : List SignedExt) : List (String × Nat) := signed.map fun e => (e.identifier, e.additionalSigned)

/-- The metadata describes payloads and extrinsics of the same chain: the calls in extrinsics have the type of calls,
the extensions in extrinsics are the tuple of the signed extensions. The version of extrinsics leaves room for the bit
of signed ones. -/
structure OneChain {ME : Type} (M : CompleteMetadata ME) (params : ExtrinsicParams) (version : UInt8)
    (signed : List SignedExt) : Prop where
  hasParams : M.extrinsicTypeParams = .ok params
  hasVersion : M.extrinsicVersion = .ok version
  bit : version.toNat < 128
  hasSigned : M.signedExtensions = .ok signed
  call : M.callTy = .ok params.callTy
  extra : ∃ t, M.types.resolve params.extraTy = .ok t ∧ Structural t.path ∧ t.typeDef = .tuple (signed.map (·.ty))

/-- The payload that is signed: compact length of the call, call, extensions, what they add. -/
def signedPayload (call extra added : Bytes) : Bytes := compactEncode call.length ++ call ++ extra ++ added

/-- What follows the length of an extrinsic: version and bit of signed ones, address, signature, extensions, call. -/
def sentBody (version : UInt8) (address signature extra call : Bytes) : Bytes :=
  UInt8.ofNat (version.toNat + 128) :: (address ++ signature ++ extra ++ call)

/-- The extrinsic. -/
def sentExtrinsic (version : UInt8) (address signature extra call : Bytes) : Bytes :=
  compactEncode (sentBody version address signature extra call).length ++ sentBody version address signature extra call

end Verif.Spec
