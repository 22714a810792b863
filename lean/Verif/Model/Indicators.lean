import Verif.Model.Compact
import Verif.Model.Era
/-!
# Special indicators, `src/special_indicators.rs` (data-independent part)
-/
namespace Verif

/-- `SpecialtyUnsignedInteger`, `src/special_indicators.rs:213-238`. -/
inductive SpecUInt
  | none | balance | tip | tipAsset | nonce | specVersion | txVersion
  deriving DecidableEq, Repr

/-- `SpecialtyStr`, `src/special_indicators.rs:241-244`. -/
inductive SpecStr
  | none | specName
  deriving DecidableEq, Repr

/-- `SpecialtyH256`, `src/special_indicators.rs:252-256`. -/
inductive SpecH256
  | none | genesisHash | blockHash
  deriving DecidableEq, Repr

/-- `Hint`, `src/special_indicators.rs:344-358`. -/
inductive Hint
  | none
  | checkSpecVersion | checkTxVersion | checkGenesis | checkMortality | checkNonce
  | chargeAssetTxPayment | chargeTransactionPayment
  | fieldBalance | fieldNonce | fieldSpecName | fieldSpecVersion | fieldTxVersion
  deriving DecidableEq, Repr

/-- `BALANCE_ID_SET`, `src/special_indicators.rs:24-32`. -/
def balanceIdSet : List String :=
  ["Balance", "BalanceOf<T>", "BalanceOf<T, I>", "DepositBalance", "ExtendedBalance",
   "PalletBalanceOf<T>", "T::Balance"]

/-- `SIGNATURE_ECDSA_ID_SET`, `src/special_indicators.rs:38`. -/
def signatureEcdsaIdSet : List String := ["ecdsa::Signature"]
/-- `SIGNATURE_ED25519_ID_SET`, `src/special_indicators.rs:44`. -/
def signatureEd25519IdSet : List String := ["ed25519::Signature"]
/-- `SIGNATURE_SR25519_ID_SET`, `src/special_indicators.rs:50`. -/
def signatureSr25519IdSet : List String := ["sr25519::Signature"]
/-- `NONCE_ID_SET`, `src/special_indicators.rs:55`. -/
def nonceIdSet : List String := ["nonce"]
/-- `SPEC_VERSION_ID_SET`, `src/special_indicators.rs:60`. -/
def specVersionIdSet : List String := ["spec_version"]
/-- `SPEC_NAME_ID_SET`, `src/special_indicators.rs:65`. -/
def specNameIdSet : List String := ["spec_name"]
/-- `TX_VERSION_ID_SET`, `src/special_indicators.rs:71`. -/
def txVersionIdSet : List String := ["tx_version", "transaction_version"]

/-- `Hint::from_field`, name part, `src/special_indicators.rs:364-373`. -/
def Hint.fromFieldName : Option String → Hint
  | some name =>
    if nonceIdSet.contains name then .fieldNonce
    else if specVersionIdSet.contains name then .fieldSpecVersion
    else if specNameIdSet.contains name then .fieldSpecName
    else if txVersionIdSet.contains name then .fieldTxVersion
    else .none
  | Option.none => .none

/-- `Hint::from_field`, `src/special_indicators.rs:363-383`. -/
def Hint.fromField (f : Field) : Hint :=
  match Hint.fromFieldName f.name with
  | .none =>
    match f.typeName with
    | some typeName => if balanceIdSet.contains typeName then .fieldBalance else .none
    | Option.none => .none
  | h => h

/-- `Hint::from_ext_meta`, `src/special_indicators.rs:386-397`; argument is the
extension identifier. -/
def Hint.fromExtMeta (identifier : String) : Hint :=
  if identifier = "CheckSpecVersion" then .checkSpecVersion
  else if identifier = "CheckTxVersion" then .checkTxVersion
  else if identifier = "CheckGenesis" then .checkGenesis
  else if identifier = "CheckMortality" then .checkMortality
  else if identifier = "CheckNonce" then .checkNonce
  else if identifier = "ChargeAssetTxPayment" then .chargeAssetTxPayment
  else if identifier = "ChargeTransactionPayment" then .chargeTransactionPayment
  else .none

/-- `Hint::from_path`, `src/special_indicators.rs:403-413`. -/
def Hint.fromPath (t : Typ) : Hint :=
  match t.ident with
  | some a =>
    if a = "CheckNonce" then .checkNonce
    else if a = "ChargeAssetTxPayment" then .chargeAssetTxPayment
    else if a = "ChargeTransactionPayment" then .chargeTransactionPayment
    else .none
  | Option.none => .none

/-- `Hint::unsigned_integer`, `src/special_indicators.rs:416-428`. -/
def Hint.unsignedInteger : Hint → SpecUInt
  | .checkSpecVersion | .fieldSpecVersion => .specVersion
  | .checkTxVersion | .fieldTxVersion => .txVersion
  | .checkNonce | .fieldNonce => .nonce
  | .chargeTransactionPayment => .tip
  | .chargeAssetTxPayment => .tipAsset
  | .fieldBalance => .balance
  | _ => .none

/-- `Hint::string`, `src/special_indicators.rs:431-436`. -/
def Hint.string : Hint → SpecStr
  | .fieldSpecName => .specName
  | _ => .none

/-- `Hint::hash256`, `src/special_indicators.rs:439-445`. -/
def Hint.hash256 : Hint → SpecH256
  | .checkGenesis => .genesisHash
  | .checkMortality => .blockHash
  | _ => .none

/-- Fixed-size byte items decoded without looking inside: `H160`, `H512`,
`AccountId32`, public keys, signatures (`src/special_types.rs:186-201`,
`313-321`). One constructor per Rust type. -/
inductive FixedKind
  | h160 | h512 | id
  | publicEd25519 | publicSr25519 | publicEcdsa
  | signatureEd25519 | signatureSr25519 | signatureEcdsa
  deriving DecidableEq, Repr

/-- Encoded length, `src/special_types.rs:186-201` (constants of
`primitive_types` and `substrate_crypto_light`). -/
def FixedKind.len : FixedKind → Nat
  | .h160 => 20 | .h512 => 64 | .id => 32
  | .publicEd25519 => 32 | .publicSr25519 => 32 | .publicEcdsa => 33
  | .signatureEd25519 => 64 | .signatureSr25519 => 64 | .signatureEcdsa => 65

/-- `PerThing` types of `sp_arithmetic` (`src/special_types.rs:91-95`). -/
inductive PerKind
  | perU16 | percent | permill | perbill | perquintill
  deriving DecidableEq, Repr

/-- Underlying unsigned integer of the `PerThing`. External crate; types used in `src/special_types.rs:260-281`. -/
def PerKind.inner : PerKind → UW
  | .perU16 => .u16 | .percent => .u8 | .permill => .u32 | .perbill => .u32
  | .perquintill => .u64

/-- `PerThing::ACCURACY`, maximal value. External crate; types used in `src/special_types.rs:260-281`. -/
def PerKind.accuracy : PerKind → Nat
  | .perU16 => 65535 | .percent => 100 | .permill => 1000000
  | .perbill => 1000000000 | .perquintill => 1000000000000000000

/-- `stringify!` name used in `TypeFailure`, `src/special_types.rs:70`. -/
def PerKind.name : PerKind → String
  | .perU16 => "PerU16" | .percent => "Percent" | .permill => "Permill"
  | .perbill => "Perbill" | .perquintill => "Perquintill"

/-- `PalletSpecificItem`, `src/special_indicators.rs:485-488`. -/
inductive PalletItem
  | call | event
  deriving DecidableEq, Repr

/-- `SpecialtyTypeHinted`, `src/special_indicators.rs:455-476`, with the
fixed-size and `PerThing` cases grouped by kind. -/
inductive TypeHinted
  | none
  | fixed (k : FixedKind)
  | era
  | h256
  | multiSignature
  | palletSpecific (item : PalletItem)
  | perThing (k : PerKind)
  | uncheckedExtrinsic
  deriving DecidableEq, Repr

/-- `SpecialtyTypeHinted::from_type`, `src/special_indicators.rs:492-548`. -/
def TypeHinted.fromType (t : Typ) : TypeHinted :=
  match t.ident with
  | some a =>
    if a = "AccountId32" then .fixed .id
    else if ["Call", "RuntimeCall"].contains a then .palletSpecific .call
    else if a = "Era" then .era
    else if ["Event", "RuntimeEvent"].contains a then .palletSpecific .event
    else if ["AccountId20", "H160"].contains a then .fixed .h160
    else if a = "H256" then .h256
    else if a = "H512" then .fixed .h512
    else if a = "MultiSignature" then .multiSignature
    else if a = "Perbill" then .perThing .perbill
    else if a = "Percent" then .perThing .percent
    else if a = "Permill" then .perThing .permill
    else if a = "Perquintill" then .perThing .perquintill
    else if a = "PerU16" then .perThing .perU16
    else if a = "Public" then
      if t.namespace = ["sp_core", "ed25519"] then .fixed .publicEd25519
      else if t.namespace = ["sp_core", "sr25519"] then .fixed .publicSr25519
      else if t.namespace = ["sp_core", "ecdsa"] then .fixed .publicEcdsa
      else .none
    else if a = "Signature" then
      if t.namespace = ["sp_core", "ed25519"] then .fixed .signatureEd25519
      else if t.namespace = ["sp_core", "sr25519"] then .fixed .signatureSr25519
      else if t.namespace = ["sp_core", "ecdsa"] then .fixed .signatureEcdsa
      else .none
    else if a = "UncheckedExtrinsic" then
      if t.namespace = ["sp_runtime", "generic", "unchecked_extrinsic"] then .uncheckedExtrinsic
      else .none
    else .none
  | Option.none => .none

end Verif
