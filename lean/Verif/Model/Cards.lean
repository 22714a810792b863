import Verif.Model.Balance
import Verif.Model.Special
import Verif.Model.Transaction
/-!
# Flat cards, `src/cards.rs:60-78`, `119-220`, `356-1018`, and `src/lib.rs:552-556`, `632-735`

`u32` indents are natural numbers (they overflow only for data nested `2^31` deep). The
base58 and identicon functions are arbitrary functions. A panic in the printing of a
balance is the card content `none`.
-/
namespace Verif

/-- `InfoFlat`, `src/cards.rs:889-892`. -/
structure InfoFlat where
  docs : Option String
  pathFlat : Option String
  deriving DecidableEq, Repr

/-- `Info::flatten`, `src/cards.rs:63-79`. -/
def Info.flatten (i : Info) : InfoFlat :=
  { docs := if i.docs.isEmpty then none else some i.docs
    pathFlat := if i.path.isEmpty then none else some (" >> ".intercalate i.path) }

/-- `IdData`, `src/cards.rs:904-911`. -/
structure IdData where
  base58 : String
  identicon : Bytes
  deriving DecidableEq, Repr

/-- `ShortSpecs`, `src/lib.rs:552-556`. -/
structure ShortSpecs where
  base58prefix : Nat
  decimals : Nat
  unit : String
  deriving DecidableEq, Repr

/-- External functions: `to_base58_string` for each key type
(`substrate_crypto_light`), `generate_png_scaled_default` (`plot_icon`). Called in `src/cards.rs:920-927`. -/
structure Printers where
  base58 : FixedKind → Bytes → Nat → String
  identicon : Bytes → Bytes

/-- `IdData::from_…`, `src/cards.rs:914-937`. -/
def Printers.idData (P : Printers) (k : FixedKind) (h : Bytes) (base58prefix : Nat) : IdData :=
  { base58 := P.base58 k h base58prefix, identicon := P.identicon h }

/-- `ParserCard`, `src/cards.rs:941-1018`; grouped as `PD` is. `balance` and `tip` hold
`none` where the printing of the number panics. -/
inductive ParserCard
  | balance (c : Option Currency)
  | balanceRaw (s : String)
  | bitVec (store : BitStore) (order : BitOrder) (bits : List Bool)
  | blockHash (h : Bytes)
  | callName (s : String)
  | compositeAnnounced (n : Nat)
  | emptyEnum
  | enumAnnounced
  | enumVariantName (s : String)
  | era (e : Era)
  | eventName (s : String)
  | fieldName (s : String)
  | fieldNumber (n : Nat)
  | genesisHash (h : Bytes)
  | h256 (h : Bytes)
  /-- `H160`, `H512` and the signatures. -/
  | raw (k : FixedKind) (h : Bytes)
  /-- `Id` and the public keys. -/
  | key (k : FixedKind) (d : IdData)
  | nameSpecVersion (name version : String)
  | nonce (s : String)
  | palletName (s : String)
  | perThing (k : PerKind) (v : Nat)
  | bool (v : Bool)
  | char (v : Char)
  | int (w : IW) (v : Int)
  | uint (w : UW) (v : Nat)
  | u256 (v : Nat)
  | sequenceAnnounced (len : Nat) (elementInfoFlat : List InfoFlat)
  | sequenceU8 (hex : String) (text : Option String) (elementInfoFlat : List InfoFlat)
  | specName (s : String)
  | text (s : String)
  | tip (c : Option Currency)
  | tipAsset (s : String)
  | tupleAnnounced (n : Nat)
  | txVersion (s : String)
  deriving DecidableEq, Repr

/-- `ExtendedCard`, `src/cards.rs:879-883`. -/
structure ExtendedCard where
  parserCard : ParserCard
  indent : Nat
  infoFlat : List InfoFlat
  deriving DecidableEq, Repr

/-- `PALLETS_BALANCE_VALID`, `src/cards.rs:137`. -/
def palletsBalanceValid : List String := ["Balances", "Staking"]

/-- `is_balance_display`, `src/cards.rs:144-146`. -/
def isBalanceDisplay (palletName : String) : Bool := palletsBalanceValid.contains palletName

/-- `info_with_docs_only`, `src/cards.rs:856-865`. -/
def infoWithDocsOnly (docs : String) : List InfoFlat :=
  if docs.isEmpty then [] else [{ docs := some docs, pathFlat := none }]

/-- Hex digit, lower case. Part of `hex::encode`, called in `src/cards.rs:649`, `682`. -/
def hexDigit (n : Nat) : Char := Nat.digitChar n

/-- `hex::encode`. External crate; called in `src/cards.rs:649`, `682`, `1100-1180`. -/
def hexEncode (l : List Nat) : String := String.ofList (l.flatMap fun b => [hexDigit (b / 16), hexDigit (b % 16)])

/-- Integers below 256 as bytes. The bytes of a `Sequence::U8`, `src/cards.rs:643`, `676`. -/
def natBytes (l : List Nat) : Bytes := l.map UInt8.ofNat

/-- The card content for a `Sequence::U8`, `src/cards.rs:627-645`, `670-684`. -/
def sequenceU8Card (l : List Nat) (elementInfo : List InfoFlat) : ParserCard :=
  .sequenceU8 (hexEncode l) (stringFromUtf8 (natBytes l)) elementInfo

/-- `specialty_card!`, `src/cards.rs:369-404`. -/
def specialtyCard (w : UW) (v : Nat) (specialty : SpecUInt) (displayBalance : Bool) (specs : ShortSpecs)
    (specName : String) : ParserCard :=
  match specialty with
  | .none => .uint w v
  | .balance =>
    if displayBalance then .balance (convertBalancePretty v specs.decimals specs.unit)
    else .balanceRaw (toString v)
  | .tip => .tip (convertBalancePretty v specs.decimals specs.unit)
  | .tipAsset => .tipAsset (toString v)
  | .nonce => .nonce (toString v)
  | .specVersion => .nameSpecVersion specName (toString v)
  | .txVersion => .txVersion (toString v)

/-- `ParsedData::Sequence` in `card`, `src/cards.rs:622-690`, with `seq_u16..seq_u128`,
`src/cards.rs:408-441`. -/
def sequenceCards (elementInfo : List Info) (s : Sequence) (infoFlat : List InfoFlat) (indent : Nat) :
    List ExtendedCard :=
  let elementInfoFlat := elementInfo.map Info.flatten
  match s with
  | .uints .u8 l => [⟨sequenceU8Card l elementInfoFlat, indent, infoFlat⟩]
  | .uints w l =>
    ⟨.sequenceAnnounced l.length elementInfoFlat, indent, infoFlat⟩ ::
      l.map fun v => ⟨.uint w v, indent + 1, []⟩
  | .vecU8 l inner =>
    ⟨.sequenceAnnounced l.length elementInfoFlat, indent, infoFlat⟩ ::
      l.map fun x => ⟨sequenceU8Card x (inner.map Info.flatten), indent + 1, []⟩

/-- The fixed-size values in `card`: plain cards, or base58 ones, `src/cards.rs:516-529`,
`592-621`, `717-725`. -/
def fixedCard (P : Printers) (specs : ShortSpecs) (k : FixedKind) (h : Bytes) : ParserCard :=
  match k with
  | .h160 => .raw .h160 h
  | .h512 => .raw .h512 h
  | .id => .key .id (P.idData .id h specs.base58prefix)
  | .publicEd25519 => .key .publicEd25519 (P.idData .publicEd25519 h specs.base58prefix)
  | .publicSr25519 => .key .publicSr25519 (P.idData .publicSr25519 h specs.base58prefix)
  | .publicEcdsa => .key .publicEcdsa (P.idData .publicEcdsa h specs.base58prefix)
  | .signatureEd25519 => .raw .signatureEd25519 h
  | .signatureSr25519 => .raw .signatureSr25519 h
  | .signatureEcdsa => .raw .signatureEcdsa h

/-- Is there exactly one field, without a name? `src/cards.rs:173`, `479`, `763`. -/
def singleUnnamed (fields : List FD) : Bool :=
  match fields with
  | [f] => f.fieldName.isNone
  | _ => false

section
variable (P : Printers) (specs : ShortSpecs) (specName : String)

mutual
/-- `ParsedData::card`, `src/cards.rs:445-787`; `Call::card`, `Event::card` and
`PalletSpecificData::card`, `src/cards.rs:150-220`, are the case `pallet`. -/
def PD.card (d : PD) (infoFlat : List InfoFlat) (indent : Nat) (displayBalance : Bool) : List ExtendedCard :=
  match d with
  | .bitVec s o l => [⟨.bitVec s o l, indent, infoFlat⟩]
  | .blockHash h => [⟨.blockHash h, indent, infoFlat⟩]
  | .genesisHash h => [⟨.genesisHash h, indent, infoFlat⟩]
  | .h256 h => [⟨.h256 h, indent, infoFlat⟩]
  | .fixed k h => [⟨fixedCard P specs k h, indent, infoFlat⟩]
  | .pallet item palletInfo variantDocs palletName variantName fields =>
    ⟨.palletName palletName, indent, [palletInfo.flatten]⟩ ::
    ⟨(match item with | .call => .callName variantName | .event => .eventName variantName), indent + 1,
      infoWithDocsOnly variantDocs⟩ ::
    (if singleUnnamed fields then
      cardFirstUnnamed fields [] (indent + 2) (isBalanceDisplay palletName)
    else cardFieldSet fields 0 (indent + 2) (isBalanceDisplay palletName))
  | .composite fields =>
    if fields.isEmpty then []
    else if singleUnnamed fields then cardFirstUnnamed fields infoFlat indent displayBalance
    else
      ⟨.compositeAnnounced fields.length, indent, infoFlat⟩ ::
        cardFieldSet fields 0 (indent + 1) displayBalance
  | .emptyEnum => [⟨.emptyEnum, indent, infoFlat⟩]
  | .era e => [⟨.era e, indent, infoFlat⟩]
  | .perThing k v => [⟨.perThing k v, indent, infoFlat⟩]
  | .bool v => [⟨.bool v, indent, infoFlat⟩]
  | .char v => [⟨.char v, indent, infoFlat⟩]
  | .int w v => [⟨.int w v, indent, infoFlat⟩]
  | .uint w v specialty => [⟨specialtyCard w v specialty displayBalance specs specName, indent, infoFlat⟩]
  | .u256 v => [⟨.u256 v, indent, infoFlat⟩]
  | .sequence elementInfo s => sequenceCards elementInfo s infoFlat indent
  | .sequenceRaw elementInfo l =>
    ⟨.sequenceAnnounced l.length (elementInfo.map Info.flatten), indent, infoFlat⟩ ::
      cardElements l (indent + 1) displayBalance
  | .text s specialty =>
    match specialty with
    | .specName => [⟨.specName s, indent, infoFlat⟩]
    | .none => [⟨.text s, indent, infoFlat⟩]
  | .tuple l =>
    if l.isEmpty then []
    else ⟨.tupleAnnounced l.length, indent, infoFlat⟩ :: cardTuple l (indent + 1) displayBalance
  | .variant name docs fields =>
    ⟨.enumAnnounced, indent, infoFlat⟩ :: ⟨.enumVariantName name, indent + 1, infoWithDocsOnly docs⟩ ::
    (if singleUnnamed fields then cardFirstUnnamed fields [] (indent + 2) displayBalance
    else cardFieldSet fields 0 (indent + 2) displayBalance)

/-- `ExtendedData::card`, `src/cards.rs:1023-1033`. -/
def ED.card (d : ED) (indent : Nat) (displayBalance : Bool) : List ExtendedCard :=
  match d with
  | ⟨data, info⟩ => data.card (info.map Info.flatten) indent displayBalance

/-- `card_unnamed_single_field`, `src/cards.rs:793-818`. -/
def FD.cardUnnamed (d : FD) (infoFlat : List InfoFlat) (indent : Nat) (displayBalance : Bool) :
    List ExtendedCard :=
  match d with
  | ⟨_, _, fieldDocs, ⟨data, info⟩⟩ =>
    data.card (infoFlat ++ infoWithDocsOnly fieldDocs ++ info.map Info.flatten) indent displayBalance

/-- `card_unnamed_single_field(.., &fields[0], ..)`, `src/cards.rs:174-182`, `481-490`,
`764-772`. -/
def cardFirstUnnamed (fields : List FD) (infoFlat : List InfoFlat) (indent : Nat) (displayBalance : Bool) :
    List ExtendedCard :=
  match fields with
  | [] => []
  | f :: _ => f.cardUnnamed infoFlat indent displayBalance

/-- One field in `card_field_set`, `src/cards.rs:834-850`. -/
def FD.cardInSet (d : FD) (i indent : Nat) (displayBalance : Bool) : List ExtendedCard :=
  match d with
  | ⟨fieldName, _, fieldDocs, data⟩ =>
    ⟨(match fieldName with | some a => .fieldName a | none => .fieldNumber (i + 1)), indent,
      infoWithDocsOnly fieldDocs⟩ :: data.card (indent + 1) displayBalance

/-- `card_field_set`, `src/cards.rs:826-851`, fields counted from `i`. -/
def cardFieldSet (fields : List FD) (i indent : Nat) (displayBalance : Bool) : List ExtendedCard :=
  match fields with
  | [] => []
  | f :: fs => f.cardInSet i indent displayBalance ++ cardFieldSet fs (i + 1) indent displayBalance

/-- Elements of `SequenceRaw`, `src/cards.rs:708-716`. -/
def cardElements (l : List PD) (indent : Nat) (displayBalance : Bool) : List ExtendedCard :=
  match l with
  | [] => []
  | d :: ds => d.card [] indent displayBalance ++ cardElements ds indent displayBalance

/-- Elements of `Tuple`, `src/cards.rs:741-748`. -/
def cardTuple (l : List ED) (indent : Nat) (displayBalance : Bool) : List ExtendedCard :=
  match l with
  | [] => []
  | d :: ds => d.card indent displayBalance ++ cardTuple ds indent displayBalance
end

/-- A call as parsed data. `ParsedData::Call`, `src/cards.rs:296`, `475`. -/
def Call.toPD (c : Call) : PD :=
  .pallet .call c.palletInfo c.variantDocs c.palletName c.variantName c.fields

/-- `Call::card`, `src/cards.rs:199-207`. -/
def Call.card (c : Call) (indent : Nat) : List ExtendedCard := c.toPD.card P specs specName [] indent false

/-- The extensions in `TransactionParsed::card`, `src/lib.rs:657-664`, `722-729`. -/
def cardExtensions (l : List ED) : List ExtendedCard := l.flatMap fun e => e.card P specs specName 0 true

/-- `TransactionCarded`, `src/lib.rs:640-648`. -/
structure TransactionCarded (ME : Type) where
  callResult : Except (SErr ME) (List ExtendedCard)
  extensions : List ExtendedCard

/-- `TransactionParsed::card`, `src/lib.rs:655-671`. -/
def TransactionParsed.card {ME : Type} (t : TransactionParsed ME) : TransactionCarded ME :=
  { callResult := t.callResult.map fun c => c.card P specs specName 0
    extensions := cardExtensions P specs specName t.extensions }

/-- `TransactionUnmarkedCarded`, `src/lib.rs:713-717`. -/
structure TransactionUnmarkedCarded where
  call : List ExtendedCard
  extensions : List ExtendedCard

/-- `TransactionUnmarkedParsed::card`, `src/lib.rs:719-735`. -/
def TransactionUnmarkedParsed.card (t : TransactionUnmarkedParsed) : TransactionUnmarkedCarded :=
  { call := t.call.card P specs specName 0
    extensions := cardExtensions P specs specName t.extensions }
end

end Verif
