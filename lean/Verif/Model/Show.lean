import Verif.Model.Cards
/-!
# Text of the cards, `src/cards.rs:867-901`, `1021-1260`

The text of a bit vector (`to_string` of the `bitvec` crate) is an arbitrary function
`showBits`.
-/
namespace Verif

/-- `"  ".repeat(indent)`. `src/cards.rs:871`, `1106-1108`, `1202`. -/
def indentation (indent : Nat) : String := String.ofList (List.replicate (2 * indent) ' ')

/-- `readable`, `src/cards.rs:868-875`. -/
def readable (indent : Nat) (cardType payload : String) : String :=
  indentation indent ++ cardType ++ ": " ++ payload

/-- `hex::encode` of an array. Called in `src/cards.rs:1100-1180`. -/
def hexBytes (h : Bytes) : String := hexEncode (h.map UInt8.toNat)

/-- Names of the signed integers, `src/cards.rs:1146-1151`. -/
def IW.name : IW → String
  | .i8 => "i8" | .i16 => "i16" | .i32 => "i32" | .i64 => "i64" | .i128 => "i128" | .i256 => "BigInt"

/-- Names of the unsigned integers, `src/cards.rs:1152-1156`. -/
def UW.name : UW → String
  | .u8 => "u8" | .u16 => "u16" | .u32 => "u32" | .u64 => "u64" | .u128 => "u128"

/-- Names of the bit vectors, `src/cards.rs:1076-1101`. -/
def bitVecCardName : BitStore → BitOrder → String
  | .u8, .lsb0 => "BitVec<u8, Lsb0>" | .u16, .lsb0 => "BitVec<u16, Lsb0>"
  | .u32, .lsb0 => "BitVec<u32, Lsb0>" | .u64, .lsb0 => "BitVec<u64, Lsb0>"
  | .u8, .msb0 => "BitVec<u8, Msb0>" | .u16, .msb0 => "BitVec<u16, Msb0>"
  | .u32, .msb0 => "BitVec<u32, Msb0>" | .u64, .msb0 => "BitVec<u64, Msb0>"

/-- Names of the fixed-size values, `src/cards.rs:1122-1125`, `1158-1160`, `1173-1181`. -/
def FixedKind.cardName : FixedKind → String
  | .h160 => "H160" | .h512 => "H512" | .id => "Id"
  | .publicEd25519 => "PublicKey Ed25519" | .publicSr25519 => "PublicKey Sr25519"
  | .publicEcdsa => "PublicKey Ecdsa"
  | .signatureEd25519 => "Signature Ed25519" | .signatureSr25519 => "Signature Sr25519"
  | .signatureEcdsa => "Signature Ecdsa"

/-- Text of a printed balance, `src/cards.rs:1073`, `1185`. A failed number has panicked
before. -/
def currencyText : Option Currency → String
  | some a => a.number ++ " " ++ a.units
  | none => ""

/-- Card type and payload handed to `readable` in `ExtendedCard::show`,
`src/cards.rs:1070-1193`; the two cards without payload are printed as their type. -/
def ParserCard.line (showBits : BitStore → BitOrder → List Bool → String) : ParserCard → String × Option String
  | .balance a => ("Balance", some (currencyText a))
  | .balanceRaw a => ("Balance Raw", some a)
  | .bitVec s o l => (bitVecCardName s o, some (showBits s o l))
  | .blockHash a => ("Block Hash", some (hexBytes a))
  | .callName a => ("Call", some a)
  | .compositeAnnounced a => ("Struct", some (toString a ++ " field(s)"))
  | .emptyEnum => ("Enum With No Variants", none)
  | .enumAnnounced => ("Enum", none)
  | .enumVariantName a => ("Enum Variant Name", some a)
  | .era .immortal => ("Era", some "Immortal")
  | .era (.mortal period phase) =>
    ("Era", some ("Mortal, phase: " ++ toString phase ++ ", period: " ++ toString period))
  | .eventName a => ("Event", some a)
  | .fieldName a => ("Field Name", some a)
  | .fieldNumber a => ("Field Number", some (toString a))
  | .genesisHash a => ("Genesis Hash", some (hexBytes a))
  | .h256 a => ("H256", some (hexBytes a))
  | .raw k a => (k.cardName, some (hexBytes a))
  | .key k a => (k.cardName, some a.base58)
  | .nameSpecVersion name version => ("Chain", some (name ++ version))
  | .nonce a => ("Nonce", some a)
  | .palletName a => ("Pallet", some a)
  | .perThing k a => (k.name, some (toString a))
  | .bool a => ("Bool", some (toString a))
  | .char a => ("Char", some (String.singleton a))
  | .int w a => (w.name, some (toString a))
  | .uint w a => (w.name, some (toString a))
  | .u256 a => ("BigUint", some (toString a))
  | .sequenceAnnounced len _ => ("Sequence", some (toString len ++ " element(s)"))
  | .sequenceU8 _ (some validText) _ => ("Text", some validText)
  | .sequenceU8 hex none _ => ("Sequence u8", some hex)
  | .specName a => ("Spec Name", some a)
  | .text a => ("Text", some a)
  | .tip a => ("Tip", some (currencyText a))
  | .tipAsset a => ("Tip Asset", some a)
  | .tupleAnnounced a => ("Tuple", some (toString a ++ " element(s)"))
  | .txVersion a => ("Tx Version", some a)

section
variable (showBits : BitStore → BitOrder → List Bool → String)

/-- `ExtendedCard::show`, `src/cards.rs:1070-1193`. -/
def ExtendedCard.show (c : ExtendedCard) : String :=
  match c.parserCard.line showBits with
  | (cardType, some payload) => readable c.indent cardType payload
  | (cardType, none) => indentation c.indent ++ cardType

/-- `Display for InfoFlat`, `src/cards.rs:894-900`. -/
def InfoFlat.display (i : InfoFlat) : String :=
  "(docs: " ++ i.docs.getD "None" ++ ", path: " ++ i.pathFlat.getD "None" ++ ")"

/-- `element_info_printed`, `src/cards.rs:1211-1215`, `1231-1235`. -/
def elementInfoPrinted (l : List InfoFlat) : String := ",".intercalate (l.map InfoFlat.display)

/-- `ExtendedCard::show_with_docs`, `src/cards.rs:1196-1260`. -/
def ExtendedCard.showWithDocs (c : ExtendedCard) : String :=
  let infoPrinted := String.join (c.infoFlat.map fun i => "\n" ++ indentation c.indent ++ i.display)
  let cardPrinted :=
    match c.parserCard with
    | .sequenceAnnounced len info =>
      let printed := elementInfoPrinted info
      if printed.isEmpty then readable c.indent "Sequence" (toString len ++ " element(s)")
      else readable c.indent "Sequence" (toString len ++ " element(s), element info: [" ++ printed ++ "]")
    | .sequenceU8 hex text info =>
      let printed := elementInfoPrinted info
      if printed.isEmpty then
        match text with
        | some validText => readable c.indent "Text" validText
        | none => readable c.indent "Sequence u8" hex
      else
        match text with
        | some validText => readable c.indent "Text" (validText ++ ", element info: [" ++ printed ++ "]")
        | none => readable c.indent "Sequence u8" (hex ++ ", element info: [" ++ printed ++ "]")
    | _ => c.show showBits
  cardPrinted ++ infoPrinted

variable (P : Printers) (specs : ShortSpecs) (specName : String)

/-- `ExtendedData::show`, `src/cards.rs:1036-1049`. -/
def ED.show (d : ED) (indent : Nat) (displayBalance : Bool) : String :=
  "\n".intercalate ((d.card P specs specName indent displayBalance).map (·.show showBits))

/-- `ExtendedData::show_with_docs`, `src/cards.rs:1052-1065`. -/
def ED.showWithDocs (d : ED) (indent : Nat) (displayBalance : Bool) : String :=
  "\n".intercalate ((d.card P specs specName indent displayBalance).map (·.showWithDocs showBits))
end

end Verif
