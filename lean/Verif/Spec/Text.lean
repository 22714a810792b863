import Verif.Spec.Cards
/-!
# Text of a card (specification)

What a line of the shown text is: a label that names the kind of the card, and the payload
in words. Numbers are in decimal, hashes in hexadecimal.
-/
namespace Verif.Spec

/-- Text of a natural number: its decimal digits without superfluous zeros. -/
def Written (n : Nat) (s : String) : Prop :=
  Decimal s s.toList [] ∧ (s.toList.head? = some '0' → s = "0") ∧ mantissa s.toList [] = n

/-- Text of an integer. -/
def WrittenInt (v : Int) (s : String) : Prop :=
  (0 ≤ v ∧ Written v.toNat s) ∨ (v < 0 ∧ ∃ t, Written (-v).toNat t ∧ s = "-" ++ t)

/-- Labels of the fixed-size values. -/
def fixedLabels : List (FixedKind × String) :=
  [(.h160, "H160"), (.h512, "H512"), (.id, "Id"), (.publicEd25519, "PublicKey Ed25519"),
   (.publicSr25519, "PublicKey Sr25519"), (.publicEcdsa, "PublicKey Ecdsa"),
   (.signatureEd25519, "Signature Ed25519"), (.signatureSr25519, "Signature Sr25519"),
   (.signatureEcdsa, "Signature Ecdsa")]

/-- Labels of the integers. -/
def intLabels : List (IW × String) :=
  [(.i8, "i8"), (.i16, "i16"), (.i32, "i32"), (.i64, "i64"), (.i128, "i128"), (.i256, "BigInt")]

/-- Labels of the unsigned integers. -/
def uintLabels : List (UW × String) :=
  [(.u8, "u8"), (.u16, "u16"), (.u32, "u32"), (.u64, "u64"), (.u128, "u128")]

/-- Labels of the parts of one. -/
def perLabels : List (PerKind × String) :=
  [(.perU16, "PerU16"), (.percent, "Percent"), (.permill, "Permill"), (.perbill, "Perbill"),
   (.perquintill, "Perquintill")]

/-- Labels of stores of bits. -/
def storeLabels : List (BitStore × String) := [(.u8, "u8"), (.u16, "u16"), (.u32, "u32"), (.u64, "u64")]

/-- Labels of bit orders. -/
def orderLabels : List (BitOrder × String) := [(.lsb0, "Lsb0"), (.msb0, "Msb0")]

/-- `Line c label payload`: the card `c` is shown as `label: payload`, or as `label`. -/
inductive Line (showBits : BitStore → BitOrder → List Bool → String) :
    ParserCard → String → Option String → Prop
  /- numbers -/
  | uint {w v label s} : (w, label) ∈ uintLabels → Written v s → Line showBits (.uint w v) label (some s)
  | int {w v label s} : (w, label) ∈ intLabels → WrittenInt v s → Line showBits (.int w v) label (some s)
  | u256 {v s} : Written v s → Line showBits (.u256 v) "BigUint" (some s)
  | per {k v label s} : (k, label) ∈ perLabels → Written v s → Line showBits (.perThing k v) label (some s)
  /- amounts, with the unit -/
  | balance {n u} : Line showBits (.balance (some ⟨n, u⟩)) "Balance" (some (n ++ " " ++ u))
  | balanceRaw {s} : Line showBits (.balanceRaw s) "Balance Raw" (some s)
  | tip {n u} : Line showBits (.tip (some ⟨n, u⟩)) "Tip" (some (n ++ " " ++ u))
  | tipAsset {s} : Line showBits (.tipAsset s) "Tip Asset" (some s)
  /- what the chain checks -/
  | nonce {s} : Line showBits (.nonce s) "Nonce" (some s)
  | chain {n v} : Line showBits (.nameSpecVersion n v) "Chain" (some (n ++ v))
  | txVersion {s} : Line showBits (.txVersion s) "Tx Version" (some s)
  | specName {s} : Line showBits (.specName s) "Spec Name" (some s)
  | immortal : Line showBits (.era .immortal) "Era" (some "Immortal")
  | mortal {period phase s t} : Written phase s → Written period t →
      Line showBits (.era (.mortal period phase)) "Era" (some ("Mortal, phase: " ++ s ++ ", period: " ++ t))
  /- hashes, keys, signatures -/
  | blockHash {h s} : HexText s.toList (h.map UInt8.toNat) → Line showBits (.blockHash h) "Block Hash" (some s)
  | genesisHash {h s} : HexText s.toList (h.map UInt8.toNat) →
      Line showBits (.genesisHash h) "Genesis Hash" (some s)
  | h256 {h s} : HexText s.toList (h.map UInt8.toNat) → Line showBits (.h256 h) "H256" (some s)
  | raw {k h label s} : (k, label) ∈ fixedLabels → HexText s.toList (h.map UInt8.toNat) →
      Line showBits (.raw k h) label (some s)
  | key {k a i label} : (k, label) ∈ fixedLabels → Line showBits (.key k ⟨a, i⟩) label (some a)
  /- texts and single values -/
  | yes : Line showBits (.bool true) "Bool" (some "true")
  | no : Line showBits (.bool false) "Bool" (some "false")
  | char {a} : Line showBits (.char a) "Char" (some (String.singleton a))
  | text {s} : Line showBits (.text s) "Text" (some s)
  | bytesText {hex s is} : Line showBits (.sequenceU8 hex (some s) is) "Text" (some s)
  | bytesHex {hex is} : Line showBits (.sequenceU8 hex none is) "Sequence u8" (some hex)
  | bits {s o l a b} : (s, a) ∈ storeLabels → (o, b) ∈ orderLabels →
      Line showBits (.bitVec s o l) ("BitVec<" ++ a ++ ", " ++ b ++ ">") (some (showBits s o l))
  /- headings -/
  | pallet {s} : Line showBits (.palletName s) "Pallet" (some s)
  | call {s} : Line showBits (.callName s) "Call" (some s)
  | event {s} : Line showBits (.eventName s) "Event" (some s)
  | variantName {s} : Line showBits (.enumVariantName s) "Enum Variant Name" (some s)
  | fieldName {s} : Line showBits (.fieldName s) "Field Name" (some s)
  | fieldNumber {n s} : Written n s → Line showBits (.fieldNumber n) "Field Number" (some s)
  | struct {n s} : Written n s → Line showBits (.compositeAnnounced n) "Struct" (some (s ++ " field(s)"))
  | tuple {n s} : Written n s → Line showBits (.tupleAnnounced n) "Tuple" (some (s ++ " element(s)"))
  | list {n s is} : Written n s → Line showBits (.sequenceAnnounced n is) "Sequence" (some (s ++ " element(s)"))
  | enum : Line showBits .enumAnnounced "Enum" none
  | never : Line showBits .emptyEnum "Enum With No Variants" none

/-- Docs and path shown beside a card: nothing where there is nothing, path segments
separated by arrows. -/
def flat (docs : String) (path : List String) : InfoFlat where
  docs := if docs = "" then none else some docs
  pathFlat := match path with
    | [] => none
    | s :: rest => some (rest.foldl (fun a b => a ++ " >> " ++ b) s)

end Verif.Spec
