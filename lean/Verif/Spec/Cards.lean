import Verif.Spec.Balance
import Verif.Spec.Leaf
import Verif.Model.Cards
/-!
# Cards: what is drawn for parsed data

The vocabulary (`ParserCard`, `InfoFlat`) is that of the API. Cards are described as
trees; the indent of a card is the starting indent plus its depth in the tree.
-/
namespace Verif.Spec

/-- `cur` is a right way to print the amount `v` with the decimals and unit of the chain:
number times metric prefix is `v / 10 ^ decimals`. -/
def Printed (specs : ShortSpecs) (v : Nat) (cur : Currency) : Prop :=
  ∃ pre num den whole fraction, cur.units = pre ++ specs.unit ∧ (pre, num, den) ∈ metricPrefixes ∧
    Decimal cur.number whole fraction ∧
    mantissa whole fraction * num * 10 ^ specs.decimals = v * (10 ^ fraction.length * den)

/-- Hexadecimal digit. -/
inductive HexDigit : Char → Nat → Prop
  | mk (i : Nat) (c : Char) : "0123456789abcdef".toList[i]? = some c → HexDigit c i

/-- Text of pairs of hexadecimal digits, one pair per byte. -/
inductive HexText : List Char → List Nat → Prop
  | nil : HexText [] []
  | cons {a b : Char} {hi lo : Nat} {cs : List Char} {l : List Nat} :
      HexDigit a hi → HexDigit b lo → HexText cs l → HexText (a :: b :: cs) ((16 * hi + lo) :: l)

/-- The bytes of `l` are the UTF-8 encoding of `s`. -/
def Utf8Of (l : List Nat) (s : String) : Prop := l = (utf8 s).map UInt8.toNat

/-- `c` tells the single value `d`. `valid`: amounts are in chain units here. -/
inductive Tells (P : Printers) (specs : ShortSpecs) (specName : String) (valid : Bool) : PD → ParserCard → Prop
  | bits {s o l} : Tells P specs specName valid (.bitVec s o l) (.bitVec s o l)
  | blockHash {h} : Tells P specs specName valid (.blockHash h) (.blockHash h)
  | genesisHash {h} : Tells P specs specName valid (.genesisHash h) (.genesisHash h)
  | h256 {h} : Tells P specs specName valid (.h256 h) (.h256 h)
  | raw {k h} : k ∈ [.h160, .h512, .signatureEd25519, .signatureSr25519, .signatureEcdsa] →
      Tells P specs specName valid (.fixed k h) (.raw k h)
  | key {k h} : k ∈ [.id, .publicEd25519, .publicSr25519, .publicEcdsa] →
      Tells P specs specName valid (.fixed k h) (.key k ⟨P.base58 k h specs.base58prefix, P.identicon h⟩)
  | never : Tells P specs specName valid .emptyEnum .emptyEnum
  | era {e} : Tells P specs specName valid (.era e) (.era e)
  | per {k v} : Tells P specs specName valid (.perThing k v) (.perThing k v)
  | bool {v} : Tells P specs specName valid (.bool v) (.bool v)
  | char {v} : Tells P specs specName valid (.char v) (.char v)
  | int {w v} : Tells P specs specName valid (.int w v) (.int w v)
  | u256 {v} : Tells P specs specName valid (.u256 v) (.u256 v)
  | uint {w v} : Tells P specs specName valid (.uint w v .none) (.uint w v)
  | balance {w v cur} : valid = true → Printed specs v cur →
      Tells P specs specName valid (.uint w v .balance) (.balance (some cur))
  | balanceRaw {w v} : valid = false → Tells P specs specName valid (.uint w v .balance) (.balanceRaw v.repr)
  | tip {w v cur} : Printed specs v cur → Tells P specs specName valid (.uint w v .tip) (.tip (some cur))
  | tipAsset {w v} : Tells P specs specName valid (.uint w v .tipAsset) (.tipAsset v.repr)
  | nonce {w v} : Tells P specs specName valid (.uint w v .nonce) (.nonce v.repr)
  | specVersion {w v} : Tells P specs specName valid (.uint w v .specVersion) (.nameSpecVersion specName v.repr)
  | txVersion {w v} : Tells P specs specName valid (.uint w v .txVersion) (.txVersion v.repr)
  | text {s} : Tells P specs specName valid (.text s .none) (.text s)
  | specName {s} : Tells P specs specName valid (.text s .specName) (.specName s)
  | bytes {is l hex text} : HexText hex.toList l → (∀ s, text = some s ↔ Utf8Of l s) →
      Tells P specs specName valid (.sequence is (.uints .u8 l)) (.sequenceU8 hex text (is.map Info.flatten))

/-- Are amounts inside this pallet in chain units? -/
def inUnits (palletName : String) : Bool := palletName == "Balances" || palletName == "Staking"

mutual
/-- The single values inside parsed data, left to right, each with the mark whether
amounts are in chain units at its place (decided by the innermost pallet around). -/
def leaves (valid : Bool) : PD → List (Bool × PD)
  | .composite fs => fieldLeaves valid fs
  | .tuple l => tupleLeaves valid l
  | .variant _ _ fs => fieldLeaves valid fs
  | .pallet _ _ _ p _ fs => fieldLeaves (inUnits p) fs
  | .sequenceRaw _ l => listLeaves valid l
  | .sequence is (.uints .u8 l) => [(valid, .sequence is (.uints .u8 l))]
  | .sequence _ (.uints w l) => l.map fun v => (valid, .uint w v .none)
  | .sequence _ (.vecU8 l inner) => l.map fun x => (valid, .sequence inner (.uints .u8 x))
  | d => [(valid, d)]

/-- Single values in data with info. -/
def edLeaves (valid : Bool) : ED → List (Bool × PD)
  | ⟨d, _⟩ => leaves valid d

/-- Single values in a field. -/
def fdLeaves (valid : Bool) : FD → List (Bool × PD)
  | ⟨_, _, _, d⟩ => edLeaves valid d

/-- Single values in fields. -/
def fieldLeaves (valid : Bool) : List FD → List (Bool × PD)
  | [] => []
  | d :: ds => fdLeaves valid d ++ fieldLeaves valid ds

/-- Single values in a tuple. -/
def tupleLeaves (valid : Bool) : List ED → List (Bool × PD)
  | [] => []
  | d :: ds => edLeaves valid d ++ tupleLeaves valid ds

/-- Single values in a list. -/
def listLeaves (valid : Bool) : List PD → List (Bool × PD)
  | [] => []
  | d :: ds => leaves valid d ++ listLeaves valid ds
end

/-- Cards that announce structure or give a name, and tell no value. -/
def isHeading : ParserCard → Bool
  | .callName _ => true
  | .compositeAnnounced _ => true
  | .enumAnnounced => true
  | .enumVariantName _ => true
  | .eventName _ => true
  | .fieldName _ => true
  | .fieldNumber _ => true
  | .palletName _ => true
  | .sequenceAnnounced _ _ => true
  | .tupleAnnounced _ => true
  | _ => false

/-- Pairwise, in order. -/
inductive Each {α β : Type} (r : α → β → Prop) : List α → List β → Prop
  | nil : Each r [] []
  | cons {a : α} {b : β} {l : List α} {m : List β} : r a b → Each r l m → Each r (a :: l) (b :: m)

/-- A card with the cards below it. -/
inductive Tree
  | node (card : ParserCard) (info : List InfoFlat) (below : List Tree)

mutual
/-- Cards of a tree, top down, with their depth added to the indent. -/
def Tree.list (indent : Nat) : Tree → List ExtendedCard
  | .node c i ts => ⟨c, indent, i⟩ :: listTrees (indent + 1) ts

/-- Cards of trees, one after another. -/
def listTrees (indent : Nat) : List Tree → List ExtendedCard
  | [] => []
  | t :: ts => t.list indent ++ listTrees indent ts
end

/-- Infos made of docs alone. -/
def docsInfo (docs : String) : List InfoFlat := if docs = "" then [] else [⟨some docs, none⟩]

/-- Heading of a field: its name, or its number counted from one. -/
def fieldHeading (number : Nat) : Option String → ParserCard
  | some n => .fieldName n
  | none => .fieldNumber number

mutual
/-- `Drawn valid d above ts`: the data `d`, with info `above`, is drawn as the trees `ts`. -/
inductive Drawn (P : Printers) (specs : ShortSpecs) (specName : String) :
    Bool → PD → List InfoFlat → List Tree → Prop
  /-- A single value is one card. -/
  | leaf {valid d above c} : Tells P specs specName valid d c →
      Drawn P specs specName valid d above [.node c above []]
  /-- Nothing is drawn for empty structs and tuples. -/
  | unitStruct {valid above} : Drawn P specs specName valid (.composite []) above []
  | unitTuple {valid above} : Drawn P specs specName valid (.tuple []) above []
  /-- A struct of one field without name is its field. -/
  | newtype {valid t docs is d above ts} :
      Drawn P specs specName valid d (above ++ docsInfo docs ++ is.map Info.flatten) ts →
      Drawn P specs specName valid (.composite [⟨none, t, docs, ⟨d, is⟩⟩]) above ts
  | struct {valid fs above ts} : fs ≠ [] → (∀ t docs d, fs ≠ [⟨none, t, docs, d⟩]) →
      DrawnFields P specs specName valid 1 fs ts →
      Drawn P specs specName valid (.composite fs) above [.node (.compositeAnnounced fs.length) above ts]
  | tuple {valid l above ts} : l ≠ [] → DrawnTuple P specs specName valid l ts →
      Drawn P specs specName valid (.tuple l) above [.node (.tupleAnnounced l.length) above ts]
  | list {valid is l above ts} : DrawnList P specs specName valid l ts →
      Drawn P specs specName valid (.sequenceRaw is l) above
        [.node (.sequenceAnnounced l.length (is.map Info.flatten)) above ts]
  | uints {valid is w l above} : w ≠ .u8 →
      Drawn P specs specName valid (.sequence is (.uints w l)) above
        [.node (.sequenceAnnounced l.length (is.map Info.flatten)) above
          (l.map fun v => .node (.uint w v) [] [])]
  | byteStrings {valid is l inner above cs} :
      Each (fun x c => Tells P specs specName valid (.sequence inner (.uints .u8 x)) c) l cs →
      Drawn P specs specName valid (.sequence is (.vecU8 l inner)) above
        [.node (.sequenceAnnounced l.length (is.map Info.flatten)) above (cs.map fun c => .node c [] [])]
  | variant {valid name docs fs above ts} : DrawnPart P specs specName valid fs ts →
      Drawn P specs specName valid (.variant name docs fs) above
        [.node .enumAnnounced above [.node (.enumVariantName name) (docsInfo docs) ts]]
  | call {valid info docs pallet name fs above ts} : DrawnPart P specs specName (inUnits pallet) fs ts →
      Drawn P specs specName valid (.pallet .call info docs pallet name fs) above
        [.node (.palletName pallet) [info.flatten] [.node (.callName name) (docsInfo docs) ts]]
  | event {valid info docs pallet name fs above ts} : DrawnPart P specs specName (inUnits pallet) fs ts →
      Drawn P specs specName valid (.pallet .event info docs pallet name fs) above
        [.node (.palletName pallet) [info.flatten] [.node (.eventName name) (docsInfo docs) ts]]

/-- What is below the name of a variant: one field without name is drawn without heading. -/
inductive DrawnPart (P : Printers) (specs : ShortSpecs) (specName : String) :
    Bool → List FD → List Tree → Prop
  | single {valid t docs is d ts} :
      Drawn P specs specName valid d (docsInfo docs ++ is.map Info.flatten) ts →
      DrawnPart P specs specName valid [⟨none, t, docs, ⟨d, is⟩⟩] ts
  | fields {valid fs ts} : (∀ t docs d, fs ≠ [⟨none, t, docs, d⟩]) →
      DrawnFields P specs specName valid 1 fs ts → DrawnPart P specs specName valid fs ts

/-- Fields, numbered. -/
inductive DrawnFields (P : Printers) (specs : ShortSpecs) (specName : String) :
    Bool → Nat → List FD → List Tree → Prop
  | nil {valid n} : DrawnFields P specs specName valid n [] []
  | cons {valid n name t docs is d fs ts ts'} :
      Drawn P specs specName valid d (is.map Info.flatten) ts →
      DrawnFields P specs specName valid (n + 1) fs ts' →
      DrawnFields P specs specName valid n (⟨name, t, docs, ⟨d, is⟩⟩ :: fs)
        (.node (fieldHeading n name) (docsInfo docs) ts :: ts')

/-- Elements of a tuple. -/
inductive DrawnTuple (P : Printers) (specs : ShortSpecs) (specName : String) :
    Bool → List ED → List Tree → Prop
  | nil {valid} : DrawnTuple P specs specName valid [] []
  | cons {valid is d ds ts ts'} : Drawn P specs specName valid d (is.map Info.flatten) ts →
      DrawnTuple P specs specName valid ds ts' →
      DrawnTuple P specs specName valid (⟨d, is⟩ :: ds) (ts ++ ts')

/-- Elements of a list. -/
inductive DrawnList (P : Printers) (specs : ShortSpecs) (specName : String) :
    Bool → List PD → List Tree → Prop
  | nil {valid} : DrawnList P specs specName valid [] []
  | cons {valid d ds ts ts'} : Drawn P specs specName valid d [] ts →
      DrawnList P specs specName valid ds ts' →
      DrawnList P specs specName valid (d :: ds) (ts ++ ts')
end

end Verif.Spec
