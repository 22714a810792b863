import Verif.Model.Indicators
/-!
# Parsed data, `src/cards.rs:33-354`
-/
namespace Verif

/-- `Info`, `src/cards.rs:33-42`: docs collected into one string, path
segments. -/
structure Info where
  docs : String
  path : List String
  deriving DecidableEq, Repr

/-- `Documented::collect_docs`, `src/cards.rs:83-97`: `docs.join("\n")`. -/
def collectDocs (docs : List String) : String := "\n".intercalate docs

/-- `Info::from_ty`, `src/cards.rs:46-51`. -/
def Info.fromTy (t : Typ) : Info := { docs := collectDocs t.docs, path := t.path }

/-- `Info::is_empty`, `src/cards.rs:57-59`. -/
def Info.isEmpty (i : Info) : Bool := i.docs.isEmpty && i.path.isEmpty

/-- Signed integer widths: `i8..i128` and `i256` (`BigInt`). `src/special_types.rs:56-129`, `src/cards.rs:313-318`. -/
inductive IW
  | i8 | i16 | i32 | i64 | i128 | i256
  deriving DecidableEq, Repr

/-- Size in bytes; 32 for `BigInt` (`BIG_LEN`, `src/special_types.rs:100`). -/
def IW.bytes : IW → Nat
  | .i8 => 1 | .i16 => 2 | .i32 => 4 | .i64 => 8 | .i128 => 16 | .i256 => 32

/-- Bit stores of `BitVec`. `src/cards.rs:281-294`, `src/decoding_sci.rs:815-899`. -/
inductive BitStore
  | u8 | u16 | u32 | u64
  deriving DecidableEq, Repr

/-- `size_of` the store. `src/decoding_sci.rs:953`. -/
def BitStore.bytes : BitStore → Nat
  | .u8 => 1 | .u16 => 2 | .u32 => 4 | .u64 => 8

/-- `FoundBitOrder`, `src/decoding_sci.rs:753-756`. -/
inductive BitOrder
  | lsb0 | msb0
  deriving DecidableEq, Repr

/-- `Sequence`, `src/cards.rs:263-276`; `U8..U128` grouped by width. -/
inductive Sequence
  | uints (w : UW) (vals : List Nat)
  | vecU8 (seq : List (List Nat)) (innerElementInfo : List Info)
  deriving DecidableEq, Repr

mutual
/-- `ParsedData`, `src/cards.rs:280-354`. Constructors that differ only by a
width or kind are grouped; `Call` and `Event` (`PalletSpecificData`,
`src/cards.rs:119-132`) are `pallet`. Integers are mathematical integers. -/
inductive PD
  | bitVec (store : BitStore) (order : BitOrder) (bits : List Bool)
  | blockHash (h : Bytes)
  | genesisHash (h : Bytes)
  | h256 (h : Bytes)
  | fixed (k : FixedKind) (h : Bytes)
  | pallet (item : PalletItem) (palletInfo : Info) (variantDocs palletName variantName : String)
      (fields : List FD)
  | composite (fields : List FD)
  | emptyEnum
  | era (e : Era)
  | perThing (k : PerKind) (v : Nat)
  | bool (v : Bool)
  | char (v : Char)
  | int (w : IW) (v : Int)
  | uint (w : UW) (v : Nat) (specialty : SpecUInt)
  | u256 (v : Nat)
  | sequence (elementInfo : List Info) (data : Sequence)
  | sequenceRaw (elementInfo : List Info) (data : List PD)
  | text (s : String) (specialty : SpecStr)
  | tuple (elems : List ED)
  | variant (name docs : String) (fields : List FD)

/-- `ExtendedData`, `src/cards.rs:109-115`. -/
structure ED where
  data : PD
  info : List Info

/-- `FieldData`, `src/cards.rs:225-230`. -/
structure FD where
  fieldName : Option String
  typeName : Option String
  fieldDocs : String
  data : ED
end

end Verif
