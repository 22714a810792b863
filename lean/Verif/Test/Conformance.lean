import Verif.Model.Show
import Verif.Model.Extrinsic
import Verif.Model.Storage
import Verif.Model.BitPatch
import Verif.Spec.Checkers
import Verif.Spec.Weight
import Verif.Spec.Encoder
import Verif.Spec.Wallet
import Verif.Spec.Node
import Verif.Spec.Meaning
import Verif.Spec.Accounts
import Verif.Real.Westend
import Verif.Real.Polkadot
/-!
# Running the model on the crate's own test data

This is a test harness, not a proof, and nothing depends on it. It reads real chain
metadata (`for_tests/` in the repository), runs the model, and prints what the model
gives; `tools/conformance.py` compares that with what `src/tests.rs` expects. See
`DESIGN.md`, "Conformance with the crate's tests".

    lake env lean --run Verif/Test/Conformance.lean < jobs
-/
namespace Verif.Conformance

/-! ### Reading `RuntimeMetadataV14` and `RuntimeMetadataV15` (`frame_metadata`) -/

/-- Reader over bytes, with position. -/
abbrev Rd (α : Type) := StateT Nat (ReaderT ByteArray (Except String)) α

def byte : Rd UInt8 := do
  let b ← read
  let p ← get
  if h : p < b.size then
    set (p + 1)
    return b[p]
  else throw s!"end of metadata at {p}"

def le (n : Nat) : Rd Nat := do
  let mut v := 0
  for i in [0:n] do
    v := v + (← byte).toNat * 256 ^ i
  return v

def compact : Rd Nat := do
  let a := (← byte).toNat
  match a % 4 with
  | 0 => return a / 4
  | 1 => return (a + 256 * (← le 1)) / 4
  | 2 => return (a + 256 * (← le 3)) / 4
  | _ => le (a / 4 + 4)

def vec {α : Type} (x : Rd α) : Rd (List α) := do
  let n ← compact
  let mut out := #[]
  for _ in [0:n] do
    out := out.push (← x)
  return out.toList

def opt {α : Type} (x : Rd α) : Rd (Option α) := do
  if (← byte) = 0 then return none else return some (← x)

def bytes : Rd Bytes := vec byte

def string : Rd String := do
  let n ← compact
  let b ← read
  let p ← get
  set (p + n)
  match String.fromUTF8? (b.extract p (p + n)) with
  | some s => return s
  | none => throw s!"text at {p}"

def field : Rd Field := do
  let name ← opt string
  let ty ← compact
  let typeName ← opt string
  let docs ← vec string
  return { name, ty, typeName, docs }

def variant : Rd Variant := do
  let name ← string
  let fields ← vec field
  let index ← byte
  let docs ← vec string
  return { name, fields, index, docs }

def prims : List Prim :=
  [.bool, .char, .str, .u8, .u16, .u32, .u64, .u128, .u256, .i8, .i16, .i32, .i64, .i128, .i256]

def typeDef : Rd TypeDef := do
  match (← byte).toNat with
  | 0 => return .composite (← vec field)
  | 1 => return .variant (← vec variant)
  | 2 => return .sequence (← compact)
  | 3 => do
    let len ← le 4
    return .array len (← compact)
  | 4 => return .tuple (← vec compact)
  | 5 => do
    match prims[(← byte).toNat]? with
    | some p => return .primitive p
    | none => throw "primitive"
  | 6 => return .compact (← compact)
  | 7 => do
    let store ← compact
    let order ← compact
    return .bitSequence order store
  | _ => throw s!"type definition before {← get}"

def typ : Rd Typ := do
  let id ← compact
  let path ← vec string
  let params ← vec do
    let name ← string
    return (name, ← opt compact)
  let typeDef ← typeDef
  let docs ← vec string
  let _ := id
  return { path, params, typeDef, docs }

def hashers : List Hasher :=
  [.blake2_128, .blake2_256, .blake2_128Concat, .twox128, .twox256, .twox64Concat, .identity]

def hasher : Rd Hasher := do
  match hashers[(← byte).toNat]? with
  | some h => return h
  | none => throw "hasher"

/-- Storage entry with its name. -/
def entry : Rd (String × Entry) := do
  let name ← string
  let _ ← byte
  let ty ← (do
    if (← byte) = 0 then return EntryType.plain (← compact)
    else do
      let hs ← vec hasher
      let k ← compact
      return EntryType.map hs k (← compact) : Rd EntryType)
  let _ ← bytes
  let docs ← vec string
  return (name, { ty, docs })

/-- Pallet with its storage prefix and entries. -/
def pallet (v15 : Bool) : Rd (Pallet × Option (String × List (String × Entry))) := do
  let name ← string
  let storage ← opt do
    let pfx ← string
    return (pfx, ← vec entry)
  let _ ← opt compact
  let _ ← opt compact
  let constants ← vec do
    let name ← string
    let ty ← compact
    let value ← bytes
    let _ ← vec string
    return ({ name, ty, value } : Constant)
  let _ ← opt compact
  let _ ← byte
  if v15 then
    let _ ← vec string
  return ({ name, constants }, storage)

def signedExt : Rd SignedExt := do
  let identifier ← string
  let ty ← compact
  return { identifier, ty, additionalSigned := ← compact }

/-- Metadata with errors made printable, and the storage entries. -/
structure Loaded where
  meta' : CompleteMetadata String
  entries : List (String × String × Entry)
  typeList : List Typ
  v14 : Option V14 := none
  v15 : Option V15 := none

def showOut {ε α : Type} [Repr ε] (r : Except (Out ε) α) : Except (Out String) α :=
  mapOut (fun e => reprStr e) r

def complete {ε : Type} [Repr ε] (m : CompleteMetadata ε) : CompleteMetadata String where
  types := m.types
  specNameVersion := showOut m.specNameVersion
  callTy := showOut m.callTy
  signedExtensions := showOut m.signedExtensions
  extrinsicTypeParams := showOut m.extrinsicTypeParams
  extrinsicVersion := showOut m.extrinsicVersion

def runtime : Rd Loaded := do
  let _ ← le 4
  let version := (← byte).toNat
  let types ← vec typ
  let pallets ← vec (pallet (version = 15))
  let entries := pallets.flatMap fun p =>
    match p.2 with
    | some (pfx, es) => es.map fun e => (pfx, e.1, e.2)
    | none => []
  let pallets := pallets.map (·.1)
  if version = 14 then
    let extrinsicTy ← compact
    let extrinsicVersion ← byte
    let signedExtensions ← vec signedExt
    return { meta' := complete (V14.metadata { types, pallets, extrinsicTy, extrinsicVersion, signedExtensions }), entries, typeList := types, v14 := some { types, pallets, extrinsicTy, extrinsicVersion, signedExtensions } }
  else if version = 15 then
    let extrinsicVersion ← byte
    let addressTy ← compact
    let callTy ← compact
    let signatureTy ← compact
    let extraTy ← compact
    let signedExtensions ← vec signedExt
    let m : V15 := { types, pallets, params := { addressTy, callTy, signatureTy, extraTy }, extrinsicVersion, signedExtensions }
    return { meta' := complete m.metadata, entries, typeList := types, v15 := some m }
  else throw s!"metadata version {version}"

def hexVal (c : Char) : Nat :=
  if '0' ≤ c && c ≤ '9' then c.toNat - '0'.toNat
  else if 'a' ≤ c && c ≤ 'f' then c.toNat - 'a'.toNat + 10 else 0

def unhex (s : String) : ByteArray := Id.run do
  let b := s.toUTF8
  let mut out := ByteArray.emptyWithCapacity (b.size / 2)
  for i in [0:b.size / 2] do
    let hi := hexVal (Char.ofNat (b.get! (2 * i)).toNat)
    let lo := hexVal (Char.ofNat (b.get! (2 * i + 1)).toNat)
    out := out.push (UInt8.ofNat (16 * hi + lo))
  return out

def hexBuf (s : String) : Buf := .ofBytes (unhex s).toList

def load (file : String) : IO Loaded := do
  let text ← IO.FS.readFile file
  match ((runtime.run 0).run (unhex text.trimAscii.toString)) with
  | .ok (m, _) => return m
  | .error e => throw (.userError e)

/-! ### Printing parsed data as Rust expressions -/

def q (s : String) : String := "\"" ++ s ++ "\""
def vecOf (l : List String) : String := "vec![" ++ ",".intercalate l ++ "]"
def optOf : Option String → String
  | some s => s!"Some({q s})"
  | none => "None"
def infoOf (i : Info) : String := "Info{docs:" ++ q i.docs ++ ",path:" ++ vecOf (i.path.map q) ++ "}"
def infosOf (l : List Info) : String := vecOf (l.map infoOf)
def bytesOf (l : Bytes) : String := q (hexBytes l)

def specOf : SpecUInt → String
  | .none => "None" | .balance => "Balance" | .tip => "Tip" | .tipAsset => "TipAsset" | .nonce => "Nonce"
  | .specVersion => "SpecVersion" | .txVersion => "TxVersion"

def fixedOf : FixedKind → String
  | .h160 => "H160(H160" | .h512 => "H512(H512" | .id => "Id(AccountId32"
  | .publicEd25519 => "PublicEd25519(PublicEd25519" | .publicSr25519 => "PublicSr25519(PublicSr25519"
  | .publicEcdsa => "PublicEcdsa(PublicEcdsa"
  | .signatureEd25519 => "SignatureEd25519(SignatureEd25519"
  | .signatureSr25519 => "SignatureSr25519(SignatureSr25519"
  | .signatureEcdsa => "SignatureEcdsa(SignatureEcdsa"

def seqOf : Sequence → String
  | .uints w l => "Sequence::" ++ w.name.toUpper ++ "(" ++ vecOf (l.map toString) ++ ")"
  | .vecU8 l i => "Sequence::VecU8{sequence:" ++ vecOf (l.map fun x => vecOf (x.map toString)) ++
      ",inner_element_info:" ++ infosOf i ++ "}"

mutual
partial def pdOf : PD → String
  | .composite fields => "ParsedData::Composite(" ++ vecOf (fields.map fdOf) ++ ")"
  | .sequence i s => "ParsedData::Sequence(SequenceData{element_info:" ++ infosOf i ++ ",data:" ++ seqOf s ++ "})"
  | .sequenceRaw i l =>
    "ParsedData::SequenceRaw(SequenceRawData{element_info:" ++ infosOf i ++ ",data:" ++ vecOf (l.map pdOf) ++ "})"
  | .variant name docs fields =>
    "ParsedData::Variant(VariantData{variant_name:" ++ q name ++ ",variant_docs:" ++ q docs ++ ",fields:" ++
      vecOf (fields.map fdOf) ++ "})"
  | .tuple l => "ParsedData::Tuple(" ++ vecOf (l.map edOf) ++ ")"
  | .uint w v s =>
    "ParsedData::Primitive" ++ w.name.toUpper ++ "{value:" ++ toString v ++ ",specialty:SpecialtyUnsignedInteger::" ++
      specOf s ++ "}"
  | .bool v => "ParsedData::PrimitiveBool(" ++ toString v ++ ")"
  | .era .immortal => "ParsedData::Era(Era::Immortal)"
  | .era (.mortal a b) => s!"ParsedData::Era(Era::Mortal({a},{b}))"
  | .fixed k h => "ParsedData::" ++ fixedOf k ++ "(" ++ bytesOf h ++ "))"
  | .h256 h => "ParsedData::H256(H256(" ++ bytesOf h ++ "))"
  | .genesisHash h => "ParsedData::GenesisHash(" ++ bytesOf h ++ ")"
  | .blockHash h => "ParsedData::BlockHash(" ++ bytesOf h ++ ")"
  | .text s _ => "ParsedData::Text(" ++ q s ++ ")"
  | _ => "other"
partial def edOf : ED → String
  | ⟨data, info⟩ => "ExtendedData{data:" ++ pdOf data ++ ",info:" ++ infosOf info ++ "}"
partial def fdOf : FD → String
  | ⟨n, t, d, e⟩ =>
    "FieldData{field_name:" ++ optOf n ++ ",type_name:" ++ optOf t ++ ",field_docs:" ++ q d ++ ",data:" ++ edOf e ++ "}"
end

/-- Keys are printed as `<kind:prefix:hex>`; the script puts the base58 text there. -/
def printers : Printers where
  base58 _ h p := "<base58:" ++ toString p ++ ":" ++ hexBytes h ++ ">"
  identicon _ := []

def bits (_ : BitStore) (_ : BitOrder) (l : List Bool) : String :=
  "[" ++ ", ".intercalate (l.map fun b => if b then "1" else "0") ++ "]"

def outOf {ε α : Type} [Repr ε] (r : Except (Out ε) α) (f : α → IO Unit) : IO Unit :=
  match r with
  | .ok a => f a
  | .error e => IO.println s!"error {(repr e).pretty 100000}"

def cards (docs : Bool) (l : List ExtendedCard) : IO Unit := do
  for c in l do
    IO.println (if docs then c.showWithDocs bits else c.show bits)

/-! ### Assumptions of the theorems on real metadata -/

/-- Types that a type holds without an enum or a vector in between. -/
def direct (t : Typ) : List Nat :=
  match t.typeDef with
  | .composite fields => fields.map (·.ty)
  | .tuple ids => ids
  | .array _ elem => [elem]
  | .compact inner => [inner]
  | _ => []

/-- Ranks, if there are any: repeated until nothing changes. -/
def ranks (ts : List Typ) : Array Nat := Id.run do
  let mut rk : Array Nat := Array.replicate ts.length 0
  for _ in [0:ts.length + 1] do
    let mut new := #[]
    for t in ts do
      new := new.push ((direct t).foldl (fun m i => max m (rk.getD i 0 + 1)) 0)
    if new = rk then return rk
    rk := new
  return rk

/-- Ids that take part in `roots`. -/
def closure (ts : Array Typ) (roots : List Nat) : List Nat := Id.run do
  let mut seen : Array Bool := Array.replicate ts.size false
  let mut todo := roots
  let mut out := []
  for _ in [0:100 * ts.size + 1000] do
    match todo with
    | [] => return out
    | id :: rest =>
      todo := rest
      if id < ts.size && !(seen.getD id true) then
        seen := seen.set! id true
        out := id :: out
        match ts[id]? with
        | some t => if Spec.Check.structural t.path then todo := Spec.partIds t ++ todo
        | none => pure ()
  return out

def checks (m : Loaded) : IO Unit := do
  let ts := m.typeList
  let rk := ranks ts
  let rank := fun i => rk.getD i 0
  let roots := match m.meta'.signedExtensions with
    | .ok l => l.map (·.ty) ++ l.map (·.additionalSigned)
    | .error _ => []
  let ids := closure ts.toArray roots
  IO.println s!"{ts.length} types"
  IO.println s!"ranked {Spec.Check.ranked ts rank}, highest rank {rk.foldl max 0}"
  IO.println s!"emptyArrays {Spec.Check.emptyArrays ts}"
  IO.println s!"namesDistinct {Spec.Check.namesDistinct ts}"
  IO.println s!"indicesDistinct {Spec.Check.indicesDistinct ts}"
  IO.println s!"leavesNameless {Spec.Check.leavesNameless ts}"
  IO.println s!"signaturesDistinct {Spec.Check.signaturesDistinct ts}"
  IO.println s!"noCompactArray {Spec.Check.noCompactArray ts}"
  IO.println s!"palletsNonempty {Spec.Check.palletsNonempty ts}"
  IO.println s!"solidVectors {Spec.Check.solidVectors ts}, largest size {Spec.largestSize (Registry.portable ts) rank}"
  IO.println s!"noU64Bits {Spec.Check.noU64Bits ts}"
  IO.println s!"regular {Spec.Check.regular ts}"
  IO.println s!"labelFree extensions {Spec.Check.labelFree ts ids roots}, {ids.length} types take part"
  match m.meta'.specNameVersion, m.meta'.callTy, m.meta'.signedExtensions, m.meta'.extrinsicTypeParams, m.meta'.extrinsicVersion with
  | .ok s, .ok c, .ok l, .ok _, .ok v =>
    IO.println s!"answers ok: {s.specName}{s.printedSpecVersion}, call type {c}, {l.length} extensions, extrinsic version {v}"
  | _, _, _, _, _ => IO.println "answers not ok"

/-- One job: fields separated by tabs. -/
def job (m : Loaded) (line : List String) : IO Unit := do
  let M := m.meta'
  let specName := match M.specNameVersion with | .ok s => s.specName | .error _ => "?"
  let specs (pfx dec unit : String) : ShortSpecs := { base58prefix := pfx.toNat!, decimals := dec.toNat!, unit }
  let expected (g : String) : Option Bytes := if g = "-" then none else some (unhex g).toList
  match line with
  | ["storage", key, value, pfx, name, hashed, hash] =>
    let H : HashFns := { blake2_128 := fun b => if b = (unhex hashed).toList then (unhex hash).toList else [], twox64 := fun _ => [] }
    match m.entries.find? (fun e => e.1 == pfx && e.2.1 == name) with
    | some (_, _, e) =>
      outOf (decodeStorageEntry H M.types (hexBuf key) (hexBuf value) e) fun s => do
        match s.key with
        | .singleHash (.parsed d) => IO.println ("KeyData::SingleHash{content:KeyPart::Parsed(" ++ edOf d ++ ")}")
        | _ => IO.println "other key"
        IO.println (edOf s.value)
        IO.println s.docs
    | none => IO.println "no entry"
  | ["nodekey", key, value, pfx, name, hashed, hash] =>
    let bytes := (unhex key).toList
    let H : Spec.Node.Hashes := {
      blake2_128 := fun b => if b = (unhex hashed).toList then (unhex hash).toList else [], twox64 := fun _ => [],
      blake2_256 := fun _ => [], twox256 := fun _ => [],
      twox128 := fun b => if b = [0] then bytes.take 16 else (bytes.drop 16).take 16 }
    match m.entries.find? (fun e => e.1 == pfx && e.2.1 == name) with
    | some (_, _, e) =>
      outOf (decodeStorageEntry H.fns M.types (hexBuf key) (hexBuf value) e) fun s => do
        match s.key with
        | .singleHash (.parsed d) =>
          match Spec.Node.key H M.types 200 [0] [1] e [Spec.edValue d],
              Spec.Encoder.encode M.types 200 false (Spec.Node.valueTy e) (Spec.edValue s.value) with
          | some (k, _), some v =>
            IO.println (if k = bytes && v = (unhex value).toList then "same bytes" else "other bytes: " ++ hexBytes k)
          | _, _ => IO.println "not written"
        | _ => IO.println "other key"
    | none => IO.println "no entry"
  | [kind, data, genesis, pfx, dec, unit, docs] =>
    let specs := specs pfx dec unit
    let docs := docs = "docs"
    if kind = "marked" then
      outOf (parseTransaction M.toMetadata (hexBuf data) (expected genesis)) fun t => do
        let t := t.card printers specs specName
        match t.callResult with
        | .ok l => cards docs l
        | .error e => IO.println s!"call error {(repr e).pretty 100000}"
        IO.println "== extensions"
        cards docs t.extensions
    else
      outOf (parseTransactionUnmarked M.toMetadata (hexBuf data) (expected genesis)) fun t => do
        let t := t.card printers specs specName
        cards docs t.call
        IO.println "== extensions"
        cards docs t.extensions
  | ["check"] => checks m
  | ["extrinsic", data] =>
    outOf (decodeUncheckedExtrinsic M (hexBuf data)) fun u => do
      match u with
      | .signed a s e c =>
        IO.println (edOf a); IO.println (edOf s); IO.println (edOf e); IO.println (vecOf (c.fields.map fdOf))
      | .unsigned c => IO.println (vecOf (c.fields.map fdOf))
  | ["type", data, pfx, name] =>
    match m.entries.find? (fun e => e.1 == pfx && e.2.1 == name) with
    | some (_, _, ⟨.plain ty, _⟩) => do
      IO.println s!"type {ty}"
      outOf (mapOut id ((decodeAllAsType M.types (hexBuf data) ty).mapErr id)) fun d => IO.println (edOf d)
    | _ => IO.println "no entry"
  | ["reencode", kind, data] =>
    let ty : Option Nat := match kind.splitOn "." with
      | [pfx, name] => match m.entries.find? (fun e => e.1 == pfx && e.2.1 == name) with
        | some (_, _, ⟨.plain ty, _⟩) => some ty
        | _ => none
      | _ => match M.callTy with | .ok t => some t | .error _ => none
    let start := if kind = "marked" then
      match (unhex data).toList with
      | a :: _ => match a.toNat % 4 with | 0 => 1 | 1 => 2 | _ => 4
      | [] => 0
      else 0
    match ty with
    | none => IO.println "no type"
    | some ty =>
      match decodeAsTypeAtPosition M.types (hexBuf data) ty start with
      | .error _ => IO.println "not decoded"
      | .ok (d, q) =>
        match Spec.Encoder.encode M.types 200 false ty (Spec.edValue d) with
        | none => IO.println "not encoded"
        | some bs =>
          IO.println (if bs = ((unhex data).toList.take q).drop start then "same bytes" else "other bytes: " ++ hexBytes bs)
  | ["wallet", kind, data, genesis] =>
    let bytes := (unhex data).toList
    let written := fun (c : Call) (exts : List ED) (marked : Bool) =>
      match Spec.Wallet.transaction M.toMetadata 200 (expected genesis) (Spec.callOf c) (exts.map Spec.edValue) with
      | none => IO.println "not written"
      | some (cb, eb) =>
        let bs := if marked then Spec.compactEncode cb.length ++ cb ++ eb else cb ++ eb
        IO.println (if bs = bytes then "same bytes" else "other bytes: " ++ hexBytes bs)
    if kind = "marked" then
      outOf (parseTransaction M.toMetadata (hexBuf data) (expected genesis)) fun t =>
        match t.callResult with
        | .ok c => written c t.extensions true
        | .error _ => IO.println "no call"
    else
      outOf (parseTransactionUnmarked M.toMetadata (hexBuf data) (expected genesis)) fun t =>
        written t.call t.extensions false
  | ["parsed", data, genesis] =>
    outOf (parseTransaction M.toMetadata (hexBuf data) (expected genesis)) fun t =>
      match t.callResult with
      | .ok c => do
        IO.println (q c.palletName)
        IO.println (q c.variantName)
        IO.println (vecOf (c.fields.map fdOf))
        IO.println (vecOf (t.extensions.map edOf))
      | .error _ => IO.println "no call"
  | ["node", data] =>
    outOf (decodeUncheckedExtrinsic M (hexBuf data)) fun u =>
      match Spec.Node.extrinsic M 200 (Spec.extrinsicOf u) with
      | none => IO.println "not written"
      | some bs =>
        let bytes := (unhex data).toList
        let inner := fun (l : Bytes) => l.drop (match l with
          | a :: _ => match a.toNat % 4 with | 0 => 1 | 1 => 2 | _ => 4
          | [] => 0)
        let (a, b) := (inner bs, inner bytes)
        IO.println (if bs = bytes then "same bytes"
          else if a = b.take a.length then s!"same bytes, then {b.length - a.length} more" else "other bytes: " ++ hexBytes bs)
  | ["same"] =>
    IO.println s!"System.Account: {m.entries.any fun e => e.1 == "System" && e.2.1 == "Account" && decide (e.2.2.ty = Spec.systemAccount.ty)}"
    let bare := fun (t : Typ) => { t with docs := [], typeDef := match t.typeDef with
      | .composite fs => .composite (fs.map fun f => { f with docs := [] })
      | .variant vs => .variant (vs.map fun v => { v with docs := [], fields := v.fields.map fun f => { f with docs := [] } })
      | d => d }
    match m.v14 with
    | some v => do
      IO.println s!"types: {decide (m.typeList.map bare = Westend.types)}"
      IO.println s!"pallets: {reprStr v.pallets == reprStr Westend.v14.pallets}"
      IO.println s!"extrinsic: {v.extrinsicTy == Westend.v14.extrinsicTy && v.extrinsicVersion == Westend.v14.extrinsicVersion}"
      IO.println s!"extensions: {reprStr v.signedExtensions == reprStr Westend.v14.signedExtensions}"
    | none => match m.v15 with
      | some v => do
        IO.println s!"types: {decide (m.typeList.map bare = Polkadot.types)}"
        IO.println s!"pallets: {reprStr v.pallets == reprStr Polkadot.v15.pallets}"
        IO.println s!"extrinsic: {reprStr v.params == reprStr Polkadot.v15.params && v.extrinsicVersion == Polkadot.v15.extrinsicVersion}"
        IO.println s!"extensions: {reprStr v.signedExtensions == reprStr Polkadot.v15.signedExtensions}"
      | none => IO.println "neither V14 nor V15"
  | _ => IO.println "unknown job"

partial def loop (stdin : IO.FS.Stream) (file : String) (m : Option Loaded) : IO Unit := do
  let line ← stdin.getLine
  if line.isEmpty then return
  match (line.trimAsciiEnd.toString).splitOn "\t" with
  | name :: f :: rest => do
    let m ← (match m with
      | some m => if f = file then pure m else load f
      | none => load f)
    IO.println s!"### {name}"
    job m rest
    loop stdin f (some m)
  | _ => loop stdin file m

end Verif.Conformance

def main : IO Unit := do
  Verif.Conformance.loop (← IO.getStdin) "" none
