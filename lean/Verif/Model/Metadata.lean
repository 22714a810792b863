import Verif.Model.Decode
/-!
# Metadata, `src/traits.rs`
-/
namespace Verif

/-- Outcome of a modelled function other than its value, with errors of type `ε`:
`panic` and `fuel` as in `Fail`. The `Err` side of the results in `src/traits.rs:47-60`, `src/lib.rs:573-765`. -/
inductive Out (ε : Type)
  | err (e : ε)
  | panic
  | fuel
  deriving DecidableEq, Repr

/-- Conversion of the error of a parser function (`?` with `From<ParserError>`,
`map_err`). As in `src/decoding_sci.rs:211-250`. -/
def Res.mapErr {ε α : Type} (f : PErr → ε) (r : Res α) : Except (Out ε) α :=
  match r with
  | .ok a => .ok a
  | .error (.err e) => .error (.err (f e))
  | .error .panic => .error .panic
  | .error .fuel => .error .fuel

/-- Conversion of the error (`map_err`). As in `src/decoding_sci.rs:211`, `src/decoding_sci_ext.rs:90`. -/
def mapOut {ε ε' α : Type} (f : ε → ε') (r : Except (Out ε) α) : Except (Out ε') α :=
  match r with
  | .ok a => .ok a
  | .error (.err e) => .error (.err (f e))
  | .error .panic => .error .panic
  | .error .fuel => .error .fuel

/-- `SpecNameVersion`, `src/traits.rs:115-120`. -/
structure SpecNameVersion where
  printedSpecVersion : String
  specName : String
  deriving DecidableEq, Repr

/-- `SignedExtensionMetadata`, `src/traits.rs:73-79`. -/
structure SignedExt where
  identifier : String
  ty : Nat
  additionalSigned : Nat
  deriving DecidableEq, Repr

/-- `ExtrinsicTypeParams`, `src/traits.rs:63-70`. -/
structure ExtrinsicParams where
  addressTy : Nat
  callTy : Nat
  signatureTy : Nat
  extraTy : Nat
  deriving DecidableEq, Repr

/-- `AsMetadata`, `src/traits.rs:47-54`, for any implementor with errors `ME`. -/
structure Metadata (ME : Type) where
  types : Registry
  specNameVersion : Except (Out ME) SpecNameVersion
  callTy : Except (Out ME) Nat
  signedExtensions : Except (Out ME) (List SignedExt)

/-- `AsCompleteMetadata`, `src/traits.rs:57-60`. -/
structure CompleteMetadata (ME : Type) extends Metadata ME where
  extrinsicTypeParams : Except (Out ME) ExtrinsicParams
  extrinsicVersion : Except (Out ME) UInt8

/-- `MetaVersionErrorPallets`, `src/error.rs:284-293`. -/
inductive VersionErr
  | noSpecName
  | noSpecVersion
  | noSystemPallet
  | noVersionInConstants
  | runtimeVersionNotDecodeable
  | specNameTwice
  | specVersionTwice
  | unexpectedRuntimeVersionFormat
  deriving DecidableEq, Repr

/-- `MetaStructureErrorV14`, `src/error.rs:239-247`. -/
inductive V14Err
  | extrinsicTypeNotResolved (e : RegInternal)
  | noAddressParam
  | noCallParam
  | noExtraParam
  | noSignatureParam
  | unexpectedExtrinsicType (id : Nat)
  | version (e : VersionErr)
  deriving DecidableEq, Repr

/-- `frame_metadata::v14::PalletConstantMetadata`: name, type, encoded value.
External crate; read in `src/traits.rs:357-360`. -/
structure Constant where
  name : String
  ty : Nat
  value : Bytes
  deriving DecidableEq, Repr

/-- `frame_metadata::v14::PalletMetadata`; only what the crate reads.
External crate; read in `src/traits.rs:354-357`. -/
structure Pallet where
  name : String
  constants : List Constant
  deriving DecidableEq, Repr

/-- `frame_metadata::v14::RuntimeMetadataV14`; only what the crate reads.
External crate; read in `src/traits.rs:146-246`. -/
structure V14 where
  types : List Typ
  pallets : List Pallet
  extrinsicTy : Nat
  extrinsicVersion : UInt8
  signedExtensions : List SignedExt

/-- `frame_metadata::v15::RuntimeMetadataV15`; only what the crate reads.
External crate; read in `src/traits.rs:248-310`. -/
structure V15 where
  types : List Typ
  pallets : List Pallet
  params : ExtrinsicParams
  extrinsicVersion : UInt8
  signedExtensions : List SignedExt

/-- Loop over the constants of the `System` pallet in
`version_constant_data_and_ty`, `src/traits.rs:357-361`: every match replaces the one
before. -/
def versionIn : List Constant → Option (Bytes × Nat) → Option (Bytes × Nat)
  | [], found => found
  | c :: cs, found => versionIn cs (if c.name = "Version" then some (c.value, c.ty) else found)

/-- Loop over the pallets in `version_constant_data_and_ty`, `src/traits.rs:354-364`:
stops at the first `System` pallet; `none` if there is none. -/
def systemPallet : List Pallet → Option (Option (Bytes × Nat))
  | [] => none
  | p :: ps => if p.name = "System" then some (versionIn p.constants none) else systemPallet ps

/-- `version_constant_data_and_ty`, `src/traits.rs:347-372`. -/
def versionConstant (pallets : List Pallet) : Except VersionErr (Bytes × Nat) :=
  match systemPallet pallets with
  | none => .error .noSystemPallet
  | some none => .error .noVersionInConstants
  | some (some x) => .ok x

/-- Loop of `spec_name_version_from_runtime_version_data`,
`src/traits.rs:393-457`; `PrimitiveU8..PrimitiveU128` branches are one. -/
def specLoop : List FD → Option String → Option String → Except VersionErr (Option String × Option String)
  | [], version, name => .ok (version, name)
  | f :: fs, version, name =>
    match f.data.data with
    | .uint _ value .specVersion =>
      if version.isNone then specLoop fs (some (toString value)) name else .error .specVersionTwice
    | .text text .specName =>
      if name.isNone then specLoop fs version (some text) else .error .specNameTwice
    | _ => specLoop fs version name

/-- `spec_name_version_from_runtime_version_data`, `src/traits.rs:386-473`. -/
def specFromData (d : PD) : Except VersionErr SpecNameVersion :=
  match d with
  | .composite fields => do
    let (version, name) ← specLoop fields none none
    match version with
    | none => .error .noSpecVersion
    | some v =>
      match name with
      | none => .error .noSpecName
      | some n => .ok { printedSpecVersion := v, specName := n }
  | _ => .error .unexpectedRuntimeVersionFormat

/-- `spec_name_version`, `src/traits.rs:155-170` and `src/traits.rs:257-270`. -/
def specNameVersionOf (types : List Typ) (pallets : List Pallet) : Except (Out VersionErr) SpecNameVersion :=
  match versionConstant pallets with
  | .error e => .error (.err e)
  | .ok (value, ty) =>
    match decodeAllAsType (.portable types) (Buf.ofBytes value) ty with
    | .ok d =>
      match specFromData d.data with
      | .ok s => .ok s
      | .error e => .error (.err e)
    | .error (.err _) => .error (.err .runtimeVersionNotDecodeable)
    | .error .panic => .error .panic
    | .error .fuel => .error .fuel

/-- Loop of `process_extrinsic_type_params`, `src/traits.rs:311-319`. -/
def paramsLoop : List (String × Option Nat) → (Option Nat × Option Nat × Option Nat × Option Nat) →
    Option Nat × Option Nat × Option Nat × Option Nat
  | [], found => found
  | (name, ty) :: ps, (a, s, e, c) =>
    paramsLoop ps
      (if name = "Address" then (ty, s, e, c)
       else if name = "Signature" then (a, ty, e, c)
       else if name = "Extra" then (a, s, ty, c)
       else if name = "Call" then (a, s, e, ty)
       else (a, s, e, c))

/-- `process_extrinsic_type_params`, `src/traits.rs:303-332`. -/
def processParams (params : List (String × Option Nat)) : Except V14Err ExtrinsicParams :=
  match paramsLoop params (none, none, none, none) with
  | (a, s, e, c) =>
    match a with
    | none => .error .noAddressParam
    | some addressTy =>
      match c with
      | none => .error .noCallParam
      | some callTy =>
        match e with
        | none => .error .noExtraParam
        | some extraTy =>
          match s with
          | none => .error .noSignatureParam
          | some signatureTy => .ok { addressTy, callTy, signatureTy, extraTy }

/-- `?` on a `RegistryError<()>` in a function returning `MetaStructureErrorV14`,
`src/error.rs:275-280`: there are no external errors with memory `()`, marked here as
a panic and proved not to happen. -/
def liftRegistry {α : Type} (r : Res α) : Except (Out V14Err) α :=
  match r with
  | .ok a => .ok a
  | .error (.err (.registry (.internal e))) => .error (.err (.extrinsicTypeNotResolved e))
  | .error .fuel => .error .fuel
  | .error _ => .error .panic

/-- Check that the sequence element is `u8`, then the parameters, as in
`src/traits.rs:200-210` and `src/traits.rs:220-230`. -/
def paramsIfU8 (types : List Typ) (elem : Nat) (h : HuskedType) : Except (Out V14Err) ExtrinsicParams := do
  let elemTy ← liftRegistry ((Registry.portable types).get elem)
  if elemTy.typeDef = .primitive .u8 then
    match processParams h.ty.params with
    | .ok p => .ok p
    | .error e => .error (.err e)
  else .error (.err (.unexpectedExtrinsicType h.id))

/-- `extrinsic_type_params` of V14, `src/traits.rs:190-241`. -/
def V14.extrinsicTypeParams (m : V14) : Except (Out V14Err) ExtrinsicParams := do
  let h ← liftRegistry (huskType (.portable m.types) m.extrinsicTy Checker.new)
  match h.ty.typeDef with
  | .sequence elem => paramsIfU8 m.types elem h
  | .composite fields =>
    match fields with
    | [f] => do
      let fieldTy ← liftRegistry ((Registry.portable m.types).get f.ty)
      match fieldTy.typeDef with
      | .sequence elem => paramsIfU8 m.types elem h
      | _ => .error (.err (.unexpectedExtrinsicType h.id))
    | _ => .error (.err (.unexpectedExtrinsicType h.id))
  | _ => .error (.err (.unexpectedExtrinsicType h.id))

/-- `impl AsMetadata` and `impl AsCompleteMetadata` for `RuntimeMetadataV14`,
`src/traits.rs:146-246`. -/
def V14.metadata (m : V14) : CompleteMetadata V14Err where
  types := .portable m.types
  specNameVersion := mapOut .version (specNameVersionOf m.types m.pallets)
  callTy := do
    let p ← m.extrinsicTypeParams
    .ok p.callTy
  signedExtensions := .ok m.signedExtensions
  extrinsicTypeParams := m.extrinsicTypeParams
  extrinsicVersion := .ok m.extrinsicVersion

/-- `impl AsMetadata` and `impl AsCompleteMetadata` for `RuntimeMetadataV15`,
`src/traits.rs:248-300`. -/
def V15.metadata (m : V15) : CompleteMetadata VersionErr where
  types := .portable m.types
  specNameVersion := specNameVersionOf m.types m.pallets
  callTy := .ok m.params.callTy
  signedExtensions := .ok m.signedExtensions
  extrinsicTypeParams := .ok m.params
  extrinsicVersion := .ok m.extrinsicVersion

end Verif
