/-!
# Basic data types of the model

Portable type registry (`scale_info`, used through `src/traits.rs:122-144`),
errors (`src/error.rs`) and outcomes.
-/
namespace Verif

/-- A run of bytes, `&[u8]`. As in `src/traits.rs:157`. -/
abbrev Bytes := List UInt8

/-- `scale_info::TypeDefPrimitive`, matched in `src/decoding_sci.rs:61-114`. -/
inductive Prim
  | bool | char | str
  | u8 | u16 | u32 | u64 | u128 | u256
  | i8 | i16 | i32 | i64 | i128 | i256
  deriving DecidableEq, Repr

/-- `scale_info::Field<PortableForm>`: used in `src/decoding_sci.rs:579-622`,
`src/special_indicators.rs:363-383`. Type symbol is its `u32` id. -/
structure Field where
  name : Option String := none
  ty : Nat
  typeName : Option String := none
  docs : List String := []
  deriving DecidableEq, Repr

/-- `scale_info::Variant<PortableForm>`: used in `src/decoding_sci.rs:691-749`. -/
structure Variant where
  name : String
  fields : List Field := []
  index : UInt8
  docs : List String := []
  deriving DecidableEq, Repr

/-- `scale_info::TypeDef<PortableForm>`, matched in `src/decoding_sci.rs:280-394`. -/
inductive TypeDef
  | composite (fields : List Field)
  | variant (variants : List Variant)
  | sequence (elem : Nat)
  | array (len : Nat) (elem : Nat)
  | tuple (elems : List Nat)
  | primitive (p : Prim)
  | compact (inner : Nat)
  | bitSequence (order store : Nat)
  deriving DecidableEq, Repr

/-- `scale_info::Type<PortableForm>`: path segments, type parameters (name and
optional type id), definition, docs. Resolved in `src/traits.rs:131-144`, read in `src/decoding_sci.rs:273-394`. -/
structure Typ where
  path : List String := []
  params : List (String × Option Nat) := []
  typeDef : TypeDef
  docs : List String := []
  deriving DecidableEq, Repr

/-- `scale_info::Path::ident`: last path segment.
External crate; called in `src/special_indicators.rs:404`, `493`, `src/decoding_sci.rs:771`. -/
def Typ.ident (t : Typ) : Option String := t.path.getLast?

/-- `scale_info::Path::namespace`: all path segments but the last one.
External crate; called in `src/special_indicators.rs:510-536`. -/
def Typ.namespace (t : Typ) : List String := t.path.dropLast

/-- `external_memory_tools::BufferError` (external crate; constructors used in
`src/compacts.rs:36-40`, `src/unchecked_extrinsic.rs:96-101`). -/
inductive BufErr
  | outOfRange (position totalLength : Nat)
  | dataTooShort (position minimalLength : Nat)
  | external
  deriving DecidableEq, Repr

/-- `RegistryInternalError`, `src/error.rs:169-177`. -/
inductive RegInternal
  | cyclicMetadata (id : Nat)
  | extrinsicNoCallParam
  | notBitOrderType (id : Nat)
  | notBitStoreType (id : Nat)
  | typeNotResolved (id : Nat)
  | unexpectedCompactInsides (id : Nat)
  | unexpectedExtrinsicType (id : Nat)
  deriving DecidableEq, Repr

/-- `RegistryError`, `src/error.rs:149-152`. The external error value is
opaque. -/
inductive RegErr
  | external
  | internal (e : RegInternal)
  deriving DecidableEq, Repr

/-- `ParserError`, `src/error.rs:115-122`. -/
inductive PErr
  | buffer (e : BufErr)
  | registry (e : RegErr)
  | noCompact (position : Nat)
  | someDataNotUsedBlob (fromPos : Nat)
  | typeFailure (position : Nat) (ty : String)
  | unexpectedEnumVariant (position : Nat)
  deriving DecidableEq, Repr

/-- Outcome of a modelled function other than its value. `panic` models every
`expect`, `unwrap` or index of the Rust code that would abort; `fuel` is the
recursion bound of the model. Both are proved unreachable. Errors are `ParserError`, `src/error.rs:115-122`. -/
inductive Fail
  | err (e : PErr)
  | panic
  | fuel
  deriving DecidableEq, Repr

/-- Result of a modelled parser function. As `Result<_, ParserError<E>>` in `src/decoding_sci.rs:267`. -/
abbrev Res (α : Type) := Except Fail α

/-- Types registry: `ResolveType` (`src/traits.rs:123-129`). Any deterministic
resolver with finitely many resolvable ids, in memory or in external memory.
Simplification: the answers do not change between calls (`Model/Device.lean` is
the decoder without this simplification). -/
structure Registry where
  resolve : Nat → Except RegErr Typ
  size : Nat
  bounded : ∀ id, size ≤ id → ∃ e, resolve id = .error e

/-- `impl ResolveType for PortableRegistry`, `src/traits.rs:131-144`: list lookup,
`TypeNotResolved` when out of range. -/
def Registry.portable (types : List Typ) : Registry where
  resolve id :=
    match types[id]? with
    | some t => .ok t
    | none => .error (.internal (.typeNotResolved id))
  size := types.length
  bounded := by
    intro id h
    exact ⟨.internal (.typeNotResolved id), by rw [List.getElem?_eq_none h]⟩

/-- Use of `resolve_ty` with `?` in a function returning `ParserError`
(`src/error.rs:413-417`). -/
def Registry.get (R : Registry) (id : Nat) : Res Typ :=
  match R.resolve id with
  | .ok t => .ok t
  | .error e => .error (.err (.registry e))

/-- Lift of a `RegistryInternalError` through `?` (`src/error.rs:407-411`). -/
def failInternal {α : Type} (e : RegInternal) : Res α :=
  .error (.err (.registry (.internal e)))

end Verif
