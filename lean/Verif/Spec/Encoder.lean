import Verif.Spec.Value
/-!
# An encoder (specification)

A program that writes values of a type as SCALE data. It plays the part of the encoder of a wallet or a chain:
the decoder is to be its inverse. `Props/Encoder.lean` proves that it writes what the encoding relation `Enc`
says, and that every value of a type is written.

Recursion is bounded by `n`, a bound on how deep a value and its type are looked into. Whatever is not a value
of the type, or too deep, is `none`.
-/
namespace Verif.Spec.Encoder

/-- Unsigned integer primitives. -/
def uintOf : Prim → Option UW
  | .u8 => some .u8
  | .u16 => some .u16
  | .u32 => some .u32
  | .u64 => some .u64
  | .u128 => some .u128
  | _ => none

/-- Signed integer primitives. -/
def intOf : Prim → Option IW
  | .i8 => some .i8
  | .i16 => some .i16
  | .i32 => some .i32
  | .i64 => some .i64
  | .i128 => some .i128
  | .i256 => some .i256
  | _ => none

/-- The era is well-formed. -/
def eraOk : Era → Bool
  | .immortal => true
  | .mortal period phase =>
    (List.range 17).any (fun k => decide (2 ≤ k) && period == 2 ^ k) && decide (phase < period) &&
      phase % quantum period == 0

/-- Bits as store elements, unused bits zero: the element `k`. -/
def bitElement (o : BitOrder) (n : Nat) (l : List Bool) (k : Nat) : Nat :=
  (BitVec.ofBoolListLE ((List.range n).map fun j => l.getD (k * n + bitPlace o n j) false)).toNat

/-- Bit sequence. -/
def bits (s : BitStore) (o : BitOrder) (l : List Bool) : Bytes :=
  compactEncode l.length ++
    ((List.range ((l.length + (8 * s.bytes - 1)) / (8 * s.bytes))).map (bitElement o (8 * s.bytes) l)).flatMap
      (leBytes s.bytes)

/-- Primitives; `c`: as a compact. -/
def prim (c : Bool) (p : Prim) (v : Value) : Option Bytes :=
  match v with
  | .bool b => if c = false ∧ p = .bool then some [if b then 1 else 0] else none
  | .char x => if c = false ∧ p = .char then some (leBytes 4 x.val.toNat) else none
  | .str x => if c = false ∧ p = .str ∧ (utf8 x).length < 2 ^ 32 then some (strEncode x) else none
  | .uint w x =>
    if uintOf p = some w ∧ x < 2 ^ (8 * w.bytes) then some (if c then compactEncode x else leBytes w.bytes x) else none
  | .u256 x => if c = false ∧ p = .u256 ∧ x < 2 ^ 256 then some (leBytes 32 x) else none
  | .int w x =>
    if c = false ∧ intOf p = some w ∧ -(2 ^ (8 * w.bytes - 1) : Nat) ≤ x ∧ x < (2 ^ (8 * w.bytes - 1) : Nat) then
      some (signedBytes w.bytes x)
    else none
  | _ => none

/-- What the type is once wrappers are taken off. -/
def coreOf (R : Registry) : Nat → Bool → Nat → Option Typ
  | 0, _, _ => none
  | n + 1, c, id =>
    match R.resolve id with
    | .error _ => none
    | .ok t =>
      match special t.path with
      | some _ => some t
      | none =>
        match t.typeDef with
        | .composite [f] => coreOf R n c f.ty
        | .compact i => if c then none else coreOf R n true i
        | _ => some t

/-- Signature named by the type name of a field. -/
def signatureName (f : Field) : Option FixedKind :=
  if f.typeName = some "ecdsa::Signature" then some .signatureEcdsa
  else if f.typeName = some "ed25519::Signature" then some .signatureEd25519
  else if f.typeName = some "sr25519::Signature" then some .signatureSr25519
  else none

/-- The type is `u8`. -/
def isByte (R : Registry) (id : Nat) : Bool :=
  match R.resolve id with
  | .ok t => t.typeDef == .primitive .u8
  | .error _ => false

/-- Is the field shown as a signature, and of which kind? `none` if too deep to tell. -/
def signatureField (R : Registry) (n : Nat) (f : Field) : Option (Option FixedKind) :=
  match signatureName f with
  | none => some none
  | some k =>
    match coreOf R n false f.ty with
    | none => none
    | some core =>
      match core.typeDef with
      | .array len elem => some (if len = k.len ∧ isByte R elem then some k else none)
      | _ => some none

/-- Is the variant of the enum type shown as a signature, and of which kind? -/
def signature (R : Registry) (n : Nat) (t : Typ) (u : Variant) : Option (Option FixedKind) :=
  if special t.path = some .multiSignature then
    match u.fields with
    | [f] => signatureField R n f
    | _ => some none
  else some none

/-- Is the variant of the enum type a pallet with calls or events, and which? -/
def palletOf (R : Registry) (t : Typ) (u : Variant) : Option (PalletItem × List Variant) :=
  match special t.path, u.fields with
  | some (.pallet item), [f] =>
    match R.resolve f.ty with
    | .ok t' =>
      match special t'.path, t'.typeDef with
      | some (.pallet item'), .variant inner => if item' = item then some (item, inner) else none
      | _, _ => none
    | .error _ => none
  | _, _ => none

/-- The variant is the one its index selects. -/
def selected (vs : List Variant) (u : Variant) : Bool := vs.find? (·.index == u.index) == some u

/-- Parts, one after another. -/
def parts (enc : Nat → Value → Option Bytes) : List Nat → List Value → Option Bytes
  | [], [] => some []
  | id :: ids, v :: vs =>
    match enc id v, parts enc ids vs with
    | some a, some b => some (a ++ b)
    | _, _ => none
  | _, _ => none

/-- Fields, one after another, if they have the right names. -/
def fields (enc : Nat → Value → Option Bytes) (fs : List Field) (xs : List (Option String × Value)) : Option Bytes :=
  if xs.map (·.1) = fs.map (·.name) then parts enc (fs.map (·.ty)) (xs.map (·.2)) else none

/-- Bit order named by a type. -/
def bitOrder (R : Registry) (id : Nat) (o : BitOrder) : Bool :=
  match R.resolve id with
  | .error _ => false
  | .ok t =>
    match t.typeDef with
    | .composite _ => t.path.getLast? == some (match o with | .lsb0 => "Lsb0" | .msb0 => "Msb0")
    | _ => false

/-- Store of a bit sequence. -/
def bitStore (R : Registry) (id : Nat) (s : BitStore) : Bool :=
  match R.resolve id with
  | .error _ => false
  | .ok t => t.typeDef == .primitive (match s with | .u8 => .u8 | .u16 => .u16 | .u32 => .u32 | .u64 => .u64)

/-- The data of a value of an enum type. -/
def enum (R : Registry) (n : Nat) (enc : Nat → Value → Option Bytes) (t : Typ) (vs : List Variant) (v : Value) :
    Option Bytes :=
  match v with
  | .never => if vs = [] then some [] else none
  | .variant name xs => vs.findSome? fun u =>
      if u.name = name ∧ selected vs u ∧ signature R n t u = some none ∧ palletOf R t u = none then
        (fields enc u.fields xs).map (u.index :: ·)
      else none
  | .fixed k bs => vs.findSome? fun u =>
      if bs.length = k.len ∧ selected vs u ∧ signature R n t u = some (some k) then some (u.index :: bs) else none
  | .pallet item name inner xs => vs.findSome? fun u =>
      if u.name = name ∧ selected vs u then
        match palletOf R t u with
        | none => none
        | some (item', ws) =>
          if item' = item then
            ws.findSome? fun w =>
              if w.name = inner ∧ selected ws w then (fields enc w.fields xs).map (u.index :: w.index :: ·) else none
          else none
      else none
  | _ => none

/-- The data of a value whose type is described by its definition. -/
def byDef (R : Registry) (n : Nat) (enc : Bool → Nat → Value → Option Bytes) (c : Bool) (t : Typ) (v : Value) :
    Option Bytes :=
  match t.typeDef with
  | .composite [f] => enc c f.ty v
  | .composite fs =>
    match v with
    | .record xs => if c = false ∨ fs = [] then fields (enc false) fs xs else none
    | _ => none
  | .variant vs => if c then none else enum R n (enc false) t vs v
  | .sequence elem =>
    match v with
    | .seq vs =>
      if c = false ∧ (coreOf R n false elem).isSome ∧ vs.length < 2 ^ 32 then
        (parts (enc false) (vs.map fun _ => elem) vs).map (compactEncode vs.length ++ ·)
      else none
    | _ => none
  | .array len elem =>
    match v with
    | .seq vs =>
      if c = false ∧ (coreOf R n false elem).isSome ∧ vs.length = len then
        parts (enc false) (vs.map fun _ => elem) vs
      else none
    | _ => none
  | .tuple ids =>
    match v with
    | .tuple vs => if c = false ∨ ids.length < 2 then parts (enc c) ids vs else none
    | _ => none
  | .primitive p => prim c p v
  | .compact inner => if c then none else enc true inner v
  | .bitSequence order store =>
    match v with
    | .bits s o l =>
      if c = false ∧ bitOrder R order o ∧ bitStore R store s ∧ l.length ≤ 0x1fffffff then some (bits s o l) else none
    | _ => none

/-- The data of the value `v` of the type `id`; `c`: inside a compact. -/
def encode (R : Registry) : Nat → Bool → Nat → Value → Option Bytes
  | 0, _, _, _ => none
  | n + 1, c, id, v =>
    match R.resolve id with
    | .error _ => none
    | .ok t =>
      match special t.path with
      | some (.fixed k) =>
        match v with
        | .fixed k' bs => if c = false ∧ k' = k ∧ bs.length = k.len then some bs else none
        | _ => none
      | some .hash =>
        match v with
        | .hash bs => if c = false ∧ bs.length = 32 then some bs else none
        | _ => none
      | some .era =>
        match v with
        | .era e => if c = false ∧ eraOk e then some (eraEncode e) else none
        | _ => none
      | some (.per k) =>
        match v with
        | .per k' x =>
          if k' = k ∧ x ≤ k.accuracy then some (if c then compactEncode x else leBytes k.inner.bytes x) else none
        | _ => none
      | _ => byDef R n (encode R n) c t v

end Verif.Spec.Encoder
