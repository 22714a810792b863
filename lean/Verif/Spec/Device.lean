import Verif.Model.Device
import Verif.Spec.Value
/-!
# Unsteady memory (specification)
-/
namespace Verif.Spec

/-- Machine words and data that go together: words of 32 bits at least, and room for 2^30 more
bytes than there are. On 64 bits this is no restriction; on 32 bits, data takes three quarters of
the address space at most (a Rust slice takes half of it at most). -/
structure Fits (w : Word) (len : Nat) : Prop where
  words : 2 ^ 32 ≤ w.cap
  room : len + 2 ^ 30 ≤ w.cap

/-- `usize` on a 64-bit and on a 32-bit machine, with overflow checks or without. -/
def usize64 (wraps : Bool) : Word := ⟨2 ^ 64, wraps⟩
def usize32 (wraps : Bool) : Word := ⟨2 ^ 32, wraps⟩

/-- The data begins with a length prefix (a compact `u32`), and its length plus the length that it
states is no machine word. Possible on 32-bit machines only. -/
def PrefixOverflows (w : Word) (data : Bytes) : Prop :=
  ∃ n rest, n < 2 ^ 32 ∧ data = compactEncode n ++ rest ∧ w.cap ≤ (compactEncode n).length + n

/-- Memory that holds `data` and the types of `R`. In whatever state it is, an
access tells the truth or fails with the memory's own error; it may fail at one
time and succeed at another, and each access may change the state. -/
structure Flaky {σ : Type} (D : Device σ) (R : Registry) (data : Bytes) : Prop where
  len : D.len = data.length
  size : D.size = R.size
  word : Fits D.word D.len
  read : ∀ pos n s, (D.read pos n s).1 = (Buf.ofBytes data).readSlice pos n ∨
    (D.read pos n s).1 = .error (.err (.buffer .external))
  resolve : ∀ id s, (D.resolve id s).1 = R.resolve id ∨ (D.resolve id s).1 = .error .external

/-- Memory whose answers do not depend on its state: always those of the buffer
`b` (its failing reads keep failing) and of the registry `R`. -/
structure Steady {σ : Type} (D : Device σ) (R : Registry) (b : Buf) : Prop where
  len : D.len = b.len
  size : D.size = R.size
  word : Fits D.word D.len
  read : ∀ pos n s, (D.read pos n s).1 = b.readSlice pos n
  resolve : ∀ id s, (D.resolve id s).1 = R.resolve id

/-- The memory's own errors: `BufferError::External` and `RegistryError::External`. -/
def MemoryError (e : Fail) : Prop := e = .err (.buffer .external) ∨ e = .err (.registry .external)

/-- Memory whose `k`-th access fails if `fails k`: the state counts the accesses. -/
def scripted (w : Word) (R : Registry) (data : Bytes) (fails : Nat → Bool) : Device Nat where
  word := w
  len := data.length
  size := R.size
  read pos n k := (if fails k then .error (.err (.buffer .external)) else (Buf.ofBytes data).readSlice pos n, k + 1)
  resolve id k := (if fails k then .error .external else R.resolve id, k + 1)

/-- Encodings as in `Enc`, where recognition of calls, events and signatures is a matter of
choice: an enum that could be shown as a call, an event or a signature may as well be told as the
plain enum it is. This is the only difference (constructor `variant` has no condition on
recognition). -/
inductive EncLoose (R : Registry) : (c : Bool) → (id : Nat) → Value → Bytes → Prop
  /- types known by path -/
  | fixed {id : Nat} {t : Typ} {k : FixedKind} {bs : Bytes} : R.resolve id = .ok t →
      special t.path = some (.fixed k) → bs.length = k.len → EncLoose R false id (.fixed k bs) bs
  | hash {id : Nat} {t : Typ} {bs : Bytes} : R.resolve id = .ok t →
      special t.path = some .hash → bs.length = 32 → EncLoose R false id (.hash bs) bs
  | era {id : Nat} {t : Typ} {e : Era} : R.resolve id = .ok t → special t.path = some .era →
      EraOk e → EncLoose R false id (.era e) (eraEncode e)
  | per {id : Nat} {t : Typ} {k : PerKind} {v : Nat} : R.resolve id = .ok t →
      special t.path = some (.per k) → v ≤ k.accuracy →
      EncLoose R false id (.per k v) (leBytes k.inner.bytes v)
  | perCompact {id : Nat} {t : Typ} {k : PerKind} {v : Nat} : R.resolve id = .ok t →
      special t.path = some (.per k) → v < 2 ^ (8 * k.inner.bytes) →
      EncLoose R true id (.per k (min v k.accuracy)) (compactEncode v)
  /- structs -/
  | newtype {c : Bool} {id : Nat} {t : Typ} {f : Field} {v : Value} {bs : Bytes} :
      R.resolve id = .ok t → Structural t.path → t.typeDef = .composite [f] →
      EncLoose R c f.ty v bs → EncLoose R c id v bs
  | unit {c : Bool} {id : Nat} {t : Typ} : R.resolve id = .ok t → Structural t.path →
      t.typeDef = .composite [] → EncLoose R c id (.record []) []
  | record {id : Nat} {t : Typ} {fields : List Field} {ps : Parts} : R.resolve id = .ok t →
      Structural t.path → t.typeDef = .composite fields → 2 ≤ fields.length →
      ps.length = fields.length →
      (∀ x ∈ (fields.map (·.ty)).zip ps, EncLoose R false x.1 x.2.1 x.2.2) →
      EncLoose R false id (.record (ps.named fields)) ps.bytes
  /- enums -/
  | never {id : Nat} {t : Typ} : R.resolve id = .ok t → Structural t.path →
      t.typeDef = .variant [] → EncLoose R false id .never []
  | variant {id : Nat} {t : Typ} {vs : List Variant} {v : Variant} {i : UInt8} {ps : Parts} :
      R.resolve id = .ok t → Structural t.path → t.typeDef = .variant vs → Selects vs i v →
      ps.length = v.fields.length →
      (∀ x ∈ (v.fields.map (·.ty)).zip ps, EncLoose R false x.1 x.2.1 x.2.2) →
      EncLoose R false id (.variant v.name (ps.named v.fields)) (i :: ps.bytes)
  | signature {id : Nat} {t : Typ} {i : UInt8} {k : FixedKind} {bs : Bytes} :
      R.resolve id = .ok t → IsSignature R t i k → bs.length = k.len →
      EncLoose R false id (.fixed k bs) (i :: bs)
  | pallet {id : Nat} {t : Typ} {inner : List Variant} {v : Variant} {i j : UInt8}
      {item : PalletItem} {name : String} {ps : Parts} :
      R.resolve id = .ok t → IsPallet R t i item name inner → Selects inner j v →
      ps.length = v.fields.length →
      (∀ x ∈ (v.fields.map (·.ty)).zip ps, EncLoose R false x.1 x.2.1 x.2.2) →
      EncLoose R false id (.pallet item name v.name (ps.named v.fields)) (i :: j :: ps.bytes)
  /- lists -/
  | sequence {id : Nat} {t : Typ} {elem : Nat} {ps : Parts} : R.resolve id = .ok t →
      Structural t.path → t.typeDef = .sequence elem → Known R elem → ps.length < 2 ^ 32 →
      (∀ x ∈ ps, EncLoose R false elem x.1 x.2) →
      EncLoose R false id (.seq ps.values) (compactEncode ps.length ++ ps.bytes)
  | array {id : Nat} {t : Typ} {elem : Nat} {ps : Parts} : R.resolve id = .ok t →
      Structural t.path → t.typeDef = .array ps.length elem → Known R elem →
      (∀ x ∈ ps, EncLoose R false elem x.1 x.2) →
      EncLoose R false id (.seq ps.values) ps.bytes
  /- tuples: the empty one and the one-element one may be inside a compact -/
  | tuple {c : Bool} {id : Nat} {t : Typ} {ids : List Nat} {ps : Parts} : R.resolve id = .ok t →
      Structural t.path → t.typeDef = .tuple ids → (2 ≤ ids.length → c = false) →
      ps.length = ids.length →
      (∀ x ∈ ids.zip ps, EncLoose R c x.1 x.2.1 x.2.2) →
      EncLoose R c id (.tuple ps.values) ps.bytes
  /- leaves -/
  | primitive {c : Bool} {id : Nat} {t : Typ} {p : Prim} {v : Value} {bs : Bytes} :
      R.resolve id = .ok t → Structural t.path → t.typeDef = .primitive p → EncPrim c p v bs →
      EncLoose R c id v bs
  | compact {id : Nat} {t : Typ} {inner : Nat} {v : Value} {bs : Bytes} : R.resolve id = .ok t →
      Structural t.path → t.typeDef = .compact inner → EncLoose R true inner v bs →
      EncLoose R false id v bs
  | bits {id : Nat} {t : Typ} {order store : Nat} {o : BitOrder} {s : BitStore} {l : List Bool}
      {bs : Bytes} : R.resolve id = .ok t → Structural t.path →
      t.typeDef = .bitSequence order store → IsBitOrder R order o → IsBitStore R store s →
      BitsEnc s o l bs → EncLoose R false id (.bits s o l) bs

/-! ### Registry without labels -/

/-- An enum that goes by the name of a call, an event or a signature loses that name. -/
def unlabel (t : Typ) : Typ :=
  match t.typeDef with
  | .variant _ =>
    match special t.path with
    | some .multiSignature | some (.pallet _) => { t with path := [] }
    | _ => t
  | _ => t

/-- The same registry, where no enum is known as a call, an event or a signature: all enums are
plain enums. -/
def unlabelled (R : Registry) : Registry where
  resolve id := (R.resolve id).map unlabel
  size := R.size
  bounded := by
    intro id h
    obtain ⟨e, he⟩ := R.bounded id h
    exact ⟨e, by rw [he]; rfl⟩

/-- `Labels u v`: the value `v` is the value `u`, where some enums may be told as calls or events of
a pallet, and some as signatures. -/
inductive Labels : Value → Value → Prop
  | same {v : Value} : Labels v v
  | seq {us vs : List Value} : us.length = vs.length → (∀ x ∈ us.zip vs, Labels x.1 x.2) →
      Labels (.seq us) (.seq vs)
  | tuple {us vs : List Value} : us.length = vs.length → (∀ x ∈ us.zip vs, Labels x.1 x.2) →
      Labels (.tuple us) (.tuple vs)
  | record {names : List (Option String)} {us vs : List Value} : us.length = vs.length →
      (∀ x ∈ us.zip vs, Labels x.1 x.2) → Labels (.record (names.zip us)) (.record (names.zip vs))
  | variant {n : String} {names : List (Option String)} {us vs : List Value} : us.length = vs.length →
      (∀ x ∈ us.zip vs, Labels x.1 x.2) → Labels (.variant n (names.zip us)) (.variant n (names.zip vs))
  /- an enum in an enum: name of the pallet, name of the call or event -/
  | pallet {item : PalletItem} {p n : String} {o : Option String} {names : List (Option String)}
      {us vs : List Value} : us.length = vs.length → (∀ x ∈ us.zip vs, Labels x.1 x.2) →
      Labels (.variant p [(o, .variant n (names.zip us))]) (.pallet item p n (names.zip vs))
  /- an enum with a byte array in it -/
  | signature {n : String} {o : Option String} {k : FixedKind} {bs : Bytes} : bs.length = k.len →
      Labels (.variant n [(o, .seq (bs.map fun x => .uint .u8 x.toNat))]) (.fixed k bs)

/-- No enum of the registry goes by the name of a call, an event or a signature. -/
def NoLabels (R : Registry) : Prop :=
  ∀ id t vs, R.resolve id = .ok t → t.typeDef = .variant vs →
    special t.path ≠ some .multiSignature ∧ ∀ item, special t.path ≠ some (.pallet item)

/-- Two readings of the same plain value, each with some enums labelled. -/
def SameButLabels (v w : Value) : Prop := ∃ u, Labels u v ∧ Labels u w

/-- Arrays and primitives have no name, as everywhere in Rust. -/
def LeavesNameless (R : Registry) : Prop :=
  (∀ id t len elem, R.resolve id = .ok t → t.typeDef = .array len elem → t.path = []) ∧
  (∀ id t p, R.resolve id = .ok t → t.typeDef = .primitive p → t.path = [])

/-- No compact of an array (Rust has none). -/
def NoCompactArray (R : Registry) : Prop :=
  ∀ id core coreId k len elem, Core R false id true core coreId k → core.typeDef ≠ .array len elem

/-- Every pallet has at least one call and one event, if it is in the list of calls or events. -/
def PalletsNonempty (R : Registry) : Prop :=
  ∀ id t i item name inner, R.resolve id = .ok t → IsPallet R t i item name inner → inner ≠ []

/-- The value of an enum without variants takes part in the value. Rust has no such values. -/
inductive HasNever : Value → Prop
  | never : HasNever .never
  | seq {v : Value} {vs : List Value} : v ∈ vs → HasNever v → HasNever (.seq vs)
  | tuple {v : Value} {vs : List Value} : v ∈ vs → HasNever v → HasNever (.tuple vs)
  | record {o : Option String} {v : Value} {fs : List (Option String × Value)} : (o, v) ∈ fs → HasNever v →
      HasNever (.record fs)
  | variant {n : String} {o : Option String} {v : Value} {fs : List (Option String × Value)} : (o, v) ∈ fs →
      HasNever v → HasNever (.variant n fs)
  | pallet {item : PalletItem} {p n : String} {o : Option String} {v : Value} {fs : List (Option String × Value)} :
      (o, v) ∈ fs → HasNever v → HasNever (.pallet item p n fs)

/-- There are pallets without calls or events, and the value of an enum without variants takes part. -/
def TellsEmpty (R : Registry) (v : Value) : Prop := ¬ PalletsNonempty R ∧ HasNever v

end Verif.Spec
