import Verif.Spec.Payload
import Verif.Spec.Encoder
import Verif.Spec.Checkers
/-!
# A wallet (specification)

Programs that check whether the extensions of a transaction are proper, and that write transactions.
`Props/Proper.lean` proves that they decide `Proper` and that what they write is parsed into the values.

As in `Spec/Encoder.lean`, recursion is bounded by `n`.
-/
namespace Verif.Spec.Wallet

/-- The type once compacts are taken off: `some none` if there is no type, `none` if too deep. -/
def through (R : Registry) : Nat → Nat → Option (Option Typ)
  | 0, _ => none
  | n + 1, id =>
    match R.resolve id with
    | .error _ => some none
    | .ok t =>
      match t.typeDef with
      | .compact inner => if Check.structural t.path then through R n inner else some (some t)
      | _ => some (some t)

/-- What values of the type count as, under the label. -/
def markOfType (h : Hint) (t : Typ) : Option Mark :=
  match special t.path with
  | some .era => some .era
  | some .hash => if h = .checkGenesis then some .genesisHash else if h = .checkMortality then some .blockHash else none
  | some (.fixed _) | some (.per _) => none
  | _ =>
    match t.typeDef with
    | .primitive p =>
      if (Encoder.uintOf p).isSome ∧ (h = .checkSpecVersion ∨ h = .fieldSpecVersion) then some .specVersion else none
    | _ => none

/-- What the item counts as; `none` if too deep to tell. -/
def markOfItem (R : Registry) (n : Nat) (item : String × Nat) : Option (Option Mark) :=
  match through R n item.2 with
  | none => none
  | some none => some none
  | some (some t) =>
    match t.typeDef with
    | .composite [f] =>
      if Check.structural t.path then
        match through R n f.ty with
        | none => none
        | some none => some none
        | some (some t') => some (markOfType (first (extLabel item.1) (fieldLabel f)) t')
      else some (markOfType (extLabel item.1) t)
    | _ => some (markOfType (extLabel item.1) t)

/-- The values that count as `m`. -/
def marked (R : Registry) (n : Nat) (items : List (String × Nat)) (vs : List Value) (m : Mark) : List Value :=
  (items.zip vs).filterMap fun x => if markOfItem R n x.1 = some (some m) then some x.2 else none

/-- Are the extensions proper? `none` if too deep to tell. -/
def proper (R : Registry) (n : Nat) (items : List (String × Nat)) (vs : List Value) (version : String)
    (expected : Option Bytes) : Option Bool :=
  if items.all fun i => (markOfItem R n i).isSome then
    some <|
      (match marked R n items vs .specVersion with | [.uint _ k] => toString k == version | _ => false) &&
      (match marked R n items vs .genesisHash with
        | [.hash g] => (match expected with | none => true | some e => g == e)
        | _ => false) &&
      decide ((marked R n items vs .era).length ≤ 1) &&
      decide ((marked R n items vs .blockHash).length ≤ 1) &&
      (match marked R n items vs .era, marked R n items vs .blockHash, marked R n items vs .genesisHash with
        | [.era .immortal], [.hash h], [.hash g] => h == g
        | _, _, _ => true)
  else none

/-- The bytes of a call and of the extensions, if this makes a proper transaction. -/
def transaction {ME : Type} (M : Metadata ME) (n : Nat) (expected : Option Bytes) (c : CallOf) (vs : List Value) :
    Option (Bytes × Bytes) :=
  match M.callTy, M.signedExtensions, M.specNameVersion with
  | .ok id, .ok signed, .ok spec =>
    match M.types.resolve id with
    | .ok { typeDef := .variant _, .. } =>
      match Encoder.encode M.types n false id (.pallet .call c.pallet c.call c.args),
        Encoder.parts (Encoder.encode M.types n false) ((extItems signed).map (·.2)) vs,
        proper M.types n (extItems signed) vs spec.printedSpecVersion expected with
      | some callBytes, some extBytes, some true => some (callBytes, extBytes)
      | _, _, _ => none
    | _ => none
  | _, _, _ => none

end Verif.Spec.Wallet
