import Verif.Spec.Meaning
import Verif.Model.Decode
/-!
# Decoding in pieces

What a caller gets that decodes the parts of a compound type one after another, each with its own call of
`decode_as_type_at_position`, each from the position where the one before left off.
-/
namespace Verif.Spec

/-- The value told and the new position; errors are kept as they are. -/
def told (r : Res (ED × Nat)) : Res (Value × Nat) :=
  match r with
  | .ok (d, q) => .ok (edValue d, q)
  | .error e => .error e

/-- A call of `decode_as_type_at_position`: the value it tells and the new position, or its error. -/
def valueAs (R : Registry) (b : Buf) (id pos : Nat) : Res (Value × Nat) :=
  told (decodeAsTypeAtPosition R b id pos)

/-- Such calls one after another, for the listed types. The first error ends it. -/
def eachAs (R : Registry) (b : Buf) : List Nat → Nat → Res (List Value × Nat)
  | [], pos => .ok ([], pos)
  | id :: ids, pos =>
    match valueAs R b id pos with
    | .error e => .error e
    | .ok (v, pos) =>
      match eachAs R b ids pos with
      | .error e => .error e
      | .ok (vs, pos) => .ok (v :: vs, pos)

/-- The values put together; errors are kept as they are. -/
def assembled (f : List Value → Value) (r : Res (List Value × Nat)) : Res (Value × Nat) :=
  match r with
  | .ok (vs, q) => .ok (f vs, q)
  | .error e => .error e

/-- Values of fields with their names. -/
def withNames (fields : List Field) (vs : List Value) : List (Option String × Value) :=
  (fields.map (·.name)).zip vs

end Verif.Spec
