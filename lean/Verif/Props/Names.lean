import Verif.Proof.Names
import Verif.Props.Pieces
/-!
# C79: names are only names
-/
namespace Verif
open Spec

variable {N : Names} {R R' : Registry} {b : Buf}

/-- **C79.** With other names in the metadata, the outcome is the same with the other names in it. -/
theorem decode_names (h : RenamedIn N R R') (id pos : Nat) :
    valueAs R' b id pos = renamedOutcome N (valueAs R b id pos) := by
  rcases decode_twin (b := b) h (.symbol id) (.symbol id) pos Propagated.new Propagated.new (.symbol id) ⟨rfl, rfl⟩ with
    ⟨⟨d, q⟩, ⟨d', q'⟩, h1, h2, h3, h4⟩ | ⟨e, h1, h2⟩
  · unfold valueAs decodeAsTypeAtPosition
    rw [h1, h2]
    dsimp only at h3 h4
    simp only [told, renamedOutcome, h3, h4]
  · unfold valueAs decodeAsTypeAtPosition
    rw [h1, h2]
    rfl

/-- **C79** for `decode_all_as_type`. -/
theorem decodeAll_names (h : RenamedIn N R R') (id : Nat) :
    (∃ d d', decodeAllAsType R b id = .ok d ∧ decodeAllAsType R' b id = .ok d' ∧ edValue d' = renamed N (edValue d)) ∨
    (∃ e, decodeAllAsType R b id = .error e ∧ decodeAllAsType R' b id = .error e) := by
  unfold decodeAllAsType
  rcases decode_twin (b := b) h (.symbol id) (.symbol id) 0 Propagated.new Propagated.new (.symbol id) ⟨rfl, rfl⟩ with
    ⟨⟨d, q⟩, ⟨d', q'⟩, h1, h2, h3, h4⟩ | ⟨e, h1, h2⟩
  · unfold decodeAsTypeAtPosition
    rw [h1, h2]
    dsimp only at h3 h4
    subst h4
    simp only [ok_bind]
    split
    · exact .inr ⟨_, rfl, rfl⟩
    · exact .inl ⟨_, _, rfl, rfl, h3⟩
  · unfold decodeAsTypeAtPosition
    rw [h1, h2]
    exact .inr ⟨e, rfl, rfl⟩

mutual
theorem renamed_same : ∀ v, renamed ⟨fun n => n, fun n => n⟩ v = v
  | .seq l => by simp only [renamed, renamedAll_same l]
  | .tuple l => by simp only [renamed, renamedAll_same l]
  | .record fs => by simp only [renamed, renamedFields_same fs]
  | .variant n fs => by simp only [renamed, renamedFields_same fs]
  | .pallet item p n fs => by simp only [renamed, renamedFields_same fs]
  | .bool v => rfl
  | .char v => rfl
  | .str v => rfl
  | .uint w v => rfl
  | .u256 v => rfl
  | .int w v => rfl
  | .fixed k bs => rfl
  | .hash bs => rfl
  | .per k v => rfl
  | .era e => rfl
  | .bits s o l => rfl
  | .never => rfl
theorem renamedAll_same : ∀ l, renamedAll ⟨fun n => n, fun n => n⟩ l = l
  | [] => rfl
  | v :: vs => by simp only [renamedAll, renamed_same v, renamedAll_same vs]
theorem renamedFields_same : ∀ l, renamedFields ⟨fun n => n, fun n => n⟩ l = l
  | [] => rfl
  | (n, v) :: fs => by simp only [renamedFields, renamed_same v, renamedFields_same fs]
end

/-- **C79.** With the same names of variants and fields, docs, type parameters, type names and paths (save for those
by which types are known) make no difference at all: the outcome is the same. -/
theorem decode_docs_ignored (h : RenamedIn ⟨fun n => n, fun n => n⟩ R R') (id pos : Nat) :
    valueAs R' b id pos = valueAs R b id pos := by
  rw [decode_names h]
  unfold renamedOutcome
  cases valueAs R b id pos with
  | error e => rfl
  | ok r => simp only [renamed_same]

/-- **C79.** Any names: two registries with the same types, whatever the names in them, give the same
error, or values that differ in names only, and the same position. -/
theorem decode_any_names {R₁ R₂ : Registry} {N₁ N₂ : Names} (h₁ : RenamedIn N₁ R₁ R) (h₂ : RenamedIn N₂ R₂ R)
    (id pos : Nat) : renamedOutcome N₁ (valueAs R₁ b id pos) = renamedOutcome N₂ (valueAs R₂ b id pos) := by
  rw [← decode_names h₁, ← decode_names h₂]

/-! ### A renamed registry -/

namespace NamesExample

/-- Every variant gets an exclamation mark, every field the name `x`. -/
def names : Names := ⟨fun n => n ++ "!", fun _ => some "x"⟩

/-- The field under its new name; its type name only if it is one of a signature. -/
def newField (f : Field) : Field :=
  { name := some "x", ty := f.ty, docs := ["about x"],
    typeName := if (signatureNamed f.typeName).isSome then f.typeName else some "Balance" }

/-- The variant under its new name. -/
def newVariant (v : Variant) : Variant :=
  { name := v.name ++ "!", index := v.index, fields := v.fields.map newField, docs := ["about it"] }

/-- The definition with new names. -/
def newDef : TypeDef → TypeDef
  | .composite l => .composite (l.map newField)
  | .variant l => .variant (l.map newVariant)
  | d => d

/-- The type with new names; its path only if nothing is known by it. -/
def newTyp (t : Typ) : Typ :=
  { typeDef := newDef t.typeDef, docs := ["about this"], params := [("T", none)],
    path := if (special t.path).isSome || (orderNamed t.path.getLast?).isSome then t.path else ["some", "Thing"] }

theorem newField_renamed (f : Field) : RenamedField names f (newField f) where
  ty := rfl
  name := rfl
  signature := by
    unfold newField
    dsimp only
    split
    · rfl
    · rename_i h
      cases hs : signatureNamed f.typeName with
      | none => rfl
      | some k => rw [hs] at h; exact absurd rfl h

theorem fields_renamed : ∀ l : List Field, Matched (RenamedField names) l (l.map newField)
  | [] => .nil
  | f :: fs => .cons (newField_renamed f) (fields_renamed fs)

theorem variants_renamed : ∀ l : List Variant, Matched (RenamedVariant names) l (l.map newVariant)
  | [] => .nil
  | v :: vs => .cons ⟨rfl, rfl, fields_renamed v.fields⟩ (variants_renamed vs)

theorem newTyp_renamed (t : Typ) : RenamedTyp names t (newTyp t) where
  special := by
    unfold newTyp
    dsimp only
    split
    · rfl
    · rename_i h
      cases hs : special t.path with
      | none => rfl
      | some k => rw [hs] at h; exact absurd rfl h
  order := by
    unfold newTyp
    dsimp only
    split
    · rfl
    · rename_i h
      cases hs : orderNamed t.path.getLast? with
      | none => rfl
      | some k => rw [hs] at h; simp at h
  typeDef := by
    unfold newTyp newDef
    cases t.typeDef with
    | composite l => exact .composite (fields_renamed l)
    | variant l => exact .variant (variants_renamed l)
    | sequence e => exact .sequence e
    | array n e => exact .array n e
    | tuple l => exact .tuple l
    | primitive p => exact .primitive p
    | compact i => exact .compact i
    | bitSequence o s => exact .bitSequence o s

/-- Any list of types can be renamed so. -/
theorem renamedIn (ts : List Typ) : RenamedIn names (Registry.portable ts) (Registry.portable (ts.map newTyp)) where
  size := by simp [Registry.portable]
  entry id := by
    unfold Registry.portable
    dsimp only
    rw [List.getElem?_map]
    cases ts[id]? with
    | none => rfl
    | some t => exact newTyp_renamed t

example := decode_names (b := PiecesExample.data) (renamedIn PiecesExample.types) 8 0
example := decodeAll_names (b := Buf.ofBytes [1, 7, 1, 0, 0, 0, 8]) (renamedIn PiecesExample.types) 8
example := decode_any_names (b := PiecesExample.data) (renamedIn PiecesExample.types) (renamedIn PiecesExample.types) 10 10

/-- The value of the renamed enum. -/
example : renamedOutcome names (valueAs (Registry.portable PiecesExample.types) PiecesExample.data 8 0) =
    .ok (.variant "B!" [(some "x", .record [(some "x", .tuple [.uint .u8 7, .uint .u32 1]), (some "x", .uint .u8 8)])], 7) := rfl
example : valueAs (Registry.portable (PiecesExample.types.map newTyp)) PiecesExample.data 8 0 =
    .ok (.variant "B!" [(some "x", .record [(some "x", .tuple [.uint .u8 7, .uint .u32 1]), (some "x", .uint .u8 8)])], 7) := rfl

/-- The same types with docs. -/
def documented : Registry := Registry.portable (PiecesExample.types.map fun t => { t with docs := ["docs"], params := [("T", some 3)] })

theorem same_fields : ∀ l : List Field, Matched (RenamedField ⟨fun n => n, fun n => n⟩) l l
  | [] => .nil
  | _ :: fs => .cons ⟨rfl, rfl, rfl⟩ (same_fields fs)

theorem same_variants : ∀ l : List Variant, Matched (RenamedVariant ⟨fun n => n, fun n => n⟩) l l
  | [] => .nil
  | v :: vs => .cons ⟨rfl, rfl, same_fields v.fields⟩ (same_variants vs)

theorem documented_same : RenamedIn ⟨fun n => n, fun n => n⟩ (Registry.portable PiecesExample.types) documented where
  size := by simp [Registry.portable, documented]
  entry id := by
    unfold documented Registry.portable
    dsimp only
    rw [List.getElem?_map]
    cases PiecesExample.types[id]? with
    | none => rfl
    | some t =>
      refine ⟨rfl, rfl, ?_⟩
      cases h : t.typeDef with
      | composite l => exact .composite (same_fields l)
      | variant l => exact .variant (same_variants l)
      | sequence e => exact .sequence e
      | array n e => exact .array n e
      | tuple l => exact .tuple l
      | primitive p => exact .primitive p
      | compact i => exact .compact i
      | bitSequence o s => exact .bitSequence o s

example := decode_docs_ignored (b := PiecesExample.data) documented_same 8 0

end NamesExample

end Verif
