import Verif.Spec.Shown
import Verif.Model.Extrinsic
import Verif.Model.Storage
/-!
# Size of parsed data (specification)

The size of a result counts everything in it that takes memory: one for every value, field list and
info, and the bytes of all texts, hashes and bit strings (numbers count one each).
-/
namespace Verif.Spec

/-- Bytes of a text. -/
def textSize (s : String) : Nat := (utf8 s).length

/-- Bytes of a text, if any. -/
def optTextSize : Option String → Nat
  | none => 0
  | some s => textSize s

/-- Size of an info: docs and path. -/
def infoSize (i : Info) : Nat := 1 + textSize i.docs + (i.path.map fun s => 1 + textSize s).sum

/-- Size of a list of infos. -/
def infosSize (l : List Info) : Nat := (l.map infoSize).sum

/-- Size of a packed list. -/
def sequenceSize : Sequence → Nat
  | .uints _ l => l.length
  | .vecU8 l i => infosSize i + (l.map fun x => 1 + x.length).sum

mutual
/-- Size of parsed data. -/
def pdSize : PD → Nat
  | .bitVec _ _ l => 1 + (l.length + 7) / 8
  | .blockHash h | .genesisHash h | .h256 h | .fixed _ h => 1 + h.length
  | .pallet _ i docs p v fs => 1 + infoSize i + textSize docs + textSize p + textSize v + fdsSize fs
  | .composite fs => 1 + fdsSize fs
  | .sequence is s => 1 + infosSize is + sequenceSize s
  | .sequenceRaw is l => 1 + infosSize is + pdsSize l
  | .text s _ => 1 + textSize s
  | .tuple l => 1 + edsSize l
  | .variant n docs fs => 1 + textSize n + textSize docs + fdsSize fs
  | _ => 1

/-- Size of data with info. -/
def edSize : ED → Nat
  | ⟨d, is⟩ => pdSize d + infosSize is

/-- Size of the elements of a list. -/
def pdsSize : List PD → Nat
  | [] => 0
  | d :: l => pdSize d + pdsSize l

/-- Size of the elements of a tuple. -/
def edsSize : List ED → Nat
  | [] => 0
  | d :: l => edSize d + edsSize l

/-- Size of the fields, with their names, type names and docs. -/
def fdsSize : List FD → Nat
  | [] => 0
  | ⟨n, t, docs, d⟩ :: l => optTextSize n + optTextSize t + textSize docs + edSize d + fdsSize l
end

/-- Size of a call. -/
def callSize (c : Call) : Nat :=
  1 + infoSize c.palletInfo + textSize c.variantDocs + textSize c.palletName + textSize c.variantName + fdsSize c.fields

/-- Size of a transaction, as far as it could be parsed. -/
def txSize {ME : Type} (t : TransactionParsed ME) : Nat :=
  (match t.callResult with | .ok c => callSize c | .error _ => 1) + edsSize t.extensions

/-- Size of an extrinsic. -/
def extrinsicSize : UncheckedExtrinsic → Nat
  | .signed a s e c => edSize a + edSize s + edSize e + callSize c
  | .unsigned c => callSize c

/-- Size of a part of a key. -/
def keyPartSize : KeyPart → Nat
  | .hash _ h _ => 1 + h.length
  | .parsed d => edSize d

/-- Size of a key. -/
def keySize : KeyData → Nat
  | .plain => 1
  | .singleHash p => 1 + keyPartSize p
  | .tupleHash ps i => 1 + infoSize i + (ps.map keyPartSize).sum

/-- Number of hashed parts of a key. -/
def keyParts : EntryType → Nat
  | .plain _ => 0
  | .map hashers _ _ => hashers.length

/-- Size of a storage entry. -/
def storageSize (s : Storage) : Nat := keySize s.key + edSize s.value + textSize s.docs

/-- Size of the docs and the path of a type. -/
def typeText (t : Typ) : Nat := infoSize ⟨lines t.docs, t.path⟩

/-- Size of the texts of a field. -/
def fieldText (f : Field) : Nat := optTextSize f.name + optTextSize f.typeName + textSize (lines f.docs)

/-- Sizes of the fields. -/
def fieldsSize (sz : Nat → Nat) (fs : List Field) : Nat := (fs.map fun f => fieldText f + sz f.ty).sum

/-- `sz id` is enough for what a value of the type `id` shows before the first enum or vector; `K` is
enough for all of these, and for what an enum shows. -/
structure Budget (R : Registry) (sz : Nat → Nat) (K : Nat) : Prop where
  within : ∀ {id t}, R.resolve id = .ok t → sz id ≤ K
  own : ∀ {id t}, R.resolve id = .ok t → 1 + typeText t ≤ sz id
  struct : ∀ {id t fields}, R.resolve id = .ok t → t.typeDef = .composite fields →
    1 + typeText t + fieldsSize sz fields ≤ sz id
  tuple : ∀ {id t ids}, R.resolve id = .ok t → t.typeDef = .tuple ids →
    1 + typeText t + (ids.map sz).sum ≤ sz id
  array : ∀ {id t n elem}, R.resolve id = .ok t → t.typeDef = .array n elem →
    1 + typeText t + (n + 1) * sz elem ≤ sz id
  compact : ∀ {id t inner}, R.resolve id = .ok t → t.typeDef = .compact inner → typeText t + sz inner ≤ sz id
  enum : ∀ {id t vs v}, R.resolve id = .ok t → t.typeDef = .variant vs → v ∈ vs →
    1 + textSize v.name + textSize (lines v.docs) + fieldsSize sz v.fields ≤ K

/-- Sizes of types, through at most `n` levels. -/
def sizeUpTo (R : Registry) : Nat → Nat → Nat
  | 0, _ => 0
  | n + 1, id =>
    match R.resolve id with
    | .error _ => 0
    | .ok t => 1 + typeText t +
      match t.typeDef with
      | .composite fs => fieldsSize (sizeUpTo R n) fs
      | .tuple ids => (ids.map (sizeUpTo R n)).sum
      | .array m e => (m + 1) * sizeUpTo R n e
      | .compact i => sizeUpTo R n i
      | _ => 0

/-- Largest of the numbers. -/
def largest (l : List Nat) : Nat := l.foldr max 0

/-- Largest size of what a variant of the enum `id` shows. -/
def variantSize (R : Registry) (sz : Nat → Nat) (id : Nat) : Nat :=
  match R.resolve id with
  | .ok { typeDef := .variant vs, .. } =>
    largest (vs.map fun v => 1 + textSize v.name + textSize (lines v.docs) + fieldsSize sz v.fields)
  | _ => 0

/-- Size of what a value of a type shows before the first enum or vector. -/
def typeSize (R : Registry) (rk : Nat → Nat) (id : Nat) : Nat := sizeUpTo R (rk id + 1) id

/-- Largest size of what a type, or a variant of an enum, shows. -/
def largestSize (R : Registry) (rk : Nat → Nat) : Nat :=
  largest ((List.range R.size).map fun id => max (typeSize R rk id) (variantSize R (typeSize R rk) id))

/-- Elements of vectors take at least one byte. -/
def SolidVectors (R : Registry) : Prop :=
  ∀ id t elem, R.resolve id = .ok t → t.typeDef = .sequence elem → ∀ v, ¬ Enc R false elem v []

end Verif.Spec
