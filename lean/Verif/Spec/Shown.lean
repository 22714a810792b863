import Verif.Spec.Value
/-!
# What is shown beside the values: names, docs, paths, labels

Rules for the tree a user sees: `Shown R h above id d` says that `d` is a rightly
annotated tree for type `id`, reached with label `h` and after the infos `above`
(of the compacts around it). The values themselves are the subject of `Enc`; here
numbers, bytes and texts are arbitrary.
-/
namespace Verif.Spec

/-- The first label found on the way down stays. -/
def first (h h' : Hint) : Hint := if h = .none then h' else h

/-- Label given by a field: by its name, else by its type name. -/
def fieldLabel (f : Field) : Hint :=
  if f.name = some "nonce" then .fieldNonce
  else if f.name = some "spec_version" then .fieldSpecVersion
  else if f.name = some "spec_name" then .fieldSpecName
  else if f.name = some "tx_version" ∨ f.name = some "transaction_version" then .fieldTxVersion
  else if f.typeName ∈ [some "Balance", some "BalanceOf<T>", some "BalanceOf<T, I>",
      some "DepositBalance", some "ExtendedBalance", some "PalletBalanceOf<T>", some "T::Balance"] then
    .fieldBalance
  else .none

/-- Label given by the path of a tuple element. -/
def pathLabel (t : Typ) : Hint :=
  if t.path.getLast? = some "CheckNonce" then .checkNonce
  else if t.path.getLast? = some "ChargeAssetTxPayment" then .chargeAssetTxPayment
  else if t.path.getLast? = some "ChargeTransactionPayment" then .chargeTransactionPayment
  else .none

/-- Label handed to `n` parts: with several parts only the asset tip label stays. -/
def handed (n : Nat) (h : Hint) : Hint :=
  if 2 ≤ n ∧ h ≠ .chargeAssetTxPayment then .none else h

/-- Label of an unsigned integer. -/
def uintLabel (h : Hint) : SpecUInt :=
  if h = .checkNonce ∨ h = .fieldNonce then .nonce
  else if h = .checkSpecVersion ∨ h = .fieldSpecVersion then .specVersion
  else if h = .checkTxVersion ∨ h = .fieldTxVersion then .txVersion
  else if h = .chargeTransactionPayment then .tip
  else if h = .chargeAssetTxPayment then .tipAsset
  else if h = .fieldBalance then .balance
  else .none

/-- Label of a text. -/
def textLabel (h : Hint) : SpecStr := if h = .fieldSpecName then .specName else .none

/-- A 32-byte hash, labelled. -/
def labelledHash (h : Hint) (bs : Bytes) : PD :=
  if h = .checkGenesis then .genesisHash bs
  else if h = .checkMortality then .blockHash bs
  else .h256 bs

/-- Lines of docs as one text. -/
def lines (docs : List String) : String := "\n".intercalate docs

/-- Info of a type: docs and path, if there are any. -/
def ownInfo (t : Typ) : List Info :=
  if lines t.docs = "" ∧ t.path = [] then [] else [⟨lines t.docs, t.path⟩]

/-- Peeling wrappers off an element type: label, infos and id at the start and at the
end. -/
inductive Peel (R : Registry) : Hint → List Info → Nat → Hint → List Info → Nat → Prop
  | stop {h : Hint} {is : List Info} {id : Nat} {t : Typ} : R.resolve id = .ok t →
      (special t.path = none → (∀ f, t.typeDef ≠ .composite [f]) ∧ (∀ i, t.typeDef ≠ .compact i)) →
      Peel R h is id h (is ++ ownInfo t) id
  | struct {h h' : Hint} {is is' : List Info} {id core : Nat} {t : Typ} {f : Field} :
      R.resolve id = .ok t → special t.path = none → t.typeDef = .composite [f] →
      Peel R (first h (fieldLabel f)) (is ++ ownInfo t) f.ty h' is' core →
      Peel R h is id h' is' core
  | compact {h h' : Hint} {is is' : List Info} {id inner core : Nat} {t : Typ} :
      R.resolve id = .ok t → special t.path = none → t.typeDef = .compact inner →
      Peel R h (is ++ ownInfo t) inner h' is' core → Peel R h is id h' is' core

/-- Elements are collected into a typed sequence: unlabelled integers of one width; byte
strings with one and the same element info, the first of them not empty (an empty list has
no element info of its own). -/
inductive Collected : List PD → Sequence → Prop
  | uints {w : UW} {l : List Nat} : l ≠ [] →
      Collected (l.map fun v => .uint w v .none) (.uints w l)
  | bytes {info : List Info} {l : List (List Nat)} {ds : List PD} :
      (∃ a, ds.head? = some (.sequence info (.uints .u8 a))) → ds.length = l.length →
      (∀ x ∈ ds.zip l, x.1 = .sequence info (.uints .u8 x.2) ∨ ∃ i, x.1 = .sequenceRaw i [] ∧ x.2 = []) →
      Collected ds (.vecU8 l info)

/-- Rightly annotated trees. -/
inductive Shown (R : Registry) : (h : Hint) → (above : List Info) → (id : Nat) → ED → Prop
  | fixed {h : Hint} {is : List Info} {id : Nat} {t : Typ} {k : FixedKind} {bs : Bytes} :
      R.resolve id = .ok t → special t.path = some (.fixed k) →
      Shown R h is id ⟨.fixed k bs, is ++ ownInfo t⟩
  | hash {h : Hint} {is : List Info} {id : Nat} {t : Typ} {bs : Bytes} :
      R.resolve id = .ok t → special t.path = some .hash →
      Shown R h is id ⟨labelledHash h bs, is ++ ownInfo t⟩
  | era {h : Hint} {is : List Info} {id : Nat} {t : Typ} {e : Era} :
      R.resolve id = .ok t → special t.path = some .era →
      Shown R h is id ⟨.era e, is ++ ownInfo t⟩
  | per {h : Hint} {is : List Info} {id : Nat} {t : Typ} {k : PerKind} {v : Nat} :
      R.resolve id = .ok t → special t.path = some (.per k) →
      Shown R h is id ⟨.perThing k v, is ++ ownInfo t⟩
  | struct {h : Hint} {is : List Info} {id : Nat} {t : Typ} {fields : List Field} {ds : List FD} :
      R.resolve id = .ok t → Structural t.path → t.typeDef = .composite fields →
      ds.length = fields.length →
      (∀ x ∈ fields.zip ds, x.2.fieldName = x.1.name ∧ x.2.typeName = x.1.typeName ∧
        x.2.fieldDocs = lines x.1.docs) →
      (∀ x ∈ fields.zip ds, Shown R (first (handed fields.length h) (fieldLabel x.1)) [] x.1.ty x.2.data) →
      Shown R h is id ⟨.composite ds, is ++ ownInfo t⟩
  | never {h : Hint} {is : List Info} {id : Nat} {t : Typ} : R.resolve id = .ok t →
      Structural t.path → t.typeDef = .variant [] → Shown R h is id ⟨.emptyEnum, is ++ ownInfo t⟩
  | variant {h : Hint} {is : List Info} {id : Nat} {t : Typ} {vs : List Variant} {v : Variant}
      {ds : List FD} : R.resolve id = .ok t → Structural t.path → t.typeDef = .variant vs → v ∈ vs →
      ds.length = v.fields.length →
      (∀ x ∈ v.fields.zip ds, x.2.fieldName = x.1.name ∧ x.2.typeName = x.1.typeName ∧
        x.2.fieldDocs = lines x.1.docs) →
      (∀ x ∈ v.fields.zip ds, Shown R (fieldLabel x.1) [] x.1.ty x.2.data) →
      Shown R h is id ⟨.variant v.name (lines v.docs) ds, is ++ ownInfo t⟩
  | signature {h : Hint} {is : List Info} {id : Nat} {t : Typ} {i : UInt8} {k : FixedKind} {bs : Bytes} :
      R.resolve id = .ok t → IsSignature R t i k → Shown R h is id ⟨.fixed k bs, is ++ ownInfo t⟩
  | pallet {h : Hint} {is : List Info} {id : Nat} {t t' : Typ} {vs inner : List Variant} {w v : Variant}
      {f : Field} {item : PalletItem} {ds : List FD} : R.resolve id = .ok t →
      special t.path = some (.pallet item) → t.typeDef = .variant vs → w ∈ vs → w.fields = [f] →
      R.resolve f.ty = .ok t' → special t'.path = some (.pallet item) → t'.typeDef = .variant inner →
      v ∈ inner → ds.length = v.fields.length →
      (∀ x ∈ v.fields.zip ds, x.2.fieldName = x.1.name ∧ x.2.typeName = x.1.typeName ∧
        x.2.fieldDocs = lines x.1.docs) →
      (∀ x ∈ v.fields.zip ds, Shown R (fieldLabel x.1) [] x.1.ty x.2.data) →
      Shown R h is id
        ⟨.pallet item ⟨lines t'.docs, t'.path⟩ (lines v.docs) w.name v.name ds, is ++ ownInfo t⟩
  | list {h h' : Hint} {is is' : List Info} {id elem core : Nat} {t : Typ} {es : List ED} :
      R.resolve id = .ok t → Structural t.path →
      t.typeDef = .sequence elem ∨ t.typeDef = .array es.length elem →
      Peel R .none [] elem h' is' core → (∀ e ∈ es, Shown R h' [] core e) →
      (∀ s, ¬ Collected (es.map (·.data)) s) →
      Shown R h is id ⟨.sequenceRaw is' (es.map (·.data)), is ++ ownInfo t⟩
  | collected {h h' : Hint} {is is' : List Info} {id elem core : Nat} {t : Typ} {es : List ED}
      {s : Sequence} : R.resolve id = .ok t → Structural t.path →
      t.typeDef = .sequence elem ∨ t.typeDef = .array es.length elem →
      Peel R .none [] elem h' is' core → (∀ e ∈ es, Shown R h' [] core e) →
      Collected (es.map (·.data)) s →
      Shown R h is id ⟨.sequence is' s, is ++ ownInfo t⟩
  | tuple {h : Hint} {is : List Info} {id : Nat} {t : Typ} {ids : List Nat} {ds : List ED} :
      R.resolve id = .ok t → Structural t.path → t.typeDef = .tuple ids → ds.length = ids.length →
      (∀ i ∈ ids, ∃ u, R.resolve i = .ok u) →
      (∀ x ∈ ids.zip ds, ∀ u, R.resolve x.1 = .ok u →
        Shown R (first (handed ids.length h) (pathLabel u)) [] x.1 x.2) →
      Shown R h is id ⟨.tuple ds, is ++ ownInfo t⟩
  | uint {h : Hint} {is : List Info} {id : Nat} {t : Typ} {p : Prim} {w : UW} {v : Nat} :
      R.resolve id = .ok t → Structural t.path → t.typeDef = .primitive p → IsUInt p w →
      Shown R h is id ⟨.uint w v (uintLabel h), is ++ ownInfo t⟩
  | text {h : Hint} {is : List Info} {id : Nat} {t : Typ} {s : String} :
      R.resolve id = .ok t → Structural t.path → t.typeDef = .primitive .str →
      Shown R h is id ⟨.text s (textLabel h), is ++ ownInfo t⟩
  | bool {h : Hint} {is : List Info} {id : Nat} {t : Typ} {v : Bool} : R.resolve id = .ok t →
      Structural t.path → t.typeDef = .primitive .bool → Shown R h is id ⟨.bool v, is ++ ownInfo t⟩
  | char {h : Hint} {is : List Info} {id : Nat} {t : Typ} {v : Char} : R.resolve id = .ok t →
      Structural t.path → t.typeDef = .primitive .char → Shown R h is id ⟨.char v, is ++ ownInfo t⟩
  | u256 {h : Hint} {is : List Info} {id : Nat} {t : Typ} {v : Nat} : R.resolve id = .ok t →
      Structural t.path → t.typeDef = .primitive .u256 → Shown R h is id ⟨.u256 v, is ++ ownInfo t⟩
  | int {h : Hint} {is : List Info} {id : Nat} {t : Typ} {p : Prim} {w : IW} {v : Int} :
      R.resolve id = .ok t → Structural t.path → t.typeDef = .primitive p → IsInt p w →
      Shown R h is id ⟨.int w v, is ++ ownInfo t⟩
  | compact {h : Hint} {is : List Info} {id : Nat} {t : Typ} {inner : Nat} {d : ED} :
      R.resolve id = .ok t → Structural t.path → t.typeDef = .compact inner →
      Shown R h (is ++ ownInfo t) inner d → Shown R h is id d
  | bits {h : Hint} {is : List Info} {id : Nat} {t : Typ} {order store : Nat} {o : BitOrder}
      {s : BitStore} {l : List Bool} : R.resolve id = .ok t → Structural t.path →
      t.typeDef = .bitSequence order store → IsBitOrder R order o → IsBitStore R store s →
      Shown R h is id ⟨.bitVec s o l, is ++ ownInfo t⟩

end Verif.Spec
