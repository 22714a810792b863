import Verif.Props.UpgradeBy
import Verif.Props.Extrinsic
import Verif.Props.Storage
/-!
# Every theorem applied to a concrete case: C90
-/
namespace Verif.Witness.Upgrade
open Spec Verif.Example

/-! ### The example chain after a runtime upgrade -/

/-- The pallets after the upgrade: one more. -/
def pallets : List Variant :=
  [{ name := "System", index := 0, fields := [{ ty := 8 }] }, { name := "Balances", index := 5, fields := [{ ty := 3 }] }]

/-- The calls of pallet `Balances` after the upgrade: one more. -/
def balances : List Variant :=
  [{ name := "transfer", index := 1,
     fields := [{ name := some "dest", ty := 0 }, { name := some "value", ty := 1, typeName := some "T::Balance" }] },
   { name := "burn", index := 10, fields := [{ name := some "value", ty := 1 }] }]

/-- The types of the example chain after the upgrade, with one more type. -/
def newTypes : List Typ :=
  [ { typeDef := .primitive .u8 },
    { typeDef := .primitive .u32 },
    { path := ["runtime", "RuntimeCall"], typeDef := .variant pallets },
    { path := ["pallet_balances", "pallet", "Call"], typeDef := .variant balances },
    { path := ["sp_runtime", "generic", "era", "Era"], typeDef := .variant [] },
    { path := ["primitive_types", "H256"], typeDef := .composite [] },
    { typeDef := .tuple [] },
    { path := ["frame_system", "CheckMortality"], typeDef := .composite [{ ty := 4 }] },
    { path := ["frame_system", "pallet", "Call"], typeDef := .variant [{ name := "remark", index := 0 }] } ]

theorem pallets_kept : KeepsVariants [{ name := "Balances", index := 5, fields := [{ ty := 3 }] }] pallets :=
  keepsVariants_of_indices (by decide) (by decide)
theorem balances_kept : KeepsVariants
    [{ name := "transfer", index := 1,
       fields := [{ name := some "dest", ty := 0 }, { name := some "value", ty := 1, typeName := some "T::Balance" }] }] balances :=
  keepsVariants_append _ _

theorem types_grown : ∀ (x : Nat) (t : Typ), chainTypes[x]? = some t → ∃ t', newTypes[x]? = some t' ∧ GrownTyp t t'
  | 0, _, h => by cases h; exact ⟨_, rfl, .same _⟩
  | 1, _, h => by cases h; exact ⟨_, rfl, .same _⟩
  | 2, _, h => by cases h; exact ⟨_, rfl, rfl, rfl, .inr ⟨_, _, rfl, rfl, by simp, pallets_kept⟩⟩
  | 3, _, h => by cases h; exact ⟨_, rfl, rfl, rfl, .inr ⟨_, _, rfl, rfl, by simp, balances_kept⟩⟩
  | 4, _, h => by cases h; exact ⟨_, rfl, .same _⟩
  | 5, _, h => by cases h; exact ⟨_, rfl, .same _⟩
  | 6, _, h => by cases h; exact ⟨_, rfl, .same _⟩
  | 7, _, h => by cases h; exact ⟨_, rfl, .same _⟩
  | x + 8, _, h => by cases h

theorem upgraded {id : Nat} (h : id < 8) : Upgraded chain.types (.portable newTypes) id :=
  upgraded_of_lists types_grown (by decide) h

/-- Metadata after the upgrade. -/
def newChain : Metadata Unit := { chain with types := .portable newTypes }

theorem chain_upgraded : UpgradedMeta chain newChain where
  version := rfl
  call := rfl
  callTypes id h := by cases h; exact upgraded (by decide)
  extensions := rfl
  extTypes es h e he := by
    cases h
    have : ∀ e ∈ chainExtensions, e.ty < 8 ∧ e.additionalSigned < 8 := by decide
    exact ⟨upgraded (this e he).1, upgraded (this e he).2⟩

example : KeepsVariants pallets (pallets ++ [{ name := "Staking", index := 5 }]) := keepsVariants_append _ _
example : KeepsVariants pallets ({ name := "Staking", index := 6 } :: pallets) := keepsVariants_of_indices (by decide) (by decide)
example : Upgraded (.portable chainTypes) (.portable (chainTypes ++ newTypes)) 2 :=
  upgraded_of_lists (fun x _ h => ⟨_, (List.getElem?_append_left (List.getElem?_eq_some_iff.1 h).1).trans h, .same _⟩) (by decide) (by decide)

/-! ### Values -/

/-- A call that the older metadata know: the same. -/
example : decodeAsTypeAtPosition newChain.types (Buf.ofBytes callBytes) 2 0 = decodeAsTypeAtPosition chain.types (Buf.ofBytes callBytes) 2 0 :=
  (decodeAsTypeAtPosition_upgraded (upgraded (by decide)) _ _).resolve_right
    (by rintro ⟨p, e⟩; have : (decodeAsTypeAtPosition chain.types (Buf.ofBytes callBytes) 2 0).toOption.isSome = true := by decide +kernel
        rw [e] at this; cases this)
example {d : ED} {q : Nat} (h : decodeAsTypeAtPosition chain.types (Buf.ofBytes callBytes) 2 0 = .ok (d, q)) :
    decodeAsTypeAtPosition newChain.types (Buf.ofBytes callBytes) 2 0 = .ok (d, q) := decodeAsTypeAtPosition_still (upgraded (by decide)) h
example : (decodeAsTypeAtPosition chain.types (Buf.ofBytes callBytes) 2 0).toOption.isSome = true := by decide +kernel

/-- Cut data: the same error. -/
example : decodeAllAsType newChain.types (Buf.ofBytes (callBytes.take 6)) 2 = decodeAllAsType chain.types (Buf.ofBytes (callBytes.take 6)) 2 :=
  (decodeAllAsType_upgraded (upgraded (by decide)) _).resolve_right (by rintro ⟨p, e⟩; cases e)

/-- Calls of the new pallet, and new calls of the old: the older metadata do not know the index. -/
example : decodeAllAsType chain.types (Buf.ofBytes [0, 0]) 2 = .error (.err (.unexpectedEnumVariant 0)) ∧
    (decodeAllAsType newChain.types (Buf.ofBytes [0, 0]) 2).toOption.isSome = true := ⟨rfl, by decide +kernel⟩
example : decodeAllAsType chain.types (Buf.ofBytes [5, 10, 1, 0, 0, 0]) 2 = .error (.err (.unexpectedEnumVariant 1)) ∧
    (decodeAllAsType newChain.types (Buf.ofBytes [5, 10, 1, 0, 0, 0]) 2).toOption.isSome = true := ⟨rfl, by decide +kernel⟩

/-! ### Transactions, extrinsics, storage -/

example : decodeAsCallUnmarked newChain (Buf.ofBytes callBytes) 0 = .ok (call, 7) :=
  (decodeAsCallUnmarked_upgraded chain_upgraded _ _).resolve_right (by rintro ⟨e, _, h⟩; cases h)
example : decodeExtensionsUnmarked newChain (Buf.ofBytes extBytes) 0 (some genesis) = decodeExtensionsUnmarked chain (Buf.ofBytes extBytes) 0 (some genesis) :=
  (decodeExtensionsUnmarked_upgraded chain_upgraded _ _ _).resolve_right
    (by rintro ⟨e, _, h⟩
        have : (decodeExtensionsUnmarked chain (Buf.ofBytes extBytes) 0 (some genesis)).toOption.isSome = true := by decide +kernel
        rw [h] at this; cases this)
example : SameUnless NewInTransaction (parseTransactionUnmarked chain (Buf.ofBytes (callBytes ++ extBytes)) (some genesis))
    (parseTransactionUnmarked newChain (Buf.ofBytes (callBytes ++ extBytes)) (some genesis)) :=
  parseTransactionUnmarked_upgraded chain_upgraded _ _
example : (parseTransactionUnmarked chain (Buf.ofBytes (callBytes ++ extBytes)) (some genesis)).toOption.isSome = true := by decide +kernel
example : SameParsedUnless (parseTransaction chain payload (some genesis)) (parseTransaction newChain payload (some genesis)) :=
  parseTransaction_upgraded chain_upgraded _ _

/-- A transaction with a new call: the older metadata show its extensions and say that the call is not
known, the newer show it. -/
def newPayload : Buf := Buf.ofBytes ([24, 5, 10, 1, 0, 0, 0] ++ extBytes)
example : SameParsedUnless (parseTransaction chain newPayload (some genesis)) (parseTransaction newChain newPayload (some genesis)) :=
  parseTransaction_upgraded chain_upgraded _ _
example : ((parseTransaction chain newPayload (some genesis)).toOption.map fun t => t.callResult.toOption.isSome) = some false ∧
    ((parseTransaction newChain newPayload (some genesis)).toOption.map fun t => t.callResult.toOption.isSome) = some true :=
  ⟨by decide +kernel, by decide +kernel⟩
/-- Not marked, the older metadata have no result. -/
example : parseTransactionUnmarked chain (Buf.ofBytes ([5, 10, 1, 0, 0, 0] ++ extBytes)) (some genesis) =
    .error (.err (.parsing (.unexpectedEnumVariant 1))) := rfl

/-- Metadata for extrinsics, after the upgrade. -/
def newExtrinsicChain : CompleteMetadata Unit := { extrinsicChain with types := .portable newTypes }
theorem extrinsicChain_upgraded : UpgradedParams extrinsicChain newExtrinsicChain where
  params := rfl
  version := rfl
  types p h id hid := by
    cases h
    have : ∀ id ∈ [0, 2, 5, 7], id < 8 := by decide
    exact upgraded (this id hid)
example : decodeUncheckedExtrinsic newExtrinsicChain (Buf.ofBytes unsignedBytes) = .ok (.unsigned call) :=
  (decodeUncheckedExtrinsic_upgraded extrinsicChain_upgraded _).resolve_right (by rintro ⟨e, _, h⟩; cases h)
example : decodeUncheckedExtrinsic extrinsicChain (Buf.ofBytes [12, 4, 0, 0]) = .error (.err (.parsing (.unexpectedEnumVariant 2))) := rfl

/-- The types of the storage example, with an enum as the last part of the key, before and after. -/
def oldStorage : List Typ :=
  [{ typeDef := .primitive .u8 }, { typeDef := .primitive .u32 }, { typeDef := .tuple [0, 1, 3] },
   { path := ["Kind"], typeDef := .variant [{ name := "A", index := 9 }] }]
def newStorage : List Typ :=
  [{ typeDef := .primitive .u8 }, { typeDef := .primitive .u32 }, { typeDef := .tuple [0, 1, 3] },
   { path := ["Kind"], typeDef := .variant [{ name := "B", index := 8 }, { name := "A", index := 9 }] }]
theorem storage_upgraded {id : Nat} (h : id < 4) : Upgraded (.portable oldStorage) (.portable newStorage) id := by
  refine upgraded_of_lists ?_ (by decide) h
  exact fun
  | 0, _, h => by cases h; exact ⟨_, rfl, .same _⟩
  | 1, _, h => by cases h; exact ⟨_, rfl, .same _⟩
  | 2, _, h => by cases h; exact ⟨_, rfl, .same _⟩
  | 3, _, h => by
    cases h
    exact ⟨_, rfl, rfl, rfl, .inr ⟨_, _, rfl, rfl, by simp, keepsVariants_of_indices (by decide) (by decide)⟩⟩
  | x + 4, _, h => by cases h
theorem entry_upgraded (x : Nat) (h : Spec.EntryType (.portable oldStorage) entry.ty x) :
    Upgraded (.portable oldStorage) (.portable newStorage) x := by
  cases h with
  | value => exact storage_upgraded (by decide)
  | key => exact storage_upgraded (by decide)
  | part h1 h2 h3 =>
    cases h1; cases h2
    have : ∀ x ∈ [0, 1, 3], x < 4 := by decide
    exact storage_upgraded (this _ h3)
example : decodeStorageEntry hashes (.portable newStorage) (Buf.ofBytes keyBytes) (Buf.ofBytes [2, 1, 0, 0]) entry =
    decodeStorageEntry hashes (.portable oldStorage) (Buf.ofBytes keyBytes) (Buf.ofBytes [2, 1, 0, 0]) entry :=
  (decodeStorageEntry_upgraded entry_upgraded _ _).resolve_right
    (by rintro ⟨e, _, h⟩
        have : (decodeStorageEntry hashes (.portable oldStorage) (Buf.ofBytes keyBytes) (Buf.ofBytes [2, 1, 0, 0]) entry).toOption.isSome = true := by
          decide +kernel
        rw [h] at this; cases this)

/-! ### With other numbers -/

/-- Types have got other numbers: each three more. -/
def moreBy (x : Nat) : Nat := x + 3

/-- The types after the upgrade, with three others before. -/
def movedTypes : List Typ :=
  [{ typeDef := .primitive .bool }, { typeDef := .primitive .str }, { typeDef := .tuple [2, 2] }] ++
    newTypes.map (Verif.Upgrade.renTyp moreBy)

theorem GrownTypBy.same (f : Nat → Nat) (t : Typ) : GrownTypBy f t (Verif.Upgrade.renTyp f t) := ⟨rfl, rfl, .inl rfl⟩

theorem moved_grown : ∀ (x : Nat) (t : Typ), chainTypes[x]? = some t → ∃ t', movedTypes[moreBy x]? = some t' ∧ GrownTypBy moreBy t t'
  | 0, _, h => by cases h; exact ⟨_, rfl, GrownTypBy.same _ _⟩
  | 1, _, h => by cases h; exact ⟨_, rfl, GrownTypBy.same _ _⟩
  | 2, _, h => by
    cases h
    exact ⟨_, rfl, rfl, rfl, .inr ⟨_, _, rfl, rfl, by simp, keepsVariants_of_indices (by decide) (by decide)⟩⟩
  | 3, _, h => by cases h; exact ⟨_, rfl, rfl, rfl, .inr ⟨_, _, rfl, rfl, by simp, keepsVariants_append _ _⟩⟩
  | 4, _, h => by cases h; exact ⟨_, rfl, GrownTypBy.same _ _⟩
  | 5, _, h => by cases h; exact ⟨_, rfl, GrownTypBy.same _ _⟩
  | 6, _, h => by cases h; exact ⟨_, rfl, GrownTypBy.same _ _⟩
  | 7, _, h => by cases h; exact ⟨_, rfl, GrownTypBy.same _ _⟩
  | x + 8, _, h => by cases h

theorem chain_moved {sees : Nat → Prop} (hs : ∀ x, sees x → x < chainTypes.length) :
    UpgradedBy moreBy chain.types (.portable movedTypes) sees :=
  upgradedBy_of_lists (fun x y _ _ h => Nat.add_right_cancel h) moved_grown hs
example {sees : Nat → Prop} (hs : ∀ x, sees x → x < chainTypes.length) : UpgradedBy moreBy chain.types (.portable movedTypes) sees :=
  upgradedBy_of_lists (fun x y _ _ h => Nat.add_right_cancel h) moved_grown hs
theorem chain_closed : ∀ t ∈ chainTypes, ∀ x ∈ partIds t, x < chainTypes.length := by decide

example : decodeAsTypeAtPosition (.portable movedTypes) (Buf.ofBytes callBytes) 5 0 =
    renRes moreBy (decodeAsTypeAtPosition chain.types (Buf.ofBytes callBytes) 2 0) :=
  (decodeAsTypeAtPosition_upgradedBy (f := moreBy) (id := 2) (chain_moved fun _ => seen_lt chain_closed (by decide)) _ _).resolve_right
    (by rintro ⟨p, e⟩
        have : (renRes moreBy (decodeAsTypeAtPosition chain.types (Buf.ofBytes callBytes) 2 0)).toOption.isSome = true := by decide +kernel
        rw [e] at this; cases this)
example : SameUnlessNewVariant (renRes moreBy (decodeAllAsType chain.types (Buf.ofBytes [5, 10, 1, 0, 0, 0]) 2))
    (decodeAllAsType (.portable movedTypes) (Buf.ofBytes [5, 10, 1, 0, 0, 0]) (moreBy 2)) :=
  decodeAllAsType_upgradedBy (chain_moved fun _ => seen_lt chain_closed (by decide)) _

/-- Metadata after the upgrade, with other numbers. -/
def movedChain : Metadata Unit :=
  { types := .portable movedTypes, specNameVersion := chain.specNameVersion, callTy := .ok 5,
    signedExtensions := .ok (chainExtensions.map (renExt moreBy)) }
theorem movedChain_upgraded : UpgradedMetaBy moreBy (_root_.id : Unit → Unit) chain movedChain where
  version := rfl
  call := rfl
  extensions := rfl
  types := by
    refine chain_moved fun x hx => ?_
    have he : ∀ e ∈ chainExtensions, e.ty < chainTypes.length ∧ e.additionalSigned < chainTypes.length := by decide
    cases hx with
    | call h1 h2 => cases h1; exact seen_lt chain_closed (by decide) h2
    | ext h1 h2 h3 => cases h1; exact seen_lt chain_closed (he _ h2).1 h3
    | additional h1 h2 h3 => cases h1; exact seen_lt chain_closed (he _ h2).2 h3
example : decodeAsCallUnmarked movedChain (Buf.ofBytes callBytes) 0 = .ok (call, 7) :=
  (decodeAsCallUnmarked_upgradedBy movedChain_upgraded _ _).resolve_right (by rintro ⟨e, _, h⟩; cases h)
example : SameUnless NewInTransaction (moved (renSErr moreBy _root_.id) _root_.id (parseTransactionUnmarked chain (Buf.ofBytes (callBytes ++ extBytes)) (some genesis)))
    (parseTransactionUnmarked movedChain (Buf.ofBytes (callBytes ++ extBytes)) (some genesis)) :=
  parseTransactionUnmarked_upgradedBy movedChain_upgraded _ _
example : SameParsedUnless (moved (renSErr moreBy _root_.id) (renTx moreBy _root_.id) (parseTransaction chain payload (some genesis)))
    (parseTransaction movedChain payload (some genesis)) := parseTransaction_upgradedBy movedChain_upgraded _ _

def movedExtrinsicChain : CompleteMetadata Unit :=
  { movedChain with extrinsicTypeParams := .ok ⟨3, 5, 8, 10⟩, extrinsicVersion := .ok 4 }
theorem movedExtrinsicChain_upgraded : UpgradedParamsBy moreBy (_root_.id : Unit → Unit) extrinsicChain movedExtrinsicChain where
  params := rfl
  version := rfl
  types := by
    refine chain_moved fun x hx => ?_
    obtain ⟨p, h1, id, h2, h3⟩ := hx
    cases h1
    have : ∀ id ∈ [0, 2, 5, 7], id < chainTypes.length := by decide
    exact seen_lt chain_closed (this id h2) h3
example : decodeUncheckedExtrinsic movedExtrinsicChain (Buf.ofBytes unsignedBytes) = .ok (.unsigned call) :=
  (decodeUncheckedExtrinsic_upgradedBy movedExtrinsicChain_upgraded _).resolve_right (by rintro ⟨e, _, h⟩; cases h)

/-- Storage, with the new types in other places. -/
def movedStorage : List Typ := { typeDef := .primitive .bool } :: newStorage.map (Verif.Upgrade.renTyp (· + 1))
theorem storage_moved : UpgradedBy (· + 1) (.portable oldStorage) (.portable movedStorage) (EntrySees (.portable oldStorage) entry) := by
  refine upgradedBy_of_lists (fun x y _ _ h => Nat.add_right_cancel h) ?_ ?_
  · exact fun
    | 0, _, h => by cases h; exact ⟨_, rfl, GrownTypBy.same _ _⟩
    | 1, _, h => by cases h; exact ⟨_, rfl, GrownTypBy.same _ _⟩
    | 2, _, h => by cases h; exact ⟨_, rfl, GrownTypBy.same _ _⟩
    | 3, _, h => by
      cases h
      exact ⟨_, rfl, rfl, rfl, .inr ⟨_, _, rfl, rfl, by simp, keepsVariants_of_indices (by decide) (by decide)⟩⟩
    | x + 4, _, h => by cases h
  · rintro x ⟨id, h1, h2⟩
    refine seen_lt (by decide) ?_ h2
    cases h1 with
    | value => decide
    | key => decide
    | part h1 h2 h3 =>
      cases h1; cases h2
      have : ∀ x ∈ [0, 1, 3], x < oldStorage.length := by decide
      exact this _ h3
example : SameUnless NewInStorage
    (moved (renStErr (· + 1)) (renStorage (· + 1)) (decodeStorageEntry hashes (.portable oldStorage) (Buf.ofBytes keyBytes) (Buf.ofBytes [2, 1, 0, 0]) entry))
    (decodeStorageEntry hashes (.portable movedStorage) (Buf.ofBytes keyBytes) (Buf.ofBytes [2, 1, 0, 0]) (renEntry (· + 1) entry)) :=
  decodeStorageEntry_upgradedBy storage_moved _ _

/-! ### What the conditions exclude -/

/-- A variant that got another index: the same bytes are another call, without an error. -/
example : (decodeAllAsType (.portable [{ typeDef := .variant [{ name := "a", index := 0 }, { name := "b", index := 1 }] }]) (Buf.ofBytes [1]) 0,
    decodeAllAsType (.portable [{ typeDef := .variant [{ name := "a", index := 0 }, { name := "n", index := 1 }, { name := "b", index := 2 }] }]) (Buf.ofBytes [1]) 0) =
    (.ok ⟨.variant "b" "" [], []⟩, .ok ⟨.variant "n" "" [], []⟩) := rfl

end Verif.Witness.Upgrade
