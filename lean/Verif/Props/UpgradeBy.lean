import Verif.Props.Upgrade
import Verif.Props.Renaming
/-!
# Property theorems about metadata that knows more variants and numbers its types differently (C90)
-/
namespace Verif
open Spec

variable {ME ME' : Type} {R R' : Registry} {f : Nat → Nat} {g : ME → ME'}

namespace Upgrade

/-- A type, renumbered. -/
def renTyp (f : Nat → Nat) (t : Typ) : Typ := { t with typeDef := renDef f t.typeDef }

/-- An answer, renumbered. -/
def renEntry' (f : Nat → Nat) : Except RegErr Typ → Except RegErr Typ
  | .ok t => .ok (renTyp f t)
  | .error e => .error (renReg f e)

theorem renEntry'_same (f : Nat → Nat) (x : Except RegErr Typ) : SameEntry f x (renEntry' f x) := by
  cases x with
  | ok t => exact ⟨rfl, rfl, rfl⟩
  | error e => exact rfl

open Classical in
/-- The older registry with the new numbers. -/
noncomputable def middleResolve (f : Nat → Nat) (R : Registry) (S : Nat → Prop) (y : Nat) : Except RegErr Typ :=
  if h : ∃ x, S x ∧ f x = y then renEntry' f (R.resolve h.choose) else .error .external

theorem le_foldl_max (f : Nat → Nat) : ∀ (n x : Nat), x < n → f x < (List.range n).foldl (fun a x => max a (f x + 1)) 0 := by
  intro n
  induction n with
  | zero => intro x h; omega
  | succ n ih =>
    intro x h
    rw [List.range_succ, List.foldl_append]
    simp only [List.foldl_cons, List.foldl_nil]
    by_cases hx : x = n
    · subst hx; omega
    · have := ih x (by omega); omega

noncomputable def middle (f : Nat → Nat) (R : Registry) (S : Nat → Prop) : Registry where
  resolve := middleResolve f R S
  size := (List.range R.size).foldl (fun a x => max a (f x + 1)) 0
  bounded := by
    intro y hy
    unfold middleResolve
    split
    · rename_i h
      have hc := h.choose_spec.2
      obtain ⟨e, he⟩ := R.bounded h.choose (by
        refine Nat.le_of_not_lt fun hlt => ?_
        have := le_foldl_max f _ _ hlt
        omega)
      rw [he]; exact ⟨_, rfl⟩
    · exact ⟨_, rfl⟩

theorem middle_resolve {S : Nat → Prop} (hi : ∀ x y, S x → S y → f x = f y → x = y) {x : Nat} (hx : S x) :
    (middle f R S).resolve (f x) = renEntry' f (R.resolve x) := by
  show middleResolve f R S (f x) = _
  have h : ∃ z, S z ∧ f z = f x := ⟨x, hx, rfl⟩
  unfold middleResolve
  rw [dif_pos h, hi _ _ h.choose_spec.1 hx h.choose_spec.2]

theorem renumbered_middle {S : Nat → Prop} (hi : ∀ x y, S x → S y → f x = f y → x = y) {id : Nat}
    (hS : ∀ x, Seen R id x → S x) : Renumbered f R (middle f R S) id where
  inj x y hx hy := hi x y (hS x hx) (hS y hy)
  same x hx := by rw [middle_resolve hi (hS x hx)]; exact renEntry'_same _ _

theorem partIds_renTyp (t : Typ) : partIds (renTyp f t) = (partIds t).map f := by
  unfold partIds renTyp
  cases t.typeDef with
  | variant vs =>
    show (vs.map (renVariant f)).flatMap _ = _
    rw [List.flatMap_map, List.map_flatMap]
    congr 1; funext v
    simp [renVariant, renField]
  | _ => simp [renDef, renField]

theorem seen_middle {S : Nat → Prop} (hi : ∀ x y, S x → S y → f x = f y → x = y) {id y : Nat}
    (hS : ∀ x, Seen R id x → S x) (hy : Seen (middle f R S) (f id) y) : ∃ x, Seen R id x ∧ y = f x := by
  induction hy with
  | self => exact ⟨id, .self, rfl⟩
  | part _ h hst hp ih =>
    obtain ⟨x, hx, rfl⟩ := ih
    rw [middle_resolve hi (hS x hx)] at h
    cases hr : R.resolve x with
    | error e => rw [hr] at h; cases h
    | ok t =>
      rw [hr] at h; cases h
      rw [partIds_renTyp] at hp
      obtain ⟨z, hz, rfl⟩ := List.mem_map.1 hp
      exact ⟨z, .part hx hr hst hz, rfl⟩
  | elem _ h hd ih =>
    obtain ⟨x, hx, rfl⟩ := ih
    rw [middle_resolve hi (hS x hx)] at h
    cases hr : R.resolve x with
    | error e => rw [hr] at h; cases h
    | ok t =>
      rw [hr] at h; cases h
      have hd : renDef f t.typeDef = _ := hd
      cases ht : t.typeDef with
      | array n e => rw [ht] at hd; cases hd; exact ⟨e, .elem hx hr ht, rfl⟩
      | _ => rw [ht] at hd; cases hd

theorem upgraded_middle {S : Nat → Prop} (h : UpgradedBy f R R' S) {id : Nat} (hS : ∀ x, Seen R id x → S x) :
    Upgraded (middle f R S) R' (f id) := by
  intro y hy
  obtain ⟨x, hx, rfl⟩ := seen_middle h.inj hS hy
  rw [middle_resolve h.inj (hS x hx)]
  have hg := h.grown x (hS x hx)
  revert hg
  cases R.resolve x with
  | error e => cases R'.resolve (f x) with
    | error e' => exact _root_.id
    | ok t' => exact False.elim
  | ok t => cases R'.resolve (f x) with
    | error e' => exact False.elim
    | ok t' =>
      rintro ⟨h1, h2, h3⟩
      refine ⟨h1, h2, h3.imp _root_.id ?_⟩
      rintro ⟨vs, vs', e1, e2, e3, e4⟩
      exact ⟨vs.map (renVariant f), vs', by simp [renTyp, e1, renDef], e2, by simpa using e3, e4⟩

end Upgrade
open Upgrade

/-- C90. `decode_as_type_at_position` with metadata that knows more variants and numbers its types
differently. -/
theorem decodeAsTypeAtPosition_upgradedBy {id : Nat} (h : UpgradedBy f R R' (Seen R id)) (b : Buf) (pos : Nat) :
    SameUnlessNewVariant (renRes f (decodeAsTypeAtPosition R b id pos)) (decodeAsTypeAtPosition R' b (f id) pos) := by
  rw [← decodeAsTypeAtPosition_renumbered (renumbered_middle h.inj fun _ => _root_.id) b pos]
  exact decodeAsTypeAtPosition_upgraded (upgraded_middle h fun _ => _root_.id) b pos

/-- C90. `decode_all_as_type`. -/
theorem decodeAllAsType_upgradedBy {id : Nat} (h : UpgradedBy f R R' (Seen R id)) (b : Buf) :
    SameUnlessNewVariant (renRes f (decodeAllAsType R b id)) (decodeAllAsType R' b (f id)) := by
  rw [← decodeAllAsType_renumbered (renumbered_middle h.inj fun _ => _root_.id) b]
  exact decodeAllAsType_upgraded (upgraded_middle h fun _ => _root_.id) b

namespace Upgrade

variable {M : Metadata ME} {M' : Metadata ME'}

theorem moved_ok_inv {ε ε' α β : Type} {g : ε → ε'} {h : α → β} {x : Except (Out ε) α} {b : β} (e : moved g h x = .ok b) :
    ∃ a, x = .ok a ∧ b = h a := by
  cases x with
  | ok a => cases e; exact ⟨a, rfl, rfl⟩
  | error x => cases x <;> cases e

noncomputable def middleMeta (f : Nat → Nat) (M : Metadata ME) (M' : Metadata ME') : Metadata ME' :=
  { M' with types := middle f M.types (TxSees M) }

theorem renumbered_middleMeta (h : UpgradedMetaBy f g M M') : RenumberedMeta f g M (middleMeta f M M') where
  version := h.version
  call := h.call
  callTypes _ hid := renumbered_middle h.types.inj fun _ => .call hid
  extensions := h.extensions
  extTypes _ hes _ he := ⟨renumbered_middle h.types.inj fun _ => .ext hes he, renumbered_middle h.types.inj fun _ => .additional hes he⟩

theorem upgraded_middleMeta (h : UpgradedMetaBy f g M M') : UpgradedMeta (middleMeta f M M') M' where
  version := rfl
  call := rfl
  callTypes id hid := by
    obtain ⟨a, ha, rfl⟩ := moved_ok_inv (h.call.symm.trans hid)
    exact upgraded_middle h.types fun _ => .call ha
  extensions := rfl
  extTypes es hes e he := by
    obtain ⟨a, ha, rfl⟩ := moved_ok_inv (h.extensions.symm.trans hes)
    obtain ⟨e, he', rfl⟩ := List.mem_map.1 he
    exact ⟨upgraded_middle h.types fun _ => .ext ha he', upgraded_middle h.types fun _ => .additional ha he'⟩

end Upgrade

variable {M : Metadata ME} {M' : Metadata ME'}

/-- C90. `decode_as_call_unmarked`. -/
theorem decodeAsCallUnmarked_upgradedBy (h : UpgradedMetaBy f g M M') (b : Buf) (pos : Nat) :
    SameUnless NewInTransaction (moved (renSErr f g) id (decodeAsCallUnmarked M b pos)) (decodeAsCallUnmarked M' b pos) := by
  rw [← decodeAsCallUnmarked_renumbered (renumbered_middleMeta h)]
  exact decodeAsCallUnmarked_upgraded (upgraded_middleMeta h) b pos

/-- C90. `parse_transaction_unmarked`. -/
theorem parseTransactionUnmarked_upgradedBy (h : UpgradedMetaBy f g M M') (b : Buf) (gh : Option Bytes) :
    SameUnless NewInTransaction (moved (renSErr f g) id (parseTransactionUnmarked M b gh)) (parseTransactionUnmarked M' b gh) := by
  rw [← parseTransactionUnmarked_renumbered (renumbered_middleMeta h)]
  exact parseTransactionUnmarked_upgraded (upgraded_middleMeta h) b gh

/-- C90. `parse_transaction`. -/
theorem parseTransaction_upgradedBy (h : UpgradedMetaBy f g M M') (b : Buf) (gh : Option Bytes) :
    SameParsedUnless (moved (renSErr f g) (renTx f g) (parseTransaction M b gh)) (parseTransaction M' b gh) := by
  rw [← parseTransaction_renumbered (renumbered_middleMeta h)]
  exact parseTransaction_upgraded (upgraded_middleMeta h) b gh

/-- C90. `decode_as_unchecked_extrinsic`. -/
theorem decodeUncheckedExtrinsic_upgradedBy {M : CompleteMetadata ME} {M' : CompleteMetadata ME'} (h : UpgradedParamsBy f g M M')
    (b : Buf) :
    SameUnless NewInExtrinsic (moved (renUErr f g) id (decodeUncheckedExtrinsic M b)) (decodeUncheckedExtrinsic M' b) := by
  have h1 : RenumberedParams f g M { M' with types := middle f M.types (ExtrinsicSees M) } :=
    ⟨h.params, h.version, fun p hp id hid => renumbered_middle h.types.inj fun x hx => ⟨p, hp, id, hid, hx⟩⟩
  have h2 : UpgradedParams { M' with types := middle f M.types (ExtrinsicSees M) } M' := by
    refine ⟨rfl, rfl, fun p hp id hid => ?_⟩
    obtain ⟨a, ha, rfl⟩ := moved_ok_inv (h.params.symm.trans hp)
    have : ∃ z ∈ [a.addressTy, a.callTy, a.signatureTy, a.extraTy], f z = id := List.mem_map.1 hid
    obtain ⟨z, hz, rfl⟩ := this
    exact upgraded_middle h.types fun x hx => ⟨a, ha, z, hz, hx⟩
  rw [← decodeUncheckedExtrinsic_renumbered h1]
  exact decodeUncheckedExtrinsic_upgraded h2 b

/-- C90. `decode_as_storage_entry`. -/
theorem decodeStorageEntry_upgradedBy {H : HashFns} {entry : Entry} (h : UpgradedBy f R R' (EntrySees R entry)) (key value : Buf) :
    SameUnless NewInStorage (moved (renStErr f) (renStorage f) (decodeStorageEntry H R key value entry))
      (decodeStorageEntry H R' key value (renEntry f entry)) := by
  rw [← decodeStorageEntry_renumbered (R' := middle f R (EntrySees R entry))
    fun id hid => renumbered_middle h.inj fun x hx => ⟨id, hid, hx⟩]
  refine decodeStorageEntry_upgraded (fun x hx => ?_) key value
  have : ∃ id, Spec.EntryType R entry.ty id ∧ x = f id := by
    unfold renEntry at hx
    cases he : entry.ty with
    | plain v => rw [he] at hx; cases hx; exact ⟨v, .plain, rfl⟩
    | map hs k v =>
      rw [he] at hx
      cases hx with
      | value => exact ⟨v, .value, rfl⟩
      | key => exact ⟨k, .key, rfl⟩
      | part h1 h2 h3 =>
        rw [middle_resolve h.inj ⟨k, by rw [he]; exact .key, .self⟩] at h1
        cases hr : R.resolve k with
        | error e => rw [hr] at h1; cases h1
        | ok t =>
          rw [hr] at h1; cases h1
          have h2 : renDef f t.typeDef = _ := h2
          cases ht : t.typeDef with
          | tuple ids =>
            rw [ht] at h2; cases h2
            obtain ⟨z, hz, rfl⟩ := List.mem_map.1 h3
            exact ⟨z, .part hr ht hz, rfl⟩
          | _ => rw [ht] at h2; cases h2
  obtain ⟨id, hid, rfl⟩ := this
  exact upgraded_middle h fun x hx => ⟨id, hid, hx⟩

/-! ### Which metadata are newer -/

theorem seen_lt {ts : List Typ} {id x : Nat} (hc : ∀ t ∈ ts, ∀ x ∈ partIds t, x < ts.length) (hid : id < ts.length)
    (hx : Seen (.portable ts) id x) : x < ts.length := by
  have hres : ∀ y t, (Registry.portable ts).resolve y = .ok t → ts[y]? = some t := by
    intro y t h
    simp only [Registry.portable] at h
    split at h
    · rename_i h2; cases h; exact h2
    · cases h
  induction hx with
  | self => exact hid
  | part _ h _ hp _ => exact hc _ (List.mem_of_getElem? (hres _ _ h)) _ hp
  | elem _ h hd _ => exact hc _ (List.mem_of_getElem? (hres _ _ h)) _ (by simp [partIds, hd])

/-- C90. Registries as lists, with the types renumbered by `f`. -/
theorem upgradedBy_of_lists {ts ts' : List Typ} {sees : Nat → Prop} (hi : ∀ x y, x < ts.length → y < ts.length → f x = f y → x = y)
    (hg : ∀ (x : Nat) (t : Typ), ts[x]? = some t → ∃ t', ts'[f x]? = some t' ∧ GrownTypBy f t t') (hs : ∀ x, sees x → x < ts.length) :
    UpgradedBy f (.portable ts) (.portable ts') sees where
  inj x y hx hy := hi x y (hs x hx) (hs y hy)
  grown x hx := by
    obtain ⟨t', h2, h3⟩ := hg x _ (List.getElem?_eq_getElem (hs x hx))
    simp only [Registry.portable, List.getElem?_eq_getElem (hs x hx), h2]
    exact h3

end Verif
