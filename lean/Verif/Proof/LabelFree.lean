import Verif.Proof.Device
import Verif.Proof.HuskBridge
import Verif.Spec.Reach
/-! Types without calls, events and signatures: the device decodes as the fixed memory does, or the memory fails. -/
namespace Verif
open Spec

variable {σ α β : Type} {E : Fail → Prop} {D : Device σ} {R : Registry} {b : Buf} {rec : Dec} {recD : DecD σ}
  {S : Nat → Prop}

/-- A set of types with their parts. -/
def PartsIn (R : Registry) (S : Nat → Prop) : Prop :=
  ∀ id t, S id → R.resolve id = .ok t → Structural t.path → ∀ x ∈ partIds t, S x

/-- No call, event or signature in the set. -/
def NoLabelIn (R : Registry) (S : Nat → Prop) : Prop :=
  ∀ id t vs, S id → R.resolve id = .ok t → t.typeDef = .variant vs →
    special t.path ≠ some .multiSignature ∧ ∀ item, special t.path ≠ some (.pallet item)

theorem reaches_partsIn (id : Nat) : PartsIn R (Reaches R id) := fun _ _ h hr hs _ hx => .part h hr hs hx

/-- The recursive calls agree on the types of the set. -/
structure RecOn (E : Fail → Prop) (R : Registry) (S : Nat → Prop) (recD : DecD σ) (rec : Dec) : Prop where
  symbol : ∀ id pos p, S id → Follows E (recD (.symbol id) pos p) (rec (.symbol id) pos p)
  resolved : ∀ ty id pos p, S id → R.resolve id = .ok ty → Follows E (recD (.resolved ty id) pos p) (rec (.resolved ty id) pos p)

theorem decodeFieldsLoopD_on (hr : RecOn E R S recD rec) (c : Checker) (fs : List Field) : ∀ pos,
    (∀ x ∈ fs.map (·.ty), S x) →
    Follows E (decodeFieldsLoopD recD c fs pos) (decodeFieldsLoop rec c fs pos) := by
  induction fs with
  | nil => intro pos _; exact .of _
  | cons f fs ih =>
    intro pos hs
    exact (Follows.of _).bind' (fun p => (hr.symbol _ _ _ (hs _ (by simp))).bind' (fun d =>
      (ih _ (fun x hx => hs x (by simp at hx ⊢; exact .inr hx))).bind' (fun l => .of _)))

theorem decodeFieldsD_on (hr : RecOn E R S recD rec) (fs : List Field) (pos : Nat) (c : Checker)
    (hs : ∀ x ∈ fs.map (·.ty), S x) : Follows E (decodeFieldsD recD fs pos c) (decodeFields rec fs pos c) := by
  unfold decodeFieldsD decodeFields
  split
  · exact (Follows.of _).bind' (fun _ => decodeFieldsLoopD_on hr _ _ _ hs)
  · exact decodeFieldsLoopD_on hr _ _ _ hs

theorem decodeElementsLoopD_on (hr : RecOn E R S recD rec) {h : HuskedType} (hs : S h.id) (ht : R.resolve h.id = .ok h.ty)
    (n : Nat) : ∀ pos, Follows E (decodeElementsLoopD recD h n pos) (decodeElementsLoop rec h n pos) := by
  induction n with
  | zero => intro pos; exact .of _
  | succ n ih =>
    intro pos
    exact (hr.resolved _ _ _ _ hs ht).bind' (fun d => (ih _).bind' (fun l => .of _))

theorem structural_of_none {p : List String} (h : special p = none) : Structural p := by
  unfold Structural; rw [h]; trivial

theorem core_in (hS : PartsIn R S) {c c' : Bool} {id coreId k : Nat} {core : Typ} (h : Core R c id c' core coreId k) :
    S id → S coreId := by
  induction h with
  | stop => exact fun h => h
  | struct h1 h2 h3 _ ih => exact fun hs => ih (hS _ _ hs h1 (structural_of_none h2) _ (by unfold partIds; rw [h3]; simp))
  | compact h1 h2 h3 _ ih => exact fun hs => ih (hS _ _ hs h1 (structural_of_none h2) _ (by unfold partIds; rw [h3]; simp))

theorem decodeElementsSetD_on (H : HonestD E D R b) (hS : PartsIn R S) (hr : RecOn E R S recD rec) {elem : Nat} (n pos : Nat)
    (p : Propagated) (hs : S elem) :
    Follows E (decodeElementsSetD D recD elem n pos p) (decodeElementsSet R rec elem n pos p) := by
  refine (Follows.of _).bind' (fun _ => (huskTypeD_follows H _ _).bind (fun h hh => ?_))
  obtain ⟨h1, k, h2⟩ := huskType_core hh
  split
  · exact .of _
  · refine (decodeElementsLoopD_on hr (core_in hS h2 hs) h1 n pos).bind' (fun l => ?_)
    obtain ⟨l, q⟩ := l
    dsimp only
    cases wrapSequence l <;> exact .of _

theorem decodeVariantD_on (H : HonestD E D R b) (hr : RecOn E R S recD rec) (vs : List Variant) (pos : Nat)
    (hs : ∀ v ∈ vs, ∀ x ∈ v.fields.map (·.ty), S x) :
    Follows E (decodeVariantD D recD vs pos) (decodeVariant rec vs b pos) :=
  (pickVariantD_follows H vs pos).bind (fun v hv => H.add_follows (pickVariant_le hv)
    ((decodeFieldsD_on hr _ _ _ (hs v (by
      unfold pickVariant at hv
      obtain ⟨i, _, hv⟩ := bind_ok.1 hv
      split at hv
      · rename_i v' h; cases hv; exact List.mem_of_find?_eq_some h
      · cases hv))).bind' (fun _ => .of _)))

theorem decodeTupleLoopD_on (H : HonestD E D R b) (hr : RecOn E R S recD rec) (c : Checker) (ids : List Nat) :
    ∀ pos, (∀ x ∈ ids, S x) → Follows E (decodeTupleLoopD D recD c ids pos) (decodeTupleLoop R rec c ids pos) := by
  induction ids with
  | nil => intro pos _; exact .of _
  | cons id ids ih =>
    intro pos hs
    exact (H.get id).bind (fun t ht => (Follows.of _).bind' (fun p => (hr.resolved _ _ _ _ (hs _ (by simp)) (get_ok.1 ht)).bind' (fun d =>
      (ih _ (fun x hx => hs x (by simp [hx]))).bind' (fun l => .of _))))

theorem decodeTupleD_on (H : HonestD E D R b) (hr : RecOn E R S recD rec) (ids : List Nat) (pos : Nat)
    (p : Propagated) (hs : ∀ x ∈ ids, S x) : Follows E (decodeTupleD D recD ids pos p) (decodeTuple R rec ids pos p) := by
  unfold decodeTupleD decodeTuple
  dsimp only
  split
  · exact (Follows.of _).bind' (fun p' => (decodeTupleLoopD_on H hr _ _ _ hs).bind' (fun l => .of _))
  · exact (Follows.of _).bind' (fun p' => (decodeTupleLoopD_on H hr _ _ _ hs).bind' (fun l => .of _))

theorem withInfoD_on {x : Dev σ (PD × Nat)} {r : Res (PD × Nat)} (info : List Info) (h : Follows E x r) :
    Follows E (withInfoD info x) (withInfo info r) := h.bind' (fun _ => .of _)

theorem decodeTypeDefD_on (H : HonestD E D R b) (hS : PartsIn R S) (hr : RecOn E R S recD rec) {ty : Typ} {id : Nat} (pos : Nat)
    (p : Propagated) (hs : S id) (ht : R.resolve id = .ok ty) (hst : Structural ty.path) :
    Follows E (decodeTypeDefD D recD ty id pos p) (decodeTypeDef R rec b ty id pos p) := by
  have hp := hS id ty hs ht hst
  unfold decodeTypeDefD decodeTypeDef
  unfold partIds at hp
  cases hd : ty.typeDef with
  | composite fs => rw [hd] at hp; exact (decodeFieldsD_on hr _ _ _ hp).bind' (fun _ => .of _)
  | variant vs =>
    rw [hd] at hp
    refine (Follows.of _).bind' (fun _ => ?_)
    split
    · exact .of _
    · exact (decodeVariantD_on H hr _ _ (fun v hv x hx => hp x (List.mem_flatMap.2 ⟨v, hv, hx⟩))).bind' (fun _ => .of _)
  | sequence e =>
    rw [hd] at hp
    exact (getCompactD_follows H _ _).bind' (fun _ => decodeElementsSetD_on H hS hr _ _ _ (hp _ (by simp)))
  | array n e => rw [hd] at hp; exact decodeElementsSetD_on H hS hr _ _ _ (hp _ (by simp))
  | tuple ids => rw [hd] at hp; exact decodeTupleD_on H hr _ _ _ hp
  | primitive pr => exact withInfoD_on _ (decodePrimitiveD_follows H _ _ _)
  | compact inner =>
    rw [hd] at hp
    exact (Follows.of _).bind' (fun _ => (Follows.of _).bind' (fun _ => hr.symbol _ _ _ (hp _ (by simp))))
  | bitSequence o s => exact (Follows.of _).bind' (fun _ => withInfoD_on _ (decodeBitSequenceD_follows H _ _ _ _))

/-- Recognition outside calls, events and signatures does not look at the memory. -/
theorem fromTypeD_on {ty : Typ} (hl : ∀ vs, ty.typeDef = .variant vs →
      special ty.path ≠ some .multiSignature ∧ ∀ item, special ty.path ≠ some (.pallet item)) (pos : Nat) :
    ∃ tc, fromTypeD D ty pos = Dev.of (.ok (tc, pos)) ∧ TypeChecked.fromType R ty b pos = .ok (tc, pos) ∧
      (tc = .none → Structural ty.path) ∧ ∀ n i vs item, tc ≠ .palletSpecific n i vs item := by
  unfold fromTypeD TypeChecked.fromType
  have ho := hinted_open (t := ty)
  cases hh : TypeHinted.fromType ty with
  | none => rw [hh] at ho; exact ⟨.none, rfl, rfl, fun _ => ho.1 rfl, by simp⟩
  | uncheckedExtrinsic => rw [hh] at ho; exact ⟨.none, rfl, rfl, fun _ => ho.1 rfl, by simp⟩
  | multiSignature =>
    rw [hh] at ho
    refine ⟨.none, ?_, ?_, fun _ => ho.1 rfl, by simp⟩
    · dsimp only; unfold checkMultiSignatureD
      cases hd : ty.typeDef with
      | variant vs => exact absurd (hinted_multi.1 hh) (hl vs hd).1
      | _ => rfl
    · dsimp only; unfold checkMultiSignature
      cases hd : ty.typeDef with
      | variant vs => exact absurd (hinted_multi.1 hh) (hl vs hd).1
      | _ => rfl
  | palletSpecific item =>
    rw [hh] at ho
    refine ⟨.none, ?_, ?_, fun _ => ho.1 rfl, by simp⟩
    · dsimp only; unfold checkPalletSpecificD
      cases hd : ty.typeDef with
      | variant vs => exact absurd (hinted_pallet.1 hh) ((hl vs hd).2 item)
      | _ => rfl
    · dsimp only; unfold checkPalletSpecific
      cases hd : ty.typeDef with
      | variant vs => exact absurd (hinted_pallet.1 hh) ((hl vs hd).2 item)
      | _ => rfl
  | fixed k => exact ⟨.fixed k, rfl, rfl, by simp, by simp⟩
  | era => exact ⟨.era, rfl, rfl, by simp, by simp⟩
  | h256 => exact ⟨.h256, rfl, rfl, by simp, by simp⟩
  | perThing k => exact ⟨.perThing k, rfl, rfl, by simp, by simp⟩

theorem decodeCheckedD_on (H : HonestD E D R b) (hS : PartsIn R S) (hl : NoLabelIn R S)
    (hr : RecOn E R S recD rec) {ty : Typ} {id : Nat} (pos : Nat) (p : Propagated) (hs : S id) (ht : R.resolve id = .ok ty) :
    Follows E (fromTypeD D ty pos >>= fun r => decodeCheckedD D recD r.1 ty id r.2 p)
      (TypeChecked.fromType R ty b pos >>= fun r => decodeChecked R rec b r.1 ty id r.2 p) := by
  obtain ⟨tc, h1, h2, h3, h4⟩ := fromTypeD_on (D := D) (R := R) (b := b) (fun vs hd => hl id ty vs hs ht hd) pos
  rw [h1, h2]
  refine (Follows.of _).bind (fun r hr' => ?_)
  cases hr'
  cases tc with
  | none => exact decodeTypeDefD_on H hS hr _ _ hs ht (h3 rfl)
  | fixed k => exact withInfoD_on _ (parseFixedD_follows H _ _ _)
  | era => exact (Follows.of _).bind' (fun _ => (specialCaseEraD_follows H _).bind' (fun _ => .of _))
  | h256 => exact (Follows.of _).bind' (fun _ => withInfoD_on _ (specialCaseH256D_follows H _ _))
  | palletSpecific n i vs item => exact absurd rfl (h4 n i vs item)
  | perThing k => exact withInfoD_on _ (parsePerD_follows H _ _ _)

theorem decodeStepD_on (H : HonestD E D R b) (hS : PartsIn R S) (hl : NoLabelIn R S) (hr : RecOn E R S recD rec) :
    RecOn E R S (decodeStepD D recD) (decodeStep R b rec) where
  symbol id pos p hs := by
    refine (resolveD_follows H (.symbol id)).bind (fun t ht => ?_)
    obtain ⟨ty, id'⟩ := t
    obtain ⟨t, h1, h2⟩ := bind_ok.1 ht
    cases h2
    exact decodeCheckedD_on H hS hl hr pos _ hs (get_ok.1 h1)
  resolved ty id pos p hs ht := by
    refine (resolveD_follows H (.resolved ty id)).bind (fun t ht' => ?_)
    cases ht'
    exact decodeCheckedD_on H hS hl hr pos _ hs ht

theorem decodeFD_on (H : HonestD E D R b) (hS : PartsIn R S) (hl : NoLabelIn R S) (n : Nat) :
    RecOn E R S (decodeFD D n) (decodeF R b n) := by
  induction n with
  | zero => exact ⟨fun _ _ _ _ => .of _, fun _ _ _ _ _ _ => .of _⟩
  | succ n ih => exact decodeStepD_on H hS hl ih

/-- A type without labels is decoded as on fixed memory, or the memory fails. -/
theorem decodeD_labelFree (H : HonestD E D R b) {id : Nat} (hl : LabelFree R id) (pos : Nat) (p : Propagated) :
    Follows E (decodeD D (.symbol id) pos p) (decode R b (.symbol id) pos p) := by
  unfold decodeD decode depthBound
  rw [H.len, H.size]
  exact (decodeFD_on H (reaches_partsIn id) (fun id' t vs h => hl id' t vs h) _).symbol _ _ _ .self

end Verif
