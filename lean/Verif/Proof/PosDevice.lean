import Verif.Model.PosDevice
import Verif.Proof.Position
import Verif.Proof.Hostile
import Verif.Proof.Cost
/-!
The decoder with position and memory as states follows the one that hands the position on.
-/
namespace Verif
open Spec

variable {σ α β γ : Type} {D : Device σ} {Fw : Nat → Nat → Prop} {L : Nat → Nat → PErr → Prop}

/-- Same outcome, same memory, same position on success; the position moves as `Fw` says and an
error is located as `L` says. -/
structure KeepsD (Fw : Nat → Nat → Prop) (L : Nat → Nat → PErr → Prop) (x : PosDR σ α)
    (f : Nat → Dev σ (α × Nat)) : Prop where
  good : ∀ {pos s a q s'}, f pos s = (.ok (a, q), s') → x pos s = ((.ok a, q), s') ∧ Fw pos q
  bad : ∀ {pos s e s'}, f pos s = (.error e, s') → ∃ q, x pos s = ((.error e, q), s') ∧ Fw pos q ∧
    ∀ pe, e = .err pe → L pos q pe

/-- A reader: where it leaves the position, and where its errors are. -/
def Leafy (Fw : Nat → Nat → Prop) (L : Nat → Nat → PErr → Prop) (f : Nat → Dev σ (α × Nat)) : Prop :=
  ∀ pos s, (∀ a q, (f pos s).1 = .ok (a, q) → Fw pos q) ∧ ∀ e, (f pos s).1 = .error (.err e) → L pos pos e

/-- Code that can not move the position: where its errors are. -/
def Calmly (L : Nat → Nat → PErr → Prop) (x : Dev σ α) : Prop :=
  ∀ pos s e, (x s).1 = .error (.err e) → L pos pos e

/-- `pick_variant` and the step over the index. -/
def pickStepD (D : Device σ) (vs : List Variant) (pos : Nat) : Dev σ (Variant × Nat) :=
  pickVariantD D vs pos >>= fun v => D.add pos 1 >>= fun q => Dev.of (.ok (v, q))

/-- What is needed of the readers. -/
structure Facts (D : Device σ) (Fw : Nat → Nat → Prop) (L : Nat → Nat → PErr → Prop) : Prop where
  refl : ∀ p, Fw p p
  trans : ∀ {p q r}, Fw p q → Fw q r → Fw p r
  earlier : ∀ {p q r e}, Fw p q → L q r e → L p r e
  registry : ∀ {p q e}, L p q (.registry e)
  get : ∀ id, Calmly L (D.get id)
  husk : ∀ id c, Calmly L (huskTypeD D id c)
  pick : ∀ vs, Leafy Fw L (pickStepD D vs)
  compact : Leafy Fw L (getCompactD D (compactUInt .u32))
  prim : ∀ p t, Leafy Fw L (fun pos => decodePrimitiveD D p pos t)
  fixed : ∀ k c, Leafy Fw L (fun pos => parseFixedD D k pos c)
  per : ∀ k c, Leafy Fw L (fun pos => parsePerD D k pos c)
  era : Leafy Fw L (specialCaseEraD D)
  h256 : ∀ h, Leafy Fw L (fun pos => specialCaseH256D D pos h)
  special : ∀ t, Leafy Fw L (fromTypeD D t)
  bitvec : ∀ st, Leafy Fw L (intoBitvecDecodeD D st)
  bits : ∀ st o pos s x q, (intoBitvecDecodeD D st pos s).1 = .ok (x, q) → bitVecDecodeAll st o x = none →
    L pos q (.typeFailure pos (bitVecName st o))

namespace KeepsD

theorem pure (F : Facts D Fw L) (a : α) : KeepsD (σ := σ) Fw L (PosDev.ok a) (fun pos => Dev.of (.ok (a, pos))) where
  good := by intro pos s a' q s' h; cases h; exact ⟨rfl, F.refl _⟩
  bad := by intro pos s e s' h; cases h

theorem bind (F : Facts D Fw L) {x : PosDR σ α} {f : Nat → Dev σ (α × Nat)} {k : α → PosDR σ β}
    {g : α → Nat → Dev σ (β × Nat)} (hx : KeepsD Fw L x f) (hk : ∀ a, KeepsD Fw L (k a) (g a)) :
    KeepsD Fw L (x >>= k) (fun pos => f pos >>= fun r => g r.1 r.2) where
  good := by
    intro pos s c q s' h
    have h : Dev.bind (f pos) (fun r => g r.1 r.2) s = _ := h
    unfold Dev.bind at h
    show PosDev.bind x k pos s = _ ∧ _
    unfold PosDev.bind
    rcases hf : f pos s with ⟨e | ⟨a, p1⟩, s1⟩
    · rw [hf] at h; cases h
    · rw [hf] at h
      obtain ⟨e1, f1⟩ := hx.good hf
      obtain ⟨e2, f2⟩ := (hk a).good h
      rw [e1]
      exact ⟨e2, F.trans f1 f2⟩
  bad := by
    intro pos s e s' h
    have h : Dev.bind (f pos) (fun r => g r.1 r.2) s = _ := h
    unfold Dev.bind at h
    show ∃ q, PosDev.bind x k pos s = _ ∧ _
    unfold PosDev.bind
    rcases hf : f pos s with ⟨e' | ⟨a, p1⟩, s1⟩
    · rw [hf] at h
      cases h
      obtain ⟨q, e1, f1, l1⟩ := hx.bad hf
      rw [e1]
      exact ⟨q, rfl, f1, l1⟩
    · rw [hf] at h
      obtain ⟨e1, f1⟩ := hx.good hf
      obtain ⟨q, e2, f2, l2⟩ := (hk a).bad h
      rw [e1]
      exact ⟨q, e2, F.trans f1 f2, fun pe hpe => F.earlier f1 (l2 pe hpe)⟩

theorem mem (F : Facts D Fw L) {x : Dev σ γ} {k : γ → PosDR σ β} {g : γ → Nat → Dev σ (β × Nat)}
    (hr : Calmly L x) (hk : ∀ a, KeepsD Fw L (k a) (g a)) :
    KeepsD Fw L (PosDev.mem x >>= k) (fun pos => x >>= fun a => g a pos) where
  good := by
    intro pos s c q s' h
    have h : Dev.bind x (fun a => g a pos) s = _ := h
    unfold Dev.bind at h
    show PosDev.bind (PosDev.mem x) k pos s = _ ∧ _
    unfold PosDev.bind PosDev.mem
    rcases hf : x s with ⟨e | a, s1⟩
    · rw [hf] at h; cases h
    · rw [hf] at h
      exact (hk a).good h
  bad := by
    intro pos s e s' h
    have h : Dev.bind x (fun a => g a pos) s = _ := h
    unfold Dev.bind at h
    show ∃ q, PosDev.bind (PosDev.mem x) k pos s = _ ∧ _
    unfold PosDev.bind PosDev.mem
    rcases hf : x s with ⟨e' | a, s1⟩
    · rw [hf] at h
      cases h
      exact ⟨pos, rfl, F.refl _, fun pe hpe => hr pos s pe (by rw [hf, hpe])⟩
    · rw [hf] at h
      exact (hk a).bad h

theorem _root_.Verif.OnlyRegistry.calmly (F : Facts D Fw L) {r : Res γ} (h : OnlyRegistry r) :
    Calmly (σ := σ) L (Dev.of r) := by
  intro pos s e he
  obtain ⟨x, rfl⟩ := h e he
  exact F.registry

theorem still (F : Facts D Fw L) {r : Res γ} {k : γ → PosDR σ β} {g : γ → Nat → Dev σ (β × Nat)}
    (hr : OnlyRegistry r) (hk : ∀ a, KeepsD Fw L (k a) (g a)) :
    KeepsD Fw L (PosDev.still r >>= k) (fun pos => Dev.of r >>= fun a => g a pos) :=
  mem F (x := Dev.of r) (hr.calmly F) hk

theorem fail (F : Facts D Fw L) {r : Res α} {r' : Res (α × Nat)} (hr : OnlyRegistry r)
    (hf : ∃ e, r = .error e ∧ r' = .error e) : KeepsD (σ := σ) Fw L (PosDev.still r) (fun _ => Dev.of r') := by
  obtain ⟨e, rfl, rfl⟩ := hf
  refine ⟨fun {pos s _ _ _} h => (by cases h), fun {pos s _ _} h => ?_⟩
  cases h
  exact ⟨pos, rfl, F.refl _, fun pe hpe => by
    obtain ⟨x, rfl⟩ := hr pe (by rw [hpe])
    exact F.registry⟩

theorem atomic (F : Facts D Fw L) {f : Nat → Dev σ (α × Nat)} (hf : Leafy Fw L f) :
    KeepsD Fw L (PosDev.atomic f) f where
  good := by
    intro pos s a q s' h
    exact ⟨by unfold PosDev.atomic; rw [h], (hf pos s).1 a q (by rw [h])⟩
  bad := by
    intro pos s e s' h
    exact ⟨pos, by unfold PosDev.atomic; rw [h], F.refl _, fun pe hpe => (hf pos s).2 pe (by rw [h, hpe])⟩

theorem congr {x : PosDR σ α} {f f' : Nat → Dev σ (α × Nat)} (h : KeepsD Fw L x f) (hf : ∀ pos, f' pos = f pos) :
    KeepsD Fw L x f' := by
  have : f' = f := funext hf
  exact this ▸ h

end KeepsD

theorem dev_ok {x : Dev σ α} {k : α → Dev σ β} {s s' : σ} {a : α} (h : x s = (.ok a, s')) :
    (x >>= k) s = k a s' := by
  show Dev.bind x k s = _
  unfold Dev.bind
  rw [h]

theorem dev_err {x : Dev σ α} {k : α → Dev σ β} {s s' : σ} {e : Fail} (h : x s = (.error e, s')) :
    (x >>= k) s = (.error e, s') := by
  show Dev.bind x k s = _
  unfold Dev.bind
  rw [h]

theorem mem_ok {x : Dev σ α} {k : α → PosDR σ β} {pos : Nat} {s s' : σ} {a : α} (h : x s = (.ok a, s')) :
    (PosDev.mem x >>= k) pos s = k a pos s' := by
  show PosDev.bind (PosDev.mem x) k pos s = _
  unfold PosDev.bind PosDev.mem
  rw [h]

theorem mem_err {x : Dev σ α} {k : α → PosDR σ β} {pos : Nat} {s s' : σ} {e : Fail} (h : x s = (.error e, s')) :
    (PosDev.mem x >>= k) pos s = ((.error e, pos), s') := by
  show PosDev.bind (PosDev.mem x) k pos s = _
  unfold PosDev.bind PosDev.mem
  rw [h]

theorem atomic_ok {f : Nat → Dev σ (α × Nat)} {pos q : Nat} {s s' : σ} {a : α} (h : f pos s = (.ok (a, q), s')) :
    PosDev.atomic f pos s = ((.ok a, q), s') := by
  unfold PosDev.atomic
  rw [h]

theorem atomic_err {f : Nat → Dev σ (α × Nat)} {pos : Nat} {s s' : σ} {e : Fail} (h : f pos s = (.error e, s')) :
    PosDev.atomic f pos s = ((.error e, pos), s') := by
  unfold PosDev.atomic
  rw [h]

theorem posPickD_eq (vs : List Variant) : posPickD D vs = PosDev.atomic (pickStepD D vs) := by
  funext pos s
  show (PosDev.mem (pickVariantD D vs pos) >>= fun v => PosDev.mem (D.add pos 1) >>= fun q =>
    PosDev.set q >>= fun _ => PosDev.ok v) pos s = _
  rcases h1 : pickVariantD D vs pos s with ⟨e | v, s1⟩
  · rw [mem_err h1, atomic_err (dev_err h1)]
  · rw [mem_ok h1]
    rcases h2 : D.add pos 1 s1 with ⟨e | q, s2⟩
    · rw [mem_err h2, atomic_err ((dev_ok h1).trans (dev_err h2))]
    · rw [mem_ok h2, atomic_ok ((dev_ok h1).trans (dev_ok h2))]
      rfl

theorem pickStep_keepsD (F : Facts D Fw L) (vs : List Variant) : KeepsD Fw L (posPickD D vs) (pickStepD D vs) := by
  rw [posPickD_eq]
  exact KeepsD.atomic F (F.pick vs)

theorem info_keepsD (F : Facts D Fw L) {x : PosDR σ PD} {f : Nat → Dev σ (PD × Nat)} (info : List Info)
    (h : KeepsD Fw L x f) : KeepsD Fw L (posInfoD info x) (fun pos => withInfoD info (f pos)) :=
  h.bind F (k := fun d => PosDev.ok (ED.mk d info)) (g := fun d pos => Dev.of (.ok (ED.mk d info, pos)))
    fun _ => .pure F _

theorem posIntoBitvecD_eq' (st : BitStore) : posIntoBitvecD D st = PosDev.atomic (intoBitvecDecodeD D st) := by
  funext pos s
  show (PosDev.mem (bitVecPositionsD D st pos) >>= fun p => PosDev.mem (D.read pos p.2) >>= fun x =>
    PosDev.set p.1 >>= fun _ => PosDev.ok x) pos s = _
  rcases h1 : bitVecPositionsD D st pos s with ⟨e | p, s1⟩
  · rw [mem_err h1, atomic_err (dev_err h1)]
  · rw [mem_ok h1]
    rcases h2 : D.read pos p.2 s1 with ⟨e | q, s2⟩
    · rw [mem_err h2, atomic_err ((dev_ok h1).trans (dev_err h2))]
    · rw [mem_ok h2, atomic_ok ((dev_ok h1).trans (dev_ok h2))]
      rfl

theorem posIntoBitvecD_eq (st : BitStore) (pos : Nat) (s : σ) :
    posIntoBitvecD D st pos s = match intoBitvecDecodeD D st pos s with
      | (.ok (x, q), s') => ((.ok x, q), s')
      | (.error e, s') => ((.error e, pos), s') := by
  rw [posIntoBitvecD_eq']
  unfold PosDev.atomic
  rcases intoBitvecDecodeD D st pos s with ⟨e | ⟨x, q⟩, s1⟩ <;> rfl

theorem posBitsD_keeps (F : Facts D Fw L) (st : BitStore) (o : BitOrder) :
    KeepsD Fw L (posBitsD D st o) (fun pos => intoBitvecDecodeD D st pos >>= fun r =>
      match bitVecDecodeAll st o r.1 with
      | some bits => Dev.of (.ok (.bitVec st o bits, r.2))
      | none => Dev.of (.error (.err (.typeFailure pos (bitVecName st o))))) := by
  have hrun : ∀ pos s, posBitsD D st o pos s = match intoBitvecDecodeD D st pos s with
      | (.ok (x, q), s') =>
        match bitVecDecodeAll st o x with
        | some bits => ((.ok (.bitVec st o bits), q), s')
        | none => ((.error (.err (.typeFailure pos (bitVecName st o))), q), s')
      | (.error e, s') => ((.error e, pos), s') := by
    intro pos s
    unfold posBitsD
    show PosDev.bind PosDev.get _ pos s = _
    unfold PosDev.bind PosDev.get
    dsimp only
    show PosDev.bind (posIntoBitvecD D st) _ pos s = _
    unfold PosDev.bind
    rw [posIntoBitvecD_eq]
    rcases intoBitvecDecodeD D st pos s with ⟨e | ⟨x, q⟩, s1⟩
    · rfl
    · dsimp only
      cases bitVecDecodeAll st o x <;> rfl
  constructor
  · intro pos s a q s' h
    have h : Dev.bind (intoBitvecDecodeD D st pos) _ s = _ := h
    unfold Dev.bind at h
    rw [hrun]
    have hl := F.bitvec st pos s
    rcases hx : intoBitvecDecodeD D st pos s with ⟨e | ⟨x, q1⟩, s1⟩
    · rw [hx] at h; cases h
    · rw [hx] at h hl
      dsimp only at h ⊢
      cases hb : bitVecDecodeAll st o x with
      | none => rw [hb] at h; cases h
      | some bits => rw [hb] at h; cases h; exact ⟨rfl, hl.1 _ _ rfl⟩
  · intro pos s e s' h
    have h : Dev.bind (intoBitvecDecodeD D st pos) _ s = _ := h
    unfold Dev.bind at h
    rw [hrun]
    have hl := F.bitvec st pos s
    have hbits := F.bits st o pos s
    rcases hx : intoBitvecDecodeD D st pos s with ⟨e' | ⟨x, q1⟩, s1⟩
    · rw [hx] at h hl
      cases h
      exact ⟨pos, rfl, F.refl _, fun pe hpe => hl.2 pe (by rw [hpe])⟩
    · rw [hx] at h hl hbits
      dsimp only at h ⊢
      cases hb : bitVecDecodeAll st o x with
      | some bits => rw [hb] at h; cases h
      | none =>
        rw [hb] at h
        cases h
        exact ⟨q1, rfl, hl.1 _ _ rfl, fun pe hpe => by cases hpe; exact hbits x q1 rfl hb⟩

theorem bitOrderOf_registry (t : Typ) (id : Nat) : OnlyRegistry (bitOrderOf t id) := by
  unfold bitOrderOf
  split
  · split
    · split
      · exact .ok _
      · split
        · exact .ok _
        · exact .err ⟨_, rfl⟩
    · exact .err ⟨_, rfl⟩
  · exact .err ⟨_, rfl⟩

theorem Calmly.bind {x : Dev σ α} {k : α → Dev σ β} (hx : Calmly L x) (hk : ∀ a, Calmly L (k a)) :
    Calmly L (x >>= k) := by
  intro pos s e h
  have h : (Dev.bind x k s).1 = _ := h
  unfold Dev.bind at h
  have := hx pos s e
  rcases hf : x s with ⟨e' | a, s1⟩
  · rw [hf] at h this; cases h; exact this rfl
  · rw [hf] at h; exact hk a pos s1 e h

theorem bitSequence_keepsD (F : Facts D Fw L) (order store id : Nat) :
    KeepsD Fw L (posBitSequenceD D order store id) (decodeBitSequenceD D order store id) := by
  unfold posBitSequenceD decodeBitSequenceD
  refine .mem F ((F.get _).bind fun t => (bitOrderOf_registry t id).calmly F) fun o => .mem F (F.get _) fun t => ?_
  have hbad : ∀ e, KeepsD (σ := σ) (α := PD) Fw L (PosDev.still (failInternal e)) fun _ => Dev.of (failInternal e) :=
    fun e => .fail F (.err ⟨_, rfl⟩) ⟨_, rfl, rfl⟩
  cases t.typeDef with
  | primitive p =>
    dsimp only
    cases BitStore.ofPrim p with
    | some st => exact posBitsD_keeps F st o
    | none => exact hbad _
  | _ => exact hbad _

/-! ### The decoder -/

/-- The recursive calls keep the position. -/
def RecKeepsD (Fw : Nat → Nat → Prop) (L : Nat → Nat → PErr → Prop) (recP : DecPosD σ) (rec : DecD σ) : Prop :=
  ∀ t p, KeepsD Fw L (recP t p) (fun pos => rec t pos p)

section
variable {rec : DecD σ} {recP : DecPosD σ} (F : Facts D Fw L) (h : RecKeepsD Fw L recP rec)
include F h

theorem fieldsLoop_keepsD (c : Checker) (fs : List Field) :
    KeepsD Fw L (posFieldsLoopD recP c fs) (fun pos => decodeFieldsLoopD rec c fs pos) := by
  induction fs with
  | nil => exact .pure F _
  | cons f fs ih =>
    unfold posFieldsLoopD decodeFieldsLoopD
    exact .still F (forField_registry _ _) fun p => (h _ _).bind F fun d => ih.bind F fun rest => .pure F _

theorem fields_keepsD (fs : List Field) (c : Checker) :
    KeepsD Fw L (posFieldsD recP fs c) (fun pos => decodeFieldsD rec fs pos c) := by
  unfold posFieldsD decodeFieldsD
  split
  · exact .still F (rejectCompact_registry _) fun _ => fieldsLoop_keepsD F h _ _
  · exact fieldsLoop_keepsD F h _ _

theorem elementsLoop_keepsD (hu : HuskedType) (n : Nat) :
    KeepsD Fw L (posElementsLoopD recP hu n) (fun pos => decodeElementsLoopD rec hu n pos) := by
  induction n with
  | zero => exact .pure F _
  | succ n ih =>
    unfold posElementsLoopD decodeElementsLoopD
    exact (h _ _).bind F fun d => ih.bind F fun rest => .pure F _

theorem elementsSet_keepsD (elem n : Nat) (p : Propagated) :
    KeepsD Fw L (posElementsSetD D recP elem n p) (fun pos => decodeElementsSetD D rec elem n pos p) := by
  unfold posElementsSetD decodeElementsSetD
  refine .still F (rejectCompact_registry _) fun _ => .mem F (F.husk _ _) fun hu => ?_
  split
  · exact .pure F _
  · refine (elementsLoop_keepsD F h hu n).bind F
      (g := fun out pos => match wrapSequence out with
        | some x => Dev.of (.ok (ED.mk (.sequence hu.info x) p.info, pos))
        | none => Dev.of (.ok (ED.mk (.sequenceRaw hu.info out) p.info, pos))) fun out => ?_
    cases wrapSequence out <;> exact .pure F _

theorem tupleLoop_keepsD (c : Checker) (ids : List Nat) :
    KeepsD Fw L (posTupleLoopD D recP c ids) (fun pos => decodeTupleLoopD D rec c ids pos) := by
  induction ids with
  | nil => exact .pure F _
  | cons f fs ih =>
    unfold posTupleLoopD decodeTupleLoopD
    exact .mem F (F.get _) fun ty => .still F (forTy_registry _ _ _) fun p =>
      (h _ _).bind F fun d => ih.bind F fun rest => .pure F _

theorem tuple_keepsD (ids : List Nat) (p : Propagated) :
    KeepsD Fw L (posTupleD D recP ids p) (fun pos => decodeTupleD D rec ids pos p) := by
  unfold posTupleD decodeTupleD
  refine .still F ?_ fun p' => (tupleLoop_keepsD F h _ _).bind F
    (g := fun es pos => Dev.of (.ok (ED.mk (.tuple es) p'.info, pos))) fun es => .pure F _
  split
  · exact .bindR (rejectCompact_registry _) fun _ => .ok _
  · exact .ok _

theorem variant_keepsD (vs : List Variant) :
    KeepsD Fw L (posVariantD D recP vs)
      (fun pos => decodeVariantD D rec vs pos >>= fun r => Dev.of (.ok ((r.1, r.2.1), r.2.2))) := by
  unfold posVariantD
  refine ((pickStep_keepsD F vs).bind F (g := fun v pos => decodeFieldsD rec v.fields pos Checker.new >>= fun r =>
    Dev.of (.ok ((v, r.1), r.2))) fun v => (fields_keepsD F h _ _).bind F
      (g := fun fs pos => Dev.of (.ok ((v, fs), pos))) fun fs => .pure F _).congr fun pos => ?_
  funext s
  unfold decodeVariantD pickStepD
  rcases h1 : pickVariantD D vs pos s with ⟨e | v, s1⟩
  · rw [dev_err (dev_err h1), dev_err (dev_err h1)]
  · rcases h2 : D.add pos 1 s1 with ⟨e | q, s2⟩
    · rw [dev_err ((dev_ok h1).trans (dev_err h2)), dev_err ((dev_ok h1).trans (dev_err h2))]
    · rw [dev_ok (s' := s2) (a := (v, q)) (((dev_ok h1).trans (dev_ok h2)).trans rfl)]
      rcases h3 : decodeFieldsD rec v.fields q Checker.new s2 with ⟨e | r, s3⟩
      · rw [dev_err ((dev_ok h1).trans ((dev_ok h2).trans (dev_err h3))), dev_err h3]
      · rw [dev_ok (s' := s3) (a := (v, r.1, r.2)) ((dev_ok h1).trans ((dev_ok h2).trans ((dev_ok h3).trans rfl))), dev_ok h3]

theorem typeDef_keepsD (ty : Typ) (id : Nat) (p : Propagated) :
    KeepsD Fw L (posTypeDefD D recP ty id p) (fun pos => decodeTypeDefD D rec ty id pos p) := by
  unfold posTypeDefD decodeTypeDefD
  cases ty.typeDef with
  | composite fields =>
    exact (fields_keepsD F h _ _).bind F (g := fun fs pos => Dev.of (.ok (ED.mk (.composite fs) p.info, pos)))
      fun fs => .pure F _
  | variant vs =>
    dsimp only
    refine .still F (rejectCompact_registry _) fun _ => ?_
    split
    · exact .pure F _
    · refine ((variant_keepsD F h vs).bind F (k := fun r => PosDev.ok
        (ED.mk (.variant r.1.name (collectDocs r.1.docs) r.2) p.info))
        (g := fun r pos => Dev.of (.ok (ED.mk (.variant r.1.name (collectDocs r.1.docs) r.2) p.info, pos)))
        fun r => .pure F _).congr fun pos => ?_
      show Dev.bind _ _ = Dev.bind (Dev.bind _ _) _
      funext s
      unfold Dev.bind
      rcases decodeVariantD D rec vs pos s with ⟨e | v, s1⟩ <;> rfl
  | sequence elem => exact (KeepsD.atomic F F.compact).bind F fun n => elementsSet_keepsD F h _ _ _
  | array len elem => exact elementsSet_keepsD F h _ _ _
  | tuple ids => exact tuple_keepsD F h _ _
  | primitive prim => exact info_keepsD F _ (.atomic F (F.prim _ _))
  | compact inner =>
    exact .still F (rejectCompact_registry _) fun _ => .still F (checkId_registry _ _) fun _ => h _ _
  | bitSequence o s =>
    exact .still F (rejectCompact_registry _) fun _ => info_keepsD F _ (bitSequence_keepsD F _ _ _)

theorem checked_keepsD (sp : TypeChecked) (ty : Typ) (id : Nat) (p : Propagated) :
    KeepsD Fw L (posCheckedD D recP sp ty id p) (fun pos => decodeCheckedD D rec sp ty id pos p) := by
  unfold posCheckedD decodeCheckedD
  cases sp with
  | none => exact typeDef_keepsD F h _ _ _
  | fixed k => exact info_keepsD F _ (.atomic F (F.fixed _ _))
  | era =>
    exact .still F (rejectCompact_registry _) fun _ => (KeepsD.atomic F F.era).bind F
      (g := fun e pos => Dev.of (.ok (ED.mk (.era e) p.info, pos))) fun e => .pure F _
  | h256 => exact .still F (rejectCompact_registry _) fun _ => info_keepsD F _ (.atomic F (F.h256 _))
  | palletSpecific pn pinfo vs item =>
    refine .still F (rejectCompact_registry _) fun _ => ?_
    refine ((variant_keepsD F h vs).bind F (k := fun r => PosDev.ok
      (ED.mk (.pallet item pinfo (collectDocs r.1.docs) pn r.1.name r.2) p.info))
      (g := fun r pos => Dev.of (.ok (ED.mk (.pallet item pinfo (collectDocs r.1.docs) pn r.1.name r.2) p.info, pos)))
      fun r => .pure F _).congr fun pos => ?_
    show Dev.bind _ _ = Dev.bind (Dev.bind _ _) _
    funext s
    unfold Dev.bind
    rcases decodeVariantD D rec vs pos s with ⟨e | v, s1⟩ <;> rfl
  | perThing k => exact info_keepsD F _ (.atomic F (F.per _ _))

theorem step_keepsD : RecKeepsD Fw L (posStepD D recP) (decodeStepD D rec) := by
  intro t p
  unfold posStepD decodeStepD
  refine .mem F ?_ fun r => (KeepsD.atomic F (F.special r.1)).bind F fun sp => checked_keepsD F h _ _ _ _
  cases t with
  | resolved ty id => exact (show OnlyRegistry (.ok (ty, id)) from .ok _).calmly F
  | symbol id => exact (F.get id).bind fun ty => (show OnlyRegistry (.ok (ty, id)) from .ok _).calmly F

end

theorem posFD_keeps (F : Facts D Fw L) (n : Nat) : RecKeepsD Fw L (posFD D n) (decodeFD D n) := by
  induction n with
  | zero => exact fun t p => .fail F .fuel ⟨_, rfl, rfl⟩
  | succ n ih => exact step_keepsD F ih

theorem posDecodeD_keeps (F : Facts D Fw L) (t : TyIn) (p : Propagated) :
    KeepsD Fw L (posDecodeD D t p) (fun pos => decodeD D t pos p) where
  good := by intro pos s a q s' h; exact (posFD_keeps F _ t p).good h
  bad := by intro pos s e s' h; exact (posFD_keeps F _ t p).bad h

/-! ### Memory of any kind, memory not to be trusted, memory that fails at times -/

theorem facts_any (D : Device σ) : Facts D (fun _ _ => True) (fun _ _ _ => True) := by
  constructor <;> intros <;> first | trivial | (intro _ _; exact ⟨fun _ _ _ => trivial, fun _ _ => trivial⟩) | exact fun _ _ _ _ => trivial

theorem Sat.leafy {f : Nat → Dev σ (α × Nat)} {P : Nat → α × Nat → Prop} (h : ∀ pos, Sat (f pos) (P pos))
    (hp : ∀ pos r, P pos r → Fw pos r.2) : Leafy Fw (fun _ _ _ => True) f := by
  intro pos s
  refine ⟨fun a q ha => ?_, fun _ _ => trivial⟩
  rcases h pos s with ⟨r, hr, hP⟩ | ⟨e, he⟩
  · rw [ha] at hr; cases hr; exact hp _ _ hP
  · rw [ha] at he; cases he

variable {R : Registry} {b : Buf}

theorem facts_hostile (H : HostileD D R b) : Facts D (Fwd b) (fun _ _ _ => True) where
  refl := Fwd.refl
  trans := Fwd.trans
  earlier := fun _ _ => trivial
  registry := trivial
  get := fun _ _ _ _ _ => trivial
  husk := fun _ _ _ _ _ _ => trivial
  pick := fun vs => Sat.leafy (P := fun pos r => Fwd b pos r.2) (fun pos =>
    Sat.bind (pickVariantD_safe H vs pos) fun v hv => H.move hv (Sat.ok (Fwd.of_le (by dsimp only; omega) hv)))
    fun _ _ h => h
  compact := Sat.leafy (fun pos => getCompactD_safe H _ pos) fun _ _ h => Fwd.of_le (by omega) h.2.1
  prim := fun p t => Sat.leafy (fun pos => decodePrimitiveD_safe H p pos t) fun _ _ h => h.1
  fixed := fun k c => Sat.leafy (fun pos => parseFixedD_safe H k pos c) fun _ _ h => h.1
  per := fun k c => Sat.leafy (fun pos => parsePerD_safe H k pos c) fun _ _ h => h.1
  era := Sat.leafy (fun pos => specialCaseEraD_safe H pos) fun _ _ h => h.1
  h256 := fun k => Sat.leafy (fun pos => specialCaseH256D_safe H pos k) fun _ _ h => h.1
  special := fun t => Sat.leafy (fun pos => fromTypeD_safe H t pos) fun _ _ h => h
  bitvec := fun st => Sat.leafy (fun pos => intoBitvecDecodeD_safe H st pos) fun _ _ h => h
  bits := fun _ _ _ _ _ _ _ _ => trivial

theorem HonestD.hostile (H : HonestD External D R b) : HostileD D R b where
  len := H.len
  size := H.size
  word := H.word
  read := fun pos n => (H.read pos n).sat (readSlice_fine b pos n) fun x hx => by
    obtain ⟨h1, h2⟩ := readSlice_ok hx
    exact ⟨h2, readSlice_le hx⟩
  get := fun id => (H.get id).sat (Registry.get_fine R id) fun t ht => Registry.get_lt ht

theorem Fwd.forward {p q : Nat} (h : Fwd b p q) : Forward b.bytes p q := by
  rcases h with rfl | ⟨h1, h2⟩
  · exact .refl
  · exact ⟨by omega, fun _ => h2⟩

theorem memoryError_located {e : PErr} (h : External (.err e)) (d : Bytes) (p q : Nat) : Located d p q e := by
  rcases h with h | h <;> cases h
  · exact .memory
  · exact .registry

theorem Follows.located {x : Dev σ α} {r : Res α} {p q : Nat} {d : Bytes} (h : Follows External x r)
    (hr : Honest (Located d p q) r) (s : σ) (e : PErr) (he : (x s).1 = .error (.err e)) : Located d p q e := by
  rcases h s with ⟨e', hE, h⟩ | h
  · rw [he] at h; cases h; exact memoryError_located hE _ _ _
  · exact hr e (by rw [← h, he])

theorem Leafy.located {f : Nat → Dev σ (α × Nat)} {g : Nat → Res (α × Nat)}
    (h : Leafy (Fwd b) (fun _ _ _ => True) f) (hf : ∀ pos, Follows External (f pos) (g pos))
    (hl : ∀ pos, Honest (Located b.bytes pos pos) (g pos)) : Leafy (Forward b.bytes) (Located b.bytes) f :=
  fun pos s => ⟨fun a q ha => ((h pos s).1 a q ha).forward, (hf pos).located (hl pos) s⟩

theorem intoBitvec_located (st : BitStore) (pos : Nat) :
    Honest (Located b.bytes pos pos) (intoBitvecDecode st b pos) := by
  unfold intoBitvecDecode BitVecPositions.new
  refine .bind (.bindR (findCompact_located _ _) fun _ => .ok _) fun p hp => ?_
  obtain ⟨f, -, hf⟩ := bind_ok.1 hp
  cases hf
  exact .bindR (readSlice_located _ _ _) fun _ => .ok _

theorem facts_flaky (H : HonestD External D R b) : Facts D (Forward b.bytes) (Located b.bytes) := by
  have G := facts_hostile H.hostile
  refine
  { refl := fun _ => .refl
    trans := .trans
    earlier := fun h h' => h'.earlier h.1
    registry := .registry
    get := fun id pos => (H.get id).located (get_registry id).located
    husk := fun id c pos => (huskTypeD_follows H id c).located (huskType_registry id c).located
    pick := fun vs => ?_
    compact := G.compact.located (fun pos => getCompactD_follows H _ pos) (getCompact_located _)
    prim := fun p t => (G.prim p t).located (fun pos => decodePrimitiveD_follows H p pos t)
      fun pos => decodePrimitive_located p pos t
    fixed := fun k c => (G.fixed k c).located (fun pos => parseFixedD_follows H k pos c)
      fun pos => parseFixed_located k pos c
    per := fun k c => (G.per k c).located (fun pos => parsePerD_follows H k pos c)
      fun pos => parsePer_located k pos c
    era := G.era.located (fun pos => specialCaseEraD_follows H pos) specialCaseEra_located
    h256 := fun k => (G.h256 k).located (fun pos => specialCaseH256D_follows H pos k)
      fun pos => specialCaseH256_located pos k
    special := fun t pos s => ⟨fun a q ha => ((G.special t pos s).1 a q ha).forward, fun e he => ?_⟩
    bitvec := fun st => (G.bitvec st).located (fun pos => intoBitvecDecodeD_follows H st pos) (intoBitvec_located st)
    bits := fun st o pos s x q hx hb => ?_ }
  · refine (G.pick vs).located (g := fun pos => pickVariant vs b pos >>= fun v => .ok (v, pos + 1)) (fun pos => ?_)
      fun pos => .bindR (pickVariant_located vs pos pos) fun _ => .ok _
    refine (pickVariantD_follows H vs pos).bind fun v hv => ?_
    obtain ⟨i, hi, -⟩ := bind_ok.1 hv
    obtain ⟨s, hs, -⟩ := bind_ok.1 hi
    exact H.add_follows (readSlice_le hs) (.of _)
  · rcases fromTypeD_safe H.hostile t pos s with ⟨r, hr, -⟩ | ⟨e', he'⟩
    · rw [he] at hr; cases hr
    · obtain ⟨r, hr⟩ := fromTypeD_sat H t pos s |>.resolve_right (fun ⟨e'', h⟩ => by
        rcases fromTypeD_blurs external_err H t pos s with h' | ⟨_, _, h'⟩
        · obtain ⟨r, h1, -⟩ := fromType_recog (R := R) (b := b) t pos
          rw [h', h1] at h; cases h
        · rw [h'] at h; cases h)
      rw [he] at hr; cases hr.1
  · rcases intoBitvecDecodeD_follows H st pos s with ⟨e, hE, h⟩ | h
    · rw [hx] at h; cases h
    · rw [hx] at h
      obtain ⟨q', h1, -, h3⟩ := (posBits_keeps (b := b) st o).bad (pos := pos)
        (e := .err (.typeFailure pos (bitVecName st o))) (by rw [← h, ok_bind]; dsimp only; rw [hb])
      rw [posBits_eq, ← h] at h1
      dsimp only at h1
      rw [hb] at h1
      cases h1
      exact h3 _ rfl

end Verif
