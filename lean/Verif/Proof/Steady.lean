import Verif.Proof.Device
/-! On steady memory the device model is the model on fixed memory. -/
namespace Verif
open Spec

variable {σ α β : Type} {D : Device σ} {R : Registry} {b : Buf} {rec : Dec} {recD : DecD σ}

/-- No admitted error. -/
def Nope : Fail → Prop := fun _ => False

theorem Follows.nope {x : Dev σ α} {r : Res α} (h : Follows Nope x r) (s : σ) : (x s).1 = r := by
  rcases h s with ⟨_, h, _⟩ | h
  · exact h.elim
  · exact h

/-- The recursive calls agree. -/
def RecSameD (recD : DecD σ) (rec : Dec) : Prop := ∀ tyIn pos p, Follows Nope (recD tyIn pos p) (rec tyIn pos p)

theorem decodeFieldsLoopD_same (hr : RecSameD recD rec) (c : Checker) (fs : List Field) : ∀ pos,
    Follows Nope (decodeFieldsLoopD recD c fs pos) (decodeFieldsLoop rec c fs pos) := by
  induction fs with
  | nil => intro pos; exact .of _
  | cons f fs ih =>
    intro pos
    exact (Follows.of _).bind' (fun p => (hr _ _ _).bind' (fun d => (ih _).bind' (fun l => .of _)))

theorem decodeFieldsD_same (hr : RecSameD recD rec) (fs : List Field) (pos : Nat) (c : Checker) :
    Follows Nope (decodeFieldsD recD fs pos c) (decodeFields rec fs pos c) := by
  unfold decodeFieldsD decodeFields
  split
  · exact (Follows.of _).bind' (fun _ => decodeFieldsLoopD_same hr _ _ _)
  · exact decodeFieldsLoopD_same hr _ _ _

theorem decodeElementsLoopD_same (hr : RecSameD recD rec) (h : HuskedType) (n : Nat) : ∀ pos,
    Follows Nope (decodeElementsLoopD recD h n pos) (decodeElementsLoop rec h n pos) := by
  induction n with
  | zero => intro pos; exact .of _
  | succ n ih =>
    intro pos
    exact (hr _ _ _).bind' (fun d => (ih _).bind' (fun l => .of _))

theorem decodeElementsSetD_same (H : HonestD Nope D R b) (hr : RecSameD recD rec) (elem n pos : Nat) (p : Propagated) :
    Follows Nope (decodeElementsSetD D recD elem n pos p) (decodeElementsSet R rec elem n pos p) := by
  refine (Follows.of _).bind' (fun _ => (huskTypeD_follows H _ _).bind' (fun h => ?_))
  split
  · exact .of _
  · refine (decodeElementsLoopD_same hr h n pos).bind' (fun l => ?_)
    obtain ⟨l, q⟩ := l
    dsimp only
    cases wrapSequence l <;> exact .of _

theorem decodeVariantD_same (H : HonestD Nope D R b) (hr : RecSameD recD rec) (vs : List Variant) (pos : Nat) :
    Follows Nope (decodeVariantD D recD vs pos) (decodeVariant rec vs b pos) :=
  (pickVariantD_follows H vs pos).bind (fun v hv => H.add_follows (pickVariant_le hv)
    ((decodeFieldsD_same hr _ _ _).bind' (fun _ => .of _)))

theorem decodeTupleLoopD_same (H : HonestD Nope D R b) (hr : RecSameD recD rec) (c : Checker) (ids : List Nat) :
    ∀ pos, Follows Nope (decodeTupleLoopD D recD c ids pos) (decodeTupleLoop R rec c ids pos) := by
  induction ids with
  | nil => intro pos; exact .of _
  | cons id ids ih =>
    intro pos
    exact (H.get id).bind' (fun t => (Follows.of _).bind' (fun p => (hr _ _ _).bind' (fun d =>
      (ih _).bind' (fun l => .of _))))

theorem decodeTupleD_same (H : HonestD Nope D R b) (hr : RecSameD recD rec) (ids : List Nat) (pos : Nat)
    (p : Propagated) : Follows Nope (decodeTupleD D recD ids pos p) (decodeTuple R rec ids pos p) := by
  unfold decodeTupleD decodeTuple
  dsimp only
  split
  · exact (Follows.of _).bind' (fun p' => (decodeTupleLoopD_same H hr _ _ _).bind' (fun l => .of _))
  · exact (Follows.of _).bind' (fun p' => (decodeTupleLoopD_same H hr _ _ _).bind' (fun l => .of _))

theorem withInfoD_same {x : Dev σ (PD × Nat)} {r : Res (PD × Nat)} (info : List Info) (h : Follows Nope x r) :
    Follows Nope (withInfoD info x) (withInfo info r) := h.bind' (fun _ => .of _)

theorem decodeTypeDefD_same (H : HonestD Nope D R b) (hr : RecSameD recD rec) (ty : Typ) (id pos : Nat)
    (p : Propagated) : Follows Nope (decodeTypeDefD D recD ty id pos p) (decodeTypeDef R rec b ty id pos p) := by
  unfold decodeTypeDefD decodeTypeDef
  cases ty.typeDef with
  | composite fs => exact (decodeFieldsD_same hr _ _ _).bind' (fun _ => .of _)
  | variant vs =>
    refine (Follows.of _).bind' (fun _ => ?_)
    split
    · exact .of _
    · exact (decodeVariantD_same H hr _ _).bind' (fun _ => .of _)
  | sequence e =>
    exact (getCompactD_follows H _ _).bind' (fun _ => decodeElementsSetD_same H hr _ _ _ _)
  | array n e => exact decodeElementsSetD_same H hr _ _ _ _
  | tuple ids => exact decodeTupleD_same H hr _ _ _
  | primitive pr => exact withInfoD_same _ (decodePrimitiveD_follows H _ _ _)
  | compact inner => exact (Follows.of _).bind' (fun _ => (Follows.of _).bind' (fun _ => hr _ _ _))
  | bitSequence o s => exact (Follows.of _).bind' (fun _ => withInfoD_same _ (decodeBitSequenceD_follows H _ _ _ _))

theorem decodeStepD_same (H : HonestD Nope D R b) (hr : RecSameD recD rec) :
    RecSameD (decodeStepD D recD) (decodeStep R b rec) := by
  intro tyIn pos p
  refine (resolveD_follows H tyIn).bind' (fun t => ?_)
  obtain ⟨ty, id⟩ := t
  have hf : Follows Nope (fromTypeD D ty pos) (TypeChecked.fromType R ty b pos) := by
    intro s
    rcases fromTypeD_blurs (E := Nope) (fun e h => h.elim) H ty pos s with h | ⟨⟨_, h⟩, _⟩
    · exact .inr h
    · exact h.elim
  refine hf.bind' (fun r => ?_)
  obtain ⟨sp, q⟩ := r
  dsimp only
  cases sp with
  | none => exact decodeTypeDefD_same H hr _ _ _ _
  | fixed k => exact withInfoD_same _ (parseFixedD_follows H _ _ _)
  | era => exact (Follows.of _).bind' (fun _ => (specialCaseEraD_follows H _).bind' (fun _ => .of _))
  | h256 => exact (Follows.of _).bind' (fun _ => withInfoD_same _ (specialCaseH256D_follows H _ _))
  | palletSpecific n i vs item =>
    exact (Follows.of _).bind' (fun _ => (decodeVariantD_same H hr _ _).bind' (fun _ => .of _))
  | perThing k => exact withInfoD_same _ (parsePerD_follows H _ _ _)

theorem decodeFD_same (H : HonestD Nope D R b) (n : Nat) : RecSameD (decodeFD D n) (decodeF R b n) := by
  induction n with
  | zero => intro _ _ _; exact .of _
  | succ n ih => exact decodeStepD_same H ih

theorem decodeD_same (H : HonestD Nope D R b) : RecSameD (decodeD D) (decode R b) := by
  intro tyIn pos p
  unfold decodeD decode depthBound
  rw [H.len, H.size]
  exact decodeFD_same H _ _ _ _

end Verif
