import Verif.Model.DeviceTx
/-! The same program on two memories, one of which gives other answers where the other one fails. -/
namespace Verif

variable {σ α β ε ME : Type}

/-- `x` adds to the count `bad`, or it does exactly what `y` does. -/
def Concurs (bad : σ → Int) (x y : σ → α × σ) : Prop :=
  ∀ s, bad s ≤ bad (x s).2 ∧ (bad (x s).2 = bad s → x s = y s)

variable {bad : σ → Int}

theorem Concurs.rfl' {x : σ → α × σ} (h : ∀ s, bad s ≤ bad (x s).2) : Concurs bad x x :=
  fun s => ⟨h s, fun _ => rfl⟩

theorem Concurs.of (r : Res α) : Concurs bad (Dev.of r) (Dev.of r) := fun _ => ⟨Int.le_refl _, fun _ => rfl⟩

theorem Concurs.bind {x y : Dev σ α} {k g : α → Dev σ β} (h : Concurs bad x y) (hk : ∀ a, Concurs bad (k a) (g a)) :
    Concurs bad (x >>= k) (y >>= g) := by
  intro s
  show bad s ≤ bad (Dev.bind x k s).2 ∧ (bad (Dev.bind x k s).2 = bad s → Dev.bind x k s = Dev.bind y g s)
  obtain ⟨h1, h2⟩ := h s
  unfold Dev.bind
  rcases hx : x s with ⟨e | a, s'⟩
  · rw [hx] at h1 h2
    refine ⟨h1, fun he => ?_⟩
    rw [← h2 he]
  · rw [hx] at h1 h2
    obtain ⟨k1, k2⟩ := hk a s'
    refine ⟨Int.le_trans h1 k1, fun he => ?_⟩
    dsimp only at h1 h2 he
    rw [← h2 (by omega)]
    exact k2 (by omega)

theorem Concurs.swallow {x y : Dev σ α} (h : Concurs bad x y) : Concurs bad (swallowD x) (swallowD y) := by
  intro s
  obtain ⟨h1, h2⟩ := h s
  unfold swallowD
  rcases hx : x s with ⟨e | a, s'⟩
  · rw [hx] at h1 h2
    cases e with
    | err e => exact ⟨h1, fun he => by rw [← h2 he]⟩
    | panic => exact ⟨h1, fun he => by rw [← h2 he]⟩
    | fuel => exact ⟨h1, fun he => by rw [← h2 he]⟩
  · rw [hx] at h1 h2
    exact ⟨h1, fun he => by rw [← h2 he]⟩

/-- The memory `D` with other answers. -/
abbrev Device.with (D : Device σ) (rd : Nat → Nat → Dev σ Bytes) (rs : Nat → σ → Except RegErr Typ × σ) : Device σ :=
  { D with read := rd, resolve := rs }

variable {D : Device σ} {rd : Nat → Nat → Dev σ Bytes} {rs : Nat → σ → Except RegErr Typ × σ}

/-- Every access adds to the count, or is answered alike. -/
structure Repairs (bad : σ → Int) (D : Device σ) (rd : Nat → Nat → Dev σ Bytes)
    (rs : Nat → σ → Except RegErr Typ × σ) : Prop where
  read : ∀ pos n, Concurs bad (D.read pos n) (rd pos n)
  resolve : ∀ id, Concurs bad (D.resolve id) (rs id)

theorem Repairs.get (H : Repairs bad D rd rs) (id : Nat) : Concurs bad (D.get id) ((D.with rd rs).get id) := by
  intro s
  obtain ⟨h1, h2⟩ := H.resolve id s
  unfold Device.get Device.with
  dsimp only
  rcases hx : D.resolve id s with ⟨e | a, s'⟩
  · rw [hx] at h1 h2
    exact ⟨h1, fun he => by rw [← h2 he]⟩
  · rw [hx] at h1 h2
    exact ⟨h1, fun he => by rw [← h2 he]⟩

/-- Branches on the same condition. -/
theorem Concurs.ite {c : Prop} [Decidable c] {x y x' y' : σ → α × σ} (h : Concurs bad x y) (h' : Concurs bad x' y') :
    Concurs bad (if c then x else x') (if c then y else y') := by
  split
  · exact h
  · exact h'

section
set_option hygiene false
local macro "leaf" : tactic => `(tactic| exact Concurs.of _)

variable (H : Repairs bad D rd rs)
include H

theorem readByteD_concurs (pos : Nat) : Concurs bad (D.readByte pos) ((D.with rd rs).readByte pos) := by
  refine (H.read pos 1).bind (fun x => ?_)
  cases x <;> leaf

theorem findCompactLoopD_concurs (dec : Bytes → Option Nat) (pos left : Nat) : ∀ i,
    Concurs bad (findCompactLoopD D dec pos left i) (findCompactLoopD (D.with rd rs) dec pos left i) := by
  induction left with
  | zero => intro i; leaf
  | succ left ih =>
    intro i
    unfold findCompactLoopD
    refine .ite (.of _) ((H.read _ _).bind (fun x => ?_))
    cases dec x with
    | none => exact ih _
    | some v => exact .ite (.of _) (Concurs.bind (.of _) (fun _ => Concurs.bind (.of _) (fun _ => .of _)))

theorem findCompactD_concurs (dec : Bytes → Option Nat) (pos : Nat) :
    Concurs bad (findCompactD D dec pos) (findCompactD (D.with rd rs) dec pos) := by
  unfold findCompactD
  refine .ite (.of _) ((findCompactLoopD_concurs H dec pos _ 0).bind (fun x => ?_))
  cases x <;> leaf

theorem getCompactD_concurs (dec : Bytes → Option Nat) (pos : Nat) :
    Concurs bad (getCompactD D dec pos) (getCompactD (D.with rd rs) dec pos) :=
  (findCompactD_concurs H dec pos).bind (fun _ => .of _)

/-- A position is added to. -/
theorem add_concurs (pos n : Nat) {k g : Nat → Dev σ α} (h : ∀ q, Concurs bad (k q) (g q)) :
    Concurs bad (D.add pos n >>= k) ((D.with rd rs).add pos n >>= g) := Concurs.bind (.of _) h

theorem cutArrayD_concurs (n pos : Nat) : Concurs bad (cutArrayD D n pos) (cutArrayD (D.with rd rs) n pos) :=
  (H.read pos n).bind (fun _ => .ite (.of _) (add_concurs H _ _ (fun _ => .of _)))

theorem cutPerD_concurs (k : PerKind) (pos : Nat) : Concurs bad (cutPerD D k pos) (cutPerD (D.with rd rs) k pos) :=
  (H.read pos _).bind (fun _ => .ite (add_concurs H _ _ (fun _ => .of _)) (.of _))

theorem cutUIntD_concurs (w : UW) (pos : Nat) : Concurs bad (cutUIntD D w pos) (cutUIntD (D.with rd rs) w pos) :=
  (H.read pos _).bind (fun _ => add_concurs H _ _ (fun _ => .of _))

theorem parseUIntD_concurs (w : UW) (pos : Nat) (t : SpecialtySet) :
    Concurs bad (parseUIntD D w pos t) (parseUIntD (D.with rd rs) w pos t) := by
  unfold parseUIntD
  dsimp only
  exact .ite ((getCompactD_concurs H _ pos).bind (fun _ => .of _)) ((cutUIntD_concurs H w pos).bind (fun _ => .of _))

theorem parsePerD_concurs (k : PerKind) (pos : Nat) (c : Option Nat) :
    Concurs bad (parsePerD D k pos c) (parsePerD (D.with rd rs) k pos c) := by
  unfold parsePerD
  dsimp only
  exact .ite ((getCompactD_concurs H _ pos).bind (fun _ => .of _)) ((cutPerD_concurs H k pos).bind (fun _ => .of _))

theorem parseFixedD_concurs (k : FixedKind) (pos : Nat) (c : Option Nat) :
    Concurs bad (parseFixedD D k pos c) (parseFixedD (D.with rd rs) k pos c) :=
  Concurs.bind (.of _) (fun _ => (cutArrayD_concurs H k.len pos).bind (fun _ => .of _))

theorem specialCaseH256D_concurs (pos : Nat) (t : SpecH256) :
    Concurs bad (specialCaseH256D D pos t) (specialCaseH256D (D.with rd rs) pos t) := by
  refine (cutArrayD_concurs H 32 pos).bind (fun x => ?_)
  cases t <;> leaf

theorem specialCaseEraD_concurs (pos : Nat) :
    Concurs bad (specialCaseEraD D pos) (specialCaseEraD (D.with rd rs) pos) := by
  refine (H.read pos 1).bind (fun x => ?_)
  cases Era.decodeAll x with
  | some e => exact add_concurs H _ _ (fun _ => .of _)
  | none =>
    refine (H.read pos 2).bind (fun y => ?_)
    cases Era.decodeAll y with
    | some e => exact add_concurs H _ _ (fun _ => .of _)
    | none => leaf

theorem decodeStrD_concurs (pos : Nat) (h : Hint) :
    Concurs bad (decodeStrD D pos h) (decodeStrD (D.with rd rs) pos h) := by
  refine (findCompactD_concurs H _ pos).bind (fun f => (H.read _ _).bind (fun x => ?_))
  cases stringFromUtf8 x with
  | some t => exact add_concurs H _ _ (fun _ => .of _)
  | none => leaf

theorem parseIntD_concurs (w : IW) (pos : Nat) (c : Option Nat) :
    Concurs bad (parseIntD D w pos c) (parseIntD (D.with rd rs) w pos c) :=
  Concurs.bind (.of _) (fun _ => Concurs.bind (x := cutIntD D w pos) (y := cutIntD (D.with rd rs) w pos)
    ((H.read pos _).bind (fun _ => add_concurs H _ _ (fun _ => .of _))) (fun _ => .of _))

theorem cutBoolD_concurs (pos : Nat) : Concurs bad (cutBoolD D pos) (cutBoolD (D.with rd rs) pos) :=
  (H.read pos 1).bind (fun _ => .ite (add_concurs H _ _ (fun _ => .of _))
    (.ite (add_concurs H _ _ (fun _ => .of _)) (.of _)))

theorem cutCharD_concurs (pos : Nat) : Concurs bad (cutCharD D pos) (cutCharD (D.with rd rs) pos) := by
  refine (H.read pos 4).bind (fun x => .ite (.of _) ?_)
  cases charFromU32 (leNat x) with
  | some c => exact add_concurs H _ _ (fun _ => .of _)
  | none => leaf

theorem decodePrimitiveD_concurs (p : Prim) (pos : Nat) (t : SpecialtySet) :
    Concurs bad (decodePrimitiveD D p pos t) (decodePrimitiveD (D.with rd rs) p pos t) := by
  cases p with
  | bool => exact Concurs.bind (.of _) (fun _ => (cutBoolD_concurs H pos).bind (fun _ => .of _))
  | char => exact Concurs.bind (.of _) (fun _ => (cutCharD_concurs H pos).bind (fun _ => .of _))
  | str => exact Concurs.bind (.of _) (fun _ => decodeStrD_concurs H pos _)
  | u256 =>
    exact Concurs.bind (.of _) (fun _ => Concurs.bind (x := cutU256D D pos) (y := cutU256D (D.with rd rs) pos)
      ((H.read pos _).bind (fun _ => add_concurs H _ _ (fun _ => .of _))) (fun _ => .of _))
  | u8 => exact parseUIntD_concurs H _ pos t
  | u16 => exact parseUIntD_concurs H _ pos t
  | u32 => exact parseUIntD_concurs H _ pos t
  | u64 => exact parseUIntD_concurs H _ pos t
  | u128 => exact parseUIntD_concurs H _ pos t
  | i8 => exact parseIntD_concurs H _ pos _
  | i16 => exact parseIntD_concurs H _ pos _
  | i32 => exact parseIntD_concurs H _ pos _
  | i64 => exact parseIntD_concurs H _ pos _
  | i128 => exact parseIntD_concurs H _ pos _
  | i256 => exact parseIntD_concurs H _ pos _

theorem bitVecPositionsD_concurs (st : BitStore) (pos : Nat) :
    Concurs bad (bitVecPositionsD D st pos) (bitVecPositionsD (D.with rd rs) st pos) :=
  (findCompactD_concurs H _ pos).bind (fun _ => Concurs.bind (.of _) (fun _ => Concurs.bind (.of _) (fun _ =>
    Concurs.bind (.of _) (fun _ => add_concurs H _ _ (fun _ => Concurs.bind (.of _) (fun _ => .of _))))))

theorem intoBitvecDecodeD_concurs (st : BitStore) (pos : Nat) :
    Concurs bad (intoBitvecDecodeD D st pos) (intoBitvecDecodeD (D.with rd rs) st pos) :=
  (bitVecPositionsD_concurs H st pos).bind (fun _ => (H.read _ _).bind (fun _ => .of _))

theorem decodeBitSequenceD_concurs (order store id pos : Nat) :
    Concurs bad (decodeBitSequenceD D order store id pos) (decodeBitSequenceD (D.with rd rs) order store id pos) := by
  refine Concurs.bind (x := findBitOrderD D order id) (y := findBitOrderD (D.with rd rs) order id)
    ((H.get order).bind (fun _ => .of _)) (fun o => (H.get store).bind (fun t => ?_))
  cases t.typeDef with
  | primitive p =>
    dsimp only
    cases BitStore.ofPrim p with
    | none => leaf
    | some st =>
      refine (intoBitvecDecodeD_concurs H st pos).bind (fun r => ?_)
      obtain ⟨x, q⟩ := r
      dsimp only
      cases bitVecDecodeAll st o x <;> leaf
  | _ => leaf

theorem huskLoopD_concurs (n : Nat) : ∀ (ty : Typ) (id : Nat) (info : List Info) (c : Checker),
    Concurs bad (huskLoopD D n ty id info c) (huskLoopD (D.with rd rs) n ty id info c) := by
  induction n with
  | zero => intro ty id info c; leaf
  | succ n ih =>
    intro ty id info c
    unfold huskLoopD
    dsimp only
    refine .ite ?_ (.of _)
    cases ty.typeDef with
    | composite fs =>
      rcases fs with _ | ⟨f, _ | ⟨g, gs⟩⟩
      · leaf
      · exact Concurs.bind (.of _) (fun c' => (H.get _).bind (fun t => ih _ _ _ _))
      · leaf
    | compact inner =>
      exact Concurs.bind (.of _) (fun _ => Concurs.bind (.of _) (fun c' => (H.get _).bind (fun t => ih _ _ _ _)))
    | _ => leaf

theorem huskTypeD_concurs (id : Nat) (c : Checker) :
    Concurs bad (huskTypeD D id c) (huskTypeD (D.with rd rs) id c) :=
  Concurs.bind (.of _) (fun c' => (H.get _).bind (fun t => huskLoopD_concurs H _ _ _ _ _))

theorem pickVariantD_concurs (vs : List Variant) (pos : Nat) :
    Concurs bad (pickVariantD D vs pos) (pickVariantD (D.with rd rs) vs pos) := by
  refine (readByteD_concurs H pos).bind (fun i => ?_)
  cases vs.find? (fun v => v.index == i) <;> leaf

theorem signatureIndicatorD_concurs (f : Field) :
    Concurs bad (signatureIndicatorD D f) (signatureIndicatorD (D.with rd rs) f) := by
  refine (huskTypeD_concurs H f.ty Checker.new).swallow.bind (fun o => ?_)
  cases o with
  | none => leaf
  | some h =>
    dsimp only
    cases h.ty.typeDef with
    | array len elem =>
      refine (H.get elem).swallow.bind (fun o => ?_)
      cases o with
      | none => leaf
      | some t =>
        dsimp only
        refine .ite ?_ (.of _)
        cases f.typeName with
        | none => leaf
        | some n => exact .ite (.of _) (.ite (.of _) (.ite (.of _) (.of _)))
    | _ => leaf

theorem checkMultiSignatureD_concurs (ty : Typ) (pos : Nat) :
    Concurs bad (checkMultiSignatureD D ty pos) (checkMultiSignatureD (D.with rd rs) ty pos) := by
  unfold checkMultiSignatureD
  cases ty.typeDef with
  | variant vs =>
    refine (pickVariantD_concurs H vs pos).swallow.bind (fun o => ?_)
    cases o with
    | none => leaf
    | some v =>
      dsimp only
      rcases v.fields with _ | ⟨f, _ | ⟨g, gs⟩⟩
      · leaf
      · refine (signatureIndicatorD_concurs H f).bind (fun o => ?_)
        cases o with
        | none => leaf
        | some k => exact add_concurs H _ _ (fun _ => .of _)
      · leaf
  | _ => leaf

theorem checkPalletSpecificD_concurs (item : PalletItem) (ty : Typ) (pos : Nat) :
    Concurs bad (checkPalletSpecificD D item ty pos) (checkPalletSpecificD (D.with rd rs) item ty pos) := by
  unfold checkPalletSpecificD
  cases ty.typeDef with
  | variant vs =>
    refine (pickVariantD_concurs H vs pos).swallow.bind (fun o => ?_)
    cases o with
    | none => leaf
    | some v =>
      dsimp only
      rcases v.fields with _ | ⟨f, _ | ⟨g, gs⟩⟩
      · leaf
      · refine (H.get f.ty).swallow.bind (fun o => ?_)
        cases o with
        | none => leaf
        | some t =>
          dsimp only
          cases TypeHinted.fromType t with
          | palletSpecific item' =>
            refine .ite (.of _) ?_
            cases t.typeDef with
            | variant vs' => exact add_concurs H _ _ (fun _ => .of _)
            | _ => leaf
          | _ => leaf
      · leaf
  | _ => leaf

theorem fromTypeD_concurs (ty : Typ) (pos : Nat) :
    Concurs bad (fromTypeD D ty pos) (fromTypeD (D.with rd rs) ty pos) := by
  unfold fromTypeD
  cases TypeHinted.fromType ty with
  | multiSignature => exact checkMultiSignatureD_concurs H ty pos
  | palletSpecific item => exact checkPalletSpecificD_concurs H item ty pos
  | _ => leaf

omit H in
/-- Recursive calls. -/
theorem decodeFieldsLoopD_concurs {rec rec' : DecD σ} (hr : ∀ t pos p, Concurs bad (rec t pos p) (rec' t pos p))
    (c : Checker) (fs : List Field) : ∀ pos,
    Concurs bad (decodeFieldsLoopD rec c fs pos) (decodeFieldsLoopD rec' c fs pos) := by
  induction fs with
  | nil => intro pos; leaf
  | cons f fs ih =>
    intro pos
    exact Concurs.bind (.of _) (fun p => (hr _ _ _).bind (fun d => (ih _).bind (fun l => .of _)))

omit H in
theorem decodeFieldsD_concurs {rec rec' : DecD σ} (hr : ∀ t pos p, Concurs bad (rec t pos p) (rec' t pos p))
    (fs : List Field) (pos : Nat) (c : Checker) : Concurs bad (decodeFieldsD rec fs pos c) (decodeFieldsD rec' fs pos c) := by
  unfold decodeFieldsD
  exact .ite (Concurs.bind (.of _) (fun _ => decodeFieldsLoopD_concurs hr _ _ _)) (decodeFieldsLoopD_concurs hr _ _ _)

omit H in
theorem decodeElementsLoopD_concurs {rec rec' : DecD σ} (hr : ∀ t pos p, Concurs bad (rec t pos p) (rec' t pos p))
    (h : HuskedType) (n : Nat) : ∀ pos, Concurs bad (decodeElementsLoopD rec h n pos) (decodeElementsLoopD rec' h n pos) := by
  induction n with
  | zero => intro pos; leaf
  | succ n ih =>
    intro pos
    exact (hr _ _ _).bind (fun d => (ih _).bind (fun l => .of _))

variable {rec rec' : DecD σ} (hr : ∀ t pos p, Concurs bad (rec t pos p) (rec' t pos p))
include hr

theorem decodeElementsSetD_concurs (elem n pos : Nat) (p : Propagated) :
    Concurs bad (decodeElementsSetD D rec elem n pos p) (decodeElementsSetD (D.with rd rs) rec' elem n pos p) := by
  refine Concurs.bind (.of _) (fun _ => (huskTypeD_concurs H _ _).bind (fun h => .ite (.of _) ?_))
  refine (decodeElementsLoopD_concurs hr h n pos).bind (fun l => ?_)
  obtain ⟨l, q⟩ := l
  dsimp only
  cases wrapSequence l <;> leaf

theorem decodeVariantD_concurs (vs : List Variant) (pos : Nat) :
    Concurs bad (decodeVariantD D rec vs pos) (decodeVariantD (D.with rd rs) rec' vs pos) :=
  (pickVariantD_concurs H vs pos).bind (fun v => add_concurs H _ _ (fun q =>
    (decodeFieldsD_concurs hr _ _ _).bind (fun _ => .of _)))

theorem decodeTupleLoopD_concurs (c : Checker) (ids : List Nat) : ∀ pos,
    Concurs bad (decodeTupleLoopD D rec c ids pos) (decodeTupleLoopD (D.with rd rs) rec' c ids pos) := by
  induction ids with
  | nil => intro pos; leaf
  | cons id ids ih =>
    intro pos
    exact (H.get id).bind (fun t => Concurs.bind (.of _) (fun p => (hr _ _ _).bind (fun d =>
      (ih _).bind (fun l => .of _))))

theorem decodeTupleD_concurs (ids : List Nat) (pos : Nat) (p : Propagated) :
    Concurs bad (decodeTupleD D rec ids pos p) (decodeTupleD (D.with rd rs) rec' ids pos p) :=
  Concurs.bind (.of _) (fun _ => (decodeTupleLoopD_concurs H hr _ _ _).bind (fun _ => .of _))

omit H hr in
theorem withInfoD_concurs {x y : Dev σ (PD × Nat)} (info : List Info) (h : Concurs bad x y) :
    Concurs bad (withInfoD info x) (withInfoD info y) := h.bind (fun _ => .of _)

theorem decodeTypeDefD_concurs (ty : Typ) (id pos : Nat) (p : Propagated) :
    Concurs bad (decodeTypeDefD D rec ty id pos p) (decodeTypeDefD (D.with rd rs) rec' ty id pos p) := by
  unfold decodeTypeDefD
  cases ty.typeDef with
  | composite fs => exact (decodeFieldsD_concurs hr _ _ _).bind (fun _ => .of _)
  | variant vs =>
    exact Concurs.bind (.of _) (fun _ => .ite (.of _) ((decodeVariantD_concurs H hr _ _).bind (fun _ => .of _)))
  | sequence e => exact (getCompactD_concurs H _ _).bind (fun _ => decodeElementsSetD_concurs H hr _ _ _ _)
  | array n e => exact decodeElementsSetD_concurs H hr _ _ _ _
  | tuple ids => exact decodeTupleD_concurs H hr _ _ _
  | primitive pr => exact withInfoD_concurs _ (decodePrimitiveD_concurs H _ _ _)
  | compact inner => exact Concurs.bind (.of _) (fun _ => Concurs.bind (.of _) (fun _ => hr _ _ _))
  | bitSequence o s => exact Concurs.bind (.of _) (fun _ => withInfoD_concurs _ (decodeBitSequenceD_concurs H _ _ _ _))

theorem decodeCheckedD_concurs (sp : TypeChecked) (ty : Typ) (id pos : Nat) (p : Propagated) :
    Concurs bad (decodeCheckedD D rec sp ty id pos p) (decodeCheckedD (D.with rd rs) rec' sp ty id pos p) := by
  cases sp with
  | none => exact decodeTypeDefD_concurs H hr _ _ _ _
  | fixed k => exact withInfoD_concurs _ (parseFixedD_concurs H _ _ _)
  | era => exact Concurs.bind (.of _) (fun _ => (specialCaseEraD_concurs H _).bind (fun _ => .of _))
  | h256 => exact Concurs.bind (.of _) (fun _ => withInfoD_concurs _ (specialCaseH256D_concurs H _ _))
  | palletSpecific n i vs item =>
    exact Concurs.bind (.of _) (fun _ => (decodeVariantD_concurs H hr _ _).bind (fun _ => .of _))
  | perThing k => exact withInfoD_concurs _ (parsePerD_concurs H _ _ _)

theorem decodeStepD_concurs (t : TyIn) (pos : Nat) (p : Propagated) :
    Concurs bad (decodeStepD D rec t pos p) (decodeStepD (D.with rd rs) rec' t pos p) := by
  refine Concurs.bind (x := t.resolveD D) (y := t.resolveD (D.with rd rs)) ?_ (fun t =>
    (fromTypeD_concurs H _ _).bind (fun r => decodeCheckedD_concurs H hr _ _ _ _ _))
  cases t with
  | resolved ty id => leaf
  | symbol id => exact (H.get id).bind (fun _ => .of _)

omit hr
theorem decodeFD_concurs (n : Nat) : ∀ (t : TyIn) (pos : Nat) (p : Propagated),
    Concurs bad (decodeFD D n t pos p) (decodeFD (D.with rd rs) n t pos p) := by
  induction n with
  | zero => intro _ _ _; leaf
  | succ n ih => exact decodeStepD_concurs H ih

theorem decodeD_concurs (t : TyIn) (pos : Nat) (p : Propagated) :
    Concurs bad (decodeD D t pos p) (decodeD (D.with rd rs) t pos p) := decodeFD_concurs H _ t pos p

theorem decodeAllAsTypeD_concurs (id : Nat) :
    Concurs bad (decodeAllAsTypeD D id) (decodeAllAsTypeD (D.with rd rs) id) :=
  Concurs.bind (decodeD_concurs H _ _ _) (fun _ => .ite (.of _) (.of _))

end

/-! ### Transactions, extrinsics, storage entries -/

theorem Concurs.ofO (r : Except (Out ε) α) : Concurs bad (DevO.of r) (DevO.of r) := fun _ => ⟨Int.le_refl _, fun _ => rfl⟩

theorem Concurs.bindO {x y : DevO σ ε α} {k g : α → DevO σ ε β} (h : Concurs bad x y) (hk : ∀ a, Concurs bad (k a) (g a)) :
    Concurs bad (x >>= k) (y >>= g) := by
  intro s
  show bad s ≤ bad (DevO.bind x k s).2 ∧ (bad (DevO.bind x k s).2 = bad s → DevO.bind x k s = DevO.bind y g s)
  obtain ⟨h1, h2⟩ := h s
  unfold DevO.bind
  rcases hx : x s with ⟨e | a, s'⟩
  · rw [hx] at h1 h2
    refine ⟨h1, fun he => ?_⟩
    rw [← h2 he]
  · rw [hx] at h1 h2
    obtain ⟨k1, k2⟩ := hk a s'
    refine ⟨Int.le_trans h1 k1, fun he => ?_⟩
    dsimp only at h1 h2 he
    rw [← h2 (by omega)]
    exact k2 (by omega)

theorem Concurs.mapErr {x y : Dev σ α} (f : PErr → ε) (h : Concurs bad x y) : Concurs bad (x.mapErr f) (y.mapErr f) := by
  intro s
  obtain ⟨h1, h2⟩ := h s
  exact ⟨h1, fun he => by unfold Dev.mapErr; rw [h2 he]⟩

theorem Concurs.arith (r : Res Nat) : Concurs bad (Device.arith (ε := ε) r) (Device.arith r) := by
  intro s; unfold Device.arith; cases r <;> exact ⟨Int.le_refl _, fun _ => rfl⟩

theorem Concurs.expect {x y : Dev σ α} (h : Concurs bad x y) : Concurs bad (expectD (ε := ε) x) (expectD y) := by
  intro s
  obtain ⟨h1, h2⟩ := h s
  unfold expectD
  rcases hx : x s with ⟨e | a, s'⟩
  · rw [hx] at h1 h2
    exact ⟨h1, fun he => by rw [← h2 he]⟩
  · rw [hx] at h1 h2
    exact ⟨h1, fun he => by rw [← h2 he]⟩

theorem Concurs.keep {x y : DevO σ (SErr ME) α} (h : Concurs bad x y) : Concurs bad (keepErr x) (keepErr y) := by
  intro s
  obtain ⟨h1, h2⟩ := h s
  unfold keepErr
  rcases hx : x s with ⟨e | a, s'⟩
  · rw [hx] at h1 h2
    cases e <;> exact ⟨h1, fun he => by rw [← h2 he]⟩
  · rw [hx] at h1 h2
    exact ⟨h1, fun he => by rw [← h2 he]⟩

section
variable (H : Repairs bad D rd rs)
include H

theorem markD_concurs : Concurs bad (markD (ME := ME) D) (markD (D.with rd rs)) :=
  ((getCompactD_concurs H _ _).mapErr _).bindO (fun _ => (Concurs.arith _).bindO (fun _ =>
    ((H.read _ _).mapErr _).bindO (fun _ => .ofO _)))

theorem decodeAsCallUnmarkedD_concurs (M : Metadata ME) (pos : Nat) :
    Concurs bad (decodeAsCallUnmarkedD D M pos) (decodeAsCallUnmarkedD (D.with rd rs) M pos) := by
  refine (Concurs.ofO _).bindO (fun _ => ((decodeD_concurs H _ _ _).mapErr _).bindO (fun r => ?_))
  cases r.1.data.asCall <;> exact .ofO _

theorem decodeAsCallD_concurs (M : Metadata ME) (m : Marks) :
    Concurs bad (decodeAsCallD D M m) (decodeAsCallD (D.with rd rs) M m) := by
  unfold decodeAsCallD Device.limitLength
  by_cases hl : D.len < m.extensionsStart
  · rw [if_pos hl, if_pos hl]; exact .ofO _
  · rw [if_neg hl, if_neg hl]
    refine Concurs.bindO (decodeAsCallUnmarkedD_concurs (D := { D with
      len := m.extensionsStart
      read := fun pos k =>
        if m.extensionsStart < pos then Dev.of (.error (.err (.buffer (.outOfRange pos m.extensionsStart))))
        else if m.extensionsStart < pos + k then Dev.of (.error (.err (.buffer (.dataTooShort pos k))))
        else D.read pos k }) ⟨fun pos k => ?_, H.resolve⟩ M _) (fun _ => .ite (.ofO _) (.ofO _))
    exact .ite (.of _) (.ite (.of _) (H.read _ _))

theorem extensionsLoopD_concurs (sel : SignedExt → Nat) (es : List SignedExt) : ∀ pos,
    Concurs bad (extensionsLoopD (ME := ME) D sel es pos) (extensionsLoopD (D.with rd rs) sel es pos) := by
  induction es with
  | nil => intro pos; exact .ofO _
  | cons e es ih =>
    intro pos
    exact ((decodeD_concurs H _ _ _).mapErr _).bindO (fun _ => (ih _).bindO (fun _ => .ofO _))

theorem decodeExtensionsUnmarkedD_concurs (M : Metadata ME) (pos : Nat) (expected : Option Bytes) :
    Concurs bad (decodeExtensionsUnmarkedD D M pos expected) (decodeExtensionsUnmarkedD (D.with rd rs) M pos expected) :=
  (Concurs.ofO _).bindO (fun _ => (extensionsLoopD_concurs H _ _ _).bindO (fun _ =>
    (extensionsLoopD_concurs H _ _ _).bindO (fun _ => .ite (.ofO _) ((Concurs.ofO _).bindO (fun _ =>
      (Concurs.ofO _).bindO (fun _ => .ofO _))))))

theorem parseTransactionD_concurs (M : Metadata ME) (expected : Option Bytes) :
    Concurs bad (parseTransactionD D M expected) (parseTransactionD (D.with rd rs) M expected) :=
  (markD_concurs H).bindO (fun _ => (decodeExtensionsUnmarkedD_concurs H M _ _).bindO (fun _ =>
    (decodeAsCallD_concurs H M _).keep.bindO (fun _ => .ofO _)))

theorem parseTransactionUnmarkedD_concurs (M : Metadata ME) (expected : Option Bytes) :
    Concurs bad (parseTransactionUnmarkedD D M expected) (parseTransactionUnmarkedD (D.with rd rs) M expected) :=
  (decodeAsCallUnmarkedD_concurs H M _).bindO (fun _ => (decodeExtensionsUnmarkedD_concurs H M _ _).bindO (fun _ => .ofO _))

theorem extrinsicPartD_concurs (id pos : Nat) :
    Concurs bad (extrinsicPartD (ME := ME) D id pos) (extrinsicPartD (D.with rd rs) id pos) :=
  (decodeD_concurs H _ _ _).mapErr _

theorem extrinsicCallD_concurs (id pos : Nat) :
    Concurs bad (extrinsicCallD (ME := ME) D id pos) (extrinsicCallD (D.with rd rs) id pos) := by
  refine (extrinsicPartD_concurs H id pos).bindO (fun r => ?_)
  cases r.1.data.asCall <;> exact .ofO _

theorem extrinsicContentD_concurs (params : ExtrinsicParams) (v w : UInt8) (pos : Nat) :
    Concurs bad (extrinsicContentD (ME := ME) D params v w pos) (extrinsicContentD (D.with rd rs) params v w pos) :=
  .ite (.ofO _) (.ite ((extrinsicCallD_concurs H _ _).bindO (fun _ => .ofO _))
    ((extrinsicPartD_concurs H _ _).bindO (fun _ => (extrinsicPartD_concurs H _ _).bindO (fun _ =>
      (extrinsicPartD_concurs H _ _).bindO (fun _ => (extrinsicCallD_concurs H _ _).bindO (fun _ => .ofO _))))))

theorem extrinsicFrameD_concurs (M : CompleteMetadata ME) (params : ExtrinsicParams) (n start : Nat) :
    Concurs bad (extrinsicFrameD D M params n start) (extrinsicFrameD (D.with rd rs) M params n start) :=
  (Concurs.arith _).bindO (fun _ => .ite ((Concurs.arith _).bindO (fun _ => .ofO _)) (.ite (.ofO _)
    (((readByteD_concurs H _).mapErr _).bindO (fun _ => (Concurs.arith _).bindO (fun _ =>
      (Concurs.ofO _).bindO (fun _ => extrinsicContentD_concurs H _ _ _ _))))))

theorem decodeUncheckedExtrinsicD_concurs (M : CompleteMetadata ME) :
    Concurs bad (decodeUncheckedExtrinsicD D M) (decodeUncheckedExtrinsicD (D.with rd rs) M) :=
  (Concurs.ofO _).bindO (fun _ => ((getCompactD_concurs H _ _).mapErr _).bindO (fun _ => extrinsicFrameD_concurs H M _ _ _))

theorem cutHashD_concurs (kind : HashKind) (keyTy pos : Nat) :
    Concurs bad (cutHashD D kind keyTy pos) (cutHashD (D.with rd rs) kind keyTy pos) :=
  ((H.read _ _).mapErr _).bindO (fun _ => .ite (.ofO _) ((Concurs.arith _).bindO (fun _ => .ofO _)))

theorem checkHashD_concurs (n : Nat) (f : Bytes → Bytes) (ty pos : Nat) :
    Concurs bad (checkHashD D n f ty pos) (checkHashD (D.with rd rs) n f ty pos) :=
  ((H.read _ _).mapErr _).bindO (fun _ => .ite (.ofO _) ((Concurs.arith _).bindO (fun _ =>
    ((decodeD_concurs H _ _ _).mapErr _).bindO (fun _ => (Concurs.arith _).bindO (fun _ =>
      (H.read _ _).expect.bindO (fun _ => .ite (.ofO _) (.ofO _)))))))

theorem processHasherD_concurs (F : HashFns) (h : Hasher) (ty pos : Nat) :
    Concurs bad (processHasherD D F h ty pos) (processHasherD (D.with rd rs) F h ty pos) := by
  cases h with
  | identity => exact ((decodeD_concurs H _ _ _).mapErr _).bindO (fun _ => .ofO _)
  | blake2_128Concat => exact checkHashD_concurs H _ _ _ _
  | twox64Concat => exact checkHashD_concurs H _ _ _ _
  | blake2_128 => exact cutHashD_concurs H _ _ _
  | blake2_256 => exact cutHashD_concurs H _ _ _
  | twox128 => exact cutHashD_concurs H _ _ _
  | twox256 => exact cutHashD_concurs H _ _ _

theorem hashersLoopD_concurs (F : HashFns) (hs : List Hasher) : ∀ (tys : List Nat) (pos : Nat),
    Concurs bad (hashersLoopD D F hs tys pos) (hashersLoopD (D.with rd rs) F hs tys pos) := by
  induction hs with
  | nil => intro tys pos; exact .ofO _
  | cons h hs ih =>
    intro tys pos
    cases tys with
    | nil => exact .ofO _
    | cons ty tys => exact (processHasherD_concurs H F h ty pos).bindO (fun _ => (ih _ _).bindO (fun _ => .ofO _))

theorem keyDataD_concurs (F : HashFns) (hs : List Hasher) (keyTy pos : Nat) :
    Concurs bad (keyDataD D F hs keyTy pos) (keyDataD (D.with rd rs) F hs keyTy pos) := by
  rcases hs with _ | ⟨h, _ | ⟨h', hs⟩⟩
  · refine ((H.get _).mapErr _).bindO (fun t => ?_)
    cases t.typeDef with
    | tuple elems => exact .ite (.ofO _) ((hashersLoopD_concurs H F _ _ _).bindO (fun _ => .ofO _))
    | _ => exact .ofO _
  · exact (processHasherD_concurs H F h keyTy pos).bindO (fun _ => .ofO _)
  · refine ((H.get _).mapErr _).bindO (fun t => ?_)
    cases t.typeDef with
    | tuple elems => exact .ite (.ofO _) ((hashersLoopD_concurs H F _ _ _).bindO (fun _ => .ofO _))
    | _ => exact .ofO _

theorem processKeyMappedD_concurs (F : HashFns) (hs : List Hasher) (keyTy pos : Nat) :
    Concurs bad (processKeyMappedD D F hs keyTy pos) (processKeyMappedD (D.with rd rs) F hs keyTy pos) :=
  (keyDataD_concurs H F hs keyTy pos).bindO (fun _ => .ite (.ofO _) (.ofO _))

theorem decodeStorageEntryD_concurs {DV : Device σ} {rd' : Nat → Nat → Dev σ Bytes}
    {rs' : Nat → σ → Except RegErr Typ × σ} (H' : Repairs bad DV rd' rs') (F : HashFns) (entry : Entry) :
    Concurs bad (decodeStorageEntryD F D DV entry) (decodeStorageEntryD F (D.with rd rs) (DV.with rd' rs') entry) := by
  unfold decodeStorageEntryD
  refine .ite (.ofO _) ?_
  cases entry.ty with
  | plain v => exact .ite (.ofO _) (((decodeAllAsTypeD_concurs H' _).mapErr _).bindO (fun _ => .ofO _))
  | map hs k v =>
    exact (processKeyMappedD_concurs H F hs k 32).bindO (fun _ =>
      ((decodeAllAsTypeD_concurs H' _).mapErr _).bindO (fun _ => .ofO _))

end

end Verif
