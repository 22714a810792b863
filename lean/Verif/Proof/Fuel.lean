import Verif.Proof.Run
/-! Sufficiency of the nesting bound; no panic. -/
namespace Verif
open Spec

/-! ### Leaf decoders -/

theorem findCompactLoop_fine (dec : Bytes → Option Nat) (b : Buf) (pos left i : Nat) :
    Fine (findCompactLoop dec b pos left i) := by
  induction left generalizing i with
  | zero => exact Fine.ok _
  | succ left ih =>
    unfold findCompactLoop
    split
    · exact Fine.ok _
    · refine Fine.bind (readSlice_fine _ _ _) ?_
      intro s _
      split
      · exact Fine.ok _
      · exact ih _

theorem findCompact_fine (dec : Bytes → Option Nat) (b : Buf) (pos : Nat) :
    Fine (findCompact dec b pos) := by
  unfold findCompact
  split
  · exact Fine.err _
  · refine Fine.bind (findCompactLoop_fine _ _ _ _ _) ?_
    intro o _
    split
    · exact Fine.ok _
    · exact Fine.err _

theorem getCompact_fine (dec : Bytes → Option Nat) (b : Buf) (pos : Nat) :
    Fine (getCompact dec b pos) :=
  Fine.bind (findCompact_fine _ _ _) (fun _ _ => Fine.ok _)

theorem blockCompact_fine (c : Option Nat) : Fine (blockCompact c) := by
  cases c
  · exact Fine.ok _
  · exact Fine.internal _

theorem cutArray_fine (n : Nat) (b : Buf) (pos : Nat) : Fine (cutArray n b pos) := by
  refine Fine.bind (readSlice_fine _ _ _) ?_
  intro s hs
  rw [if_neg (by have := (readSlice_ok hs).2; omega)]
  exact Fine.ok _

theorem parseUInt_fine (w : UW) (b : Buf) (pos : Nat) (s : SpecialtySet) :
    Fine (parseUInt w b pos s) := by
  unfold parseUInt
  dsimp only
  split
  · exact Fine.bind (getCompact_fine _ _ _) (fun _ _ => Fine.ok _)
  · exact Fine.bind (Fine.bind (readSlice_fine _ _ _) (fun _ _ => Fine.ok _)) (fun _ _ => Fine.ok _)

theorem parsePer_fine (k : PerKind) (b : Buf) (pos : Nat) (c : Option Nat) :
    Fine (parsePer k b pos c) := by
  unfold parsePer
  dsimp only
  split
  · exact Fine.bind (getCompact_fine _ _ _) (fun _ _ => Fine.ok _)
  · refine Fine.bind (Fine.bind (readSlice_fine _ _ _) ?_) (fun _ _ => Fine.ok _)
    intro s _
    split
    · exact Fine.ok _
    · exact Fine.err _

theorem parseFixed_fine (k : FixedKind) (b : Buf) (pos : Nat) (c : Option Nat) :
    Fine (parseFixed k b pos c) :=
  Fine.bind (blockCompact_fine _) (fun _ _ =>
    Fine.bind (cutArray_fine _ _ _) (fun _ _ => Fine.ok _))

theorem specialCaseH256_fine (b : Buf) (pos : Nat) (s : SpecH256) :
    Fine (specialCaseH256 b pos s) := by
  refine Fine.bind (cutArray_fine _ _ _) (fun _ _ => ?_)
  cases s <;> exact Fine.ok _

theorem specialCaseEra_fine (b : Buf) (pos : Nat) : Fine (specialCaseEra b pos) := by
  unfold specialCaseEra
  refine Fine.bind (readSlice_fine _ _ _) (fun _ _ => ?_)
  split
  · exact Fine.ok _
  · refine Fine.bind (readSlice_fine _ _ _) (fun _ _ => ?_)
    split
    · exact Fine.ok _
    · exact Fine.err _

theorem parseInt_fine (w : IW) (b : Buf) (pos : Nat) (c : Option Nat) : Fine (parseInt w b pos c) :=
  Fine.bind (blockCompact_fine _) (fun _ _ =>
    Fine.bind (Fine.bind (readSlice_fine _ _ _) (fun _ _ => Fine.ok _)) (fun _ _ => Fine.ok _))

theorem decodeStr_fine (b : Buf) (pos : Nat) (h : Hint) : Fine (decodeStr b pos h) := by
  unfold decodeStr
  refine Fine.bind (findCompact_fine _ _ _) (fun _ _ => ?_)
  refine Fine.bind (readSlice_fine _ _ _) (fun _ _ => ?_)
  split
  · exact Fine.ok _
  · exact Fine.err _

theorem decodePrimitive_fine (p : Prim) (b : Buf) (pos : Nat) (s : SpecialtySet) :
    Fine (decodePrimitive p b pos s) := by
  cases p with
  | bool =>
    refine Fine.bind (blockCompact_fine _) (fun _ _ => Fine.bind ?_ (fun _ _ => Fine.ok _))
    refine Fine.bind (readSlice_fine _ _ _) (fun s _ => ?_)
    split
    · exact Fine.ok _
    · split
      · exact Fine.ok _
      · exact Fine.err _
  | char =>
    refine Fine.bind (blockCompact_fine _) (fun _ _ => Fine.bind ?_ (fun _ _ => Fine.ok _))
    refine Fine.bind (readSlice_fine _ _ _) (fun s hs => ?_)
    rw [if_neg (by have := (readSlice_ok hs).2; omega)]
    split
    · exact Fine.ok _
    · exact Fine.err _
  | str => exact Fine.bind (rejectCompact_fine _) (fun _ _ => decodeStr_fine _ _ _)
  | u256 =>
    exact Fine.bind (blockCompact_fine _) (fun _ _ =>
      Fine.bind (Fine.bind (readSlice_fine _ _ _) (fun _ _ => Fine.ok _)) (fun _ _ => Fine.ok _))
  | u8 | u16 | u32 | u64 | u128 => exact parseUInt_fine _ _ _ _
  | i8 | i16 | i32 | i64 | i128 | i256 => exact parseInt_fine _ _ _ _

theorem findBitOrder_fine (R : Registry) (o id : Nat) : Fine (findBitOrder R o id) := by
  unfold findBitOrder
  refine Fine.bind (R.get_fine _) (fun t _ => ?_)
  split
  · split
    · split
      · exact Fine.ok _
      · split
        · exact Fine.ok _
        · exact Fine.internal _
    · exact Fine.internal _
  · exact Fine.internal _

theorem intoBitvecDecode_fine (st : BitStore) (b : Buf) (pos : Nat) :
    Fine (intoBitvecDecode st b pos) :=
  Fine.bind (Fine.bind (findCompact_fine _ _ _) (fun _ _ => Fine.ok _))
    (fun _ _ => Fine.bind (readSlice_fine _ _ _) (fun _ _ => Fine.ok _))

theorem decodeBitSequence_fine (R : Registry) (o s id : Nat) (b : Buf) (pos : Nat) :
    Fine (decodeBitSequence R o s id b pos) := by
  unfold decodeBitSequence
  refine Fine.bind (findBitOrder_fine _ _ _) (fun o _ => ?_)
  refine Fine.bind (R.get_fine _) (fun t _ => ?_)
  split
  · split
    · refine Fine.bind (intoBitvecDecode_fine _ _ _) (fun s _ => ?_)
      obtain ⟨s, pos'⟩ := s
      dsimp only
      split
      · exact Fine.ok _
      · exact Fine.err _
    · exact Fine.internal _
  · exact Fine.internal _

theorem withInfo_fine {info : List Info} {r : Res (PD × Nat)} (h : Fine r) :
    Fine (withInfo info r) := Fine.bind h (fun _ _ => Fine.ok _)

theorem checkMultiSignature_fine (R : Registry) (ty : Typ) (b : Buf) (pos : Nat) :
    Fine (checkMultiSignature R ty b pos) := by
  unfold checkMultiSignature
  split
  · refine Fine.bind (swallow_fine (pickVariant_fine _ _ _)) (fun o _ => ?_)
    split
    · split
      · rename_i f _
        obtain ⟨o, ho⟩ := signatureIndicator_total R f
        rw [ho, ok_bind]
        split <;> exact Fine.ok _
      · exact Fine.ok _
    · exact Fine.ok _
  · exact Fine.ok _

theorem checkPalletSpecific_fine (R : Registry) (item : PalletItem) (ty : Typ) (b : Buf)
    (pos : Nat) : Fine (checkPalletSpecific R item ty b pos) := by
  unfold checkPalletSpecific
  split
  · refine Fine.bind (swallow_fine (pickVariant_fine _ _ _)) (fun o _ => ?_)
    split
    · split
      · refine Fine.bind (swallow_fine (R.get_fine _)) (fun o _ => ?_)
        repeat' split
        all_goals exact Fine.ok _
      · exact Fine.ok _
    · exact Fine.ok _
  · exact Fine.ok _

theorem fromType_fine (R : Registry) (ty : Typ) (b : Buf) (pos : Nat) :
    Fine (TypeChecked.fromType R ty b pos) := by
  unfold TypeChecked.fromType
  split
  all_goals first
    | exact Fine.ok _ | exact checkMultiSignature_fine _ _ _ _
    | exact checkPalletSpecific_fine _ _ _ _ _

/-! ### The recursion -/

variable {R : Registry} {b : Buf}

/-- Nesting measure: unread bytes, then unseen ids. -/
def measure (R : Registry) (b : Buf) (pos : Nat) (c : Checker) : Nat :=
  (b.len - pos) * (R.size + 1) + free R c.cycleCheck

theorem measure_mono {pos pos' : Nat} (c : Checker) (h : pos ≤ pos') :
    measure R b pos' c ≤ measure R b pos c := by
  unfold measure
  have := Nat.mul_le_mul_right (R.size + 1) (show b.len - pos' ≤ b.len - pos by omega)
  omega

theorem measure_drop {pos pos' : Nat} (c c' : Checker) (h : pos < pos') (hl : pos' ≤ b.len) :
    measure R b pos' c' < measure R b pos c := by
  unfold measure
  have h1 := free_le R c'.cycleCheck
  have := Nat.mul_le_mul_right (R.size + 1) (show b.len - pos' + 1 ≤ b.len - pos by omega)
  rw [Nat.succ_mul] at this
  omega

/-- Recursive calls are fine below a bound, or when the type can not be resolved. -/
structure RecFine (R : Registry) (b : Buf) (rec : Dec) (m : Nat) : Prop where
  fine : ∀ tyIn pos p, measure R b pos p.checker < m → Fine (rec tyIn pos p)
  unresolved : ∀ id pos p e, R.get id = .error e → Fine (rec (.symbol id) pos p)
  forward : ∀ tyIn pos p d pos', rec tyIn pos p = .ok (d, pos') → pos ≤ pos'

theorem forField_ok {c : Checker} {f : Field} {p : Propagated} (h : Propagated.forField c f = .ok p) :
    c.cycleCheck.contains f.ty = false ∧ p.checker.cycleCheck = c.cycleCheck ++ [f.ty] ∧ p.info = [] ∧
      p.checker.specialtySet = (c.hintFromField f).specialtySet := by
  unfold Propagated.forField Checker.updateForField at h
  obtain ⟨c', h1, h2⟩ := bind_ok.1 h
  obtain ⟨h3, rfl⟩ := checkId_ok.1 h1
  cases h2
  rw [hintFromField_cycle] at h3
  exact ⟨h3, by simp [hintFromField_cycle], rfl, rfl⟩

theorem forField_fine (c : Checker) (f : Field) : Fine (Propagated.forField c f) :=
  Fine.bind (checkId_fine _ _) (fun _ _ => Fine.ok _)

theorem forTy_ok {c : Checker} {t : Typ} {id : Nat} {p : Propagated}
    (h : Propagated.forTy c t id = .ok p) :
    c.cycleCheck.contains id = false ∧ p.checker.cycleCheck = c.cycleCheck ++ [id] ∧ p.info = [] ∧
      p.checker.specialtySet = c.specialtySet.updateFromPath t := by
  unfold Propagated.forTy Checker.updateForTy at h
  obtain ⟨c', h1, h2⟩ := bind_ok.1 h
  obtain ⟨c'', h3, h4⟩ := bind_ok.1 h1
  obtain ⟨h5, rfl⟩ := checkId_ok.1 h3
  cases h4
  cases h2
  exact ⟨h5, rfl, rfl, rfl⟩

theorem forTy_fine (c : Checker) (t : Typ) (id : Nat) : Fine (Propagated.forTy c t id) :=
  Fine.bind (Fine.bind (checkId_fine _ _) (fun _ _ => Fine.ok _)) (fun _ _ => Fine.ok _)

theorem decodeFieldsLoop_fine {rec : Dec} {m : Nat} (hr : RecFine R b rec m) (c : Checker)
    (fs : List Field) : ∀ pos, measure R b pos c < m + 1 → Fine (decodeFieldsLoop rec c fs pos) := by
  induction fs with
  | nil => intro pos _; exact Fine.ok _
  | cons f fs ih =>
    intro pos hm
    refine Fine.bind (forField_fine _ _) (fun p hp => ?_)
    obtain ⟨h1, h2, h3, _⟩ := forField_ok hp
    refine Fine.bind ?_ (fun r hrr => ?_)
    · rcases (R.get_fine f.ty).cases with ⟨t, ht⟩ | ⟨e, he⟩
      · refine hr.fine _ _ _ ?_
        have := free_append R (Registry.get_lt ht) h1
        unfold measure at hm ⊢
        rw [h2]; omega
      · exact hr.unresolved _ _ _ _ he
    · obtain ⟨d, pos'⟩ := r
      have hle := hr.forward _ _ _ _ _ hrr
      refine Fine.bind (ih pos' ?_) (fun _ _ => Fine.ok _)
      have := measure_mono (R := R) (b := b) c hle
      omega

theorem forgetHint_cycle (c : Checker) : c.forgetHint.cycleCheck = c.cycleCheck := rfl

theorem decodeFields_fine {rec : Dec} {m : Nat} (hr : RecFine R b rec m) (c : Checker)
    (fs : List Field) (pos : Nat) (hm : measure R b pos c < m + 1) :
    Fine (decodeFields rec fs pos c) := by
  unfold decodeFields
  split
  · refine Fine.bind (rejectCompact_fine _) (fun _ _ => ?_)
    exact decodeFieldsLoop_fine hr _ _ _ hm
  · exact decodeFieldsLoop_fine hr _ _ _ hm

theorem decodeElementsLoop_fine {rec : Dec} {m : Nat} (hr : RecFine R b rec m) (h : HuskedType)
    (n : Nat) : ∀ pos, measure R b pos h.checker < m → Fine (decodeElementsLoop rec h n pos) := by
  induction n with
  | zero => intro pos _; exact Fine.ok _
  | succ n ih =>
    intro pos hm
    refine Fine.bind (hr.fine _ _ _ hm) (fun r hrr => ?_)
    obtain ⟨d, pos'⟩ := r
    have hle := hr.forward _ _ _ _ _ hrr
    refine Fine.bind (ih pos' ?_) (fun _ _ => Fine.ok _)
    have := measure_mono (R := R) (b := b) h.checker hle
    omega

theorem huskLoop_free {n : Nat} : ∀ {ty : Typ} {id : Nat} {info : List Info} {c : Checker}
    {h : HuskedType}, huskLoop R n ty id info c = .ok h →
    free R h.checker.cycleCheck ≤ free R c.cycleCheck := by
  induction n with
  | zero => intro ty id info c h hh; cases hh
  | succ n ih =>
    intro ty id info c h hh
    unfold huskLoop at hh
    dsimp only at hh
    split at hh
    · split at hh
      · obtain ⟨c', h0, hh⟩ := bind_ok.1 hh
        obtain ⟨h1, rfl⟩ := checkId_ok.1 h0
        obtain ⟨t, ht, hh⟩ := bind_ok.1 hh
        have := ih hh
        rw [hintFromField_cycle] at this
        have h2 := free_append R (Registry.get_lt ht) h1
        dsimp only at this
        omega
      · obtain ⟨_, _, hh⟩ := bind_ok.1 hh
        obtain ⟨c', h0, hh⟩ := bind_ok.1 hh
        obtain ⟨h1, rfl⟩ := checkId_ok.1 h0
        obtain ⟨t, ht, hh⟩ := bind_ok.1 hh
        have := ih hh
        have h2 := free_append R (Registry.get_lt ht) h1
        dsimp only at *
        omega
      · cases hh; exact Nat.le_refl _
    · cases hh; exact Nat.le_refl _

theorem huskType_free {id : Nat} {c : Checker} {h : HuskedType} (hh : huskType R id c = .ok h) :
    free R h.checker.cycleCheck < free R c.cycleCheck := by
  unfold huskType at hh
  obtain ⟨c', h0, hh⟩ := bind_ok.1 hh
  obtain ⟨h1, rfl⟩ := checkId_ok.1 h0
  obtain ⟨t, ht, hh⟩ := bind_ok.1 hh
  have := huskLoop_free hh
  have h2 := free_append R (Registry.get_lt ht) h1
  dsimp only at *
  omega

theorem decodeElementsSet_fine {rec : Dec} {m : Nat} (hr : RecFine R b rec m) (elem n pos : Nat)
    (p : Propagated) (hm : measure R b pos p.checker < m + 1) :
    Fine (decodeElementsSet R rec elem n pos p) := by
  unfold decodeElementsSet
  refine Fine.bind (rejectCompact_fine _) (fun _ _ => ?_)
  refine Fine.bind (huskType_fine _ _ _) (fun h hh => ?_)
  split
  · exact Fine.ok _
  · have := huskType_free hh
    refine Fine.bind (decodeElementsLoop_fine hr h n pos ?_) (fun r _ => ?_)
    · unfold measure at *; omega
    · obtain ⟨l, pos'⟩ := r
      dsimp only
      split <;> exact Fine.ok _

theorem decodeTupleLoop_fine {rec : Dec} {m : Nat} (hr : RecFine R b rec m) (c : Checker)
    (ids : List Nat) : ∀ pos, measure R b pos c < m + 1 → Fine (decodeTupleLoop R rec c ids pos) := by
  induction ids with
  | nil => intro pos _; exact Fine.ok _
  | cons id ids ih =>
    intro pos hm
    refine Fine.bind (R.get_fine _) (fun t ht => ?_)
    refine Fine.bind (forTy_fine _ _ _) (fun p hp => ?_)
    obtain ⟨h1, h2, h3, _⟩ := forTy_ok hp
    refine Fine.bind ?_ (fun r hrr => ?_)
    · refine hr.fine _ _ _ ?_
      have := free_append R (Registry.get_lt ht) h1
      unfold measure at hm ⊢
      rw [h2]; omega
    · obtain ⟨d, pos'⟩ := r
      have hle := hr.forward _ _ _ _ _ hrr
      refine Fine.bind (ih pos' ?_) (fun _ _ => Fine.ok _)
      have := measure_mono (R := R) (b := b) c hle
      omega

theorem pickVariant_pos {vs : List Variant} {pos : Nat} {v : Variant}
    (h : pickVariant vs b pos = .ok v) : pos + 1 ≤ b.len := by
  unfold pickVariant at h
  obtain ⟨i, h1, _⟩ := bind_ok.1 h
  exact (readByte_ok h1).le

theorem decodeVariant_fine {rec : Dec} {m : Nat} (hr : RecFine R b rec m) (vs : List Variant)
    (pos : Nat) (c : Checker) (hm : measure R b pos c < m + 1) :
    Fine (decodeVariant rec vs b pos) := by
  unfold decodeVariant
  refine Fine.bind (pickVariant_fine _ _ _) (fun v hv => ?_)
  refine Fine.bind (decodeFields_fine hr _ _ _ ?_) (fun _ _ => Fine.ok _)
  have := measure_drop (R := R) c Checker.new (show pos < pos + 1 by omega) (pickVariant_pos hv)
  omega

theorem decodeTypeDef_fine {rec : Dec} {m : Nat} (hr : RecFine R b rec m) (ty : Typ)
    (id pos : Nat) (p : Propagated) (hm : measure R b pos p.checker < m + 1) :
    Fine (decodeTypeDef R rec b ty id pos p) := by
  unfold decodeTypeDef
  split
  · exact Fine.bind (decodeFields_fine hr _ _ _ hm) (fun _ _ => Fine.ok _)
  · refine Fine.bind (rejectCompact_fine _) (fun _ _ => ?_)
    split
    · exact Fine.ok _
    · exact Fine.bind (decodeVariant_fine hr _ _ _ hm) (fun _ _ => Fine.ok _)
  · refine Fine.bind (getCompact_fine _ _ _) (fun r hrr => ?_)
    obtain ⟨n, pos'⟩ := r
    refine decodeElementsSet_fine hr _ _ _ _ ?_
    obtain ⟨_, h2, h3⟩ := getCompact_sound hrr
    have h4 := compactEncode_length_pos n
    have := measure_drop (R := R) p.checker p.checker.dropCycleCheck (show pos < pos' by omega)
      (show pos' ≤ b.len by have := h2.le; simp only [Buf.len]; omega)
    dsimp only; omega
  · exact decodeElementsSet_fine hr _ _ _ _ hm
  · unfold decodeTuple
    dsimp only
    split
    · refine Fine.bind (Fine.bind (rejectCompact_fine _) (fun _ _ => Fine.ok _)) (fun p' hp' => ?_)
      refine Fine.bind (decodeTupleLoop_fine hr _ _ _ ?_) (fun _ _ => Fine.ok _)
      obtain ⟨_, _, hp'⟩ := bind_ok.1 hp'
      cases hp'; exact hm
    · refine Fine.bind (Fine.ok _) (fun p' hp' => ?_)
      refine Fine.bind (decodeTupleLoop_fine hr _ _ _ ?_) (fun _ _ => Fine.ok _)
      cases hp'; exact hm
  · exact withInfo_fine (decodePrimitive_fine _ _ _ _)
  · refine Fine.bind (rejectCompact_fine _) (fun _ _ => ?_)
    refine Fine.bind (checkId_fine _ _) (fun c hc => ?_)
    obtain ⟨h1, rfl⟩ := checkId_ok.1 hc
    rename_i inner _ _ _
    rcases (R.get_fine inner).cases with ⟨t, ht⟩ | ⟨e, he⟩
    · refine hr.fine _ _ _ ?_
      have := free_append R (Registry.get_lt ht) h1
      unfold measure at hm ⊢
      dsimp only at *
      omega
    · exact hr.unresolved _ _ _ _ he
  · refine Fine.bind (rejectCompact_fine _) (fun _ _ => ?_)
    exact withInfo_fine (decodeBitSequence_fine _ _ _ _ _ _)

theorem addInfo_checker (p : Propagated) (i : Info) : (p.addInfo i).checker = p.checker := by
  unfold Propagated.addInfo; split <;> rfl

theorem checkMultiSignature_pos {ty : Typ} {pos pos' : Nat} {sp : TypeChecked}
    (h : TypeChecked.fromType R ty b pos = .ok (sp, pos')) : pos ≤ pos' := by
  unfold TypeChecked.fromType at h
  split at h
  all_goals try (cases h; exact Nat.le_refl _)
  · unfold checkMultiSignature at h
    split at h
    · obtain ⟨o, _, h⟩ := bind_ok.1 h
      split at h
      · split at h
        · obtain ⟨o, _, h⟩ := bind_ok.1 h
          split at h <;> cases h <;> omega
        · cases h; omega
      · cases h; omega
    · cases h; omega
  · unfold checkPalletSpecific at h
    split at h
    · obtain ⟨o, _, h⟩ := bind_ok.1 h
      split at h
      · split at h
        · obtain ⟨o, _, h⟩ := bind_ok.1 h
          repeat' split at h
          all_goals cases h; omega
        · cases h; omega
      · cases h; omega
    · cases h; omega

theorem decodeStep_fine {rec : Dec} {m : Nat} (hr : RecFine R b rec m) (tyIn : TyIn) (pos : Nat)
    (p : Propagated) (hm : measure R b pos p.checker < m + 1) :
    Fine (decodeStep R b rec tyIn pos p) := by
  unfold decodeStep
  refine Fine.bind ?_ (fun r _ => ?_)
  · cases tyIn with
    | resolved ty id => exact Fine.ok _
    | symbol id => exact Fine.bind (R.get_fine _) (fun _ _ => Fine.ok _)
  · obtain ⟨ty, id⟩ := r
    refine Fine.bind (fromType_fine _ _ _ _) (fun r hrr => ?_)
    obtain ⟨sp, pos'⟩ := r
    have hle := checkMultiSignature_pos hrr
    have hm' : measure R b pos' (p.addInfo (Info.fromTy ty)).checker < m + 1 := by
      rw [addInfo_checker]
      have := measure_mono (R := R) (b := b) p.checker hle
      omega
    dsimp only
    unfold decodeChecked
    split
    · exact decodeTypeDef_fine hr _ _ _ _ hm'
    · exact withInfo_fine (parseFixed_fine _ _ _ _)
    · exact Fine.bind (rejectCompact_fine _) (fun _ _ =>
        Fine.bind (specialCaseEra_fine _ _) (fun _ _ => Fine.ok _))
    · exact Fine.bind (rejectCompact_fine _) (fun _ _ => withInfo_fine (specialCaseH256_fine _ _ _))
    · exact Fine.bind (rejectCompact_fine _) (fun _ _ =>
        Fine.bind (decodeVariant_fine hr _ _ _ hm') (fun _ _ => Fine.ok _))
    · exact withInfo_fine (parsePer_fine _ _ _ _)

theorem decodeF_forward (n : Nat) (tyIn : TyIn) (pos : Nat) (p : Propagated) (d : ED) (pos' : Nat)
    (h : decodeF R b n tyIn pos p = .ok (d, pos')) : pos ≤ pos' := by
  obtain ⟨bs, _, h2, _⟩ := (decodeF_parses R b n tyIn p).sound h
  omega

theorem decodeF_unresolved (n id pos : Nat) (p : Propagated) (e : Fail)
    (h : R.get id = .error e) : Fine (decodeF R b (n + 1) (.symbol id) pos p) := by
  have hf := R.get_fine id
  show Fine (decodeStep R b (decodeF R b n) (.symbol id) pos p)
  unfold decodeStep
  simp only [TyIn.resolve]
  rw [h] at hf ⊢
  exact Fine.bind (Fine.bind hf (fun _ hx => by cases hx)) (fun _ hx => by cases hx)

theorem decodeF_recFine (n : Nat) : RecFine R b (decodeF R b (n + 1)) n := by
  induction n with
  | zero =>
    exact ⟨fun _ _ _ h => absurd h (Nat.not_lt_zero _), fun id pos p e h => decodeF_unresolved 0 id pos p e h,
      decodeF_forward 1⟩
  | succ n ih =>
    exact ⟨fun tyIn pos p hm => decodeStep_fine ih tyIn pos p hm,
      fun id pos p e h => decodeF_unresolved (n + 1) id pos p e h, decodeF_forward (n + 2)⟩

/-- Enough nesting: no panic, no fuel exhaustion. -/
theorem decodeF_fine (n : Nat) (tyIn : TyIn) (pos : Nat) (p : Propagated)
    (h : measure R b pos p.checker + 2 ≤ n) : Fine (decodeF R b n tyIn pos p) := by
  obtain ⟨k, rfl⟩ : ∃ k, n = k + 1 := ⟨n - 1, by omega⟩
  exact (decodeF_recFine k).fine tyIn pos p (by omega)

theorem measure_le (pos : Nat) (c : Checker) : measure R b pos c + 2 ≤ depthBound R b pos := by
  unfold measure depthBound
  have := free_le R c.cycleCheck
  omega

theorem decode_fine (tyIn : TyIn) (pos : Nat) (p : Propagated) : Fine (decode R b tyIn pos p) :=
  decodeF_fine _ _ _ _ (measure_le pos p.checker)

/-! ### Monotonicity -/

/-- `r'` continues `r` if `r` ran out of fuel. -/
def Le {α : Type} (r r' : Res α) : Prop := r = .error .fuel ∨ r = r'

theorem Le.refl {α : Type} (r : Res α) : Le r r := .inr rfl

theorem Le.bind {α β : Type} {x x' : Res α} {f f' : α → Res β} (hx : Le x x')
    (hf : ∀ a, Le (f a) (f' a)) : Le (x >>= f) (x' >>= f') := by
  rcases hx with rfl | rfl
  · left; rfl
  · cases x with
    | error e => right; rfl
    | ok a => exact hf a

theorem Le.bindL {α β : Type} (x : Res α) {f f' : α → Res β}
    (hf : ∀ a, Le (f a) (f' a)) : Le (x >>= f) (x >>= f') := Le.bind (Le.refl x) hf

/-- Recursive calls grow. -/
def RecLe (rec rec' : Dec) : Prop := ∀ tyIn pos p, Le (rec tyIn pos p) (rec' tyIn pos p)

variable {rec rec' : Dec}

theorem decodeFieldsLoop_le (h : RecLe rec rec') (c : Checker) (fs : List Field) (pos : Nat) :
    Le (decodeFieldsLoop rec c fs pos) (decodeFieldsLoop rec' c fs pos) := by
  induction fs generalizing pos with
  | nil => exact Le.refl _
  | cons f fs ih =>
    exact Le.bindL _ (fun p => Le.bind (h _ _ _) (fun r => Le.bind (ih _) (fun _ => Le.refl _)))

theorem decodeFields_le (h : RecLe rec rec') (c : Checker) (fs : List Field) (pos : Nat) :
    Le (decodeFields rec fs pos c) (decodeFields rec' fs pos c) := by
  unfold decodeFields
  split
  · exact Le.bindL _ (fun _ => decodeFieldsLoop_le h _ _ _)
  · exact decodeFieldsLoop_le h _ _ _

theorem decodeElementsLoop_le (h : RecLe rec rec') (hu : HuskedType) (n pos : Nat) :
    Le (decodeElementsLoop rec hu n pos) (decodeElementsLoop rec' hu n pos) := by
  induction n generalizing pos with
  | zero => exact Le.refl _
  | succ n ih => exact Le.bind (h _ _ _) (fun r => Le.bind (ih _) (fun _ => Le.refl _))

theorem decodeElementsSet_le (h : RecLe rec rec') (elem n pos : Nat) (p : Propagated) :
    Le (decodeElementsSet R rec elem n pos p) (decodeElementsSet R rec' elem n pos p) := by
  unfold decodeElementsSet
  refine Le.bindL _ (fun _ => Le.bindL _ (fun hu => ?_))
  split
  · exact Le.refl _
  · exact Le.bind (decodeElementsLoop_le h _ _ _) (fun _ => Le.refl _)

theorem decodeTupleLoop_le (h : RecLe rec rec') (c : Checker) (ids : List Nat) (pos : Nat) :
    Le (decodeTupleLoop R rec c ids pos) (decodeTupleLoop R rec' c ids pos) := by
  induction ids generalizing pos with
  | nil => exact Le.refl _
  | cons id ids ih =>
    exact Le.bindL _ (fun _ => Le.bindL _ (fun p =>
      Le.bind (h _ _ _) (fun r => Le.bind (ih _) (fun _ => Le.refl _))))

theorem decodeVariant_le (h : RecLe rec rec') (vs : List Variant) (pos : Nat) :
    Le (decodeVariant rec vs b pos) (decodeVariant rec' vs b pos) :=
  Le.bindL _ (fun _ => Le.bind (decodeFields_le h _ _ _) (fun _ => Le.refl _))

theorem decodeStep_le (h : RecLe rec rec') : RecLe (decodeStep R b rec) (decodeStep R b rec') := by
  intro tyIn pos p
  unfold decodeStep
  refine Le.bindL _ (fun r => ?_)
  obtain ⟨ty, id⟩ := r
  refine Le.bindL _ (fun r => ?_)
  obtain ⟨sp, pos⟩ := r
  dsimp only
  unfold decodeChecked
  split
  · unfold decodeTypeDef
    split
    · exact Le.bind (decodeFields_le h _ _ _) (fun _ => Le.refl _)
    · refine Le.bindL _ (fun _ => ?_)
      split
      · exact Le.refl _
      · exact Le.bind (decodeVariant_le h _ _) (fun _ => Le.refl _)
    · exact Le.bindL _ (fun _ => decodeElementsSet_le h _ _ _ _)
    · exact decodeElementsSet_le h _ _ _ _
    · unfold decodeTuple
      dsimp only
      split
      · exact Le.bindL _ (fun _ => Le.bind (decodeTupleLoop_le h _ _ _) (fun _ => Le.refl _))
      · exact Le.bindL _ (fun _ => Le.bind (decodeTupleLoop_le h _ _ _) (fun _ => Le.refl _))
    · exact Le.refl _
    · exact Le.bindL _ (fun _ => Le.bindL _ (fun _ => h _ _ _))
    · exact Le.refl _
  · exact Le.refl _
  · exact Le.refl _
  · exact Le.refl _
  · exact Le.bindL _ (fun _ => Le.bind (decodeVariant_le h _ _) (fun _ => Le.refl _))
  · exact Le.refl _

theorem decodeF_le (n k : Nat) : RecLe (decodeF R b n) (decodeF R b (n + k)) := by
  induction n with
  | zero => intro _ _ _; left; rfl
  | succ n ih =>
    rw [show n + 1 + k = (n + k) + 1 by omega]
    exact decodeStep_le ih

/-- Any bound that is large enough gives the same outcome. -/
theorem decodeF_eq_decode (n : Nat) (tyIn : TyIn) (pos : Nat) (p : Propagated)
    (h : measure R b pos p.checker + 2 ≤ n) : decodeF R b n tyIn pos p = decode R b tyIn pos p := by
  have key : ∀ m k, measure R b pos p.checker + 2 ≤ m →
      decodeF R b m tyIn pos p = decodeF R b (m + k) tyIn pos p := by
    intro m k hm
    rcases decodeF_le (R := R) (b := b) m k tyIn pos p with hl | hl
    · obtain ⟨e, he⟩ := decodeF_fine (R := R) (b := b) m tyIn pos p hm _ hl
      cases he
    · exact hl
  have hb := measure_le (R := R) (b := b) pos p.checker
  unfold decode
  rcases Nat.le_total n (depthBound R b pos) with hle | hle
  · have := key n (depthBound R b pos - n) h
    rwa [show n + (depthBound R b pos - n) = depthBound R b pos by omega] at this
  · have := key (depthBound R b pos) (n - depthBound R b pos) hb
    rw [show depthBound R b pos + (n - depthBound R b pos) = n by omega] at this
    exact this.symm

theorem decodeF_ok_decode {n : Nat} {tyIn : TyIn} {pos : Nat} {p : Propagated} {r : ED × Nat}
    (h : decodeF R b n tyIn pos p = .ok r) : decode R b tyIn pos p = .ok r := by
  rcases decodeF_le (R := R) (b := b) n (depthBound R b pos) tyIn pos p with hl | hl
  · rw [hl] at h; cases h
  · rw [h] at hl
    rw [← decodeF_eq_decode (n + depthBound R b pos) tyIn pos p
      (by have := measure_le (R := R) (b := b) pos p.checker; omega)]
    exact hl.symm

end Verif
