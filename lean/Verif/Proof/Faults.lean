import Verif.Proof.Fix
/-!
Failing memory: the outcome is the memory error, or that of reliable memory.
-/
namespace Verif
open Spec

/-- The memory fails on some bytes of the data. -/
def Buf.Faulty (b : Buf) : Prop := ∃ p n, p + n ≤ b.bytes.length ∧ b.fault p n = true

/-- `r` is the error of failing memory, or is `r'`. -/
def Tame (b : Buf) {α : Type} (r r' : Res α) : Prop :=
  (b.Faulty ∧ r = .error (.err (.buffer .external))) ∨ r = r'

theorem Tame.refl {b : Buf} {α : Type} (r : Res α) : Tame b r r := .inr rfl

theorem Tame.bind {b : Buf} {α β : Type} {x x' : Res α} {f f' : α → Res β} (hx : Tame b x x')
    (hf : ∀ a, Tame b (f a) (f' a)) : Tame b (x >>= f) (x' >>= f') := by
  rcases hx with ⟨h, rfl⟩ | rfl
  · left; exact ⟨h, rfl⟩
  · cases x with
    | error e => right; rfl
    | ok a => exact hf a

theorem Tame.bindR {b : Buf} {α β : Type} {x x' : Res α} (f : α → Res β) (hx : Tame b x x') :
    Tame b (x >>= f) (x' >>= f) := Tame.bind hx fun _ => Tame.refl _

theorem Tame.bindL {b : Buf} {α β : Type} (x : Res α) {f f' : α → Res β}
    (hf : ∀ a, Tame b (f a) (f' a)) : Tame b (x >>= f) (x >>= f') := Tame.bind (Tame.refl x) hf

/-- The same bytes in reliable memory. -/
def Buf.clean (b : Buf) : Buf := Buf.ofBytes b.bytes

variable {R : Registry} {b : Buf}

theorem readSlice_tame (pos n : Nat) : Tame b (b.readSlice pos n) (b.clean.readSlice pos n) := by
  unfold Buf.readSlice
  show Tame b (if b.len < pos then _ else if b.len < pos + n then _ else if b.fault pos n then _ else _)
    (if b.len < pos then _ else if b.len < pos + n then _ else .ok _)
  split
  · exact .inr rfl
  · split
    · exact .inr rfl
    · split
      · rename_i h1 h2 h3
        exact .inl ⟨⟨pos, n, by unfold Buf.len at h2; omega, h3⟩, rfl⟩
      · exact .inr rfl

theorem readByte_tame (pos : Nat) : Tame b (b.readByte pos) (b.clean.readByte pos) :=
  Tame.bindR _ (readSlice_tame _ _)

theorem findCompactLoop_tame (dec : Bytes → Option Nat) (pos left i : Nat) :
    Tame b (findCompactLoop dec b pos left i) (findCompactLoop dec b.clean pos left i) := by
  induction left generalizing i with
  | zero => exact .inr rfl
  | succ left ih =>
    unfold findCompactLoop
    split
    · exact .inr rfl
    · refine Tame.bind (readSlice_tame _ _) fun s => ?_
      split
      · exact .inr rfl
      · exact ih _

theorem findCompact_tame (dec : Bytes → Option Nat) (pos : Nat) :
    Tame b (findCompact dec b pos) (findCompact dec b.clean pos) := by
  unfold findCompact
  show Tame b (if b.len < pos then _ else _) (if b.len < pos then _ else _)
  split
  · exact .inr rfl
  · exact Tame.bindR _ (findCompactLoop_tame _ _ _ _)

theorem getCompact_tame (dec : Bytes → Option Nat) (pos : Nat) :
    Tame b (getCompact dec b pos) (getCompact dec b.clean pos) := Tame.bindR _ (findCompact_tame _ _)

theorem cutArray_tame (n pos : Nat) : Tame b (cutArray n b pos) (cutArray n b.clean pos) :=
  Tame.bindR _ (readSlice_tame _ _)

theorem parseUInt_tame (w : UW) (pos : Nat) (s : SpecialtySet) :
    Tame b (parseUInt w b pos s) (parseUInt w b.clean pos s) := by
  unfold parseUInt
  dsimp only
  split
  · exact Tame.bindR _ (getCompact_tame _ _)
  · exact Tame.bindR _ (Tame.bindR _ (readSlice_tame _ _))

theorem parsePer_tame (k : PerKind) (pos : Nat) (c : Option Nat) :
    Tame b (parsePer k b pos c) (parsePer k b.clean pos c) := by
  unfold parsePer
  dsimp only
  split
  · exact Tame.bindR _ (getCompact_tame _ _)
  · exact Tame.bindR _ (Tame.bindR _ (readSlice_tame _ _))

theorem parseFixed_tame (k : FixedKind) (pos : Nat) (c : Option Nat) :
    Tame b (parseFixed k b pos c) (parseFixed k b.clean pos c) :=
  Tame.bindL _ fun _ => Tame.bindR _ (cutArray_tame _ _)

theorem specialCaseH256_tame (pos : Nat) (s : SpecH256) :
    Tame b (specialCaseH256 b pos s) (specialCaseH256 b.clean pos s) := Tame.bindR _ (cutArray_tame _ _)

theorem specialCaseEra_tame (pos : Nat) : Tame b (specialCaseEra b pos) (specialCaseEra b.clean pos) := by
  unfold specialCaseEra
  refine Tame.bind (readSlice_tame _ _) fun s => ?_
  split
  · exact .inr rfl
  · exact Tame.bindR _ (readSlice_tame _ _)

theorem parseInt_tame (w : IW) (pos : Nat) (c : Option Nat) :
    Tame b (parseInt w b pos c) (parseInt w b.clean pos c) :=
  Tame.bindL _ fun _ => Tame.bindR _ (Tame.bindR _ (readSlice_tame _ _))

theorem decodeStr_tame (pos : Nat) (h : Hint) : Tame b (decodeStr b pos h) (decodeStr b.clean pos h) :=
  Tame.bind (findCompact_tame _ _) fun _ => Tame.bindR _ (readSlice_tame _ _)

theorem decodePrimitive_tame (p : Prim) (pos : Nat) (s : SpecialtySet) :
    Tame b (decodePrimitive p b pos s) (decodePrimitive p b.clean pos s) := by
  unfold decodePrimitive
  cases p with
  | bool => exact Tame.bindL _ fun _ => Tame.bindR _ (Tame.bindR _ (readSlice_tame _ _))
  | char => exact Tame.bindL _ fun _ => Tame.bindR _ (Tame.bindR _ (readSlice_tame _ _))
  | u256 => exact Tame.bindL _ fun _ => Tame.bindR _ (Tame.bindR _ (readSlice_tame _ _))
  | str => exact Tame.bindL _ fun _ => decodeStr_tame _ _
  | u8 | u16 | u32 | u64 | u128 => exact parseUInt_tame _ _ _
  | i8 | i16 | i32 | i64 | i128 | i256 => exact parseInt_tame _ _ _

theorem intoBitvecDecode_tame (st : BitStore) (pos : Nat) :
    Tame b (intoBitvecDecode st b pos) (intoBitvecDecode st b.clean pos) :=
  Tame.bind (Tame.bindR _ (findCompact_tame _ _)) fun _ => Tame.bindR _ (readSlice_tame _ _)

theorem decodeBitSequence_tame (o s id pos : Nat) :
    Tame b (decodeBitSequence R o s id b pos) (decodeBitSequence R o s id b.clean pos) := by
  unfold decodeBitSequence
  refine Tame.bindL _ fun _ => Tame.bindL _ fun t => ?_
  split
  · split
    · exact Tame.bindR _ (intoBitvecDecode_tame _ _)
    · exact .inr rfl
  · exact .inr rfl

theorem withInfo_tame {info : List Info} {r r' : Res (PD × Nat)} (h : Tame b r r') :
    Tame b (withInfo info r) (withInfo info r') := Tame.bindR _ h

/-! ### The recursion -/

/-- Recursive calls are tame. -/
def RecTame (b : Buf) (rec rec' : Dec) : Prop := ∀ tyIn pos p, Tame b (rec tyIn pos p) (rec' tyIn pos p)

variable {rec rec' : Dec}

theorem decodeFieldsLoop_tame (h : RecTame b rec rec') (c : Checker) (fs : List Field) (pos : Nat) :
    Tame b (decodeFieldsLoop rec c fs pos) (decodeFieldsLoop rec' c fs pos) := by
  induction fs generalizing pos with
  | nil => exact Tame.refl _
  | cons f fs ih =>
    exact Tame.bindL _ (fun p => Tame.bind (h _ _ _) (fun r => Tame.bindR _ (ih _)))

theorem decodeFields_tame (h : RecTame b rec rec') (c : Checker) (fs : List Field) (pos : Nat) :
    Tame b (decodeFields rec fs pos c) (decodeFields rec' fs pos c) := by
  unfold decodeFields
  split
  · exact Tame.bindL _ (fun _ => decodeFieldsLoop_tame h _ _ _)
  · exact decodeFieldsLoop_tame h _ _ _

theorem decodeElementsLoop_tame (h : RecTame b rec rec') (hu : HuskedType) (n pos : Nat) :
    Tame b (decodeElementsLoop rec hu n pos) (decodeElementsLoop rec' hu n pos) := by
  induction n generalizing pos with
  | zero => exact Tame.refl _
  | succ n ih => exact Tame.bind (h _ _ _) (fun r => Tame.bindR _ (ih _))

theorem decodeElementsSet_tame (h : RecTame b rec rec') (elem n pos : Nat) (p : Propagated) :
    Tame b (decodeElementsSet R rec elem n pos p) (decodeElementsSet R rec' elem n pos p) := by
  unfold decodeElementsSet
  refine Tame.bindL _ (fun _ => Tame.bindL _ (fun hu => ?_))
  split
  · exact Tame.refl _
  · exact Tame.bindR _ (decodeElementsLoop_tame h _ _ _)

theorem decodeTupleLoop_tame (h : RecTame b rec rec') (c : Checker) (ids : List Nat) (pos : Nat) :
    Tame b (decodeTupleLoop R rec c ids pos) (decodeTupleLoop R rec' c ids pos) := by
  induction ids generalizing pos with
  | nil => exact Tame.refl _
  | cons id ids ih =>
    exact Tame.bindL _ (fun _ => Tame.bindL _ (fun p =>
      Tame.bind (h _ _ _) (fun r => Tame.bindR _ (ih _))))

theorem pickVariant_tame (vs : List Variant) (pos : Nat) :
    Tame b (pickVariant vs b pos) (pickVariant vs b.clean pos) := Tame.bindR _ (readByte_tame _)

theorem decodeVariant_tame (h : RecTame b rec rec') (vs : List Variant) (pos : Nat) :
    Tame b (decodeVariant rec vs b pos) (decodeVariant rec' vs b.clean pos) :=
  Tame.bind (pickVariant_tame _ _) (fun _ => Tame.bindR _ (decodeFields_tame h _ _ _))

theorem decodeTypeDef_tame (h : RecTame b rec rec') (ty : Typ) (id pos : Nat) (p : Propagated) :
    Tame b (decodeTypeDef R rec b ty id pos p) (decodeTypeDef R rec' b.clean ty id pos p) := by
  unfold decodeTypeDef
  split
  · exact Tame.bindR _ (decodeFields_tame h _ _ _)
  · refine Tame.bindL _ (fun _ => ?_)
    split
    · exact Tame.refl _
    · exact Tame.bindR _ (decodeVariant_tame h _ _)
  · exact Tame.bind (getCompact_tame _ _) (fun _ => decodeElementsSet_tame h _ _ _ _)
  · exact decodeElementsSet_tame h _ _ _ _
  · unfold decodeTuple
    dsimp only
    split
    · exact Tame.bindL _ (fun _ => Tame.bindR _ (decodeTupleLoop_tame h _ _ _))
    · exact Tame.bindL _ (fun _ => Tame.bindR _ (decodeTupleLoop_tame h _ _ _))
  · exact withInfo_tame (decodePrimitive_tame _ _ _)
  · exact Tame.bindL _ (fun _ => Tame.bindL _ (fun _ => h _ _ _))
  · exact Tame.bindL _ (fun _ => withInfo_tame (decodeBitSequence_tame _ _ _ _))

theorem decodeChecked_tame (h : RecTame b rec rec') (sp : TypeChecked) (ty : Typ) (id pos : Nat) (p : Propagated) :
    Tame b (decodeChecked R rec b sp ty id pos p) (decodeChecked R rec' b.clean sp ty id pos p) := by
  unfold decodeChecked
  split
  · exact decodeTypeDef_tame h _ _ _ _
  · exact withInfo_tame (parseFixed_tame _ _ _)
  · exact Tame.bindL _ (fun _ => Tame.bindR _ (specialCaseEra_tame _))
  · exact Tame.bindL _ (fun _ => withInfo_tame (specialCaseH256_tame _ _))
  · exact Tame.bindL _ (fun _ => Tame.bindR _ (decodeVariant_tame h _ _))
  · exact withInfo_tame (parsePer_tame _ _ _)

/-- Recognition gives the same in reliable memory, or the index byte can not be read. -/
theorem fromType_tame (ty : Typ) (pos : Nat) :
    TypeChecked.fromType R ty b pos = TypeChecked.fromType R ty b.clean pos ∨
    ∃ vs, ty.typeDef = .variant vs ∧ (TypeHinted.fromType ty).open = true ∧
      b.Faulty ∧ b.readByte pos = .error (.err (.buffer .external)) := by
  by_cases ho : (TypeHinted.fromType ty).open = true
  · cases hd : ty.typeDef with
    | variant vs =>
      rcases readByte_tame (b := b) pos with h | h
      · exact .inr ⟨vs, rfl, ho, h⟩
      · left
        rcases (readByte_fine b pos).cases with ⟨i, hi⟩ | ⟨e, he⟩
        · rw [fromType_enum_ok ho hd hi, fromType_enum_ok ho hd (h ▸ hi)]
        · rw [fromType_enum_err ho hd he, fromType_enum_err ho hd (h ▸ he)]
    | _ =>
      left
      rw [fromType_nonEnum ho (by simp [hd]), fromType_nonEnum ho (by simp [hd])]
  · left
    unfold TypeChecked.fromType
    cases hh : TypeHinted.fromType ty <;> first | rfl | (rw [hh] at ho; exact absurd rfl ho)

theorem decodeStep_tame (h : RecTame b rec rec') :
    RecTame b (decodeStep R b rec) (decodeStep R b.clean rec') := by
  intro tyIn pos p
  unfold decodeStep
  refine Tame.bindL _ (fun r => ?_)
  obtain ⟨ty, id⟩ := r
  dsimp only
  rcases fromType_tame (R := R) (b := b) ty pos with hf | ⟨vs, hd, ho, hF, hb⟩
  · rw [hf]
    exact Tame.bindL _ (fun r => decodeChecked_tame h _ _ _ _ _)
  · rw [fromType_enum_err ho hd hb, ok_bind]
    -- the byte is asked for again
    rcases hr : (p.addInfo (Info.fromTy ty)).rejectCompact with e | u
    · right
      obtain ⟨sp, q, h1, h2⟩ : ∃ sp q, TypeChecked.fromType R ty b.clean pos = .ok (sp, q) ∧
          (sp = .none ∨ (∃ k, sp = .fixed k) ∨ ∃ n i v' it, sp = .palletSpecific n i v' it) := by
        rcases (readByte_fine b.clean pos).cases with ⟨i, hi⟩ | ⟨e, he⟩
        · refine ⟨_, _, fromType_enum_ok ho hd hi, ?_⟩
          rcases enumSpecial_cases (R := R) (TypeHinted.fromType ty) vs i with h | ⟨k, _, h⟩ | ⟨it, n, inf, vs', _, h⟩
          · exact .inl h
          · exact .inr (.inl ⟨k, h⟩)
          · exact .inr (.inr ⟨n, inf, vs', it, h⟩)
        · exact ⟨_, _, fromType_enum_err ho hd he, .inl rfl⟩
      rw [h1, ok_bind]
      have hl : decodeChecked R rec b .none ty id pos (p.addInfo (Info.fromTy ty)) = .error e := by
        simp only [decodeChecked, decodeTypeDef, hd, hr, error_bind]
      rw [hl]
      rcases h2 with rfl | ⟨k, rfl⟩ | ⟨n, i, v', it, rfl⟩
      · simp only [decodeChecked, decodeTypeDef, hd, hr, error_bind]
      · have hc : blockCompact (p.addInfo (Info.fromTy ty)).compactAt = .error e := hr
        simp only [decodeChecked, parseFixed, hc, error_bind, withInfo]
      · simp only [decodeChecked, hr, error_bind]
    · cases vs with
      | nil =>
        have h1 : TypeChecked.fromType R ty b.clean pos = .ok (.none, pos) := by
          rcases (readByte_fine b.clean pos).cases with ⟨i, hi⟩ | ⟨e, he⟩
          · rw [fromType_enum_ok ho hd hi]
            have : enumSpecial R (TypeHinted.fromType ty) [] i = .none := by
              apply Classical.byContradiction
              intro hc
              obtain ⟨v, hv⟩ := enumSpecial_find hc
              cases hv
            rw [this]; rfl
          · exact fromType_enum_err ho hd he
        rw [h1, ok_bind]
        exact decodeChecked_tame h _ _ _ _ _
      | cons v vs =>
        left
        refine ⟨hF, ?_⟩
        simp only [decodeChecked, decodeTypeDef, hd, hr, ok_bind, List.isEmpty_cons, decodeVariant, pickVariant, hb,
          error_bind]
        rfl

theorem decodeF_tame (n : Nat) : RecTame b (decodeF R b n) (decodeF R b.clean n) := by
  induction n with
  | zero => intro _ _ _; exact .inr rfl
  | succ n ih => exact decodeStep_tame ih

theorem decode_tame : RecTame b (decode R b) (decode R b.clean) :=
  fun tyIn pos p => decodeF_tame (depthBound R b pos) tyIn pos p

end Verif
