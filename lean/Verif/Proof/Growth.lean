import Verif.Spec.Growth
import Verif.Proof.Faults
import Verif.Props.Compact
/-!
More data after the same beginning: the outcome is the same, or an error that blames the
end of the data.
-/
namespace Verif
open Spec

/-- `b'` has the data of `b` and more behind; nothing fails. -/
structure Longer (b b' : Buf) : Prop where
  rel : Reliable b
  rel' : Reliable b'
  data : ∃ more, b'.bytes = b.bytes ++ more

/-- `r` blames the end of `b` (and `b'` has what is asked for), or is `r'`. -/
def Grown (b b' : Buf) {α : Type} (r r' : Res α) : Prop :=
  r = r' ∨
  (∃ q n, r = .error (.err (.buffer (.dataTooShort q n))) ∧ q ≤ b.len ∧ b.len < q + n ∧ q + n ≤ b'.len) ∨
  (∃ q v more, r = .error (.err (.noCompact q)) ∧ q ≤ b.len ∧ v < 2 ^ 128 ∧ more ≠ [] ∧
    compactEncode v = b.bytes.drop q ++ more ∧ q + (compactEncode v).length ≤ b'.len) ∨
  (∃ q n, r = .error (.err (.buffer (.outOfRange q n))) ∧ b.len < q)

variable {b b' : Buf}

theorem Grown.refl {α : Type} (r : Res α) : Grown b b' r r := .inl rfl

theorem Grown.bind {α β : Type} {x x' : Res α} {f f' : α → Res β} (hx : Grown b b' x x')
    (hf : ∀ a, Grown b b' (f a) (f' a)) : Grown b b' (x >>= f) (x' >>= f') := by
  rcases hx with rfl | ⟨q, n, rfl, h⟩ | ⟨q, v, more, rfl, h⟩ | ⟨q, n, rfl, h⟩
  · cases x with
    | error e => exact .inl rfl
    | ok a => exact hf a
  · exact .inr (.inl ⟨q, n, rfl, h⟩)
  · exact .inr (.inr (.inl ⟨q, v, more, rfl, h⟩))
  · exact .inr (.inr (.inr ⟨q, n, rfl, h⟩))

theorem Grown.bindR {α β : Type} {x x' : Res α} (f : α → Res β) (hx : Grown b b' x x') :
    Grown b b' (x >>= f) (x' >>= f) := Grown.bind hx fun _ => Grown.refl _

theorem Grown.bindL {α β : Type} (x : Res α) {f f' : α → Res β}
    (hf : ∀ a, Grown b b' (f a) (f' a)) : Grown b b' (x >>= f) (x >>= f') := Grown.bind (Grown.refl x) hf

theorem Longer.le (h : Longer b b') : b.len ≤ b'.len := by
  obtain ⟨more, h⟩ := h.data
  simp [Buf.len, h]

theorem Longer.at (h : Longer b b') {pos : Nat} {bs : Bytes} (hat : At b.bytes pos bs) : At b'.bytes pos bs := by
  obtain ⟨more, h⟩ := h.data
  obtain ⟨pre, post, h1, h2⟩ := hat
  exact ⟨pre, post ++ more, by rw [h, h1]; simp, h2⟩

theorem Longer.drop (h : Longer b b') {pos : Nat} (hp : pos ≤ b.len) :
    ∃ more, b'.bytes.drop pos = b.bytes.drop pos ++ more := by
  obtain ⟨more, h⟩ := h.data
  exact ⟨more, by rw [h, List.drop_append_of_le_length hp]⟩

variable {R : Registry}

theorem readSlice_grown (hl : Longer b b') (pos n : Nat) :
    Grown b b' (b.readSlice pos n) (b'.readSlice pos n) := by
  unfold Buf.readSlice
  split
  · rename_i h; exact .inr (.inr (.inr ⟨_, _, rfl, h⟩))
  · rename_i h1
    have := hl.le
    rw [if_neg (by omega : ¬ b'.len < pos)]
    split
    · rename_i h2
      split
      · exact .inl rfl
      · exact .inr (.inl ⟨_, _, rfl, by omega, h2, by omega⟩)
    · rename_i h2
      rw [if_neg (by omega : ¬ b'.len < pos + n), hl.rel, hl.rel']
      left
      obtain ⟨more, hm⟩ := hl.drop (pos := pos) (by omega)
      have h3 : n ≤ (b.bytes.drop pos).length := by simp only [List.length_drop]; unfold Buf.len at h2; omega
      simp only [Bool.false_eq_true, if_false, hm, List.take_append_of_le_length h3]

theorem readByte_grown (hl : Longer b b') (pos : Nat) : Grown b b' (b.readByte pos) (b'.readByte pos) :=
  Grown.bindR _ (readSlice_grown hl _ _)

theorem findCompact_grown (hl : Longer b b') {w : UW} {g : Nat → Nat} (pos : Nat) :
    Grown b b' (findCompact (fun bs => (compactUInt w bs).map g) b pos)
      (findCompact (fun bs => (compactUInt w bs).map g) b' pos) := by
  by_cases hp : b.len < pos
  · refine .inr (.inr (.inr ⟨pos, b.len, ?_, hp⟩))
    unfold findCompact
    rw [if_pos hp]
  · have hle := hl.le
    by_cases hv : ∃ v, v < 2 ^ (8 * w.bytes) ∧ At b.bytes pos (compactEncode v)
    · obtain ⟨v, h1, h2⟩ := hv
      rw [findCompact_complete_map hl.rel h1 h2, findCompact_complete_map hl.rel' h1 (hl.at h2)]
      exact .inl rfl
    · have none_of : ∀ {c : Buf}, Reliable c → pos ≤ c.len →
          (∀ v, v < 2 ^ (8 * w.bytes) → ¬ At c.bytes pos (compactEncode v)) →
          findCompact (fun bs => (compactUInt w bs).map g) c pos = .error (.err (.noCompact pos)) := by
        intro c hr hc hn
        cases hf : findCompact (fun bs => (compactUInt w bs).map g) c pos with
        | ok f =>
          obtain ⟨v, h1, _, h2, _⟩ := findCompact_sound_map hf
          exact absurd h2 (hn _ h1)
        | error e =>
          unfold findCompact at hf
          rw [if_neg (by omega)] at hf
          obtain ⟨o, ho⟩ := findCompactLoop_ok (dec := fun bs => (compactUInt w bs).map g) hr hc (c.len - pos) 0 rfl
          rw [ho, ok_bind] at hf
          cases o with
          | none => simpa using hf.symm
          | some c => simp at hf
      have hb := none_of hl.rel (by omega) fun v h1 h2 => hv ⟨v, h1, h2⟩
      by_cases hv' : ∃ v, v < 2 ^ (8 * w.bytes) ∧ At b'.bytes pos (compactEncode v)
      · obtain ⟨v, h1, h2⟩ := hv'
        obtain ⟨more, hm⟩ := hl.drop (pos := pos) (by omega)
        obtain ⟨post, hpost⟩ : ∃ post, b'.bytes.drop pos = compactEncode v ++ post := by
          obtain ⟨pre, post, h3, h4⟩ := h2
          refine ⟨post, ?_⟩
          rw [h3, ← h4, List.append_assoc, List.drop_left]
        rw [hm] at hpost
        rcases List.append_eq_append_iff.1 hpost with ⟨x, h3, h4⟩ | ⟨x, h3, h4⟩
        · refine .inr (.inr (.inl ⟨pos, v, x, hb, by omega, lt_128 h1, ?_, h3, h2.le⟩))
          rintro rfl
          apply hv
          refine ⟨v, h1, b.bytes.take pos, [], ?_, ?_⟩
          · rw [h3]; simp
          · simp only [List.length_take]; unfold Buf.len at hp; omega
        · exfalso
          apply hv
          refine ⟨v, h1, b.bytes.take pos, x, ?_, ?_⟩
          · rw [List.append_assoc, ← h3, List.take_append_drop]
          · simp only [List.length_take]; unfold Buf.len at hp; omega
      · left
        rw [hb, none_of hl.rel' (by omega) fun v h1 h2 => hv' ⟨v, h1, h2⟩]

theorem findCompact_grown' (hl : Longer b b') {w : UW} (pos : Nat) :
    Grown b b' (findCompact (compactUInt w) b pos) (findCompact (compactUInt w) b' pos) := by
  have := findCompact_grown hl (w := w) (g := fun v => v) pos
  rwa [map_id_eq] at this

theorem getCompact_grown (hl : Longer b b') {w : UW} (pos : Nat) :
    Grown b b' (getCompact (compactUInt w) b pos) (getCompact (compactUInt w) b' pos) :=
  Grown.bindR _ (findCompact_grown' hl _)

theorem getCompactPer_grown (hl : Longer b b') (k : PerKind) (pos : Nat) :
    Grown b b' (getCompact (compactPer k) b pos) (getCompact (compactPer k) b' pos) :=
  Grown.bindR _ (findCompact_grown hl (w := k.inner) (g := fun v => min v k.accuracy) _)

theorem cutArray_grown (hl : Longer b b') (n pos : Nat) :
    Grown b b' (cutArray n b pos) (cutArray n b' pos) :=
  Grown.bindR _ (readSlice_grown hl _ _)

theorem parseUInt_grown (hl : Longer b b') (w : UW) (pos : Nat) (s : SpecialtySet) :
    Grown b b' (parseUInt w b pos s) (parseUInt w b' pos s) := by
  unfold parseUInt
  dsimp only
  split
  · exact Grown.bindR _ (getCompact_grown hl _)
  · exact Grown.bindR _ (Grown.bindR _ (readSlice_grown hl _ _))

theorem parsePer_grown (hl : Longer b b') (k : PerKind) (pos : Nat) (c : Option Nat) :
    Grown b b' (parsePer k b pos c) (parsePer k b' pos c) := by
  unfold parsePer
  dsimp only
  split
  · exact Grown.bindR _ (getCompactPer_grown hl _ _)
  · exact Grown.bindR _ (Grown.bindR _ (readSlice_grown hl _ _))

theorem parseFixed_grown (hl : Longer b b') (k : FixedKind) (pos : Nat) (c : Option Nat) :
    Grown b b' (parseFixed k b pos c) (parseFixed k b' pos c) :=
  Grown.bindL _ fun _ => Grown.bindR _ (cutArray_grown hl _ _)

theorem specialCaseH256_grown (hl : Longer b b') (pos : Nat) (s : SpecH256) :
    Grown b b' (specialCaseH256 b pos s) (specialCaseH256 b' pos s) := Grown.bindR _ (cutArray_grown hl _ _)

theorem specialCaseEra_grown (hl : Longer b b') (pos : Nat) :
    Grown b b' (specialCaseEra b pos) (specialCaseEra b' pos) := by
  unfold specialCaseEra
  refine Grown.bind (readSlice_grown hl _ _) fun s => ?_
  split
  · exact .inl rfl
  · exact Grown.bindR _ (readSlice_grown hl _ _)

theorem parseInt_grown (hl : Longer b b') (w : IW) (pos : Nat) (c : Option Nat) :
    Grown b b' (parseInt w b pos c) (parseInt w b' pos c) :=
  Grown.bindL _ fun _ => Grown.bindR _ (Grown.bindR _ (readSlice_grown hl _ _))

theorem decodeStr_grown (hl : Longer b b') (pos : Nat) (h : Hint) :
    Grown b b' (decodeStr b pos h) (decodeStr b' pos h) :=
  Grown.bind (findCompact_grown' hl _) fun _ => Grown.bindR _ (readSlice_grown hl _ _)

theorem decodePrimitive_grown (hl : Longer b b') (p : Prim) (pos : Nat) (s : SpecialtySet) :
    Grown b b' (decodePrimitive p b pos s) (decodePrimitive p b' pos s) := by
  unfold decodePrimitive
  cases p with
  | bool => exact Grown.bindL _ fun _ => Grown.bindR _ (Grown.bindR _ (readSlice_grown hl _ _))
  | char => exact Grown.bindL _ fun _ => Grown.bindR _ (Grown.bindR _ (readSlice_grown hl _ _))
  | u256 => exact Grown.bindL _ fun _ => Grown.bindR _ (Grown.bindR _ (readSlice_grown hl _ _))
  | str => exact Grown.bindL _ fun _ => decodeStr_grown hl _ _
  | u8 | u16 | u32 | u64 | u128 => exact parseUInt_grown hl _ _ _
  | i8 | i16 | i32 | i64 | i128 | i256 => exact parseInt_grown hl _ _ _

theorem intoBitvecDecode_grown (hl : Longer b b') (st : BitStore) (pos : Nat) :
    Grown b b' (intoBitvecDecode st b pos) (intoBitvecDecode st b' pos) :=
  Grown.bind (Grown.bindR _ (findCompact_grown' hl _)) fun _ => Grown.bindR _ (readSlice_grown hl _ _)

theorem decodeBitSequence_grown (hl : Longer b b') (o s id pos : Nat) :
    Grown b b' (decodeBitSequence R o s id b pos) (decodeBitSequence R o s id b' pos) := by
  unfold decodeBitSequence
  refine Grown.bindL _ fun _ => Grown.bindL _ fun t => ?_
  split
  · split
    · exact Grown.bindR _ (intoBitvecDecode_grown hl _ _)
    · exact .inl rfl
  · exact .inl rfl

theorem withInfo_grown {info : List Info} {r r' : Res (PD × Nat)} (h : Grown b b' r r') :
    Grown b b' (withInfo info r) (withInfo info r') := Grown.bindR _ h

/-! ### The recursion -/

/-- Recursive calls are so related. -/
def RecGrown (b b' : Buf) (rec rec' : Dec) : Prop := ∀ tyIn pos p, Grown b b' (rec tyIn pos p) (rec' tyIn pos p)

variable {rec rec' : Dec}

theorem decodeFieldsLoop_grown (h : RecGrown b b' rec rec') (c : Checker) (fs : List Field) (pos : Nat) :
    Grown b b' (decodeFieldsLoop rec c fs pos) (decodeFieldsLoop rec' c fs pos) := by
  induction fs generalizing pos with
  | nil => exact Grown.refl _
  | cons f fs ih =>
    exact Grown.bindL _ (fun p => Grown.bind (h _ _ _) (fun r => Grown.bindR _ (ih _)))

theorem decodeFields_grown (h : RecGrown b b' rec rec') (c : Checker) (fs : List Field) (pos : Nat) :
    Grown b b' (decodeFields rec fs pos c) (decodeFields rec' fs pos c) := by
  unfold decodeFields
  split
  · exact Grown.bindL _ (fun _ => decodeFieldsLoop_grown h _ _ _)
  · exact decodeFieldsLoop_grown h _ _ _

theorem decodeElementsLoop_grown (h : RecGrown b b' rec rec') (hu : HuskedType) (n pos : Nat) :
    Grown b b' (decodeElementsLoop rec hu n pos) (decodeElementsLoop rec' hu n pos) := by
  induction n generalizing pos with
  | zero => exact Grown.refl _
  | succ n ih => exact Grown.bind (h _ _ _) (fun r => Grown.bindR _ (ih _))

theorem decodeElementsSet_grown (h : RecGrown b b' rec rec') (elem n pos : Nat) (p : Propagated) :
    Grown b b' (decodeElementsSet R rec elem n pos p) (decodeElementsSet R rec' elem n pos p) := by
  unfold decodeElementsSet
  refine Grown.bindL _ (fun _ => Grown.bindL _ (fun hu => ?_))
  split
  · exact Grown.refl _
  · exact Grown.bindR _ (decodeElementsLoop_grown h _ _ _)

theorem decodeTupleLoop_grown (h : RecGrown b b' rec rec') (c : Checker) (ids : List Nat) (pos : Nat) :
    Grown b b' (decodeTupleLoop R rec c ids pos) (decodeTupleLoop R rec' c ids pos) := by
  induction ids generalizing pos with
  | nil => exact Grown.refl _
  | cons id ids ih =>
    exact Grown.bindL _ (fun _ => Grown.bindL _ (fun p =>
      Grown.bind (h _ _ _) (fun r => Grown.bindR _ (ih _))))

theorem pickVariant_grown (hl : Longer b b') (vs : List Variant) (pos : Nat) :
    Grown b b' (pickVariant vs b pos) (pickVariant vs b' pos) := Grown.bindR _ (readByte_grown hl _)

theorem decodeVariant_grown (hl : Longer b b') (h : RecGrown b b' rec rec') (vs : List Variant) (pos : Nat) :
    Grown b b' (decodeVariant rec vs b pos) (decodeVariant rec' vs b' pos) :=
  Grown.bind (pickVariant_grown hl _ _) (fun _ => Grown.bindR _ (decodeFields_grown h _ _ _))

theorem decodeTypeDef_grown (hl : Longer b b') (h : RecGrown b b' rec rec') (ty : Typ) (id pos : Nat) (p : Propagated) :
    Grown b b' (decodeTypeDef R rec b ty id pos p) (decodeTypeDef R rec' b' ty id pos p) := by
  unfold decodeTypeDef
  split
  · exact Grown.bindR _ (decodeFields_grown h _ _ _)
  · refine Grown.bindL _ (fun _ => ?_)
    split
    · exact Grown.refl _
    · exact Grown.bindR _ (decodeVariant_grown hl h _ _)
  · exact Grown.bind (getCompact_grown hl _) (fun _ => decodeElementsSet_grown h _ _ _ _)
  · exact decodeElementsSet_grown h _ _ _ _
  · unfold decodeTuple
    dsimp only
    split
    · exact Grown.bindL _ (fun _ => Grown.bindR _ (decodeTupleLoop_grown h _ _ _))
    · exact Grown.bindL _ (fun _ => Grown.bindR _ (decodeTupleLoop_grown h _ _ _))
  · exact withInfo_grown (decodePrimitive_grown hl _ _ _)
  · exact Grown.bindL _ (fun _ => Grown.bindL _ (fun _ => h _ _ _))
  · exact Grown.bindL _ (fun _ => withInfo_grown (decodeBitSequence_grown hl _ _ _ _))

theorem decodeChecked_grown (hl : Longer b b') (h : RecGrown b b' rec rec') (sp : TypeChecked) (ty : Typ) (id pos : Nat)
    (p : Propagated) :
    Grown b b' (decodeChecked R rec b sp ty id pos p) (decodeChecked R rec' b' sp ty id pos p) := by
  unfold decodeChecked
  split
  · exact decodeTypeDef_grown hl h _ _ _ _
  · exact withInfo_grown (parseFixed_grown hl _ _ _)
  · exact Grown.bindL _ (fun _ => Grown.bindR _ (specialCaseEra_grown hl _))
  · exact Grown.bindL _ (fun _ => withInfo_grown (specialCaseH256_grown hl _ _))
  · exact Grown.bindL _ (fun _ => Grown.bindR _ (decodeVariant_grown hl h _ _))
  · exact withInfo_grown (parsePer_grown hl _ _ _)

/-- The index byte is the same, or the data stop before it. -/
theorem readByte_longer (hl : Longer b b') (pos : Nat) :
    b.readByte pos = b'.readByte pos ∨
    ((∃ e, b.readByte pos = .error (.err e)) ∧
      ∀ {α : Type} (r' : Res α) (f : UInt8 → Res α), Grown b b' (b.readByte pos >>= f) r') := by
  rcases readByte_grown hl pos with h | ⟨q, n, h, h1⟩ | ⟨q, v, more, h, h1⟩ | ⟨q, n, h, h1⟩
  · exact .inl h
  · refine .inr ⟨⟨_, h⟩, fun r' f => ?_⟩
    rw [h]; exact .inr (.inl ⟨q, n, rfl, h1⟩)
  · refine .inr ⟨⟨_, h⟩, fun r' f => ?_⟩
    rw [h]; exact .inr (.inr (.inl ⟨q, v, more, rfl, h1⟩))
  · refine .inr ⟨⟨_, h⟩, fun r' f => ?_⟩
    rw [h]; exact .inr (.inr (.inr ⟨q, n, rfl, h1⟩))

/-- Recognition gives the same, or the data stop before the index byte. -/
theorem fromType_grown (hl : Longer b b') (ty : Typ) (pos : Nat) :
    TypeChecked.fromType R ty b pos = TypeChecked.fromType R ty b' pos ∨
    ∃ vs, ty.typeDef = .variant vs ∧ (TypeHinted.fromType ty).open = true ∧
      (∃ e, b.readByte pos = .error (.err e)) ∧
      ∀ {α : Type} (r' : Res α) (f : UInt8 → Res α), Grown b b' (b.readByte pos >>= f) r' := by
  by_cases ho : (TypeHinted.fromType ty).open = true
  · cases hd : ty.typeDef with
    | variant vs =>
      rcases readByte_longer hl pos with h | h
      · left
        rcases (readByte_fine b pos).cases with ⟨i, hi⟩ | ⟨e, he⟩
        · rw [fromType_enum_ok ho hd hi, fromType_enum_ok ho hd (h ▸ hi)]
        · rw [fromType_enum_err ho hd he, fromType_enum_err ho hd (h ▸ he)]
      · exact .inr ⟨vs, rfl, ho, h⟩
    | _ =>
      left
      rw [fromType_nonEnum ho (by simp [hd]), fromType_nonEnum ho (by simp [hd])]
  · left
    unfold TypeChecked.fromType
    cases hh : TypeHinted.fromType ty <;> first | rfl | (rw [hh] at ho; exact absurd rfl ho)

theorem decodeStep_grown (hl : Longer b b') (h : RecGrown b b' rec rec') :
    RecGrown b b' (decodeStep R b rec) (decodeStep R b' rec') := by
  intro tyIn pos p
  unfold decodeStep
  refine Grown.bindL _ (fun r => ?_)
  obtain ⟨ty, id⟩ := r
  dsimp only
  rcases fromType_grown (R := R) hl ty pos with hf | ⟨vs, hd, ho, ⟨e0, hb⟩, hG⟩
  · rw [hf]
    exact Grown.bindL _ (fun r => decodeChecked_grown hl h _ _ _ _ _)
  · rw [fromType_enum_err ho hd hb, ok_bind]
    -- the byte is asked for again
    rcases hr : (p.addInfo (Info.fromTy ty)).rejectCompact with e | u
    · left
      obtain ⟨sp, q, h1, h2⟩ : ∃ sp q, TypeChecked.fromType R ty b' pos = .ok (sp, q) ∧
          (sp = .none ∨ (∃ k, sp = .fixed k) ∨ ∃ n i v' it, sp = .palletSpecific n i v' it) := by
        rcases (readByte_fine b' pos).cases with ⟨i, hi⟩ | ⟨e, he⟩
        · refine ⟨_, _, fromType_enum_ok ho hd hi, ?_⟩
          rcases enumSpecial_cases (R := R) (TypeHinted.fromType ty) vs i with h | ⟨k, _, h⟩ | ⟨it, n, inf, vs', _, h⟩
          · exact .inl h
          · exact .inr (.inl ⟨k, h⟩)
          · exact .inr (.inr ⟨n, inf, vs', it, h⟩)
        · exact ⟨_, _, fromType_enum_err ho hd he, .inl rfl⟩
      rw [h1, ok_bind]
      have hl' : decodeChecked R rec b .none ty id pos (p.addInfo (Info.fromTy ty)) = .error e := by
        simp only [decodeChecked, decodeTypeDef, hd, hr, error_bind]
      rw [hl']
      rcases h2 with rfl | ⟨k, rfl⟩ | ⟨n, i, v', it, rfl⟩
      · simp only [decodeChecked, decodeTypeDef, hd, hr, error_bind]
      · have hc : blockCompact (p.addInfo (Info.fromTy ty)).compactAt = .error e := hr
        simp only [decodeChecked, parseFixed, hc, error_bind, withInfo]
      · simp only [decodeChecked, hr, error_bind]
    · cases vs with
      | nil =>
        have h1 : TypeChecked.fromType R ty b' pos = .ok (.none, pos) := by
          rcases (readByte_fine b' pos).cases with ⟨i, hi⟩ | ⟨e, he⟩
          · rw [fromType_enum_ok ho hd hi]
            have : enumSpecial R (TypeHinted.fromType ty) [] i = .none := by
              apply Classical.byContradiction
              intro hc
              obtain ⟨v, hv⟩ := enumSpecial_find hc
              cases hv
            rw [this]; rfl
          · exact fromType_enum_err ho hd he
        rw [h1, ok_bind]
        exact decodeChecked_grown hl h _ _ _ _ _
      | cons v vs =>
        have := hG ((TypeChecked.fromType R ty b' pos) >>= fun r => decodeChecked R rec' b' r.1 ty id r.2 (p.addInfo (Info.fromTy ty)))
          (fun _ => .error .panic)
        rw [hb, error_bind] at this
        have hl' : decodeChecked R rec b .none ty id pos (p.addInfo (Info.fromTy ty)) = .error (.err e0) := by
          simp only [decodeChecked, decodeTypeDef, hd, hr, ok_bind, List.isEmpty_cons, decodeVariant, pickVariant, hb,
            error_bind]
          rfl
        rw [hl']
        exact this

theorem decodeF_grown (hl : Longer b b') (n : Nat) : RecGrown b b' (decodeF R b n) (decodeF R b' n) := by
  induction n with
  | zero => intro _ _ _; exact .inl rfl
  | succ n ih => exact decodeStep_grown hl ih

theorem decode_grown (hl : Longer b b') : RecGrown b b' (decode R b) (decode R b') := by
  intro tyIn pos p
  have h1 := measure_le (R := R) (b := b) pos p.checker
  have h2 := measure_le (R := R) (b := b') pos p.checker
  have := decodeF_grown (R := R) hl (max (depthBound R b pos) (depthBound R b' pos)) tyIn pos p
  rwa [decodeF_eq_decode _ tyIn pos p (by omega), decodeF_eq_decode _ tyIn pos p (by omega)] at this

end Verif
