import Verif.Spec.Shift
import Verif.Proof.Growth
import Verif.Proof.Position
/-!
The same data further on: the same outcome, positions in the errors moved.
-/
namespace Verif
open Spec

/-- Failures moved. -/
def shiftFail (k : Nat) : Fail → Fail
  | .err e => .err (shiftErr k e)
  | .panic => .panic
  | .fuel => .fuel

/-- Outcomes moved, `g` moves the value. -/
def carry {α : Type} (k : Nat) (g : α → α) : Res α → Res α
  | .ok a => .ok (g a)
  | .error e => .error (shiftFail k e)

/-- The position in a pair, moved. -/
def later {α : Type} (k : Nat) (x : α × Nat) : α × Nat := (x.1, x.2 + k)

/-- `r'` is `r` moved. -/
def Carried {α : Type} (k : Nat) (g : α → α) (r r' : Res α) : Prop := r' = carry k g r

theorem carry_later {α : Type} (k : Nat) (r : Res (α × Nat)) : carry k (later k) r = shiftRes k r := by
  cases r with
  | ok a => rfl
  | error e => cases e <;> rfl

variable {k : Nat} {b b' : Buf}

theorem Carried.ok {α : Type} {g : α → α} (a : α) : Carried k g (.ok a) (.ok (g a)) := rfl

theorem Carried.err {α : Type} {g : α → α} (e : PErr) :
    Carried k g (.error (.err e)) (.error (.err (shiftErr k e))) := rfl

theorem Carried.panic {α : Type} {g : α → α} : Carried k g (.error .panic) (.error .panic) := rfl

theorem Carried.bind {α β : Type} {g : α → α} {h : β → β} {x x' : Res α} {f f' : α → Res β}
    (hx : Carried k g x x') (hf : ∀ a, Carried k h (f a) (f' (g a))) :
    Carried k h (x >>= f) (x' >>= f') := by
  cases hx
  cases x with
  | ok a => exact hf a
  | error e => rfl

/-- Computations that do not look at the data. -/
theorem Carried.same {α : Type} {r : Res α} (hr : OnlyRegistry r) : Carried k id r r := by
  cases r with
  | ok a => rfl
  | error e =>
    cases e with
    | err e => obtain ⟨x, rfl⟩ := hr e rfl; rfl
    | panic => rfl
    | fuel => rfl

theorem Carried.bindL {α β : Type} {h : β → β} {x : Res α} {f f' : α → Res β} (hx : OnlyRegistry x)
    (hf : ∀ a, Carried k h (f a) (f' a)) : Carried k h (x >>= f) (x >>= f') :=
  Carried.bind (Carried.same hx) hf

theorem Behind_len (hb : Behind k b b') : b'.len = b.len + k := by
  obtain ⟨pre, h1, h2⟩ := hb.data
  simp only [Buf.len, h2, List.length_append]; omega

theorem Behind_drop (hb : Behind k b b') (pos : Nat) : b'.bytes.drop (pos + k) = b.bytes.drop pos := by
  obtain ⟨pre, h1, h2⟩ := hb.data
  rw [h2, List.drop_append, List.drop_eq_nil_of_le (by omega), List.nil_append]
  congr 1; omega

variable {R : Registry}

theorem readSlice_carried (hb : Behind k b b') (pos n : Nat) :
    Carried k id (b.readSlice pos n) (b'.readSlice (pos + k) n) := by
  unfold Buf.readSlice
  rw [Behind_len hb, hb.fault, Behind_drop hb]
  by_cases h1 : b.len < pos
  · rw [if_pos h1, if_pos (by omega : b.len + k < pos + k)]; rfl
  · rw [if_neg h1, if_neg (by omega : ¬ b.len + k < pos + k)]
    by_cases h2 : b.len < pos + n
    · rw [if_pos h2, if_pos (by omega : b.len + k < pos + k + n)]; rfl
    · rw [if_neg h2, if_neg (by omega : ¬ b.len + k < pos + k + n)]
      split <;> rfl

theorem readByte_carried (hb : Behind k b b') (pos : Nat) :
    Carried k id (b.readByte pos) (b'.readByte (pos + k)) := by
  refine Carried.bind (readSlice_carried hb _ _) fun s => ?_
  cases s <;> rfl

/-- Found compact, moved. -/
def laterFound (k : Nat) (f : FoundCompact) : FoundCompact := { f with startNextUnit := f.startNextUnit + k }

theorem findCompactLoop_carried (hb : Behind k b b') (dec : Bytes → Option Nat) (pos left i : Nat) :
    Carried k (Option.map (laterFound k)) (findCompactLoop dec b pos left i)
      (findCompactLoop dec b' (pos + k) left i) := by
  induction left generalizing i with
  | zero => rfl
  | succ n ih =>
    unfold findCompactLoop
    split
    · rfl
    · refine Carried.bind (readSlice_carried hb _ _) fun s => ?_
      simp only [id]
      cases dec s with
      | none => exact ih _
      | some v =>
        have : b'.len - (pos + k) = b.len - pos := by rw [Behind_len hb]; omega
        simp only [this]
        unfold Carried carry
        simp only [Option.map, laterFound]
        split
        · rw [Behind_len hb]
        · congr 3; omega

theorem findCompact_carried (hb : Behind k b b') (dec : Bytes → Option Nat) (pos : Nat) :
    Carried k (laterFound k) (findCompact dec b pos) (findCompact dec b' (pos + k)) := by
  unfold findCompact
  have hl := Behind_len hb
  by_cases h1 : b.len < pos
  · rw [if_pos h1, if_pos (by omega), hl]; rfl
  · rw [if_neg h1, if_neg (by omega)]
    have : b'.len - (pos + k) = b.len - pos := by omega
    rw [this]
    refine Carried.bind (findCompactLoop_carried hb dec pos _ _) fun o => ?_
    cases o <;> rfl

theorem getCompact_carried (hb : Behind k b b') (dec : Bytes → Option Nat) (pos : Nat) :
    Carried k (later k) (getCompact dec b pos) (getCompact dec b' (pos + k)) :=
  Carried.bind (findCompact_carried hb dec pos) fun f => rfl

/-- Position after `n` bytes, moved. -/
theorem ok_later {α : Type} (a : α) (pos n : Nat) :
    Carried k (later k) (.ok (a, pos + n)) (.ok (a, pos + k + n)) := by
  show Except.ok _ = Except.ok _
  unfold later
  rw [Nat.add_right_comm]

theorem cutUInt_carried (hb : Behind k b b') (w : UW) (pos : Nat) :
    Carried k (later k) (cutUInt w b pos) (cutUInt w b' (pos + k)) :=
  Carried.bind (readSlice_carried hb _ _) fun _ => ok_later _ _ _

theorem cutInt_carried (hb : Behind k b b') (w : IW) (pos : Nat) :
    Carried k (later k) (cutInt w b pos) (cutInt w b' (pos + k)) :=
  Carried.bind (readSlice_carried hb _ _) fun _ => ok_later _ _ _

theorem cutU256_carried (hb : Behind k b b') (pos : Nat) :
    Carried k (later k) (cutU256 b pos) (cutU256 b' (pos + k)) :=
  Carried.bind (readSlice_carried hb _ _) fun _ => ok_later _ _ _

theorem cutBool_carried (hb : Behind k b b') (pos : Nat) :
    Carried k (later k) (cutBool b pos) (cutBool b' (pos + k)) := by
  refine Carried.bind (readSlice_carried hb _ _) fun s => ?_
  simp only [id]
  split
  · exact ok_later _ _ _
  · split
    · exact ok_later _ _ _
    · rfl

theorem cutChar_carried (hb : Behind k b b') (pos : Nat) :
    Carried k (later k) (cutChar b pos) (cutChar b' (pos + k)) := by
  refine Carried.bind (readSlice_carried hb _ _) fun s => ?_
  simp only [id]
  split
  · rfl
  · cases charFromU32 (leNat s) with
    | none => rfl
    | some c => exact ok_later _ _ _

theorem cutPer_carried (hb : Behind k b b') (kind : PerKind) (pos : Nat) :
    Carried k (later k) (cutPer kind b pos) (cutPer kind b' (pos + k)) := by
  refine Carried.bind (readSlice_carried hb _ _) fun s => ?_
  simp only [id]
  split
  · exact ok_later _ _ _
  · rfl

theorem cutArray_carried (hb : Behind k b b') (n pos : Nat) :
    Carried k (later k) (cutArray n b pos) (cutArray n b' (pos + k)) := by
  refine Carried.bind (readSlice_carried hb _ _) fun s => ?_
  simp only [id]
  split
  · rfl
  · exact ok_later _ _ _

theorem parseUInt_carried (hb : Behind k b b') (w : UW) (pos : Nat) (s : SpecialtySet) :
    Carried k (later k) (parseUInt w b pos s) (parseUInt w b' (pos + k) s) := by
  unfold parseUInt
  dsimp only
  split
  · exact Carried.bind (getCompact_carried hb _ _) fun _ => rfl
  · exact Carried.bind (cutUInt_carried hb _ _) fun _ => rfl

theorem parsePer_carried (hb : Behind k b b') (kind : PerKind) (pos : Nat) (c : Option Nat) :
    Carried k (later k) (parsePer kind b pos c) (parsePer kind b' (pos + k) c) := by
  unfold parsePer
  dsimp only
  split
  · exact Carried.bind (getCompact_carried hb _ _) fun _ => rfl
  · exact Carried.bind (cutPer_carried hb _ _) fun _ => rfl

theorem parseFixed_carried (hb : Behind k b b') (kind : FixedKind) (pos : Nat) (c : Option Nat) :
    Carried k (later k) (parseFixed kind b pos c) (parseFixed kind b' (pos + k) c) :=
  Carried.bindL (blockCompact_registry _) fun _ => Carried.bind (cutArray_carried hb _ _) fun _ => rfl

theorem parseInt_carried (hb : Behind k b b') (w : IW) (pos : Nat) (c : Option Nat) :
    Carried k (later k) (parseInt w b pos c) (parseInt w b' (pos + k) c) :=
  Carried.bindL (blockCompact_registry _) fun _ => Carried.bind (cutInt_carried hb _ _) fun _ => rfl

theorem specialCaseH256_carried (hb : Behind k b b') (pos : Nat) (s : SpecH256) :
    Carried k (later k) (specialCaseH256 b pos s) (specialCaseH256 b' (pos + k) s) :=
  Carried.bind (cutArray_carried hb _ _) fun _ => by cases s <;> rfl

theorem specialCaseEra_carried (hb : Behind k b b') (pos : Nat) :
    Carried k (later k) (specialCaseEra b pos) (specialCaseEra b' (pos + k)) := by
  unfold specialCaseEra
  refine Carried.bind (readSlice_carried hb _ _) fun s => ?_
  simp only [id]
  cases Era.decodeAll s with
  | some e => exact ok_later _ _ _
  | none =>
    refine Carried.bind (readSlice_carried hb _ _) fun s => ?_
    simp only [id]
    cases Era.decodeAll s with
    | some e => exact ok_later _ _ _
    | none => rfl

theorem decodeStr_carried (hb : Behind k b b') (pos : Nat) (h : Hint) :
    Carried k (later k) (decodeStr b pos h) (decodeStr b' (pos + k) h) := by
  refine Carried.bind (findCompact_carried hb _ _) fun f => ?_
  refine Carried.bind (readSlice_carried hb _ _) fun s => ?_
  simp only [id]
  cases stringFromUtf8 s with
  | none => rfl
  | some t => exact ok_later _ _ _

theorem decodePrimitive_carried (hb : Behind k b b') (p : Prim) (pos : Nat) (s : SpecialtySet) :
    Carried k (later k) (decodePrimitive p b pos s) (decodePrimitive p b' (pos + k) s) := by
  unfold decodePrimitive
  cases p with
  | bool => exact Carried.bindL (blockCompact_registry _) fun _ => Carried.bind (cutBool_carried hb _) fun _ => rfl
  | char => exact Carried.bindL (blockCompact_registry _) fun _ => Carried.bind (cutChar_carried hb _) fun _ => rfl
  | u256 => exact Carried.bindL (blockCompact_registry _) fun _ => Carried.bind (cutU256_carried hb _) fun _ => rfl
  | str => exact Carried.bindL (rejectCompact_registry _) fun _ => decodeStr_carried hb _ _
  | u8 | u16 | u32 | u64 | u128 => exact parseUInt_carried hb _ _ _
  | i8 | i16 | i32 | i64 | i128 | i256 => exact parseInt_carried hb _ _ _

/-- Positions of a bit vector, moved. -/
def laterBits (k : Nat) (p : BitVecPositions) : BitVecPositions :=
  { p with bitvecStart := p.bitvecStart + k, dataStart := p.dataStart + k, bitvecEnd := p.bitvecEnd + k }

theorem bitVecPositions_carried (hb : Behind k b b') (st : BitStore) (pos : Nat) :
    Carried k (laterBits k) (BitVecPositions.new st b pos) (BitVecPositions.new st b' (pos + k)) := by
  refine Carried.bind (findCompact_carried hb _ _) fun f => ?_
  show Except.ok _ = Except.ok _
  simp only [laterBits, laterFound]
  congr 2 <;> omega

theorem intoBitvecDecode_carried (hb : Behind k b b') (st : BitStore) (pos : Nat) :
    Carried k (later k) (intoBitvecDecode st b pos) (intoBitvecDecode st b' (pos + k)) := by
  refine Carried.bind (bitVecPositions_carried hb _ _) fun p => ?_
  exact Carried.bind (readSlice_carried hb _ _) fun _ => rfl

theorem decodeBitSequence_carried (hb : Behind k b b') (o s id pos : Nat) :
    Carried k (later k) (decodeBitSequence R o s id b pos) (decodeBitSequence R o s id b' (pos + k)) := by
  unfold decodeBitSequence
  refine Carried.bindL (findBitOrder_registry _ _) fun ord => Carried.bindL (get_registry _) fun t => ?_
  split
  · split
    · rename_i st _
      refine Carried.bind (intoBitvecDecode_carried hb _ _) fun r => ?_
      obtain ⟨s, q⟩ := r
      simp only [later]
      cases bitVecDecodeAll st ord s <;> rfl
    · rfl
  · rfl

theorem withInfo_carried {info : List Info} {r r' : Res (PD × Nat)} (h : Carried k (later k) r r') :
    Carried k (later k) (withInfo info r) (withInfo info r') := Carried.bind h fun _ => rfl

/-! ### The recursion -/

/-- Recursive calls are so related. -/
def RecCarried (k : Nat) (rec rec' : Dec) : Prop :=
  ∀ tyIn pos p, Carried k (later k) (rec tyIn pos p) (rec' tyIn (pos + k) p)

variable {rec rec' : Dec}

theorem decodeFieldsLoop_carried (h : RecCarried k rec rec') (c : Checker) (fs : List Field) (pos : Nat) :
    Carried k (later k) (decodeFieldsLoop rec c fs pos) (decodeFieldsLoop rec' c fs (pos + k)) := by
  induction fs generalizing pos with
  | nil => rfl
  | cons f fs ih =>
    exact Carried.bindL (forField_registry _ _) fun p => Carried.bind (h _ _ _) fun r =>
      Carried.bind (ih _) fun _ => rfl

theorem decodeFields_carried (h : RecCarried k rec rec') (c : Checker) (fs : List Field) (pos : Nat) :
    Carried k (later k) (decodeFields rec fs pos c) (decodeFields rec' fs (pos + k) c) := by
  unfold decodeFields
  split
  · exact Carried.bindL (rejectCompact_registry _) fun _ => decodeFieldsLoop_carried h _ _ _
  · exact decodeFieldsLoop_carried h _ _ _

theorem decodeElementsLoop_carried (h : RecCarried k rec rec') (hu : HuskedType) (n pos : Nat) :
    Carried k (later k) (decodeElementsLoop rec hu n pos) (decodeElementsLoop rec' hu n (pos + k)) := by
  induction n generalizing pos with
  | zero => rfl
  | succ n ih => exact Carried.bind (h _ _ _) fun r => Carried.bind (ih _) fun _ => rfl

theorem decodeElementsSet_carried (h : RecCarried k rec rec') (elem n pos : Nat) (p : Propagated) :
    Carried k (later k) (decodeElementsSet R rec elem n pos p) (decodeElementsSet R rec' elem n (pos + k) p) := by
  unfold decodeElementsSet
  refine Carried.bindL (rejectCompact_registry _) fun _ => Carried.bindL (huskType_registry _ _) fun hu => ?_
  split
  · rfl
  · refine Carried.bind (decodeElementsLoop_carried h _ _ _) fun r => ?_
    obtain ⟨out, q⟩ := r
    simp only [later]
    cases wrapSequence out <;> rfl

theorem decodeTupleLoop_carried (h : RecCarried k rec rec') (c : Checker) (ids : List Nat) (pos : Nat) :
    Carried k (later k) (decodeTupleLoop R rec c ids pos) (decodeTupleLoop R rec' c ids (pos + k)) := by
  induction ids generalizing pos with
  | nil => rfl
  | cons id ids ih =>
    exact Carried.bindL (get_registry _) fun _ => Carried.bindL (forTy_registry _ _ _) fun p =>
      Carried.bind (h _ _ _) fun r => Carried.bind (ih _) fun _ => rfl

theorem pickVariant_carried (hb : Behind k b b') (vs : List Variant) (pos : Nat) :
    Carried k id (pickVariant vs b pos) (pickVariant vs b' (pos + k)) := by
  refine Carried.bind (readByte_carried hb _) fun i => ?_
  simp only [id]
  cases vs.find? (fun v => v.index == i) <;> rfl

/-- Result of `decode_variant`, moved. -/
def laterVariant (k : Nat) (x : Variant × List FD × Nat) : Variant × List FD × Nat := (x.1, x.2.1, x.2.2 + k)

theorem decodeVariant_carried (hb : Behind k b b') (h : RecCarried k rec rec') (vs : List Variant) (pos : Nat) :
    Carried k (laterVariant k) (decodeVariant rec vs b pos) (decodeVariant rec' vs b' (pos + k)) := by
  refine Carried.bind (pickVariant_carried hb _ _) fun v => ?_
  simp only [id]
  rw [Nat.add_right_comm]
  exact Carried.bind (decodeFields_carried h _ _ _) fun _ => rfl

theorem decodeTypeDef_carried (hb : Behind k b b') (h : RecCarried k rec rec') (ty : Typ) (id pos : Nat)
    (p : Propagated) :
    Carried k (later k) (decodeTypeDef R rec b ty id pos p) (decodeTypeDef R rec' b' ty id (pos + k) p) := by
  unfold decodeTypeDef
  split
  · exact Carried.bind (decodeFields_carried h _ _ _) fun _ => rfl
  · refine Carried.bindL (rejectCompact_registry _) fun _ => ?_
    split
    · rfl
    · exact Carried.bind (decodeVariant_carried hb h _ _) fun _ => rfl
  · exact Carried.bind (getCompact_carried hb _ _) fun _ => decodeElementsSet_carried h _ _ _ _
  · exact decodeElementsSet_carried h _ _ _ _
  · unfold decodeTuple
    dsimp only
    split
    · exact Carried.bindL (.bindR (rejectCompact_registry _) fun _ => .ok _) fun _ =>
        Carried.bind (decodeTupleLoop_carried h _ _ _) fun _ => rfl
    · exact Carried.bindL (.ok _) fun _ => Carried.bind (decodeTupleLoop_carried h _ _ _) fun _ => rfl
  · exact withInfo_carried (decodePrimitive_carried hb _ _ _)
  · exact Carried.bindL (rejectCompact_registry _) fun _ => Carried.bindL (checkId_registry _ _) fun _ => h _ _ _
  · exact Carried.bindL (rejectCompact_registry _) fun _ => withInfo_carried (decodeBitSequence_carried hb _ _ _ _)

theorem decodeChecked_carried (hb : Behind k b b') (h : RecCarried k rec rec') (sp : TypeChecked) (ty : Typ)
    (id pos : Nat) (p : Propagated) :
    Carried k (later k) (decodeChecked R rec b sp ty id pos p) (decodeChecked R rec' b' sp ty id (pos + k) p) := by
  unfold decodeChecked
  split
  · exact decodeTypeDef_carried hb h _ _ _ _
  · exact withInfo_carried (parseFixed_carried hb _ _ _)
  · exact Carried.bindL (rejectCompact_registry _) fun _ => Carried.bind (specialCaseEra_carried hb _) fun _ => rfl
  · exact Carried.bindL (rejectCompact_registry _) fun _ => withInfo_carried (specialCaseH256_carried hb _ _)
  · exact Carried.bindL (rejectCompact_registry _) fun _ => Carried.bind (decodeVariant_carried hb h _ _) fun _ => rfl
  · exact withInfo_carried (parsePer_carried hb _ _ _)

theorem fromType_carried (hb : Behind k b b') (ty : Typ) (pos : Nat) :
    Carried k (later k) (TypeChecked.fromType R ty b pos) (TypeChecked.fromType R ty b' (pos + k)) := by
  by_cases ho : (TypeHinted.fromType ty).open = true
  · cases hd : ty.typeDef with
    | variant vs =>
      have hr := readByte_carried hb pos
      rcases (readByte_fine b pos).cases with ⟨i, hi⟩ | ⟨e, he⟩
      · rw [hi] at hr
        rw [fromType_enum_ok ho hd hi, fromType_enum_ok ho hd (i := i) hr]
        show Except.ok _ = Except.ok _
        unfold later afterSpecial
        dsimp only
        split <;> first | rfl | (congr 2; omega)
      · rw [he] at hr
        rw [fromType_enum_err ho hd he, fromType_enum_err ho hd (e := shiftErr k e) hr]
        rfl
    | _ =>
      rw [fromType_nonEnum ho (by simp [hd]), fromType_nonEnum ho (by simp [hd])]
      rfl
  · unfold TypeChecked.fromType
    cases hh : TypeHinted.fromType ty <;> first | rfl | (rw [hh] at ho; exact absurd rfl ho)

theorem decodeStep_carried (hb : Behind k b b') (h : RecCarried k rec rec') :
    RecCarried k (decodeStep R b rec) (decodeStep R b' rec') := by
  intro tyIn pos p
  unfold decodeStep
  refine Carried.bindL (resolve_registry _) fun r => ?_
  exact Carried.bind (fromType_carried hb _ _) fun _ => decodeChecked_carried hb h _ _ _ _ _

theorem decodeF_carried (hb : Behind k b b') (n : Nat) : RecCarried k (decodeF R b n) (decodeF R b' n) := by
  induction n with
  | zero => intro _ _ _; rfl
  | succ n ih => exact decodeStep_carried hb ih

theorem decode_carried (hb : Behind k b b') : RecCarried k (decode R b) (decode R b') := by
  intro tyIn pos p
  unfold decode
  have : depthBound R b' (pos + k) = depthBound R b pos := by
    unfold depthBound
    rw [Behind_len hb, Nat.add_sub_add_right]
  rw [this]
  exact decodeF_carried hb _ _ _ _

end Verif
