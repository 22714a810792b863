import Verif.Proof.Inside
/-!
Every byte of the range consumed is read: if requests for it fail, there is no value.
-/
namespace Verif
open Spec

/-- A success of `r` that starts at `pos` does not pass over the byte at `j`. -/
def Touched (j pos : Nat) {α : Type} (r : Res (α × Nat)) : Prop :=
  ∀ a q, r = .ok (a, q) → pos ≤ q ∧ (j < pos ∨ q ≤ j)

variable {j : Nat} {b : Buf}

theorem Touched.here {α : Type} {pos : Nat} (a : α) : Touched j pos (.ok (a, pos)) := by
  intro a' q' h'; cases h'; exact ⟨Nat.le_refl _, by omega⟩

theorem Touched.err {α : Type} {pos : Nat} (e : Fail) : Touched j pos (.error e : Res (α × Nat)) := by
  intro a' q' h'; cases h'

theorem Touched.bind {α β : Type} {pos : Nat} {x : Res (α × Nat)} {f : α × Nat → Res (β × Nat)}
    (hx : Touched j pos x) (hf : ∀ a q, pos ≤ q → Touched j q (f (a, q))) : Touched j pos (x >>= f) := by
  intro c q h
  obtain ⟨⟨a, q1⟩, h1, h2⟩ := bind_ok.1 h
  obtain ⟨g1, g2⟩ := hx a q1 h1
  obtain ⟨k1, k2⟩ := hf a q1 g1 c q h2
  exact ⟨by omega, by omega⟩

theorem Touched.bindL {α β : Type} {pos : Nat} (x : Res α) {f : α → Res (β × Nat)}
    (hf : ∀ a, Touched j pos (f a)) : Touched j pos (x >>= f) := by
  intro c q h
  obtain ⟨a, h1, h2⟩ := bind_ok.1 h
  exact hf a c q h2

theorem Spec.Blocked.read (ha : Blocked j b) {pos n : Nat} {s : Bytes} (h : b.readSlice pos n = .ok s) :
    j < pos ∨ pos + n ≤ j := by
  apply Classical.byContradiction
  intro hc
  have := ha pos n (by omega) (by omega)
  unfold Buf.readSlice at h
  rw [this] at h
  split at h
  · cases h
  · split at h <;> cases h

theorem Spec.Blocked.readByte (ha : Blocked j b) {pos : Nat} {i : UInt8} (h : b.readByte pos = .ok i) : j ≠ pos := by
  unfold Buf.readByte at h
  obtain ⟨s, h1, h2⟩ := bind_ok.1 h
  have := ha.read h1
  omega

theorem Touched.read {α : Type} (ha : Blocked j b) {pos n : Nat} {f : Bytes → Res (α × Nat)}
    (hf : ∀ s, Touched j (pos + n) (f s)) : Touched j pos (b.readSlice pos n >>= f) := by
  intro c q h
  obtain ⟨s, h1, h2⟩ := bind_ok.1 h
  obtain ⟨k1, k2⟩ := hf s c q h2
  have := ha.read h1
  exact ⟨by omega, by omega⟩

variable {R : Registry}

theorem findCompactLoop_touched (ha : Blocked j b) (dec : Bytes → Option Nat) {pos : Nat}
    (left i : Nat) {f : FoundCompact} (h : findCompactLoop dec b pos left i = .ok (some f)) :
    pos + i < f.startNextUnit ∧ (j < pos ∨ f.startNextUnit ≤ j) := by
  induction left generalizing i with
  | zero => cases h
  | succ n ih =>
    unfold findCompactLoop at h
    split at h
    · cases h
    · obtain ⟨s, h1, h2⟩ := bind_ok.1 h
      have hr := (readSlice_ok h1)
      have hlen : pos + (i + 1) ≤ b.len := by
        have := hr.1.le; rw [hr.2] at this; exact this
      cases hd : dec s with
      | none =>
        rw [hd] at h2
        obtain ⟨k1, k2⟩ := ih (i + 1) h2
        exact ⟨by omega, k2⟩
      | some v =>
        rw [hd] at h2
        dsimp only at h2
        rw [if_neg (by omega)] at h2
        cases h2
        have := ha.read h1
        exact ⟨by dsimp only; omega, by dsimp only; omega⟩

theorem findCompact_touched (ha : Blocked j b) (dec : Bytes → Option Nat) {pos : Nat}
    {f : FoundCompact} (h : findCompact dec b pos = .ok f) :
    pos ≤ f.startNextUnit ∧ (j < pos ∨ f.startNextUnit ≤ j) := by
  unfold findCompact at h
  split at h
  · cases h
  · obtain ⟨o, h2, h3⟩ := bind_ok.1 h
    cases o with
    | none => cases h3
    | some c =>
      cases h3
      obtain ⟨k1, k2⟩ := findCompactLoop_touched ha dec _ _ h2
      exact ⟨by omega, k2⟩

theorem Touched.compact {α : Type} (ha : Blocked j b) {dec : Bytes → Option Nat} {pos : Nat}
    {f : FoundCompact → Res (α × Nat)} (hf : ∀ c, pos ≤ c.startNextUnit → Touched j c.startNextUnit (f c)) :
    Touched j pos (findCompact dec b pos >>= f) := by
  intro a q h
  obtain ⟨c, h1, h2⟩ := bind_ok.1 h
  obtain ⟨g1, g2⟩ := findCompact_touched ha dec h1
  obtain ⟨k1, k2⟩ := hf c g1 a q h2
  exact ⟨by omega, by omega⟩

theorem getCompact_touched (ha : Blocked j b) (dec : Bytes → Option Nat) {pos : Nat} :
    Touched j pos (getCompact dec b pos) :=
  Touched.compact ha fun _ _ => .here _

theorem cutArray_touched (ha : Blocked j b) (n : Nat) {pos : Nat} :
    Touched j pos (cutArray n b pos) := by
  refine Touched.read ha fun s => ?_
  split
  · exact .err _
  · exact .here _

theorem parseUInt_touched (ha : Blocked j b) (w : UW) {pos : Nat} (s : SpecialtySet) :
    Touched j pos (parseUInt w b pos s) := by
  unfold parseUInt
  dsimp only
  split
  · exact Touched.bind (getCompact_touched ha _) fun _ _ _ => .here _
  · exact Touched.bind (Touched.read ha fun _ => .here _) fun _ _ _ => .here _

theorem parsePer_touched (ha : Blocked j b) (k : PerKind) {pos : Nat} (c : Option Nat) :
    Touched j pos (parsePer k b pos c) := by
  unfold parsePer
  dsimp only
  split
  · exact Touched.bind (getCompact_touched ha _) fun _ _ _ => .here _
  · refine Touched.bind (Touched.read ha fun s => ?_) fun _ _ _ => .here _
    split
    · exact .here _
    · exact .err _

theorem parseFixed_touched (ha : Blocked j b) (k : FixedKind) {pos : Nat} (c : Option Nat) :
    Touched j pos (parseFixed k b pos c) :=
  Touched.bindL _ fun _ => Touched.bind (cutArray_touched ha _) fun _ _ _ => .here _

theorem parseInt_touched (ha : Blocked j b) (w : IW) {pos : Nat} (c : Option Nat) :
    Touched j pos (parseInt w b pos c) :=
  Touched.bindL _ fun _ => Touched.bind (Touched.read ha fun _ => .here _) fun _ _ _ =>
    .here _

theorem specialCaseH256_touched (ha : Blocked j b) {pos : Nat} (s : SpecH256) :
    Touched j pos (specialCaseH256 b pos s) :=
  Touched.bind (cutArray_touched ha _) fun _ _ _ => by cases s <;> exact .here _

theorem specialCaseEra_touched (ha : Blocked j b) {pos : Nat} :
    Touched j pos (specialCaseEra b pos) := by
  unfold specialCaseEra
  intro c q h
  obtain ⟨s0, h0, h⟩ := bind_ok.1 h
  have g0 := ha.read h0
  cases hd0 : Era.decodeAll s0 with
  | some e => rw [hd0] at h; cases h; exact ⟨by omega, by omega⟩
  | none =>
    rw [hd0] at h
    dsimp only at h
    obtain ⟨s, h1, h2⟩ := bind_ok.1 h
    cases hd : Era.decodeAll s with
    | none => rw [hd] at h2; cases h2
    | some e =>
      rw [hd] at h2; cases h2
      have := ha.read h1
      exact ⟨by omega, by omega⟩

theorem decodeStr_touched (ha : Blocked j b) {pos : Nat} (h : Hint) :
    Touched j pos (decodeStr b pos h) := by
  refine Touched.compact ha fun f hf => ?_
  refine Touched.read ha fun s => ?_
  cases stringFromUtf8 s with
  | none => exact .err _
  | some t => exact .here _

theorem decodePrimitive_touched (ha : Blocked j b) (p : Prim) {pos : Nat} (s : SpecialtySet) :
    Touched j pos (decodePrimitive p b pos s) := by
  unfold decodePrimitive
  cases p with
  | bool =>
    refine Touched.bindL _ fun _ => Touched.bind (Touched.read ha fun s => ?_) fun _ _ _ => .here _
    split
    · exact .here _
    · split
      · exact .here _
      · exact .err _
  | char =>
    refine Touched.bindL _ fun _ => Touched.bind (Touched.read ha fun s => ?_) fun _ _ _ => .here _
    split
    · exact .err _
    · cases charFromU32 (leNat s) with
      | none => exact .err _
      | some c => exact .here _
  | u256 =>
    exact Touched.bindL _ fun _ => Touched.bind (Touched.read ha fun _ => .here _) fun _ _ _ =>
      .here _
  | str => exact Touched.bindL _ fun _ => decodeStr_touched ha _
  | u8 | u16 | u32 | u64 | u128 => exact parseUInt_touched ha _ _
  | i8 | i16 | i32 | i64 | i128 | i256 => exact parseInt_touched ha _ _

theorem intoBitvecDecode_touched (ha : Blocked j b) (st : BitStore) {pos : Nat} :
    Touched j pos (intoBitvecDecode st b pos) := by
  intro s q h
  unfold intoBitvecDecode BitVecPositions.new at h
  obtain ⟨p, h1, h2⟩ := bind_ok.1 h
  obtain ⟨f, h3, h4⟩ := bind_ok.1 h1
  cases h4
  obtain ⟨s', h5, h6⟩ := bind_ok.1 h2
  cases h6
  obtain ⟨g1, g2⟩ := findCompact_touched ha _ h3
  dsimp only at h5 ⊢
  have := ha.read h5
  exact ⟨by omega, by omega⟩

theorem decodeBitSequence_touched (ha : Blocked j b) (o s id : Nat) {pos : Nat} :
    Touched j pos (decodeBitSequence R o s id b pos) := by
  unfold decodeBitSequence
  refine Touched.bindL _ fun ord => Touched.bindL _ fun t => ?_
  split
  · split
    · rename_i st _
      refine Touched.bind (intoBitvecDecode_touched ha _) fun s q _ => ?_
      dsimp only
      cases bitVecDecodeAll st ord s with
      | none => exact .err _
      | some bits => exact .here _
    · exact .err _
  · exact .err _

theorem withInfo_touched {pos : Nat} {info : List Info} {r : Res (PD × Nat)} (h : Touched j pos r) :
    Touched j pos (withInfo info r) := Touched.bind h fun _ _ _ => .here _

/-! ### The recursion -/

/-- Recursive calls are so related. -/
def RecTouched (j : Nat) (rec : Dec) : Prop :=
  ∀ tyIn pos p, Touched j pos (rec tyIn pos p)

variable {rec : Dec}

theorem decodeFieldsLoop_touched (h : RecTouched j rec) (c : Checker) (fs : List Field) {pos : Nat} :
    Touched j pos (decodeFieldsLoop rec c fs pos) := by
  induction fs generalizing pos with
  | nil => exact .here _
  | cons f fs ih =>
    exact Touched.bindL _ fun p => Touched.bind (h _ _ _) fun r q hq =>
      Touched.bind (ih) fun _ _ _ => .here _

theorem decodeFields_touched (h : RecTouched j rec) (c : Checker) (fs : List Field) {pos : Nat} :
    Touched j pos (decodeFields rec fs pos c) := by
  unfold decodeFields
  split
  · exact Touched.bindL _ fun _ => decodeFieldsLoop_touched h _ _
  · exact decodeFieldsLoop_touched h _ _

theorem decodeElementsLoop_touched (h : RecTouched j rec) (hu : HuskedType) (n : Nat) {pos : Nat} :
    Touched j pos (decodeElementsLoop rec hu n pos) := by
  induction n generalizing pos with
  | zero => exact .here _
  | succ n ih =>
    exact Touched.bind (h _ _ _) fun r q hq =>
      Touched.bind (ih) fun _ _ _ => .here _

theorem decodeElementsSet_touched (h : RecTouched j rec) (elem n : Nat) {pos : Nat} (p : Propagated) :
    Touched j pos (decodeElementsSet R rec elem n pos p) := by
  unfold decodeElementsSet
  refine Touched.bindL _ fun _ => Touched.bindL _ fun hu => ?_
  split
  · exact .here _
  · refine Touched.bind (decodeElementsLoop_touched h _ _) fun out q _ => ?_
    dsimp only
    cases wrapSequence out with
    | some s => exact .here _
    | none => exact .here _

theorem decodeTupleLoop_touched (h : RecTouched j rec) (c : Checker) (ids : List Nat) {pos : Nat} :
    Touched j pos (decodeTupleLoop R rec c ids pos) := by
  induction ids generalizing pos with
  | nil => exact .here _
  | cons id ids ih =>
    exact Touched.bindL _ fun _ => Touched.bindL _ fun p => Touched.bind (h _ _ _) fun r q hq =>
      Touched.bind (ih) fun _ _ _ => .here _

/-- The variant and its fields, then something with them. -/
theorem decodeVariant_touched {α : Type} (ha : Blocked j b) (h : RecTouched j rec) (vs : List Variant) {pos : Nat}
    (g : Variant → List FD → α) :
    Touched j pos (decodeVariant rec vs b pos >>= fun x => Except.ok (g x.1 x.2.1, x.2.2)) := by
  intro a q hq
  unfold decodeVariant pickVariant at hq
  obtain ⟨⟨v, fs, q1⟩, h1, h2⟩ := bind_ok.1 hq
  cases h2
  obtain ⟨v', h3, h4⟩ := bind_ok.1 h1
  obtain ⟨i, h5, h6⟩ := bind_ok.1 h3
  obtain ⟨⟨fs', q2⟩, h7, h8⟩ := bind_ok.1 h4
  cases h8
  obtain ⟨k1, k2⟩ := decodeFields_touched h Checker.new v.fields (pos := pos + 1) _ _ h7
  have := ha.readByte h5
  exact ⟨by dsimp only; omega, by dsimp only; omega⟩

theorem decodeTypeDef_touched (ha : Blocked j b) (h : RecTouched j rec) (ty : Typ) (id : Nat) {pos : Nat}
    (p : Propagated) :
    Touched j pos (decodeTypeDef R rec b ty id pos p) := by
  unfold decodeTypeDef
  split
  · exact Touched.bind (decodeFields_touched h _ _) fun _ _ _ => .here _
  · refine Touched.bindL _ fun _ => ?_
    split
    · exact .here _
    · exact (decodeVariant_touched ha h _
        fun v fs => ED.mk (.variant v.name (collectDocs v.docs) fs) p.info)
  · exact Touched.bind (getCompact_touched ha _) fun _ _ hq => decodeElementsSet_touched h _ _ _
  · exact decodeElementsSet_touched h _ _ _
  · unfold decodeTuple
    dsimp only
    split
    · exact Touched.bindL _ fun _ => Touched.bind (decodeTupleLoop_touched h _ _) fun _ _ _ => .here _
    · exact Touched.bindL _ fun _ => Touched.bind (decodeTupleLoop_touched h _ _) fun _ _ _ => .here _
  · exact withInfo_touched (decodePrimitive_touched ha _ _)
  · exact Touched.bindL _ fun _ => Touched.bindL _ fun _ => h _ _ _
  · exact Touched.bindL _ fun _ => withInfo_touched (decodeBitSequence_touched ha _ _ _)

theorem decodeChecked_touched (ha : Blocked j b) (h : RecTouched j rec) (sp : TypeChecked) (ty : Typ)
    (id : Nat) {pos : Nat} (p : Propagated) :
    Touched j pos (decodeChecked R rec b sp ty id pos p) := by
  unfold decodeChecked
  split
  · exact decodeTypeDef_touched ha h _ _ _
  · exact withInfo_touched (parseFixed_touched ha _ _)
  · exact Touched.bindL _ fun _ => Touched.bind (specialCaseEra_touched ha) fun _ _ _ => .here _
  · exact Touched.bindL _ fun _ => withInfo_touched (specialCaseH256_touched ha _)
  · rename_i n inf vs item
    exact Touched.bindL _ fun _ => (decodeVariant_touched ha h _
        fun v fs => ED.mk (.pallet item inf (collectDocs v.docs) n v.name fs) p.info)
  · exact withInfo_touched (parsePer_touched ha _ _)

theorem fromType_touched (ha : Blocked j b) (ty : Typ) {pos : Nat} : Touched j pos (TypeChecked.fromType R ty b pos) := by
  by_cases ho : (TypeHinted.fromType ty).open = true
  · cases hd : ty.typeDef with
    | variant vs =>
      rcases (readByte_fine b pos).cases with ⟨i, hrd⟩ | ⟨e, he⟩
      · rw [fromType_enum_ok ho hd hrd]
        intro a q h
        cases h
        have := ha.readByte hrd
        rcases enumSpecial_cases (R := R) (TypeHinted.fromType ty) vs i with h0 | ⟨k, _, h0⟩ | ⟨it, n, inf, vs', _, h0⟩ <;>
          rw [h0] <;> exact ⟨by simp only [afterSpecial]; omega, by simp only [afterSpecial]; omega⟩
      · rw [fromType_enum_err ho hd he]
        exact .here _
    | _ =>
      rw [fromType_nonEnum ho (by simp [hd])]
      exact .here _
  · unfold TypeChecked.fromType
    cases hh : TypeHinted.fromType ty <;> first | exact .here _ | (rw [hh] at ho; exact absurd rfl ho)

theorem decodeStep_touched (ha : Blocked j b) (h : RecTouched j rec) : RecTouched j (decodeStep R b rec) := by
  intro tyIn pos p
  unfold decodeStep
  refine Touched.bindL _ fun r => ?_
  obtain ⟨ty, id⟩ := r
  dsimp only
  exact Touched.bind (fromType_touched ha ty) fun sp q _ => decodeChecked_touched ha h _ _ _ _

theorem decodeF_touched (ha : Blocked j b) (n : Nat) : RecTouched j (decodeF R b n) := by
  induction n with
  | zero => intro _ _ _; exact .err _
  | succ n ih => exact decodeStep_touched ha ih

theorem decode_touched (ha : Blocked j b) : RecTouched j (decode R b) := fun _ _ _ => decodeF_touched ha _ _ _ _

end Verif
