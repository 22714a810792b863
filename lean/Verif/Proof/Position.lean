import Verif.Model.Position
import Verif.Spec.Position
import Verif.Proof.Truth
import Verif.Proof.Flaky
/-!
The decoder with the position as a state follows the one that hands it on.
-/
namespace Verif
open Spec

/-- Same outcome, same position on success; the position moves forward and an error is
located. -/
structure Keeps {α : Type} (b : Buf) (x : PosR α) (f : Nat → Res (α × Nat)) : Prop where
  good : ∀ {pos a q}, f pos = .ok (a, q) → x pos = (.ok a, q) ∧ Forward b.bytes pos q
  bad : ∀ {pos e}, f pos = .error e → ∃ q, x pos = (.error e, q) ∧ Forward b.bytes pos q ∧
    ∀ pe, e = .err pe → Located b.bytes pos q pe

theorem Spec.Forward.refl {d : Bytes} {p : Nat} : Forward d p p := ⟨Nat.le_refl _, id⟩

theorem Spec.Forward.trans {d : Bytes} {p q r : Nat} (h : Forward d p q) (h' : Forward d q r) : Forward d p r :=
  ⟨Nat.le_trans h.1 h'.1, fun hp => h'.2 (h.2 hp)⟩

theorem Spec.Forward.of_has {d bs : Bytes} {p : Nat} (h : Has d p bs) : Forward d p (p + bs.length) := by
  refine ⟨by omega, fun hp => ?_⟩
  have := (h.at hp).le
  omega

theorem Spec.Located.earlier {d : Bytes} {p p' q : Nat} {e : PErr} (h : Located d p q e) (hp : p' ≤ p) :
    Located d p' q e := by
  cases h with
  | bits h1 h2 h3 h4 h5 => exact .bits (Nat.le_trans hp h1) h2 h3 h4 h5
  | outOfRange => exact .outOfRange
  | tooShort => exact .tooShort
  | textTooShort h1 h2 => exact .textTooShort h1 h2
  | memory => exact .memory
  | noCompact => exact .noCompact
  | enumVariant => exact .enumVariant
  | typeFailure => exact .typeFailure
  | registry => exact .registry

/-- Errors about the registry only. -/
def OnlyRegistry {α : Type} (r : Res α) : Prop := Honest (fun e => ∃ x, e = .registry x) r

theorem OnlyRegistry.located {α : Type} {r : Res α} (h : OnlyRegistry r) {d : Bytes} {p q : Nat} :
    Honest (Located d p q) r := by
  intro e he
  obtain ⟨x, rfl⟩ := h e he
  exact .registry

namespace Keeps
variable {α β γ : Type} {b : Buf}

theorem pure (a : α) : Keeps b (PosM.ok a) (fun pos => .ok (a, pos)) where
  good := by intro pos a' q h; cases h; exact ⟨rfl, .refl⟩
  bad := by intro pos e h; cases h

theorem bind {x : PosR α} {f : Nat → Res (α × Nat)} {k : α → PosR β} {g : α → Nat → Res (β × Nat)}
    (hx : Keeps b x f) (hk : ∀ a, Keeps b (k a) (g a)) :
    Keeps b (x >>= k) (fun pos => f pos >>= fun r => g r.1 r.2) where
  good := by
    intro pos c q h
    obtain ⟨⟨a, p1⟩, h1, h2⟩ := bind_ok.1 h
    obtain ⟨e1, f1⟩ := hx.good h1
    obtain ⟨e2, f2⟩ := (hk a).good h2
    refine ⟨?_, f1.trans f2⟩
    show PosM.bind x k pos = _
    unfold PosM.bind
    rw [e1]; exact e2
  bad := by
    intro pos e h
    show ∃ q, PosM.bind x k pos = _ ∧ _
    unfold PosM.bind
    cases hf : f pos with
    | error e' =>
      rw [hf, error_bind] at h
      cases h
      obtain ⟨q, e1, f1, l1⟩ := hx.bad hf
      rw [e1]
      exact ⟨q, rfl, f1, l1⟩
    | ok r =>
      obtain ⟨a, p1⟩ := r
      rw [hf, ok_bind] at h
      obtain ⟨e1, f1⟩ := hx.good hf
      obtain ⟨q, e2, f2, l2⟩ := (hk a).bad h
      rw [e1]
      exact ⟨q, e2, f1.trans f2, fun pe hpe => (l2 pe hpe).earlier f1.1⟩

theorem still {r : Res γ} {k : γ → PosR β} {g : γ → Nat → Res (β × Nat)} (hr : OnlyRegistry r)
    (hk : ∀ a, r = .ok a → Keeps b (k a) (g a)) :
    Keeps b (PosM.still r >>= k) (fun pos => r >>= fun a => g a pos) := by
  cases r with
  | ok a => exact hk a rfl
  | error e =>
    constructor
    · intro pos a q h
      cases h
    · intro pos e' h
      cases h
      exact ⟨pos, rfl, .refl, fun pe hpe => hr.located pe (by rw [hpe])⟩

theorem fail {r : Res α} {f : Nat → Res (α × Nat)} (hr : OnlyRegistry r)
    (hf : ∀ pos, ∃ e, r = .error e ∧ f pos = .error e) : Keeps b (PosM.still r) f := by
  refine ⟨fun {pos _ _} h => ?_, fun {pos _} h => ?_⟩
  · obtain ⟨e, -, h2⟩ := hf pos
    rw [h2] at h; cases h
  · obtain ⟨e, h1, h2⟩ := hf pos
    rw [h2] at h; cases h
    exact ⟨pos, by rw [PosM.still, h1], .refl, fun pe hpe => hr.located pe (by rw [h1, hpe])⟩

theorem atomic {f : Nat → Res (α × Nat)} (hf : ∀ pos a q, f pos = .ok (a, q) → Forward b.bytes pos q)
    (he : ∀ pos, Honest (Located b.bytes pos pos) (f pos)) : Keeps b (PosM.atomic f) f where
  good := by
    intro pos a q h
    exact ⟨by unfold PosM.atomic; rw [h], hf pos a q h⟩
  bad := by
    intro pos e h
    exact ⟨pos, by unfold PosM.atomic; rw [h], .refl, fun pe hpe => he pos pe (by rw [h, hpe])⟩

theorem atomicP {f : Nat → Res (α × Nat)} {Q : α → Bytes → Prop} (hf : Parses b f Q)
    (he : ∀ pos, Honest (Located b.bytes pos pos) (f pos)) : Keeps b (PosM.atomic f) f :=
  atomic (fun pos a q h => by
    obtain ⟨bs, h1, rfl, -⟩ := hf.sound h
    exact .of_has h1) he

theorem congr {x : PosR α} {f f' : Nat → Res (α × Nat)} (h : Keeps b x f) (hf : ∀ pos, f' pos = f pos) :
    Keeps b x f' := by
  have : f' = f := funext hf
  exact this ▸ h

end Keeps

/-! ### Errors of readers -/

section
variable {R : Registry} {b : Buf}

theorem readSlice_located (pos n start : Nat) : Honest (Located b.bytes start pos) (b.readSlice pos n) := by
  unfold Buf.readSlice
  split
  · exact .err .outOfRange
  · split
    · exact .err .tooShort
    · split
      · exact .err .memory
      · exact .ok _

theorem readByte_located (pos start : Nat) : Honest (Located b.bytes start pos) (b.readByte pos) := by
  refine .bindR (readSlice_located _ _ _) fun s => ?_
  split
  · exact .ok _
  · exact .panic

theorem pickVariant_located (vs : List Variant) (pos start : Nat) :
    Honest (Located b.bytes start pos) (pickVariant vs b pos) := by
  refine .bindR (readByte_located _ _) fun i => ?_
  split
  · exact .ok _
  · exact .err .enumVariant

theorem findCompactLoop_located (dec : Bytes → Option Nat) (pos left i : Nat) :
    Honest (Located b.bytes pos pos) (findCompactLoop dec b pos left i) := by
  induction left generalizing i with
  | zero => exact .ok _
  | succ left ih =>
    unfold findCompactLoop
    split
    · exact .ok _
    · refine .bindR (readSlice_located _ _ _) fun s => ?_
      split
      · exact .ok _
      · exact ih _

theorem findCompact_located (dec : Bytes → Option Nat) (pos : Nat) :
    Honest (Located b.bytes pos pos) (findCompact dec b pos) := by
  unfold findCompact
  split
  · exact .err .outOfRange
  · refine .bindR (findCompactLoop_located _ _ _ _) fun o => ?_
    split
    · exact .ok _
    · exact .err .noCompact

theorem getCompact_located (dec : Bytes → Option Nat) (pos : Nat) :
    Honest (Located b.bytes pos pos) (getCompact dec b pos) :=
  .bindR (findCompact_located _ _) fun _ => .ok _

theorem cutUInt_located (w : UW) (pos : Nat) : Honest (Located b.bytes pos pos) (cutUInt w b pos) :=
  .bindR (readSlice_located _ _ _) fun _ => .ok _

theorem cutInt_located (w : IW) (pos : Nat) : Honest (Located b.bytes pos pos) (cutInt w b pos) :=
  .bindR (readSlice_located _ _ _) fun _ => .ok _

theorem cutU256_located (pos : Nat) : Honest (Located b.bytes pos pos) (cutU256 b pos) :=
  .bindR (readSlice_located _ _ _) fun _ => .ok _

theorem cutBool_located (pos : Nat) : Honest (Located b.bytes pos pos) (cutBool b pos) := by
  refine .bindR (readSlice_located _ _ _) fun s => ?_
  split
  · exact .ok _
  · split
    · exact .ok _
    · exact .err (.typeFailure (ty := .bool))

theorem cutChar_located (pos : Nat) : Honest (Located b.bytes pos pos) (cutChar b pos) := by
  refine .bindR (readSlice_located _ _ _) fun s => ?_
  split
  · exact .panic
  · split
    · exact .ok _
    · exact .err (.typeFailure (ty := .char))

theorem cutPer_located (k : PerKind) (pos : Nat) : Honest (Located b.bytes pos pos) (cutPer k b pos) := by
  refine .bindR (readSlice_located _ _ _) fun s => ?_
  split
  · exact .ok _
  · have : k.name = (Named.per k).name := by cases k <;> rfl
    rw [this]
    exact .err .typeFailure

theorem cutArray_located (n pos : Nat) : Honest (Located b.bytes pos pos) (cutArray n b pos) := by
  refine .bindR (readSlice_located _ _ _) fun s => ?_
  split
  · exact .panic
  · exact .ok _

theorem decodeStr_located (hint : Hint) (pos : Nat) : Honest (Located b.bytes pos pos) (decodeStr b pos hint) := by
  unfold decodeStr
  refine .bind (findCompact_located _ _) fun f hf => ?_
  obtain ⟨h1, h2, h3⟩ := findCompact_sound hf
  refine .bindR ?_ fun s => ?_
  · rw [h3]
    unfold Buf.readSlice
    split
    · rename_i h
      have := h2.le
      simp only [Buf.len] at h
      omega
    · split
      · exact .err (.textTooShort h1 h2)
      · split
        · exact .err .memory
        · exact .ok _
  · split
    · exact .ok _
    · exact .err (.typeFailure (ty := .str))

theorem specialCaseEra_located (pos : Nat) : Honest (Located b.bytes pos pos) (specialCaseEra b pos) := by
  unfold specialCaseEra
  refine .bindR (readSlice_located _ _ _) fun s => ?_
  split
  · exact .ok _
  · refine .bindR (readSlice_located _ _ _) fun s => ?_
    split
    · exact .ok _
    · exact .err (.typeFailure (ty := .era))

theorem blockCompact_registry (c : Option Nat) : OnlyRegistry (blockCompact c) := by
  cases c with
  | none => exact .ok _
  | some id => exact .err ⟨_, rfl⟩

theorem rejectCompact_registry (s : SpecialtySet) : OnlyRegistry s.rejectCompact := by
  unfold SpecialtySet.rejectCompact
  split
  · exact .err ⟨_, rfl⟩
  · exact .ok _

theorem get_registry (id : Nat) : OnlyRegistry (R.get id) := by
  unfold Registry.get
  split
  · exact .ok _
  · exact .err ⟨_, rfl⟩

theorem checkId_registry (c : Checker) (id : Nat) : OnlyRegistry (c.checkId id) := by
  unfold Checker.checkId
  split
  · exact .err ⟨_, rfl⟩
  · exact .ok _

theorem updateForField_registry (c : Checker) (f : Field) : OnlyRegistry (c.updateForField f) :=
  checkId_registry _ _

theorem forField_registry (c : Checker) (f : Field) : OnlyRegistry (Propagated.forField c f) :=
  .bindR (updateForField_registry _ _) fun _ => .ok _

theorem forTy_registry (c : Checker) (t : Typ) (id : Nat) : OnlyRegistry (Propagated.forTy c t id) :=
  .bindR (.bindR (checkId_registry _ _) fun _ => .ok _) fun _ => .ok _

theorem huskLoop_registry (n : Nat) (ty : Typ) (id : Nat) (info : List Info) (c : Checker) :
    OnlyRegistry (huskLoop R n ty id info c) := by
  induction n generalizing ty id info c with
  | zero => exact .fuel
  | succ n ih =>
    unfold huskLoop
    dsimp only
    split
    · split
      · exact .bindR (checkId_registry _ _) fun _ => .bindR (get_registry _) fun _ => ih _ _ _ _
      · exact .bindR (rejectCompact_registry _) fun _ => .bindR (checkId_registry _ _) fun _ =>
          .bindR (get_registry _) fun _ => ih _ _ _ _
      · exact .ok _
    · exact .ok _

theorem huskType_registry (id : Nat) (c : Checker) : OnlyRegistry (huskType R id c) :=
  .bindR (checkId_registry _ _) fun _ => .bindR (get_registry _) fun _ => huskLoop_registry _ _ _ _ _

theorem findBitOrder_registry (order id : Nat) : OnlyRegistry (findBitOrder R order id) := by
  refine .bindR (get_registry _) fun t => ?_
  split
  · split
    · split
      · exact .ok _
      · split
        · exact .ok _
        · exact .err ⟨_, rfl⟩
    · exact .err ⟨_, rfl⟩
  · exact .err ⟨_, rfl⟩

theorem resolve_registry (t : TyIn) : OnlyRegistry (t.resolve R) := by
  cases t with
  | resolved ty id => exact .ok _
  | symbol id => exact .bindR (get_registry _) fun _ => .ok _

/-! ### Leaves -/

theorem parseUInt_located (w : UW) (pos : Nat) (s : SpecialtySet) :
    Honest (Located b.bytes pos pos) (parseUInt w b pos s) := by
  unfold parseUInt
  split
  · exact .bindR (getCompact_located _ _) fun _ => .ok _
  · exact .bindR (cutUInt_located _ _) fun _ => .ok _

theorem parsePer_located (k : PerKind) (pos : Nat) (c : Option Nat) :
    Honest (Located b.bytes pos pos) (parsePer k b pos c) := by
  unfold parsePer
  split
  · exact .bindR (getCompact_located _ _) fun _ => .ok _
  · exact .bindR (cutPer_located _ _) fun _ => .ok _

theorem parseFixed_located (k : FixedKind) (pos : Nat) (c : Option Nat) :
    Honest (Located b.bytes pos pos) (parseFixed k b pos c) :=
  .bindR (blockCompact_registry c).located fun _ => .bindR (cutArray_located _ _) fun _ => .ok _

theorem parseInt_located (w : IW) (pos : Nat) (c : Option Nat) :
    Honest (Located b.bytes pos pos) (parseInt w b pos c) :=
  .bindR (blockCompact_registry c).located fun _ => .bindR (cutInt_located _ _) fun _ => .ok _

theorem specialCaseH256_located (pos : Nat) (s : SpecH256) :
    Honest (Located b.bytes pos pos) (specialCaseH256 b pos s) := by
  refine .bindR (cutArray_located _ _) fun _ => ?_
  cases s <;> exact .ok _

theorem decodePrimitive_located (p : Prim) (pos : Nat) (s : SpecialtySet) :
    Honest (Located b.bytes pos pos) (decodePrimitive p b pos s) := by
  cases p with
  | bool => exact .bindR (blockCompact_registry _).located fun _ => .bindR (cutBool_located _) fun _ => .ok _
  | char => exact .bindR (blockCompact_registry _).located fun _ => .bindR (cutChar_located _) fun _ => .ok _
  | u256 => exact .bindR (blockCompact_registry _).located fun _ => .bindR (cutU256_located _) fun _ => .ok _
  | str => exact .bindR (rejectCompact_registry _).located fun _ => decodeStr_located _ _
  | u8 | u16 | u32 | u64 | u128 => exact parseUInt_located _ _ _
  | i8 | i16 | i32 | i64 | i128 | i256 => exact parseInt_located _ _ _

theorem info_keeps (info : List Info) {x : PosR PD} {f : Nat → Res (PD × Nat)} (h : Keeps b x f) :
    Keeps b (posInfo info x) (fun pos => withInfo info (f pos)) :=
  h.bind (k := fun d => PosM.ok (ED.mk d info))
    (g := fun d pos => .ok (ED.mk d info, pos)) fun _ => .pure _

theorem readByte_forward {pos : Nat} {i : UInt8} (h : b.readByte pos = .ok i) : Forward b.bytes pos (pos + 1) :=
  Forward.of_has (bs := [i]) (.inr (readByte_ok h))

theorem fromType_keeps (ty : Typ) :
    Keeps b (PosM.atomic (TypeChecked.fromType R ty b)) (TypeChecked.fromType R ty b) := by
  refine .atomic (fun pos a q h => ?_) fun pos e he => ?_
  · obtain ⟨r, h1, h2⟩ := fromType_recog (R := R) (b := b) ty pos
    rw [h1] at h
    cases h
    cases h2 with
    | signature h _ => exact readByte_forward h
    | pallet h _ => exact readByte_forward h
    | _ => exact .refl
  · obtain ⟨r, h1, -⟩ := fromType_recog (R := R) (b := b) ty pos
    rw [h1] at he
    cases he

theorem readElements_some (n : Nat) (k : Nat) (bs : Bytes) (h : bs.length = k * n) :
    ∃ els, readElements n k bs = some (els, []) := by
  induction k generalizing bs with
  | zero =>
    rw [Nat.zero_mul] at h
    cases bs with
    | nil => exact ⟨[], rfl⟩
    | cons x xs => cases h
  | succ k ih =>
    rw [Nat.succ_mul] at h
    unfold readElements
    rw [if_neg (by omega)]
    obtain ⟨els, he⟩ := ih (bs.drop n) (by rw [List.length_drop]; omega)
    rw [he]
    exact ⟨_, rfl⟩

theorem posIntoBitvec_eq (st : BitStore) (pos : Nat) :
    posIntoBitvec st b pos = match intoBitvecDecode st b pos with
      | .ok (s, q) => (.ok s, q)
      | .error e => (.error e, pos) := by
  unfold posIntoBitvec intoBitvecDecode
  show PosM.bind (PosM.still _) _ pos = _
  unfold PosM.bind PosM.still
  dsimp only
  cases BitVecPositions.new st b pos with
  | error e => rfl
  | ok p =>
    dsimp only
    rw [ok_bind]
    show PosM.bind (PosM.still _) _ pos = _
    unfold PosM.bind PosM.still
    dsimp only
    cases b.readSlice p.bitvecStart p.minimalLength with
    | error e => rfl
    | ok s => rfl

theorem posBits_eq (st : BitStore) (o : BitOrder) (pos : Nat) :
    posBits st o b pos = match intoBitvecDecode st b pos with
      | .ok (s, q) =>
        match bitVecDecodeAll st o s with
        | some bits => (.ok (PD.bitVec st o bits), q)
        | none => (.error (.err (.typeFailure pos (bitVecName st o))), q)
      | .error e => (.error e, pos) := by
  unfold posBits
  show PosM.bind (posIntoBitvec st b) _ pos = _
  unfold PosM.bind
  rw [posIntoBitvec_eq]
  cases intoBitvecDecode st b pos with
  | error e => rfl
  | ok r =>
    obtain ⟨s, q⟩ := r
    dsimp only
    cases bitVecDecodeAll st o s with
    | some bits => rfl
    | none => rfl

theorem intoBitvec_facts {st : BitStore} {pos q : Nat} {s : Bytes} (h : intoBitvecDecode st b pos = .ok (s, q)) :
    ∃ n rest, n < 2 ^ 32 ∧ s = compactEncode n ++ rest ∧ At b.bytes pos s ∧
      rest.length = ceilDiv n (8 * st.bytes) * st.bytes ∧ q = pos + s.length := by
  unfold intoBitvecDecode BitVecPositions.new at h
  simp only [bind_ok, Except.ok.injEq] at h
  obtain ⟨p, ⟨f, h1, rfl⟩, s', h2, h3⟩ := h
  cases h3
  obtain ⟨c1, c2, c3⟩ := findCompact_sound h1
  obtain ⟨a1, a2⟩ := readSlice_ok h2
  dsimp only at a1 a2 ⊢
  rw [ceilDiv_ceilDiv, c3] at a2
  rw [ceilDiv_ceilDiv, c3]
  have hp := c2.prefix a1 (by omega)
  refine ⟨f.compact, s.drop (compactEncode f.compact).length, c1, ?_, a1, ?_, ?_⟩
  · rw [← hp, List.length_take, Nat.min_eq_left (by omega)]
    exact (List.take_append_drop _ _).symm
  · rw [List.length_drop]; omega
  · omega

theorem posBits_keeps (st : BitStore) (o : BitOrder) :
    Keeps b (posBits st o b) (fun pos => do
      let (s, pos') ← intoBitvecDecode st b pos
      match bitVecDecodeAll st o s with
      | some bits => .ok (.bitVec st o bits, pos')
      | none => .error (.err (.typeFailure pos (bitVecName st o)))) where
  good := by
    intro pos a q h
    obtain ⟨⟨s, q'⟩, h1, h2⟩ := bind_ok.1 h
    obtain ⟨n, rest, -, -, g3, -, rfl⟩ := intoBitvec_facts h1
    rw [posBits_eq, h1]
    dsimp only at h2 ⊢
    cases hb : bitVecDecodeAll st o s with
    | none => rw [hb] at h2; cases h2
    | some bits => rw [hb] at h2; cases h2; exact ⟨rfl, .of_has (.inr g3)⟩
  bad := by
    intro pos e h
    rw [posBits_eq]
    cases h1 : intoBitvecDecode st b pos with
    | error e' =>
      rw [h1, error_bind] at h
      cases h
      refine ⟨pos, rfl, .refl, fun pe hpe => ?_⟩
      refine (?_ : Honest (Located b.bytes pos pos) (intoBitvecDecode st b pos)) pe (by rw [h1, hpe])
      unfold intoBitvecDecode BitVecPositions.new
      refine .bind (.bindR (findCompact_located _ _) fun _ => .ok _) fun p hp => ?_
      obtain ⟨f, -, hf⟩ := bind_ok.1 hp
      cases hf
      exact .bindR (readSlice_located _ _ _) fun _ => .ok _
    | ok r =>
      obtain ⟨s, q⟩ := r
      rw [h1, ok_bind] at h
      obtain ⟨n, rest, g1, g2, g3, g4, rfl⟩ := intoBitvec_facts h1
      dsimp only at h ⊢
      cases hb : bitVecDecodeAll st o s with
      | some bits => rw [hb] at h; cases h
      | none =>
        rw [hb] at h
        cases h
        refine ⟨_, rfl, .of_has (.inr g3), fun pe hpe => ?_⟩
        cases hpe
        have hn : bitVecName st o = (Named.bits st o).name := by cases st <;> cases o <;> decide
        rw [hn]
        have hbig : 0x1fffffff < n := by
          refine Nat.lt_of_not_le fun hle => ?_
          obtain ⟨els, he⟩ := readElements_some _ _ _ g4
          unfold bitVecDecodeAll at hb
          rw [g2, compactDecode_complete (w := .u32) _ (by simpa [UW.bytes] using g1)] at hb
          dsimp only at hb
          rw [if_neg (by omega), he] at hb
          cases hb
        refine .bits (Nat.le_refl _) hbig g1 (at_append.1 (g2 ▸ g3)).1 ?_
        have hlen := congrArg List.length g2
        rw [List.length_append] at hlen
        have hc := ceilDiv_isCeil n (n := 8 * st.bytes) (by have := st.bytes_pos; omega)
        have : 0 < ceilDiv n (8 * st.bytes) := by
          refine Nat.pos_of_ne_zero fun h0 => ?_
          have := hc.1
          rw [h0] at this
          omega
        have := Nat.mul_pos this st.bytes_pos
        omega

theorem bitSequence_keeps (order store id : Nat) :
    Keeps b (posBitSequence R order store id b) (decodeBitSequence R order store id b) := by
  unfold posBitSequence decodeBitSequence
  refine .still (findBitOrder_registry _ _) fun o _ => .still (get_registry _) fun t _ => ?_
  have hbad : ∀ e, Keeps (α := PD) b (PosM.still (failInternal e)) fun _ => failInternal e := fun e =>
    .fail (.err ⟨_, rfl⟩) fun _ => ⟨_, rfl, rfl⟩
  cases t.typeDef with
  | primitive p =>
    dsimp only
    cases BitStore.ofPrim p with
    | some st => exact posBits_keeps st o
    | none => exact hbad _
  | _ => exact hbad _

end

/-! ### The decoder -/

section
variable {R : Registry} {b : Buf} {rec : Dec} {recP : DecPos}

/-- The recursive calls keep the position. -/
def RecKeeps (b : Buf) (recP : DecPos) (rec : Dec) : Prop :=
  ∀ t p, Keeps b (recP t p) (fun pos => rec t pos p)

theorem fieldsLoop_keeps (h : RecKeeps b recP rec) (c : Checker) (fs : List Field) :
    Keeps b (posFieldsLoop recP c fs) (fun pos => decodeFieldsLoop rec c fs pos) := by
  induction fs with
  | nil => exact .pure _
  | cons f fs ih =>
    unfold posFieldsLoop decodeFieldsLoop
    exact .still (forField_registry _ _) fun p _ => (h _ _).bind fun d => ih.bind fun rest => .pure _

theorem fields_keeps (h : RecKeeps b recP rec) (fs : List Field) (c : Checker) :
    Keeps b (posFields recP fs c) (fun pos => decodeFields rec fs pos c) := by
  unfold posFields decodeFields
  split
  · exact .still (rejectCompact_registry _) fun _ _ => fieldsLoop_keeps h _ _
  · exact fieldsLoop_keeps h _ _

theorem elementsLoop_keeps (h : RecKeeps b recP rec) (hu : HuskedType) (n : Nat) :
    Keeps b (posElementsLoop recP hu n) (fun pos => decodeElementsLoop rec hu n pos) := by
  induction n with
  | zero => exact .pure _
  | succ n ih =>
    unfold posElementsLoop decodeElementsLoop
    exact (h _ _).bind fun d => ih.bind fun rest => .pure _

theorem elementsSet_keeps (h : RecKeeps b recP rec) (elem n : Nat) (p : Propagated) :
    Keeps b (posElementsSet R recP elem n p) (fun pos => decodeElementsSet R rec elem n pos p) := by
  unfold posElementsSet decodeElementsSet
  refine .still (rejectCompact_registry _) fun _ _ => .still (huskType_registry _ _) fun hu _ => ?_
  split
  · exact .pure _
  · refine (elementsLoop_keeps h hu n).bind
      (g := fun out pos => match wrapSequence out with
        | some s => .ok (ED.mk (.sequence hu.info s) p.info, pos)
        | none => .ok (ED.mk (.sequenceRaw hu.info out) p.info, pos)) fun out => ?_
    cases wrapSequence out <;> exact .pure _

theorem tupleLoop_keeps (h : RecKeeps b recP rec) (c : Checker) (ids : List Nat) :
    Keeps b (posTupleLoop R recP c ids) (fun pos => decodeTupleLoop R rec c ids pos) := by
  induction ids with
  | nil => exact .pure _
  | cons f fs ih =>
    unfold posTupleLoop decodeTupleLoop
    exact .still (get_registry _) fun ty _ => .still (forTy_registry _ _ _) fun p _ =>
      (h _ _).bind fun d => ih.bind fun rest => .pure _

theorem tuple_keeps (h : RecKeeps b recP rec) (ids : List Nat) (p : Propagated) :
    Keeps b (posTuple R recP ids p) (fun pos => decodeTuple R rec ids pos p) := by
  unfold posTuple decodeTuple
  have hk : ∀ p' : Propagated, Keeps b (do
      let es ← posTupleLoop R recP p'.checker ids
      PosM.ok (ED.mk (.tuple es) p'.info))
      (fun pos => do
        let (es, pos) ← decodeTupleLoop R rec p'.checker ids pos
        .ok (ED.mk (.tuple es) p'.info, pos)) := fun p' =>
    (tupleLoop_keeps h _ _).bind fun es => .pure _
  split
  · exact .still (.bindR (rejectCompact_registry _) fun _ => .ok _) fun p' _ => hk p'
  · exact .still (.ok _) fun p' _ => hk p'

theorem variant_keeps (h : RecKeeps b recP rec) (vs : List Variant) :
    Keeps b (posVariant recP vs b)
      (fun pos => decodeVariant rec vs b pos >>= fun r => .ok ((r.1, r.2.1), r.2.2)) := by
  have hrun : ∀ pos, posVariant recP vs b pos = match pickVariant vs b pos with
      | .error e => (.error e, pos)
      | .ok v => (posFields recP v.fields Checker.new >>= fun fs => PosM.ok (v, fs)) (pos + 1) := by
    intro pos
    unfold posVariant
    show PosM.bind (PosM.still _) _ pos = _
    unfold PosM.bind PosM.still
    dsimp only
    cases pickVariant vs b pos <;> rfl
  have hf : ∀ v : Variant, Keeps b (posFields recP v.fields Checker.new >>= fun fs => PosM.ok (v, fs))
      (fun pos => decodeFields rec v.fields pos Checker.new >>= fun r => .ok ((v, r.1), r.2)) := fun v =>
    (fields_keeps h _ _).bind fun fs => .pure _
  have hpick : ∀ {pos v}, pickVariant vs b pos = .ok v → Forward b.bytes pos (pos + 1) := by
    intro pos v hv
    obtain ⟨i, hi, -⟩ := bind_ok.1 hv
    exact readByte_forward hi
  constructor
  · intro pos a q hd
    obtain ⟨⟨v, fs, q'⟩, h1, h2⟩ := bind_ok.1 hd
    obtain ⟨v', hv, h3⟩ := bind_ok.1 h1
    obtain ⟨⟨fs', q''⟩, h4, h5⟩ := bind_ok.1 h3
    cases h5
    cases h2
    obtain ⟨g1, g2⟩ := (hf v).good (pos := pos + 1) (a := (v, fs)) (q := q') (by rw [h4]; rfl)
    rw [hrun, hv]
    exact ⟨g1, (hpick hv).trans g2⟩
  · intro pos e hd
    rw [hrun]
    unfold decodeVariant at hd
    cases hv : pickVariant vs b pos with
    | error e' =>
      rw [hv, error_bind, error_bind] at hd
      cases hd
      exact ⟨pos, rfl, .refl, fun pe hpe => pickVariant_located vs pos pos pe (by rw [hv, hpe])⟩
    | ok v =>
      rw [hv, ok_bind] at hd
      cases hx : decodeFields rec v.fields (pos + 1) Checker.new with
      | ok r => rw [hx] at hd; cases hd
      | error e' =>
        rw [hx] at hd
        cases hd
        obtain ⟨q, g1, g2, g3⟩ := (hf v).bad (pos := pos + 1) (e := e) (by rw [hx]; rfl)
        exact ⟨q, g1, (hpick hv).trans g2, fun pe hpe => (g3 pe hpe).earlier (by omega)⟩

theorem typeDef_keeps (h : RecKeeps b recP rec) (ty : Typ) (id : Nat) (p : Propagated) :
    Keeps b (posTypeDef R recP b ty id p) (fun pos => decodeTypeDef R rec b ty id pos p) := by
  unfold posTypeDef decodeTypeDef
  cases ty.typeDef with
  | composite fields => exact (fields_keeps h _ _).bind fun fs => .pure _
  | variant vs =>
    dsimp only
    refine .still (rejectCompact_registry _) fun _ _ => ?_
    split
    · exact .pure _
    · refine ((variant_keeps h vs).bind (k := fun r => PosM.ok
        (ED.mk (.variant r.1.name (collectDocs r.1.docs) r.2) p.info))
        (g := fun r pos => .ok (ED.mk (.variant r.1.name (collectDocs r.1.docs) r.2) p.info, pos))
        fun r => .pure _).congr fun pos => ?_
      cases decodeVariant rec vs b pos <;> rfl
  | sequence elem =>
    refine (Keeps.atomic (fun pos a q hq => ?_) fun pos => getCompact_located _ _).bind fun n =>
      elementsSet_keeps h _ _ _
    obtain ⟨-, h2, rfl⟩ := getCompact_sound hq
    exact .of_has (.inr h2)
  | array len elem => exact elementsSet_keeps h _ _ _
  | tuple ids => exact tuple_keeps h _ _
  | primitive prim =>
    exact info_keeps _ (.atomicP (decodePrimitive_parses _ _) fun pos => decodePrimitive_located _ _ _)
  | compact inner =>
    exact .still (rejectCompact_registry _) fun _ _ => .still (checkId_registry _ _) fun _ _ => h _ _
  | bitSequence o s =>
    exact .still (rejectCompact_registry _) fun _ _ => info_keeps _ (bitSequence_keeps _ _ _)

theorem checked_keeps (h : RecKeeps b recP rec) (sp : TypeChecked) (ty : Typ) (id : Nat) (p : Propagated) :
    Keeps b (posChecked R recP b sp ty id p) (fun pos => decodeChecked R rec b sp ty id pos p) := by
  unfold posChecked decodeChecked
  cases sp with
  | none => exact typeDef_keeps h _ _ _
  | fixed k => exact info_keeps _ (.atomicP (parseFixed_parses _ _) fun pos => parseFixed_located _ _ _)
  | era =>
    exact .still (rejectCompact_registry _) fun _ _ =>
      (Keeps.atomicP specialCaseEra_parses fun pos => specialCaseEra_located _).bind fun e => .pure _
  | h256 =>
    exact .still (rejectCompact_registry _) fun _ _ =>
      info_keeps _ (.atomicP (specialCaseH256_parses _) fun pos => specialCaseH256_located _ _)
  | palletSpecific pn pinfo vs item =>
    refine .still (rejectCompact_registry _) fun _ _ => ?_
    refine ((variant_keeps h vs).bind (k := fun r => PosM.ok
      (ED.mk (.pallet item pinfo (collectDocs r.1.docs) pn r.1.name r.2) p.info))
      (g := fun r pos => .ok (ED.mk (.pallet item pinfo (collectDocs r.1.docs) pn r.1.name r.2) p.info, pos))
      fun r => .pure _).congr fun pos => ?_
    cases decodeVariant rec vs b pos <;> rfl
  | perThing k => exact info_keeps _ (.atomicP (parsePer_parses _ _) fun pos => parsePer_located _ _ _)

theorem step_keeps (h : RecKeeps b recP rec) : RecKeeps b (posStep R b recP) (decodeStep R b rec) := by
  intro t p
  unfold posStep decodeStep
  exact .still (resolve_registry _) fun r _ => (fromType_keeps r.1).bind fun sp => checked_keeps h _ _ _ _

theorem posF_keeps (n : Nat) : RecKeeps b (posF R b n) (decodeF R b n) := by
  induction n with
  | zero => exact fun t p => .fail .fuel fun _ => ⟨_, rfl, rfl⟩
  | succ n ih => exact step_keeps ih

theorem posDecode_keeps (t : TyIn) (p : Propagated) :
    Keeps b (posDecode R b t p) (fun pos => decode R b t pos p) where
  good := by intro pos a q h; exact (posF_keeps _ t p).good h
  bad := by intro pos e h; exact (posF_keeps _ t p).bad h

end

end Verif
