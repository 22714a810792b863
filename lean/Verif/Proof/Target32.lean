import Verif.Model.Target32
import Verif.Spec.Target32
import Verif.Props.BitPatch
import Verif.Props.Values
import Verif.Proof.Faults
import Verif.Proof.HuskBridge
/-!
Targets with 32-bit pointers: the outcome is that of 64-bit targets, a panic, or an error.
-/
namespace Verif
open Spec

theorem Spec.NarrowRes.refl {P S : Prop} {α : Type} (r : Res α) : NarrowRes P S r r := .inl rfl

theorem Spec.NarrowRes.bind {P S : Prop} {α β : Type} {x x' : Res α} {f f' : α → Res β} (hx : NarrowRes P S x x')
    (hf : ∀ a, x = .ok a → NarrowRes P S (f a) (f' a)) : NarrowRes P S (x >>= f) (x' >>= f') := by
  rcases hx with rfl | ⟨h, rfl⟩ | ⟨h, e, rfl⟩
  · cases x with
    | error e => exact .inl rfl
    | ok a => exact hf a rfl
  · exact .inr (.inl ⟨h, rfl⟩)
  · exact .inr (.inr ⟨h, e, rfl⟩)

theorem Spec.NarrowRes.bindR {P S : Prop} {α β : Type} {x x' : Res α} (f : α → Res β) (hx : NarrowRes P S x x') :
    NarrowRes P S (x >>= f) (x' >>= f) := hx.bind fun _ _ => .refl _

theorem Spec.NarrowRes.bindL {P S : Prop} {α β : Type} (x : Res α) {f f' : α → Res β}
    (hf : ∀ a, x = .ok a → NarrowRes P S (f a) (f' a)) : NarrowRes P S (x >>= f) (x >>= f') := (NarrowRes.refl x).bind hf

theorem Spec.NarrowRes.trans_eq {P S : Prop} {α : Type} {x y z : Res α} (h : NarrowRes P S x y) (hy : y = z) :
    NarrowRes P S x z := hy ▸ h

theorem Tame.narrow {P : Prop} {b : Buf} {α : Type} {x y : Res α} (h : Tame b x y) : NarrowRes P (Strained b) x y := by
  rcases h with ⟨h, rfl⟩ | rfl
  · exact .inr (.inr ⟨.inl h, _, rfl⟩)
  · exact .inl rfl

variable {R : Registry} {b : Buf}

/-! ### Bit sequences -/

theorem readElements_length {n k : Nat} {bs r : Bytes} {els : List Nat} (h : readElements n k bs = some (els, r)) :
    els.length = k ∧ k * n + r.length = bs.length := by
  induction k generalizing bs els with
  | zero => cases h; simp
  | succ k ih =>
    unfold readElements at h
    split at h
    · cases h
    · rename_i hl
      simp only [Option.map_eq_some_iff] at h
      obtain ⟨⟨l, r'⟩, h1, h2⟩ := h
      cases h2
      obtain ⟨h3, h4⟩ := ih h1
      rw [List.length_drop] at h4
      rw [List.length_cons, Nat.succ_mul]
      dsimp only at h3 h4 ⊢
      omega

theorem compactDecode_rest {w : UW} {bs r : Bytes} {v : Nat} (h : compactDecode w bs = some (v, r)) :
    r.length ≤ bs.length := by
  have := (compactDecode_sound h).2
  rw [this]
  simp

/-- Below 64 MiB, the limit on the number of elements is not reached. -/
theorem bitVecDecodeAll32_eq (st : BitStore) (o : BitOrder) {bs : Bytes} (h : bs.length < 2 ^ 26) :
    bitVecDecodeAll32 st o bs = bitVecDecodeAll st o bs := by
  unfold bitVecDecodeAll32 bitVecDecodeAll
  cases hc : compactDecode .u32 bs with
  | none => rfl
  | some r =>
    obtain ⟨bits, rest⟩ := r
    dsimp only
    split
    · rfl
    · have hr := compactDecode_rest hc
      cases he : readElements st.bytes (ceilDiv bits (8 * st.bytes)) rest with
      | none => rfl
      | some x =>
        obtain ⟨els, r⟩ := x
        cases r with
        | cons => rfl
        | nil =>
          dsimp only
          obtain ⟨h1, h2⟩ := readElements_length he
          rw [← h1, List.length_nil] at h2
          rw [if_neg]
          have : els.length * (8 * st.bytes) = 8 * (els.length * st.bytes) := by
            rw [Nat.mul_left_comm]
          omega

theorem bitVecDecodeAll32_cases (st : BitStore) (o : BitOrder) (bs : Bytes) :
    bitVecDecodeAll32 st o bs = bitVecDecodeAll st o bs ∨
      (bitVecDecodeAll32 st o bs = none ∧ 2 ^ 26 ≤ bs.length) := by
  rcases Nat.lt_or_ge bs.length (2 ^ 26) with h | h
  · exact .inl (bitVecDecodeAll32_eq st o h)
  · unfold bitVecDecodeAll32 bitVecDecodeAll
    cases hc : compactDecode .u32 bs with
    | none => exact .inl rfl
    | some r =>
      obtain ⟨bits, rest⟩ := r
      dsimp only
      split
      · exact .inl rfl
      · cases he : readElements st.bytes (ceilDiv bits (8 * st.bytes)) rest with
        | none => exact .inl rfl
        | some x =>
          obtain ⟨els, r⟩ := x
          cases r with
          | cons => exact .inl rfl
          | nil =>
            dsimp only
            split
            · exact .inr ⟨rfl, h⟩
            · exact .inl rfl

theorem decodeBitsSmall_narrow {P : Prop} (st : BitStore) (o : BitOrder) (pos : Nat) :
    NarrowRes P (Strained b) (decodeBitsSmall st o b pos) (bitsReader st o b.clean pos) := by
  unfold decodeBitsSmall bitsReader
  refine (intoBitvecDecode_tame st pos).narrow.bind ?_
  rintro ⟨s, q⟩ hs
  dsimp only
  rcases bitVecDecodeAll32_cases st o s with h | ⟨h, hl⟩
  · rw [h]; exact .refl _
  · rw [h]
    refine .inr (.inr ⟨.inr ?_, _, rfl⟩)
    unfold intoBitvecDecode at hs
    simp only [bind_ok, Except.ok.injEq] at hs
    obtain ⟨p, _, s', h2, h3⟩ := hs
    cases h3
    obtain ⟨h4, _⟩ := readSlice_ok h2
    have := h4.le
    omega

/-- Chunks are read as in reliable memory, or an error is reported. -/
theorem readChunks_narrow {P : Prop} (p : BitVecPositions) (n i : Nat) :
    NarrowRes P (Strained b) (readChunks b p n i) (readChunks b.clean p n i) := by
  induction n generalizing i with
  | zero => exact .refl _
  | succ n ih =>
    unfold readChunks
    rcases readSlice_tame (b := b) (p.dataStart + i * 8) 8 with ⟨h, he⟩ | h
    · rw [he]
      exact .inr (.inr ⟨.inl h, _, rfl⟩)
    · rw [h]
      cases hs : b.clean.readSlice (p.dataStart + i * 8) 8 with
      | ok s =>
        dsimp only
        split
        · exact .bindR _ (ih _)
        · exact .refl _
      | error e => cases e <;> exact .refl _

theorem patch_narrow {P : Prop} (o : BitOrder) (pos : Nat) :
    NarrowRes P (Strained b) (patchBitvecU64 o b pos) (patchBitvecU64 o b.clean pos) := by
  unfold patchBitvecU64
  refine .bind (Tame.narrow (Tame.bindR _ (findCompact_tame _ _))) fun p _ => ?_
  exact .bindR _ (readChunks_narrow _ _ _)

theorem Buf.clean_reliable (b : Buf) : Reliable b.clean := fun _ _ => rfl

/-- The kept bits are the first ones. -/
theorem kept_prefix_lsb0 (els : List Nat) (h : ∀ e ∈ els, e < 2 ^ 64) :
    ∃ t, els.flatMap (elementBits .lsb0 64) =
      (reformVec .lsb0 (els.map (leBytes 8))).flatMap (elementBits .lsb0 32) ++ t := by
  rcases List.eq_nil_or_concat els with rfl | ⟨init, e, rfl⟩
  · exact ⟨[], rfl⟩
  · rw [List.concat_eq_append] at *
    rw [reformed_snoc .lsb0 init e h, List.flatMap_append]
    simp only [List.flatMap_cons, List.flatMap_nil, List.append_nil, List.append_assoc]
    by_cases h0 : firstHalf .lsb0 e = 0
    · refine ⟨elementBits .lsb0 32 (secondHalf .lsb0 e), ?_⟩
      rw [lastBits_zero_lsb0 e h0, ← elementBits_halves]
    · exact ⟨[], by rw [lastBits_whole _ e h0, List.append_nil]⟩

/-- An error in reading chunks is that of the data being too short. -/
theorem readChunks_clean (p : BitVecPositions) (n i : Nat) :
    (∃ c, readChunks b.clean p n i = .ok c) ∨
    (readChunks b.clean p n i = .error (.err (.buffer (.dataTooShort p.bitvecStart p.minimalLength))) ∧
      b.len < p.dataStart + (i + n) * 8) := by
  induction n generalizing i with
  | zero => exact .inl ⟨_, rfl⟩
  | succ n ih =>
    unfold readChunks
    rcases (readSlice_fine b.clean (p.dataStart + i * 8) 8).cases with ⟨s, hs⟩ | ⟨e, he⟩
    · rw [hs]
      obtain ⟨_, hl⟩ := readSlice_ok hs
      dsimp only
      rw [if_pos hl]
      rcases ih (i + 1) with ⟨c, hc⟩ | ⟨hc, hb⟩
      · rw [hc]; exact .inl ⟨_, rfl⟩
      · rw [hc]
        refine .inr ⟨rfl, ?_⟩
        rw [show i + (n + 1) = i + 1 + n by omega]
        exact hb
    · rw [he]
      refine .inr ⟨rfl, ?_⟩
      apply Classical.byContradiction
      intro hc
      unfold Buf.readSlice at he
      have : b.clean.len = b.len := rfl
      rw [if_neg (by omega), if_neg (by omega)] at he
      cases he

/-- With order `Lsb0`, the replacement decoder panics or does what the 64-bit decoder does. -/
theorem patch_lsb0 (pos : Nat) :
    patchBitvecU64 .lsb0 b.clean pos = .error .panic ∨
    patchBitvecU64 .lsb0 b.clean pos = bitsReader .u64 .lsb0 b.clean pos := by
  cases hp : patchBitvecU64 .lsb0 b.clean pos with
  | ok r =>
    obtain ⟨bits', q⟩ := r
    right
    obtain ⟨bits, els, hs, hat, rfl, hlen, hcap⟩ := patch_sound hp
    rw [(bitsReader_parses .u64 .lsb0).complete b.clean_reliable (stored_bitsEnc hs hcap) hat]
    rw [patch_run_raw b.clean_reliable hs hat (by omega)] at hp
    dsimp only at hp
    split at hp
    · cases hp
    · split at hp
      · cases hp
      · rename_i hk
        cases hp
        obtain ⟨t, ht⟩ := kept_prefix_lsb0 els hs.range
        have he := hs.eq_take
        rw [ht, List.take_append_of_le_length (by omega)] at he
        rw [← he]
  | error e =>
    unfold patchBitvecU64 at hp
    cases h1 : BitVecPositions.new .u64 b.clean pos with
    | error e' =>
      rw [h1] at hp
      right
      rw [← hp]
      simp only [bitsReader, intoBitvecDecode, h1, error_bind]
    | ok p =>
      rw [h1, ok_bind] at hp
      rcases readChunks_clean (b := b) p p.numberOfElements 0 with ⟨c, hc⟩ | ⟨hc, hb⟩
      · rw [hc, ok_bind] at hp
        left
        dsimp only at hp
        split at hp
        · rw [← hp]
        · split at hp
          · rw [← hp]
          · cases hp
      · rw [hc, error_bind] at hp
        right
        rw [← hp]
        simp only [bitsReader, intoBitvecDecode, h1, ok_bind]
        unfold BitVecPositions.new at h1
        obtain ⟨f, h2, h3⟩ := bind_ok.1 h1
        cases h3
        dsimp only at hb ⊢
        obtain ⟨-, c1, c2⟩ := findCompact_sound h2
        have hle := c1.le
        have : b.clean.len = b.len := rfl
        have hle' : pos ≤ b.len := by
          have : b.clean.bytes.length = b.len := rfl
          omega
        unfold Buf.readSlice
        rw [if_neg (by omega), if_pos]
        · rfl
        · rw [this]
          simp only [BitStore.bytes, Nat.zero_add] at hb ⊢
          omega

theorem decodeBitSequence32_eq (R : Registry) (order store id : Nat) (b : Buf) (pos : Nat) :
    decodeBitSequence32 R order store id b pos =
      (bitKind R order store id >>= fun k =>
        decodeBits32 k.1 k.2 b pos >>= fun (bits, pos) => .ok (.bitVec k.1 k.2 bits, pos)) := by
  unfold decodeBitSequence32 bitKind
  cases findBitOrder R order id with
  | error e => rfl
  | ok o =>
    simp only [ok_bind]
    cases R.get store with
    | error e => rfl
    | ok t =>
      simp only [ok_bind]
      cases t.typeDef with
      | primitive p =>
        dsimp only
        cases BitStore.ofPrim p <;> rfl
      | _ => rfl

theorem decodeBitSequence32_narrow (hm : NoMsb0U64Bits R) {ty : Typ} {id order store : Nat}
    (hr : R.resolve id = .ok ty) (hd : ty.typeDef = .bitSequence order store) (pos : Nat) :
    NarrowRes (HasU64Bits R) (Strained b) (decodeBitSequence32 R order store id b pos)
      (decodeBitSequence R order store id b.clean pos) := by
  rw [decodeBitSequence32_eq, decodeBitSequence_eq]
  refine .bindL _ fun k hk => .bindR _ ?_
  obtain ⟨st, o⟩ := k
  obtain ⟨ho, hst⟩ := bitKind_iff.1 hk
  cases st with
  | u64 =>
    have hP : HasU64Bits R := ⟨id, ty, order, store, hr, hd, hst⟩
    cases o with
    | msb0 => exact absurd ho (hm _ _ _ _ hr hd hst)
    | lsb0 =>
      dsimp only [decodeBits32]
      rcases patch_lsb0 (b := b) pos with h | h
      · rcases patch_narrow (P := HasU64Bits R) (b := b) .lsb0 pos with h' | ⟨_, h'⟩ | h'
        · exact .inr (.inl ⟨hP, h'.trans h⟩)
        · exact .inr (.inl ⟨hP, h'⟩)
        · exact .inr (.inr h')
      · exact (patch_narrow .lsb0 pos).trans_eq h
  | _ => exact decodeBitsSmall_narrow _ _ _

/-! ### The recursion -/

/-- The type handed over is that of the id. -/
def TyIn.Right (R : Registry) : TyIn → Prop
  | .resolved ty id => R.resolve id = .ok ty
  | .symbol _ => True

/-- Recursive calls are in the relation. -/
def RecNarrow (R : Registry) (b : Buf) (rec rec' : Dec) : Prop :=
  ∀ tyIn pos p, tyIn.Right R → NarrowRes (HasU64Bits R) (Strained b) (rec tyIn pos p) (rec' tyIn pos p)

variable {rec rec' : Dec}

theorem decodeFieldsLoop_narrow (h : RecNarrow R b rec rec') (c : Checker) (fs : List Field) (pos : Nat) :
    NarrowRes (HasU64Bits R) (Strained b) (decodeFieldsLoop rec c fs pos) (decodeFieldsLoop rec' c fs pos) := by
  induction fs generalizing pos with
  | nil => exact .refl _
  | cons f fs ih =>
    exact .bindL _ fun p _ => .bind (h _ _ _ trivial) fun r _ => .bindR _ (ih _)

theorem decodeFields_narrow (h : RecNarrow R b rec rec') (c : Checker) (fs : List Field) (pos : Nat) :
    NarrowRes (HasU64Bits R) (Strained b) (decodeFields rec fs pos c) (decodeFields rec' fs pos c) := by
  unfold decodeFields
  split
  · exact .bindL _ fun _ _ => decodeFieldsLoop_narrow h _ _ _
  · exact decodeFieldsLoop_narrow h _ _ _

theorem decodeElementsLoop_narrow (h : RecNarrow R b rec rec') (hu : HuskedType) (hr : R.resolve hu.id = .ok hu.ty)
    (n pos : Nat) :
    NarrowRes (HasU64Bits R) (Strained b) (decodeElementsLoop rec hu n pos) (decodeElementsLoop rec' hu n pos) := by
  induction n generalizing pos with
  | zero => exact .refl _
  | succ n ih => exact .bind (h _ _ _ hr) fun r _ => .bindR _ (ih _)

theorem decodeElementsSet_narrow (h : RecNarrow R b rec rec') (elem n pos : Nat) (p : Propagated) :
    NarrowRes (HasU64Bits R) (Strained b) (decodeElementsSet R rec elem n pos p)
      (decodeElementsSet R rec' elem n pos p) := by
  unfold decodeElementsSet
  refine .bindL _ fun _ _ => .bindL _ fun hu hh => ?_
  split
  · exact .refl _
  · exact .bindR _ (decodeElementsLoop_narrow h _ (huskType_core hh).1 _ _)

theorem decodeTupleLoop_narrow (h : RecNarrow R b rec rec') (c : Checker) (ids : List Nat) (pos : Nat) :
    NarrowRes (HasU64Bits R) (Strained b) (decodeTupleLoop R rec c ids pos) (decodeTupleLoop R rec' c ids pos) := by
  induction ids generalizing pos with
  | nil => exact .refl _
  | cons id ids ih =>
    exact .bindL _ fun _ ht => .bindL _ fun p _ => .bind (h _ _ _ (get_ok.1 ht)) fun r _ => .bindR _ (ih _)

theorem decodeVariant_narrow (h : RecNarrow R b rec rec') (vs : List Variant) (pos : Nat) :
    NarrowRes (HasU64Bits R) (Strained b) (decodeVariant rec vs b pos) (decodeVariant rec' vs b.clean pos) :=
  .bind (pickVariant_tame _ _).narrow fun _ _ => .bindR _ (decodeFields_narrow h _ _ _)

theorem withInfo_narrow {P S : Prop} {info : List Info} {r r' : Res (PD × Nat)} (h : NarrowRes P S r r') :
    NarrowRes P S (withInfo info r) (withInfo info r') := .bindR _ h

theorem decodeTypeDef32_narrow (hm : NoMsb0U64Bits R) (h : RecNarrow R b rec rec') {ty : Typ} {id : Nat}
    (hr : R.resolve id = .ok ty) (pos : Nat) (p : Propagated) :
    NarrowRes (HasU64Bits R) (Strained b) (decodeTypeDef32 R rec b ty id pos p)
      (decodeTypeDef R rec' b.clean ty id pos p) := by
  unfold decodeTypeDef32
  split
  · rename_i hd
    simp only [decodeTypeDef, hd]
    exact .bindL _ fun _ _ => withInfo_narrow (decodeBitSequence32_narrow hm hr hd _)
  · rename_i hd
    unfold decodeTypeDef
    split
    · exact .bindR _ (decodeFields_narrow h _ _ _)
    · refine .bindL _ fun _ _ => ?_
      split
      · exact .refl _
      · exact .bindR _ (decodeVariant_narrow h _ _)
    · exact .bind (getCompact_tame _ _).narrow fun _ _ => decodeElementsSet_narrow h _ _ _ _
    · exact decodeElementsSet_narrow h _ _ _ _
    · unfold decodeTuple
      dsimp only
      split
      · exact .bindL _ fun _ _ => .bindR _ (decodeTupleLoop_narrow h _ _ _)
      · exact .bindL _ fun _ _ => .bindR _ (decodeTupleLoop_narrow h _ _ _)
    · exact withInfo_narrow (decodePrimitive_tame _ _ _).narrow
    · exact .bindL _ fun _ _ => .bindL _ fun _ _ => h _ _ _ trivial
    · rename_i o s hd'
      exact absurd hd' (hd o s)

theorem decodeChecked32_narrow (hm : NoMsb0U64Bits R) (h : RecNarrow R b rec rec') (sp : TypeChecked) {ty : Typ}
    {id : Nat} (hr : R.resolve id = .ok ty) (pos : Nat) (p : Propagated) :
    NarrowRes (HasU64Bits R) (Strained b) (decodeChecked32 R rec b sp ty id pos p)
      (decodeChecked R rec' b.clean sp ty id pos p) := by
  cases sp with
  | none => exact decodeTypeDef32_narrow hm h hr _ _
  | fixed k => exact withInfo_narrow (parseFixed_tame _ _ _).narrow
  | era => exact .bindL _ fun _ _ => .bindR _ (specialCaseEra_tame _).narrow
  | h256 => exact .bindL _ fun _ _ => withInfo_narrow (specialCaseH256_tame _ _).narrow
  | palletSpecific n i v it => exact .bindL _ fun _ _ => .bindR _ (decodeVariant_narrow h _ _)
  | perThing k => exact withInfo_narrow (parsePer_tame _ _ _).narrow

theorem decodeStep32_narrow (hm : NoMsb0U64Bits R) (h : RecNarrow R b rec rec') :
    RecNarrow R b (decodeStep32 R b rec) (decodeStep R b.clean rec') := by
  intro tyIn pos p hR
  unfold decodeStep32 decodeStep
  refine .bindL _ fun r hr => ?_
  obtain ⟨ty, id⟩ := r
  have hres : R.resolve id = .ok ty := by
    cases tyIn with
    | resolved t i => cases hr; exact hR
    | symbol i =>
      obtain ⟨t, h1, h2⟩ := bind_ok.1 hr
      cases h2
      exact get_ok.1 h1
  dsimp only
  rcases fromType_tame (R := R) (b := b) ty pos with hf | ⟨vs, hd, ho, hF, hb⟩
  · rw [hf]
    exact .bindL _ fun r _ => decodeChecked32_narrow hm h _ hres _ _
  · -- the byte is asked for again
    rw [fromType_enum_err ho hd hb, ok_bind]
    obtain ⟨sp, q, h1, h2⟩ : ∃ sp q, TypeChecked.fromType R ty b.clean pos = .ok (sp, q) ∧
        ((sp = .none ∧ q = pos) ∨ (sp ≠ .none ∧ vs ≠ [])) := by
      rcases (readByte_fine b.clean pos).cases with ⟨i, hi⟩ | ⟨e, he⟩
      · by_cases hn : enumSpecial R (TypeHinted.fromType ty) vs i = .none
        · refine ⟨_, _, fromType_enum_ok ho hd hi, .inl ⟨hn, ?_⟩⟩
          rw [hn]; rfl
        · refine ⟨_, _, fromType_enum_ok ho hd hi, .inr ⟨hn, ?_⟩⟩
          obtain ⟨v, hv⟩ := enumSpecial_find hn
          rintro rfl
          cases hv
      · exact ⟨_, _, fromType_enum_err ho hd he, .inl ⟨rfl, rfl⟩⟩
    rw [h1, ok_bind]
    rcases h2 with ⟨rfl, rfl⟩ | ⟨_, hne⟩
    · exact decodeChecked32_narrow hm h _ hres _ _
    · refine .inr (.inr ⟨.inl hF, ?_⟩)
      simp only [decodeChecked32, decodeTypeDef32, hd, decodeTypeDef]
      rcases (show Fine (p.addInfo (Info.fromTy ty)).rejectCompact from rejectCompact_fine _).cases with ⟨u, hu⟩ | ⟨e, he⟩
      · cases vs with
        | nil => exact absurd rfl hne
        | cons v vs =>
          refine ⟨.buffer .external, ?_⟩
          simp only [hu, ok_bind, List.isEmpty_cons, decodeVariant, pickVariant, hb, error_bind]
          rfl
      · exact ⟨e, by rw [he]; rfl⟩

theorem decodeF32_narrow (hm : NoMsb0U64Bits R) (n : Nat) : RecNarrow R b (decodeF32 R b n) (decodeF R b.clean n) := by
  induction n with
  | zero => intro _ _ _ _; exact .inl rfl
  | succ n ih => exact decodeStep32_narrow hm ih

theorem decode32_narrow (hm : NoMsb0U64Bits R) : RecNarrow R b (decode32 R b) (decode R b.clean) :=
  fun tyIn pos p hR => decodeF32_narrow hm (depthBound R b pos) tyIn pos p hR

end Verif
