import Verif.Proof.Leaf
/-! Eras and bit sequences. -/
namespace Verif
open Spec

theorem log2_pow (k : Nat) : Nat.log2 (2 ^ k) = k := by
  exact Nat.log2_two_pow

theorem uint8_of {x : UInt8} {n : Nat} (h : x.toNat = n) : UInt8.ofNat n = x := by
  subst h; simp

theorem eraEncode_of_bytes (f s : UInt8) (low : Nat) (hlow : low = (f.toNat + s.toNat * 256) % 16) :
    leBytes 2 (low + 16 * ((f.toNat + s.toNat * 256) / 16)) = [f, s] := by
  have h1 := f.toNat_lt
  have h2 := s.toNat_lt
  have he : low + 16 * ((f.toNat + s.toNat * 256) / 16) = f.toNat + s.toNat * 256 := by omega
  rw [he]
  simp only [leBytes]
  rw [uint8_of (x := f) (by omega), uint8_of (x := s) (by omega)]

theorem quantum_pos (p : Nat) : 0 < quantum p := by unfold quantum; omega

theorem quantum_def (p : Nat) : max (p / 2 ^ 12) 1 = quantum p := rfl

theorem quantum_bound : ∀ k, k < 17 → 2 ^ k ≤ 4096 * quantum (2 ^ k) := by decide

theorem Era.decode_cons_cons {f s : UInt8} (hf : f ≠ 0) :
    Era.decode [f, s] =
      if 4 ≤ 2 ^ ((f.toNat + s.toNat * 256) % 16 + 1) ∧
        (f.toNat + s.toNat * 256) / 16 * quantum (2 ^ ((f.toNat + s.toNat * 256) % 16 + 1))
          < 2 ^ ((f.toNat + s.toNat * 256) % 16 + 1) then
        some (.mortal (2 ^ ((f.toNat + s.toNat * 256) % 16 + 1))
          ((f.toNat + s.toNat * 256) / 16 * quantum (2 ^ ((f.toNat + s.toNat * 256) % 16 + 1))), [])
      else none := by
  simp only [Era.decode, if_neg hf, quantum_def, ← Nat.pow_succ']

theorem Era.decode_two {f s : UInt8} (hf : f ≠ 0) {e : Era} :
    Era.decode [f, s] = some (e, []) ↔ EraOk e ∧ [f, s] = eraEncode e := by
  have h1 := f.toNat_lt
  have h2 := s.toNat_lt
  rw [Era.decode_cons_cons hf]
  have henc := eraEncode_of_bytes f s _ rfl
  have hlt : f.toNat + s.toNat * 256 < 65536 := by omega
  constructor
  · intro h
    split at h
    · rename_i hc
      obtain ⟨c1, c2⟩ := hc
      simp only [Option.some.injEq, Prod.mk.injEq, and_true] at h
      subst h
      generalize hlo : (f.toNat + s.toNat * 256) % 16 = lo at *
      generalize hhi : (f.toNat + s.toNat * 256) / 16 = hi at *
      have hlow : 1 ≤ lo := by
        apply Decidable.byContradiction; intro hcon
        have : lo = 0 := by omega
        rw [this] at c1; omega
      refine ⟨⟨⟨_, ?_, ?_, rfl⟩, c2, ?_⟩, ?_⟩
      · omega
      · omega
      · exact ⟨_, Nat.mul_comm _ _⟩
      · simp only [eraEncode]
        rw [log2_pow, Nat.mul_div_cancel _ (quantum_pos _), Nat.add_sub_cancel, henc]
    · cases h
  · rintro ⟨hok, hb⟩
    cases e with
    | immortal => simp [eraEncode] at hb
    | mortal period phase =>
      obtain ⟨⟨k, hk1, hk2, rfl⟩, hph, m, rfl⟩ := hok
      simp only [eraEncode, log2_pow, Nat.mul_div_cancel_left _ (quantum_pos _)] at hb
      have hm : m < 4096 := by
        have hb' := quantum_bound k (by omega)
        rw [Nat.mul_comm 4096] at hb'
        exact Nat.lt_of_mul_lt_mul_left (Nat.lt_of_lt_of_le hph hb')
      have hb' := congrArg leNat hb
      rw [leNat_leBytes 2 _ (by omega)] at hb'
      simp only [leNat] at hb'
      have hl : (f.toNat + s.toNat * 256) % 16 = k - 1 := by omega
      have hh : (f.toNat + s.toNat * 256) / 16 = m := by omega
      rw [hl, hh, show k - 1 + 1 = k by omega, Nat.mul_comm m]
      have h4 : 4 ≤ 2 ^ k := by
        calc 4 = 2 ^ 2 := rfl
          _ ≤ 2 ^ k := Nat.pow_le_pow_right (by decide) hk1
      rw [if_pos ⟨h4, hph⟩]

theorem eraEncode_cases {e : Era} (h : EraOk e) :
    (e = .immortal ∧ eraEncode e = [0]) ∨ (∃ f s, f ≠ 0 ∧ eraEncode e = [f, s]) := by
  cases e with
  | immortal => exact .inl ⟨rfl, rfl⟩
  | mortal period phase =>
    right
    obtain ⟨⟨k, hk1, hk2, rfl⟩, hlt, m, rfl⟩ := h
    simp only [eraEncode, log2_pow, leBytes]
    refine ⟨_, _, ?_, rfl⟩
    intro h0
    have := congrArg UInt8.toNat h0
    simp at this
    omega

theorem specialCaseEra_parses {b : Buf} :
    Parses b (specialCaseEra b) (fun e bs => EraOk e ∧ bs = eraEncode e) where
  sound := by
    intro pos e pos' h
    unfold specialCaseEra at h
    obtain ⟨one, h1, h2⟩ := bind_ok.1 h
    obtain ⟨a1, l1⟩ := readSlice_ok h1
    obtain ⟨x, rfl⟩ : ∃ x, one = [x] := by
      match one, l1 with
      | [x], _ => exact ⟨x, rfl⟩
    by_cases hx : x = 0
    · subst hx
      simp only [Era.decodeAll, Era.decode, if_true] at h2
      cases h2
      exact ⟨[0], .inr a1, rfl, trivial, rfl⟩
    · have hone : Era.decodeAll [x] = none := by simp [Era.decodeAll, Era.decode, hx]
      rw [hone] at h2
      dsimp only at h2
      obtain ⟨two, h3, h4⟩ := bind_ok.1 h2
      obtain ⟨a2, l2⟩ := readSlice_ok h3
      obtain ⟨y, z, rfl⟩ : ∃ y z, two = [y, z] := by
        match two, l2 with
        | [y, z], _ => exact ⟨y, z, rfl⟩
      have hyx : y = x := by
        have := a1.prefix a2 (by simp)
        simpa using this
      subst hyx
      cases hd : Era.decode [y, z] with
      | none => simp only [Era.decodeAll, hd] at h4; cases h4
      | some r =>
        obtain ⟨e', r⟩ := r
        simp only [Era.decodeAll, hd] at h4
        cases r with
        | cons c cs => cases h4
        | nil =>
          cases h4
          obtain ⟨k1, k2⟩ := (Era.decode_two hx).1 hd
          exact ⟨[y, z], .inr a2, rfl, k1, k2⟩
  complete := by
    rintro hr pos e bs ⟨hok, rfl⟩ hat
    unfold specialCaseEra
    rcases eraEncode_cases hok with ⟨rfl, he⟩ | ⟨f, s, hf, he⟩
    · rw [he] at hat ⊢
      have := readSlice_of_at' hr hat (n := 1) rfl
      rw [this, ok_bind]
      rfl
    · rw [he] at hat ⊢
      have a1 : At b.bytes pos [f] := (at_cons.1 hat).1
      have h1 := readSlice_of_at' hr a1 (n := 1) rfl
      have h2 := readSlice_of_at' hr hat (n := 2) rfl
      rw [h1, ok_bind]
      have : Era.decodeAll [f] = none := by simp [Era.decodeAll, Era.decode, hf]
      rw [this]
      dsimp only
      rw [h2, ok_bind]
      have hd := (Era.decode_two (s := s) hf).2 ⟨hok, he.symm⟩
      have : Era.decodeAll [f, s] = some e := by simp [Era.decodeAll, hd]
      rw [this]
      rfl

/-! ### Bit sequences -/

theorem readElements_iff {n k : Nat} {bs r : Bytes} {els : List Nat} :
    readElements n k bs = some (els, r) ↔
      els.length = k ∧ (∀ e ∈ els, e < 2 ^ (8 * n)) ∧ bs = els.flatMap (leBytes n) ++ r := by
  induction k generalizing bs els with
  | zero =>
    simp only [readElements, Option.some.injEq, Prod.mk.injEq]
    constructor
    · rintro ⟨rfl, rfl⟩; simp
    · rintro ⟨h1, _, h3⟩
      have := List.length_eq_zero_iff.1 h1
      subst this; simp at h3; exact ⟨rfl, h3⟩
  | succ k ih =>
    unfold readElements
    split
    · rename_i hlt
      simp only [reduceCtorEq, false_iff]
      rintro ⟨h1, _, h3⟩
      cases els with
      | nil => simp at h1
      | cons e es =>
        rw [h3] at hlt
        simp [leBytes_length] at hlt
        omega
    · rename_i hge
      simp only [Option.map_eq_some_iff, Prod.exists]
      constructor
      · rintro ⟨l, r', h1, h2⟩
        cases h2
        obtain ⟨h3, h4, h5⟩ := ih.1 h1
        have hlen : (bs.take n).length = n := by simp; omega
        obtain ⟨q1, q2⟩ := eq_leBytes_iff.1 ⟨hlen, rfl⟩
        refine ⟨by simp [h3], ?_, ?_⟩
        · intro e he
          rcases List.mem_cons.1 he with rfl | he
          · exact q1
          · exact h4 e he
        · rw [List.flatMap_cons, ← q2, List.append_assoc, ← h5, List.take_append_drop]
      · rintro ⟨h1, h2, h3⟩
        cases els with
        | nil => simp at h1
        | cons e es =>
          have he := h2 e (by simp)
          refine ⟨es, r, ih.2 ⟨by simpa using h1, fun x hx => h2 x (by simp [hx]), ?_⟩, ?_⟩
          · rw [h3, List.flatMap_cons, List.append_assoc, List.drop_append_of_le_length (by simp [leBytes_length]),
              List.drop_of_length_le (by simp [leBytes_length])]; rfl
          · have : bs.take n = leBytes n e := by
              rw [h3, List.flatMap_cons, List.append_assoc, List.take_append_of_le_length (by simp [leBytes_length]),
                List.take_of_length_le (by simp [leBytes_length])]
            rw [this, leNat_leBytes _ _ (by rw [pow256]; exact he)]

theorem elementBits_length (o : BitOrder) (n v : Nat) : (elementBits o n v).length = n := by
  cases o <;> simp [elementBits]

theorem elementBits_get (o : BitOrder) (n v i : Nat) (h : i < n) :
    (elementBits o n v)[i]? = some (v.testBit (bitPlace o n i)) := by
  cases o <;> simp [elementBits, bitPlace, h]

theorem flatBits_length (o : BitOrder) (n : Nat) (els : List Nat) :
    (els.flatMap (elementBits o n)).length = els.length * n := by
  induction els with
  | nil => simp
  | cons e es ih =>
    rw [List.flatMap_cons, List.length_append, elementBits_length, ih, List.length_cons, Nat.succ_mul]
    omega

theorem flatBits_get (o : BitOrder) {n : Nat} (hn : 0 < n) (els : List Nat) (i : Nat)
    (h : i < els.length * n) :
    ∃ e, els[i / n]? = some e ∧
      (els.flatMap (elementBits o n))[i]? = some (e.testBit (bitPlace o n (i % n))) := by
  induction els generalizing i with
  | nil => simp at h
  | cons e es ih =>
    rw [List.flatMap_cons]
    rcases Nat.lt_or_ge i n with hi | hi
    · refine ⟨e, by simp [Nat.div_eq_of_lt hi], ?_⟩
      rw [List.getElem?_append_left (by rw [elementBits_length]; exact hi), Nat.mod_eq_of_lt hi,
        elementBits_get _ _ _ _ hi]
    · obtain ⟨e', h1, h2⟩ := ih (i - n) (by rw [List.length_cons, Nat.succ_mul] at h; omega)
      refine ⟨e', ?_, ?_⟩
      · have : i / n = (i - n) / n + 1 := by
          rw [← Nat.add_div_right _ hn]; congr 1; omega
        rw [this, List.getElem?_cons_succ, h1]
      · rw [List.getElem?_append_right (by rw [elementBits_length]; exact hi), elementBits_length, h2,
          Nat.mod_eq_sub_mod hi]

theorem ceilDiv_isCeil (a : Nat) {n : Nat} (hn : 0 < n) : IsCeil a n (ceilDiv a n) := by
  unfold IsCeil ceilDiv
  have := Nat.div_add_mod a n
  have hm := Nat.mod_lt a hn
  rw [Nat.mul_comm] at this
  split
  · omega
  · rw [Nat.succ_mul]; omega

theorem isCeil_unique {a n k k' : Nat} (h : IsCeil a n k) (h' : IsCeil a n k') : k = k' := by
  obtain ⟨a1, a2⟩ := h
  obtain ⟨b1, b2⟩ := h'
  rcases Nat.lt_trichotomy k k' with hlt | heq | hgt
  · have := Nat.mul_le_mul_right n (show k + 1 ≤ k' from hlt)
    rw [Nat.succ_mul] at this; omega
  · exact heq
  · have := Nat.mul_le_mul_right n (show k' + 1 ≤ k from hgt)
    rw [Nat.succ_mul] at this; omega

theorem ceilDiv_ceilDiv (st : BitStore) (n : Nat) :
    ceilDiv (ceilDiv n 8) st.bytes = ceilDiv n (8 * st.bytes) := by
  have h1 := ceilDiv_isCeil n (show 0 < 8 by decide)
  generalize ceilDiv n 8 = m at *
  have hs : 0 < st.bytes := by cases st <;> decide
  have h2 := ceilDiv_isCeil m hs
  generalize ceilDiv m st.bytes = k at *
  refine isCeil_unique (a := n) (n := 8 * st.bytes) ?_ (ceilDiv_isCeil n (by omega))
  unfold IsCeil at *
  cases st <;> simp only [BitStore.bytes] at * <;> omega

theorem BitStore.bytes_pos (st : BitStore) : 0 < st.bytes := by cases st <;> simp [BitStore.bytes]

/-- Read the slice and decode it. -/
def bitsReader (st : BitStore) (o : BitOrder) (b : Buf) (pos : Nat) : Res (List Bool × Nat) := do
  let (s, pos') ← intoBitvecDecode st b pos
  match bitVecDecodeAll st o s with
  | some bits => .ok (bits, pos')
  | none => .error (.err (.typeFailure pos (bitVecName st o)))

theorem flatBytes_length (n : Nat) (els : List Nat) :
    (els.flatMap (leBytes n)).length = els.length * n := by
  induction els with
  | nil => simp
  | cons e es ih =>
    rw [List.flatMap_cons, List.length_append, leBytes_length, ih, List.length_cons, Nat.succ_mul]
    omega

theorem bitVecDecodeAll_iff {st : BitStore} {o : BitOrder} {bs : Bytes} {bits : List Bool} :
    bitVecDecodeAll st o bs = some bits ↔ BitsEnc st o bits bs := by
  have hpos : 0 < 8 * st.bytes := by have := st.bytes_pos; omega
  unfold bitVecDecodeAll
  constructor
  · intro h
    cases hd : compactDecode .u32 bs with
    | none => rw [hd] at h; cases h
    | some r =>
      obtain ⟨n, rest⟩ := r
      rw [hd] at h
      dsimp only at h
      obtain ⟨c1, rfl⟩ := compactDecode_sound hd
      split at h
      · cases h
      · rename_i hmax
        split at h
        · rename_i els hre
          simp only [Option.some.injEq] at h
          obtain ⟨r1, r2, r3⟩ := readElements_iff.1 hre
          have hce := ceilDiv_isCeil n hpos
          rw [← r1] at hce
          have hl : bits.length = n := by
            rw [← h, List.length_take, flatBits_length]
            exact Nat.min_eq_left hce.1
          refine ⟨els, by omega, hl ▸ hce, r2, ?_, ?_⟩
          · intro i hi
            obtain ⟨e, g1, g2⟩ := flatBits_get o hpos els i (by have := hce.1; omega)
            refine ⟨e, g1, ?_⟩
            rw [← h, List.getElem?_take, if_pos (by omega), g2]
          · rw [hl, r3, List.append_nil]
        · cases h
  · rintro ⟨els, h1, h2, h3, h4, rfl⟩
    rw [compactDecode_complete (w := .u32) _ (by simp only [UW.bytes]; omega)]
    dsimp only
    rw [if_neg (by omega)]
    have hk := isCeil_unique (ceilDiv_isCeil bits.length hpos) h2
    have := (readElements_iff (n := st.bytes) (k := ceilDiv bits.length (8 * st.bytes)) (els := els)
      (bs := els.flatMap (leBytes st.bytes)) (r := [])).2 ⟨hk.symm, h3, by simp⟩
    rw [this]
    dsimp only
    congr 1
    apply List.ext_getElem?
    intro i
    rcases Nat.lt_or_ge i bits.length with hi | hi
    · obtain ⟨e, g1, g2⟩ := flatBits_get o hpos els i (by have := h2.1; omega)
      obtain ⟨e', g3, g4⟩ := h4 i hi
      rw [g1] at g3; cases g3
      rw [List.getElem?_take, if_pos hi, g2, g4]
    · rw [List.getElem?_eq_none hi, List.getElem?_take, if_neg (by omega)]

theorem bitsReader_parses {b : Buf} (st : BitStore) (o : BitOrder) :
    Parses b (bitsReader st o b) (BitsEnc st o) where
  sound := by
    intro pos bits pos' h
    unfold bitsReader intoBitvecDecode BitVecPositions.new at h
    simp only [bind_ok, Except.ok.injEq] at h
    obtain ⟨⟨s, q⟩, ⟨p, ⟨f, h1, rfl⟩, s', h2, h3⟩, h4⟩ := h
    cases h3
    obtain ⟨c1, c2, c3⟩ := findCompact_sound h1
    obtain ⟨a1, a2⟩ := readSlice_ok h2
    cases hd : bitVecDecodeAll st o s with
    | none => rw [hd] at h4; cases h4
    | some bits' =>
      rw [hd] at h4
      cases h4
      refine ⟨s, .inr a1, ?_, bitVecDecodeAll_iff.1 hd⟩
      rw [a2]; dsimp only; omega
  complete := by
    intro hr pos bits bs hq hat
    have hd := bitVecDecodeAll_iff.2 hq
    obtain ⟨els, h1, h2, h3, h4, rfl⟩ := hq
    have hpos : 0 < 8 * st.bytes := by have := st.bytes_pos; omega
    have hat' := hat
    rw [at_append] at hat'
    unfold bitsReader intoBitvecDecode BitVecPositions.new
    rw [findCompact_complete (w := .u32) hr (by simp only [UW.bytes]; omega) hat'.1]
    simp only [ok_bind]
    rw [ceilDiv_ceilDiv, isCeil_unique (ceilDiv_isCeil bits.length hpos) h2]
    rw [readSlice_of_at' hr hat (by
      rw [List.length_append, flatBytes_length]
      omega)]
    simp only [ok_bind]
    rw [hd]
    dsimp only
    rw [List.length_append, flatBytes_length, Nat.add_assoc]

/-- Registry part of `decode_type_def_bit_sequence`. -/
def bitKind (R : Registry) (order store id : Nat) : Res (BitStore × BitOrder) := do
  let o ← findBitOrder R order id
  let t ← R.get store
  match t.typeDef with
  | .primitive p =>
    match BitStore.ofPrim p with
    | some st => .ok (st, o)
    | none => failInternal (.notBitStoreType id)
  | _ => failInternal (.notBitStoreType id)

theorem decodeBitSequence_eq (R : Registry) (order store id : Nat) (b : Buf) (pos : Nat) :
    decodeBitSequence R order store id b pos =
      (bitKind R order store id >>= fun k =>
        bitsReader k.1 k.2 b pos >>= fun (bits, pos) => .ok (.bitVec k.1 k.2 bits, pos)) := by
  unfold decodeBitSequence bitKind
  cases findBitOrder R order id with
  | error e => rfl
  | ok o =>
    simp only [ok_bind]
    cases R.get store with
    | error e => rfl
    | ok t =>
      simp only [ok_bind]
      cases t.typeDef with
      | primitive p =>
        dsimp only
        cases BitStore.ofPrim p with
        | none => rfl
        | some st =>
          simp only [ok_bind, bitsReader]
          cases intoBitvecDecode st b pos with
          | error e => rfl
          | ok r =>
            obtain ⟨s, pos'⟩ := r
            simp only [ok_bind]
            cases bitVecDecodeAll st o s <;> rfl
      | _ => rfl

theorem decodeBitSequence_parses {b : Buf} (R : Registry) (order store id : Nat) :
    Parses b (fun pos => decodeBitSequence R order store id b pos)
      (fun d bs => ∃ k, bitKind R order store id = .ok k ∧
        ∃ bits, d = .bitVec k.1 k.2 bits ∧ BitsEnc k.1 k.2 bits bs) :=
  (Parses.lift (r := bitKind R order store id)
    (fun k _ => Parses.map (bitsReader_parses k.1 k.2) (PD.bitVec k.1 k.2))).funCongr
    (decodeBitSequence_eq R order store id b)

end Verif
