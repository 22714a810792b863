import Verif.Proof.Parses
import Verif.Spec.Leaf
import Verif.Model.BitSeq
/-! Leaf decoders and the byte runs they accept. -/
namespace Verif
open Spec

theorem utf8_eq (s : String) : utf8 s = s.toByteArray.data.toList := by
  have := String.ofList_toList (s := s)
  conv => rhs; rw [← this]
  rw [String.toByteArray_ofList, List.utf8Encode]
  simp [utf8]

theorem stringFromUtf8_iff {bs : Bytes} {s : String} :
    stringFromUtf8 bs = some s ↔ bs = utf8 s := by
  rw [utf8_eq, stringFromUtf8, String.fromUTF8?]
  constructor
  · intro h
    split at h
    · simp only [Option.some.injEq] at h
      subst h
      simp [String.fromUTF8]
    · cases h
  · rintro rfl
    have : (⟨s.toByteArray.data.toList.toArray⟩ : ByteArray) = s.toByteArray := by simp
    simp only [this]
    rw [dif_pos s.isValidUTF8]
    rfl

theorem eq_leBytes_iff {bs : Bytes} {n v : Nat} :
    (bs.length = n ∧ v = leNat bs) ↔ (v < 2 ^ (8 * n) ∧ bs = leBytes n v) := by
  constructor
  · rintro ⟨rfl, rfl⟩
    refine ⟨by rw [← pow256]; exact leNat_lt bs, (leBytes_leNat bs).symm⟩
  · rintro ⟨h, rfl⟩
    rw [← pow256] at h
    exact ⟨leBytes_length _ _, (leNat_leBytes _ _ h).symm⟩

variable {b : Buf}

theorem cutUInt_parses (w : UW) :
    Parses b (cutUInt w b) (fun v bs => v < 2 ^ (8 * w.bytes) ∧ bs = leBytes w.bytes v) :=
  (Parses.slice (P := fun s a => a = leNat s) (by
    intro s pos a pos' _
    simp only [Except.ok.injEq, Prod.mk.injEq]
    constructor <;> rintro ⟨rfl, rfl⟩ <;> exact ⟨rfl, rfl⟩)).congr
    (fun _ _ => eq_leBytes_iff)

theorem cutU256_parses :
    Parses b (cutU256 b) (fun v bs => v < 2 ^ 256 ∧ bs = leBytes 32 v) :=
  (Parses.slice (P := fun s a => a = leNat s) (by
    intro s pos a pos' _
    simp only [Except.ok.injEq, Prod.mk.injEq]
    constructor <;> rintro ⟨rfl, rfl⟩ <;> exact ⟨rfl, rfl⟩)).congr
    (fun v bs => eq_leBytes_iff (n := 32))

/-- Range of a signed integer of `n` bytes. -/
def InRange (n : Nat) (v : Int) : Prop :=
  -(2 ^ (8 * n - 1) : Nat) ≤ v ∧ v < (2 ^ (8 * n - 1) : Nat)

theorem eq_signedBytes_iff {bs : Bytes} {n : Nat} {v : Int} (hn : 0 < n) :
    (bs.length = n ∧ v = twosComplement n (leNat bs)) ↔
      (InRange n v ∧ bs = signedBytes n v) := by
  have hpow : (2 : Nat) ^ (8 * n) = 2 * 2 ^ (8 * n - 1) := by
    rw [← Nat.pow_succ']; congr 1; omega
  have hpos : 0 < (2 : Nat) ^ (8 * n - 1) := Nat.pow_pos (by decide)
  simp only [signedBytes, twosComplement, InRange]
  constructor
  · rintro ⟨hl, rfl⟩
    have hlt := leNat_lt bs
    rw [pow256, hl] at hlt
    rw [hpow] at hlt ⊢
    generalize hM : (2 : Nat) ^ (8 * n - 1) = M at *
    split
    · refine ⟨by omega, ?_⟩
      have : ((leNat bs : Int) % ((2 * M : Nat) : Int)).toNat = leNat bs := by
        rw [Int.emod_eq_of_lt (by omega) (by omega)]; omega
      rw [this, ← hl, leBytes_leNat]
    · refine ⟨by omega, ?_⟩
      have : (((leNat bs : Int) - ((2 * M : Nat) : Int)) % ((2 * M : Nat) : Int)).toNat = leNat bs := by
        rw [Int.sub_emod_right, Int.emod_eq_of_lt (by omega) (by omega)]; omega
      rw [this, ← hl, leBytes_leNat]
  · rintro ⟨hr, rfl⟩
    refine ⟨leBytes_length _ _, ?_⟩
    have hlt : (v % ((2 ^ (8 * n) : Nat) : Int)).toNat < 256 ^ n := by
      rw [pow256]
      have h1 := Int.emod_lt_of_pos v (show (0 : Int) < ((2 ^ (8 * n) : Nat) : Int) by omega)
      have h2 := Int.emod_nonneg v (show ((2 ^ (8 * n) : Nat) : Int) ≠ 0 by omega)
      omega
    rw [leNat_leBytes _ _ hlt]
    rw [hpow] at *
    generalize hM : (2 : Nat) ^ (8 * n - 1) = M at *
    rcases Int.lt_or_le v 0 with hv | hv
    · have : v % ((2 * M : Nat) : Int) = v + ((2 * M : Nat) : Int) := by
        rw [← Int.add_emod_right, Int.emod_eq_of_lt (by omega) (by omega)]
      rw [this, if_neg (by omega)]; omega
    · rw [Int.emod_eq_of_lt hv (by omega), if_pos (by omega)]; omega

theorem IW.bytes_pos (w : IW) : 0 < w.bytes := by cases w <;> simp [IW.bytes]

theorem cutInt_parses (w : IW) :
    Parses b (cutInt w b) (fun v bs => InRange w.bytes v ∧ bs = signedBytes w.bytes v) :=
  (Parses.slice (P := fun s a => a = twosComplement w.bytes (leNat s)) (by
    intro s pos a pos' _
    simp only [Except.ok.injEq, Prod.mk.injEq]
    constructor <;> rintro ⟨rfl, rfl⟩ <;> exact ⟨rfl, rfl⟩)).congr
    (fun _ _ => eq_signedBytes_iff w.bytes_pos)

theorem cutBool_parses :
    Parses b (cutBool b) (fun v bs => bs = [if v then 1 else 0]) :=
  (Parses.slice (P := fun s a => s = [if a then 1 else 0]) (by
    intro s pos a pos' _
    by_cases h0 : s = [0]
    · subst h0; cases a <;> simp [eq_comm]
    · by_cases h1 : s = [1]
      · subst h1; cases a <;> simp [eq_comm]
      · rw [if_neg h0, if_neg h1]
        cases a <;> simp [h0, h1])).congr
    (fun v bs => ⟨fun h => h.2, fun h => ⟨by simp [h], h⟩⟩)

theorem charFromU32_iff {n : Nat} {c : Char} : charFromU32 n = some c ↔ n = c.val.toNat := by
  unfold charFromU32
  constructor
  · intro h
    split at h
    · rename_i hv
      simp only [Option.some.injEq] at h
      subst h
      have hv' : n.isValidChar := by
        simp only [Nat.isValidChar]; omega
      rw [Char.ofNat, dif_pos hv']
      simp only [Char.ofNatAux]
      rfl
    · cases h
  · rintro rfl
    have hv := c.valid
    simp only [UInt32.isValidChar, Nat.isValidChar] at hv
    rw [if_pos (by omega)]
    have : Char.ofNat c.toNat = c := Char.ofNat_toNat c
    rw [Option.some.injEq]; exact this

theorem char_val_lt (c : Char) : c.val.toNat < 256 ^ 4 := by
  have := c.val.toNat_lt
  omega

theorem cutChar_parses :
    Parses b (cutChar b) (fun v bs => bs = leBytes 4 v.val.toNat) :=
  (Parses.slice (P := fun s a => leNat s = a.val.toNat) (by
    intro s pos a pos' hs
    rw [if_neg (by omega), ← charFromU32_iff]
    cases hc : charFromU32 (leNat s) <;> simp [eq_comm])).congr
    (fun c bs => by
      constructor
      · rintro ⟨h1, h2⟩; rw [← h2, ← h1, leBytes_leNat]
      · rintro rfl; exact ⟨leBytes_length _ _, leNat_leBytes _ _ (char_val_lt c)⟩)

theorem accuracy_lt (k : PerKind) : k.accuracy < 2 ^ (8 * k.inner.bytes) := by
  cases k <;> decide

theorem cutPer_parses (k : PerKind) :
    Parses b (cutPer k b) (fun v bs => v ≤ k.accuracy ∧ bs = leBytes k.inner.bytes v) :=
  (Parses.slice (P := fun s a => a = leNat s ∧ a ≤ k.accuracy) (by
    intro s pos a pos' _
    by_cases h : leNat s ≤ k.accuracy
    · rw [if_pos h]
      simp only [Except.ok.injEq, Prod.mk.injEq]
      constructor
      · rintro ⟨rfl, rfl⟩; exact ⟨⟨rfl, h⟩, rfl⟩
      · rintro ⟨⟨rfl, _⟩, rfl⟩; exact ⟨rfl, rfl⟩
    · rw [if_neg h]
      constructor
      · intro h; cases h
      · rintro ⟨⟨rfl, h'⟩, _⟩; exact absurd h' h)).congr
    (fun v bs => by
      have := eq_leBytes_iff (bs := bs) (n := k.inner.bytes) (v := v)
      have ha := accuracy_lt k
      constructor
      · rintro ⟨h1, h2, h3⟩; exact ⟨h3, (this.1 ⟨h1, h2⟩).2⟩
      · rintro ⟨h1, h2⟩
        obtain ⟨h3, h4⟩ := this.2 ⟨by omega, h2⟩
        exact ⟨h3, h4, h1⟩)

theorem cutArray_parses (n : Nat) :
    Parses b (cutArray n b) (fun v bs => bs = v ∧ v.length = n) :=
  (Parses.slice (P := fun s a => s = a) (by
    intro s pos a pos' hs
    rw [if_neg (by omega)]
    simp only [Except.ok.injEq, Prod.mk.injEq, eq_comm])).congr
    (fun v bs => by
      constructor
      · rintro ⟨h1, h2⟩; subst h2; exact ⟨rfl, h1⟩
      · rintro ⟨h1, h2⟩; subst h1; exact ⟨h2, rfl⟩)

theorem parseUInt_parses (w : UW) (s : SpecialtySet) :
    Parses b (fun pos => parseUInt w b pos s)
      (fun d bs => ∃ v, d = .uint w v s.hint.unsignedInteger ∧ v < 2 ^ (8 * w.bytes) ∧
        bs = if s.compactAt.isSome then compactEncode v else leBytes w.bytes v) := by
  unfold parseUInt
  by_cases hc : s.compactAt.isSome
  · simp only [if_pos hc]
    exact (Parses.map Parses.compact (fun v => PD.uint w v s.hint.unsignedInteger))
  · simp only [if_neg hc]
    exact (Parses.map (cutUInt_parses w) (fun v => PD.uint w v s.hint.unsignedInteger))

theorem parsePer_parses (k : PerKind) (c : Option Nat) :
    Parses b (fun pos => parsePer k b pos c)
      (fun d bs => ∃ v, d = .perThing k v ∧
        if c.isSome then ∃ v', v' < 2 ^ (8 * k.inner.bytes) ∧ v = min v' k.accuracy ∧ bs = compactEncode v'
        else v ≤ k.accuracy ∧ bs = leBytes k.inner.bytes v) := by
  unfold parsePer
  by_cases hc : c.isSome
  · simp only [if_pos hc]
    exact (Parses.map Parses.compactMap (fun v => PD.perThing k v))
  · simp only [if_neg hc]
    exact (Parses.map (cutPer_parses k) (fun v => PD.perThing k v))

theorem blockCompact_ok {c : Option Nat} : blockCompact c = .ok () ↔ c = none := by
  cases c <;> simp [blockCompact, failInternal]

theorem rejectCompact_ok {s : SpecialtySet} : s.rejectCompact = .ok () ↔ s.compactAt = none := by
  unfold SpecialtySet.rejectCompact
  cases s.compactAt <;> simp [failInternal]

theorem parseFixed_parses (k : FixedKind) (c : Option Nat) :
    Parses b (fun pos => parseFixed k b pos c)
      (fun d bs => c = none ∧ d = .fixed k bs ∧ bs.length = k.len) :=
  (Parses.guard (r := blockCompact c) (fun _ => Parses.map (cutArray_parses k.len) (PD.fixed k))).congr
    (fun d bs => by
      rw [blockCompact_ok]
      constructor
      · rintro ⟨h1, a, rfl, rfl, h2⟩; exact ⟨h1, rfl, h2⟩
      · rintro ⟨h1, rfl, h2⟩; exact ⟨h1, bs, rfl, rfl, h2⟩)

/-- Result of `special_case_h256` for a hash. -/
def h256Data (s : SpecH256) (h : Bytes) : PD :=
  match s with
  | .genesisHash => .genesisHash h
  | .blockHash => .blockHash h
  | .none => .h256 h

theorem specialCaseH256_parses (s : SpecH256) :
    Parses b (fun pos => specialCaseH256 b pos s)
      (fun d bs => d = h256Data s bs ∧ bs.length = 32) :=
  ((Parses.map (cutArray_parses 32) (h256Data s)).congr (fun d bs => by
      constructor
      · rintro ⟨a, rfl, rfl, h2⟩; exact ⟨rfl, h2⟩
      · rintro ⟨rfl, h2⟩; exact ⟨bs, rfl, rfl, h2⟩)).funCongr (by
    intro pos
    unfold specialCaseH256
    cases s <;> rfl)

theorem decodeStr_parses (hint : Hint) :
    Parses b (fun pos => decodeStr b pos hint)
      (fun d bs => ∃ t, d = .text t hint.string ∧ (utf8 t).length < 2 ^ 32 ∧ bs = strEncode t) where
  sound := by
    intro pos d pos' h
    unfold decodeStr at h
    obtain ⟨f, h1, h2⟩ := bind_ok.1 h
    obtain ⟨s, h3, h4⟩ := bind_ok.1 h2
    obtain ⟨c1, c2, c3⟩ := findCompact_sound h1
    obtain ⟨s1, s2⟩ := readSlice_ok h3
    cases ht : stringFromUtf8 s with
    | none => rw [ht] at h4; cases h4
    | some t =>
      rw [ht] at h4
      cases h4
      have hs := stringFromUtf8_iff.1 ht
      subst hs
      refine ⟨strEncode t, .inr ?_, ?_, t, rfl, ?_, rfl⟩
      · rw [strEncode, at_append, s2]
        exact ⟨c2, c3 ▸ s1⟩
      · rw [strEncode, List.length_append, s2]; omega
      · rw [s2]; exact c1
  complete := by
    rintro hr pos d bs ⟨t, rfl, hlt, rfl⟩ hat
    rw [strEncode, at_append] at hat
    obtain ⟨h1, h2⟩ := hat
    show decodeStr b pos hint = _
    unfold decodeStr
    rw [findCompact_complete (w := .u32) hr hlt h1, ok_bind]
    dsimp only
    rw [readSlice_of_at hr h2, ok_bind, stringFromUtf8_iff.2 rfl, strEncode, List.length_append,
      Nat.add_assoc]

theorem parseInt_parses (w : IW) (c : Option Nat) :
    Parses b (fun pos => parseInt w b pos c)
      (fun d bs => c = none ∧ ∃ v, d = .int w v ∧ InRange w.bytes v ∧ bs = signedBytes w.bytes v) :=
  (Parses.guard (r := blockCompact c) (fun _ => Parses.map (cutInt_parses w) (PD.int w))).congr
    (fun d bs => by rw [blockCompact_ok])

/-- Unsigned width of a primitive. -/
def uwOf : Prim → Option UW
  | .u8 => some .u8 | .u16 => some .u16 | .u32 => some .u32 | .u64 => some .u64
  | .u128 => some .u128 | _ => none

/-- Signed width of a primitive. -/
def iwOf : Prim → Option IW
  | .i8 => some .i8 | .i16 => some .i16 | .i32 => some .i32 | .i64 => some .i64
  | .i128 => some .i128 | .i256 => some .i256 | _ => none

/-- Byte runs accepted for a primitive type. -/
inductive PrimRel (s : SpecialtySet) : Prim → PD → Bytes → Prop
  | bool (v : Bool) : s.compactAt = none → PrimRel s .bool (.bool v) [if v then 1 else 0]
  | char (c : Char) : s.compactAt = none → PrimRel s .char (.char c) (leBytes 4 c.val.toNat)
  | str (t : String) : s.compactAt = none → (utf8 t).length < 2 ^ 32 →
      PrimRel s .str (.text t s.hint.string) (strEncode t)
  | uint {p : Prim} {w : UW} {v : Nat} : uwOf p = some w → v < 2 ^ (8 * w.bytes) →
      PrimRel s p (.uint w v s.hint.unsignedInteger)
        (if s.compactAt.isSome then compactEncode v else leBytes w.bytes v)
  | u256 {v : Nat} : s.compactAt = none → v < 2 ^ 256 → PrimRel s .u256 (.u256 v) (leBytes 32 v)
  | int {p : Prim} {w : IW} {v : Int} : iwOf p = some w → s.compactAt = none →
      InRange w.bytes v → PrimRel s p (.int w v) (signedBytes w.bytes v)

theorem decodePrimitive_parses (p : Prim) (s : SpecialtySet) :
    Parses b (fun pos => decodePrimitive p b pos s) (PrimRel s p) := by
  have huint : ∀ w, uwOf p = some w → (∀ pos, decodePrimitive p b pos s = parseUInt w b pos s) →
      Parses b (fun pos => decodePrimitive p b pos s) (PrimRel s p) := by
    intro w hw heq
    refine ((parseUInt_parses w s).congr ?_).funCongr heq
    intro d bs
    constructor
    · rintro ⟨v, rfl, h1, rfl⟩; exact .uint hw h1
    · intro h
      cases h with
      | uint hw' h1 => rw [hw] at hw'; cases hw'; exact ⟨_, rfl, h1, rfl⟩
      | int h1 => cases p <;> simp [uwOf, iwOf] at hw h1
      | _ => simp [uwOf] at hw
  have hint : ∀ w, iwOf p = some w → (∀ pos, decodePrimitive p b pos s = parseInt w b pos s.compactAt) →
      Parses b (fun pos => decodePrimitive p b pos s) (PrimRel s p) := by
    intro w hw heq
    refine ((parseInt_parses w s.compactAt).congr ?_).funCongr heq
    intro d bs
    constructor
    · rintro ⟨h0, v, rfl, h1, rfl⟩; exact .int hw h0 h1
    · intro h
      cases h with
      | int hw' h0 h1 => rw [hw] at hw'; cases hw'; exact ⟨h0, _, rfl, h1, rfl⟩
      | uint h1 => cases p <;> simp [uwOf, iwOf] at hw h1
      | _ => simp [iwOf] at hw
  cases p with
  | bool =>
    refine (Parses.guard (r := blockCompact s.compactAt) (fun _ => Parses.map cutBool_parses PD.bool)).congr ?_
    intro d bs
    rw [blockCompact_ok]
    constructor
    · rintro ⟨h0, v, rfl, rfl⟩; exact .bool v h0
    · intro h
      cases h with
      | bool v h0 => exact ⟨h0, v, rfl, rfl⟩
      | uint h => simp [uwOf] at h
      | int h => simp [iwOf] at h
  | char =>
    refine (Parses.guard (r := blockCompact s.compactAt) (fun _ => Parses.map cutChar_parses PD.char)).congr ?_
    intro d bs
    rw [blockCompact_ok]
    constructor
    · rintro ⟨h0, v, rfl, rfl⟩; exact .char v h0
    · intro h
      cases h with
      | char v h0 => exact ⟨h0, v, rfl, rfl⟩
      | uint h => simp [uwOf] at h
      | int h => simp [iwOf] at h
  | str =>
    refine (Parses.guard (r := s.rejectCompact) (fun _ => decodeStr_parses s.hint)).congr ?_
    intro d bs
    rw [rejectCompact_ok]
    constructor
    · rintro ⟨h0, t, rfl, h1, rfl⟩; exact .str t h0 h1
    · intro h
      cases h with
      | str v h0 h1 => exact ⟨h0, v, rfl, h1, rfl⟩
      | uint h => simp [uwOf] at h
      | int h => simp [iwOf] at h
  | u256 =>
    refine (Parses.guard (r := blockCompact s.compactAt) (fun _ => Parses.map cutU256_parses PD.u256)).congr ?_
    intro d bs
    rw [blockCompact_ok]
    constructor
    · rintro ⟨h0, v, rfl, h1, rfl⟩; exact .u256 h0 h1
    · intro h
      cases h with
      | u256 h0 h1 => exact ⟨h0, _, rfl, h1, rfl⟩
      | uint h => simp [uwOf] at h
      | int h => simp [iwOf] at h
  | u8 => exact huint .u8 rfl (fun _ => rfl)
  | u16 => exact huint .u16 rfl (fun _ => rfl)
  | u32 => exact huint .u32 rfl (fun _ => rfl)
  | u64 => exact huint .u64 rfl (fun _ => rfl)
  | u128 => exact huint .u128 rfl (fun _ => rfl)
  | i8 => exact hint .i8 rfl (fun _ => rfl)
  | i16 => exact hint .i16 rfl (fun _ => rfl)
  | i32 => exact hint .i32 rfl (fun _ => rfl)
  | i64 => exact hint .i64 rfl (fun _ => rfl)
  | i128 => exact hint .i128 rfl (fun _ => rfl)
  | i256 => exact hint .i256 rfl (fun _ => rfl)

end Verif
