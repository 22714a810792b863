import Verif.Proof.Leaf
import Verif.Proof.Fine
/-!
# Property theorems about compact integers (C11, C12, C13)
-/
namespace Verif
open Spec

/-! ### C11 round trip -/

/-- C11. Every value of every unsigned width is read back from its compact encoding,
placed anywhere in the data, and the position moves exactly past the encoding. -/
theorem getCompact_roundtrip (w : UW) {v : Nat} (hv : v < 2 ^ (8 * w.bytes)) (pre post : Bytes) :
    getCompact (compactUInt w) (Buf.ofBytes (pre ++ compactEncode v ++ post)) pre.length =
      .ok (v, pre.length + (compactEncode v).length) :=
  getCompact_complete (b := Buf.ofBytes _) (fun _ _ => rfl) hv ⟨pre, post, rfl, rfl⟩

example : getCompact (compactUInt .u64) (Buf.ofBytes ([7, 7] ++ compactEncode 123456789012 ++ [1])) 2 =
    .ok (123456789012, 2 + (compactEncode 123456789012).length) :=
  getCompact_roundtrip .u64 (by decide) [7, 7] [1]

/-- C11. The same for any external memory that does not fail. -/
theorem getCompact_roundtrip_at (w : UW) {v : Nat} (hv : v < 2 ^ (8 * w.bytes)) {b : Buf}
    (hr : Reliable b) {pos : Nat} (ha : At b.bytes pos (compactEncode v)) :
    getCompact (compactUInt w) b pos = .ok (v, pos + (compactEncode v).length) :=
  getCompact_complete hr hv ha

example : At [9, 0x15, 0x01, 3] 1 (compactEncode 69) := ⟨[9], [3], by decide, rfl⟩

/-! ### C12 canonical encodings only -/

/-- C12. What is accepted is the compact encoding of the returned value, the value
fits the width, and no other value has an encoding at this place. -/
theorem getCompact_canonical {w : UW} {b : Buf} {pos v q : Nat}
    (h : getCompact (compactUInt w) b pos = .ok (v, q)) :
    v < 2 ^ (8 * w.bytes) ∧ (b.bytes.drop pos).take (q - pos) = compactEncode v ∧
    pos < q ∧ q ≤ b.len ∧ q - pos ≤ 17 ∧
    ∀ v', v' < 2 ^ 128 → At b.bytes pos (compactEncode v') → v' = v := by
  obtain ⟨h1, h2, h3⟩ := getCompact_sound h
  have hp := compactEncode_length_pos v
  have hl := compactEncode_length_le (lt_128 h1)
  have hle := h2.le
  refine ⟨h1, ?_, by omega, by unfold Buf.len; omega, by omega, ?_⟩
  · have := (at_iff.1 h2).2
    rw [show q - pos = (compactEncode v).length by omega]; exact this
  · intro v' hv' ha
    obtain ⟨p1, s1, e1, l1⟩ := h2
    obtain ⟨p2, s2, e2, l2⟩ := ha
    rw [e1] at e2
    simp only [List.append_assoc] at e2
    have := List.append_inj_right e2 (by omega)
    exact (compactEncode_inj hv' (lt_128 h1) this.symm).1

/-- C12. Bytes that do not begin with the (minimal) compact encoding of a value of the
width are rejected by the codec. -/
theorem compactDecode_rejects {w : UW} {bs : Bytes}
    (h : ∀ v rest, v < 2 ^ (8 * w.bytes) → bs ≠ compactEncode v ++ rest) :
    compactDecode w bs = none := by
  cases hd : compactDecode w bs with
  | none => rfl
  | some r =>
    obtain ⟨v, rest⟩ := r
    obtain ⟨h1, h2⟩ := compactDecode_sound hd
    exact absurd h2 (h v rest h1)

example : compactDecode .u32 [0x01, 0x00] = none := by decide
example : getCompact (compactUInt .u32) (Buf.ofBytes [0x01, 0x00]) 0 = .error (.err (.noCompact 0)) := by
  rfl
example : getCompact (compactUInt .u32) (Buf.ofBytes [0xfc]) 0 = .ok (63, 1) := by rfl

/-! ### C13 errors of `find_compact` -/

/-- The search loop does not fail on reliable data. -/
theorem findCompactLoop_ok {dec : Bytes → Option Nat} {b : Buf} (hr : Reliable b) {pos : Nat}
    (hpos : pos ≤ b.len) : ∀ left i, left + i = b.len - pos →
    ∃ o, findCompactLoop dec b pos left i = .ok o := by
  intro left
  induction left with
  | zero => intro i _; exact ⟨none, rfl⟩
  | succ left ih =>
    intro i hi
    unfold findCompactLoop
    split
    · exact ⟨none, rfl⟩
    · have hm := at_mid b.bytes (pos := pos) (n := i + 1) (by unfold Buf.len at *; omega)
      rw [readSlice_of_at' hr hm.1 hm.2, ok_bind]
      split
      · exact ⟨_, rfl⟩
      · exact ih (i + 1) (by omega)

/-- C13. `OutOfRange` is reported exactly when the position is past the end of the
data; then no memory is read. -/
theorem findCompact_outOfRange (w : UW) {b : Buf} (hr : Reliable b) (pos : Nat) :
    findCompact (compactUInt w) b pos = .error (.err (.buffer (.outOfRange pos b.len))) ↔
      b.len < pos := by
  unfold findCompact
  split
  · rename_i h; exact ⟨fun _ => h, fun _ => rfl⟩
  · rename_i h
    obtain ⟨o, ho⟩ := findCompactLoop_ok (dec := compactUInt w) hr (Nat.le_of_not_lt h) (b.len - pos) 0 rfl
    rw [ho, ok_bind]
    constructor
    · intro he; cases o <;> simp at he
    · intro he; exact absurd he h

/-- C13. `NoCompact` is reported exactly when the position is in range and no compact
encoding of a value of the width starts there. -/
theorem findCompact_noCompact (w : UW) {b : Buf} (hr : Reliable b) (pos : Nat) :
    findCompact (compactUInt w) b pos = .error (.err (.noCompact pos)) ↔
      pos ≤ b.len ∧ ∀ v, v < 2 ^ (8 * w.bytes) → ¬ At b.bytes pos (compactEncode v) := by
  constructor
  · intro h
    refine ⟨?_, ?_⟩
    · by_cases hp : b.len < pos
      · rw [(findCompact_outOfRange w hr pos).2 hp] at h; simp at h
      · omega
    · intro v hv ha
      rw [findCompact_complete hr hv ha] at h; cases h
  · rintro ⟨hp, hn⟩
    cases hf : findCompact (compactUInt w) b pos with
    | ok f =>
      obtain ⟨h1, h2, _⟩ := findCompact_sound hf
      exact absurd h2 (hn _ h1)
    | error e =>
      have hf' := hf
      unfold findCompact at hf'
      rw [if_neg (by omega)] at hf'
      obtain ⟨o, ho⟩ := findCompactLoop_ok (dec := compactUInt w) hr hp (b.len - pos) 0 rfl
      rw [ho, ok_bind] at hf'
      cases o with
      | none => simpa using hf'.symm
      | some c => simp at hf'

/-- C13. On reliable memory these are the only errors. -/
theorem findCompact_cases (w : UW) {b : Buf} (hr : Reliable b) (pos : Nat) :
    (∃ f, findCompact (compactUInt w) b pos = .ok f) ∨
    findCompact (compactUInt w) b pos = .error (.err (.buffer (.outOfRange pos b.len))) ∨
    findCompact (compactUInt w) b pos = .error (.err (.noCompact pos)) := by
  by_cases hp : b.len < pos
  · exact .inr (.inl ((findCompact_outOfRange w hr pos).2 hp))
  · by_cases hex : ∃ v, v < 2 ^ (8 * w.bytes) ∧ At b.bytes pos (compactEncode v)
    · obtain ⟨v, hv, ha⟩ := hex
      exact .inl ⟨_, findCompact_complete hr hv ha⟩
    · refine .inr (.inr ((findCompact_noCompact w hr pos).2 ⟨by omega, ?_⟩))
      intro v hv ha; exact hex ⟨v, hv, ha⟩

/-- C13. The brute-force search finds the shortest slice that decodes; all longer
slices decode to the same value. -/
theorem findCompact_shortest {w : UW} {b : Buf} {pos : Nat} {f : FoundCompact}
    (h : findCompact (compactUInt w) b pos = .ok f) (n : Nat) (hn : pos + n ≤ b.len) :
    compactUInt w ((b.bytes.drop pos).take n) =
      if f.startNextUnit ≤ pos + n then some f.compact else none := by
  obtain ⟨h1, h2, h3⟩ := findCompact_sound h
  rw [h3]
  split
  · rename_i hle
    have hm := at_mid b.bytes (pos := pos) (n := n) (by unfold Buf.len at hn; exact hn)
    have hpre := h2.prefix hm.1 (by rw [hm.2]; omega)
    generalize (b.bytes.drop pos).take n = s at *
    have : s = compactEncode f.compact ++ s.drop (compactEncode f.compact).length := by
      conv => lhs; rw [← List.take_append_drop (compactEncode f.compact).length s, hpre]
    unfold compactUInt
    rw [this, compactDecode_complete _ h1]; rfl
  · rename_i hlt
    have hm := at_mid b.bytes (pos := pos) (n := n) (by unfold Buf.len at hn; exact hn)
    have hpre := hm.1.prefix h2 (by rw [hm.2]; omega)
    rw [hm.2] at hpre
    rw [← hpre]
    exact compactUInt_prefix_none h1 (by omega)

example : findCompact (compactUInt .u32) (Buf.ofBytes [0xff, 0x15, 0x01]) 1 = .ok ⟨69, 3⟩ := by rfl
example : findCompact (compactUInt .u32) (Buf.ofBytes [0x15]) 3 =
    .error (.err (.buffer (.outOfRange 3 1))) := by rfl
example : findCompact (compactUInt .u32) (Buf.ofBytes [0x15]) 0 = .error (.err (.noCompact 0)) := by rfl
example : findCompact (compactUInt .u8) (Buf.ofBytes [0x15, 0x10]) 0 = .error (.err (.noCompact 0)) := by
  rfl

end Verif
