import Verif.Spec.Region
import Verif.Proof.CompactCodec
/-! Lemmas about buffers and `find_compact`. -/
namespace Verif
open Spec

theorem at_iff {data : Bytes} {pos : Nat} {bs : Bytes} :
    At data pos bs ↔ pos + bs.length ≤ data.length ∧ (data.drop pos).take bs.length = bs := by
  constructor
  · rintro ⟨pre, post, rfl, rfl⟩
    constructor
    · simp
    · simp
  · rintro ⟨h1, h2⟩
    refine ⟨data.take pos, data.drop (pos + bs.length), ?_, by simp; omega⟩
    conv => lhs; rw [← List.take_append_drop pos data, ← List.take_append_drop bs.length (data.drop pos)]
    rw [h2, List.drop_drop, List.append_assoc]

theorem at_nil {data : Bytes} {pos : Nat} : At data pos [] ↔ pos ≤ data.length := by
  simp [at_iff]

theorem at_append {data : Bytes} {pos : Nat} {xs ys : Bytes} :
    At data pos (xs ++ ys) ↔ At data pos xs ∧ At data (pos + xs.length) ys := by
  constructor
  · rintro ⟨pre, post, rfl, rfl⟩
    exact ⟨⟨pre, ys ++ post, by simp, rfl⟩, ⟨pre ++ xs, post, by simp, by simp⟩⟩
  · rintro ⟨h1, h2⟩
    rw [at_iff] at *
    obtain ⟨a1, a2⟩ := h1
    obtain ⟨b1, b2⟩ := h2
    constructor
    · simp only [List.length_append]; omega
    · rw [List.length_append, List.take_add, a2, List.drop_drop, b2]

theorem at_cons {data : Bytes} {pos : Nat} {x : UInt8} {ys : Bytes} :
    At data pos (x :: ys) ↔ At data pos [x] ∧ At data (pos + 1) ys := by
  rw [show x :: ys = [x] ++ ys from rfl, at_append]; rfl

theorem Spec.At.le {data : Bytes} {pos : Nat} {bs : Bytes} (h : At data pos bs) :
    pos + bs.length ≤ data.length := (at_iff.1 h).1

theorem Spec.At.unique {data : Bytes} {pos : Nat} {xs ys : Bytes} (h : At data pos xs)
    (h' : At data pos ys) (hl : xs.length = ys.length) : xs = ys := by
  rw [at_iff] at h h'
  rw [← h.2, ← h'.2, hl]

/-- Two byte runs at the same place: one is a prefix of the other. -/
theorem Spec.At.prefix {data : Bytes} {pos : Nat} {xs ys : Bytes} (h : At data pos xs)
    (h' : At data pos ys) (hl : xs.length ≤ ys.length) : ys.take xs.length = xs := by
  rw [at_iff] at h h'
  have := congrArg (List.take xs.length) h'.2
  rw [List.take_take, Nat.min_eq_left hl, h.2] at this
  exact this.symm

theorem at_mid (data : Bytes) {pos n : Nat} (h : pos + n ≤ data.length) :
    At data pos ((data.drop pos).take n) ∧ ((data.drop pos).take n).length = n := by
  have hl : ((data.drop pos).take n).length = n := by simp; omega
  refine ⟨?_, hl⟩
  rw [at_iff, hl]
  exact ⟨h, rfl⟩

theorem readSlice_ok {b : Buf} {pos n : Nat} {s : Bytes} (h : b.readSlice pos n = .ok s) :
    At b.bytes pos s ∧ s.length = n := by
  unfold Buf.readSlice at h
  split at h
  · cases h
  · split at h
    · cases h
    · split at h
      · cases h
      · cases h
        exact at_mid _ (by simp only [Buf.len] at *; omega)

theorem readSlice_of_at {b : Buf} (hr : Reliable b) {pos : Nat} {s : Bytes}
    (h : At b.bytes pos s) : b.readSlice pos s.length = .ok s := by
  rw [at_iff] at h
  unfold Buf.readSlice
  rw [if_neg (by simp only [Buf.len]; omega), if_neg (by simp only [Buf.len]; omega), hr]
  simp [h.2]

theorem readSlice_of_at' {b : Buf} (hr : Reliable b) {pos n : Nat} {s : Bytes}
    (h : At b.bytes pos s) (hn : s.length = n) : b.readSlice pos n = .ok s := by
  subst hn; exact readSlice_of_at hr h

theorem readByte_ok {b : Buf} {pos : Nat} {x : UInt8} (h : b.readByte pos = .ok x) :
    At b.bytes pos [x] := by
  unfold Buf.readByte at h
  cases hs : b.readSlice pos 1 with
  | error e => rw [hs] at h; cases h
  | ok s =>
    obtain ⟨h1, h2⟩ := readSlice_ok hs
    rw [hs] at h
    match s, h2 with
    | [y], _ => cases h; exact h1

theorem readByte_of_at {b : Buf} (hr : Reliable b) {pos : Nat} {x : UInt8}
    (h : At b.bytes pos [x]) : b.readByte pos = .ok x := by
  unfold Buf.readByte
  have := readSlice_of_at' hr h (n := 1) rfl
  rw [this]
  rfl

/-! ### find_compact -/

theorem findCompactLoop_sound {w : UW} {g : Nat → Nat} {b : Buf} {pos : Nat} :
    ∀ {left i : Nat} {f : FoundCompact}, left + i = b.len - pos → pos ≤ b.len →
    findCompactLoop (fun bs => (compactUInt w bs).map g) b pos left i = .ok (some f) →
    (∀ k, k ≤ i → compactUInt w ((b.bytes.drop pos).take k) = none) →
    ∃ v, v < 2 ^ (8 * w.bytes) ∧ f.compact = g v ∧ At b.bytes pos (compactEncode v) ∧
      f.startNextUnit = pos + (compactEncode v).length := by
  intro left
  induction left with
  | zero => intro i f _ _ h; simp [findCompactLoop] at h
  | succ left ih =>
    intro i f hl hle h hnone
    unfold findCompactLoop at h
    split at h
    · cases h
    · cases hs : b.readSlice pos (i + 1) with
      | error e => rw [hs] at h; cases h
      | ok s =>
        rw [hs] at h
        obtain ⟨h1, h2⟩ := readSlice_ok hs
        have hsl : s = (b.bytes.drop pos).take (i + 1) := by
          rw [at_iff] at h1; rw [← h1.2, h2]
        simp only [bind, Except.bind] at h
        cases hc : compactUInt w s with
        | none =>
          rw [hc] at h
          exact ih (by omega) hle h (fun k hk => by
            rcases Nat.lt_or_ge i k with hk' | hk'
            · have : k = i + 1 := by omega
              subst this; rw [← hsl]; exact hc
            · exact hnone k hk')
        | some v =>
          rw [hc] at h
          simp only [Option.map_some, Except.ok.injEq, Option.some.injEq] at h
          subst h
          simp only [compactUInt, Option.map_eq_some_iff] at hc
          obtain ⟨⟨v', r⟩, hd, rfl⟩ := hc
          obtain ⟨h3, h4⟩ := compactDecode_sound hd
          dsimp only at h3 h4 ⊢
          have hr : r = [] := by
            apply Decidable.byContradiction; intro hr
            have hlen : (compactEncode v').length < i + 1 := by
              rw [← h2, h4, List.length_append]
              have := List.length_pos_iff.2 hr
              omega
            have := hnone (compactEncode v').length (by omega)
            have ht : (b.bytes.drop pos).take (compactEncode v').length = compactEncode v' := by
              have : s.take (compactEncode v').length = compactEncode v' := by rw [h4]; simp
              rw [hsl, List.take_take, Nat.min_eq_left (by omega)] at this
              exact this
            rw [ht] at this
            have hcomp := compactDecode_complete (w := w) [] h3
            rw [List.append_nil] at hcomp
            simp [compactUInt, hcomp] at this
          subst hr
          rw [List.append_nil] at h4
          refine ⟨v', h3, rfl, h4 ▸ h1, ?_⟩
          rw [if_neg (by omega), ← h4, h2]; omega

theorem findCompactLoop_complete {w : UW} {g : Nat → Nat} {b : Buf} (hr : Reliable b) {pos v : Nat}
    (hv : v < 2 ^ (8 * w.bytes)) (ha : At b.bytes pos (compactEncode v)) :
    ∀ {left i : Nat}, left + i = b.len - pos → i < (compactEncode v).length →
    findCompactLoop (fun bs => (compactUInt w bs).map g) b pos left i =
      .ok (some ⟨g v, pos + (compactEncode v).length⟩) := by
  intro left
  have hle := ha.le
  induction left with
  | zero => intro i hl hi; simp only [Buf.len] at hl; omega
  | succ left ih =>
    intro i hl hi
    unfold findCompactLoop
    have h17 := compactEncode_length_le (lt_128 hv)
    rw [if_neg (by simp only [maxCompactLen]; omega)]
    have hs : b.readSlice pos (i + 1) = .ok ((compactEncode v).take (i + 1)) := by
      apply readSlice_of_at' hr
      · rw [at_iff] at ha ⊢
        have : ((compactEncode v).take (i + 1)).length = i + 1 := by simp; omega
        rw [this]
        refine ⟨by omega, ?_⟩
        conv => rhs; rw [← ha.2, List.take_take, Nat.min_eq_left (by omega)]
      · simp; omega
    rw [hs]
    simp only [bind, Except.bind]
    rcases Nat.lt_or_ge (i + 1) (compactEncode v).length with h | h
    · rw [compactUInt_prefix_none hv h]
      exact ih (by omega) h
    · have : (compactEncode v).take (i + 1) = compactEncode v := List.take_of_length_le h
      have hd := compactDecode_complete (w := w) [] hv
      rw [List.append_nil] at hd
      rw [this]
      simp only [compactUInt, hd, Option.map_some]
      rw [if_neg (by omega)]
      congr 3; omega

theorem findCompact_sound_map {w : UW} {g : Nat → Nat} {b : Buf} {pos : Nat} {f : FoundCompact}
    (h : findCompact (fun bs => (compactUInt w bs).map g) b pos = .ok f) :
    ∃ v, v < 2 ^ (8 * w.bytes) ∧ f.compact = g v ∧ At b.bytes pos (compactEncode v) ∧
      f.startNextUnit = pos + (compactEncode v).length := by
  unfold findCompact at h
  split at h
  · cases h
  · cases hs : findCompactLoop (fun bs => (compactUInt w bs).map g) b pos (b.len - pos) 0 with
    | error e => rw [hs] at h; cases h
    | ok o =>
      rw [hs] at h
      cases o with
      | none => cases h
      | some c =>
        cases h
        exact findCompactLoop_sound (by omega) (by omega) hs (fun k hk => by
          have : k = 0 := by omega
          subst this; simp [compactUInt, compactDecode])

theorem findCompact_complete_map {w : UW} {g : Nat → Nat} {b : Buf} (hr : Reliable b) {pos v : Nat}
    (hv : v < 2 ^ (8 * w.bytes)) (ha : At b.bytes pos (compactEncode v)) :
    findCompact (fun bs => (compactUInt w bs).map g) b pos =
      .ok ⟨g v, pos + (compactEncode v).length⟩ := by
  unfold findCompact
  rw [if_neg (by have := ha.le; simp only [Buf.len]; omega),
    findCompactLoop_complete hr hv ha (by omega) (compactEncode_length_pos v)]
  rfl

theorem map_id_eq (w : UW) : (fun bs => (compactUInt w bs).map fun v => v) = compactUInt w := by
  funext bs; simp

theorem findCompact_sound {w : UW} {b : Buf} {pos : Nat} {f : FoundCompact}
    (h : findCompact (compactUInt w) b pos = .ok f) :
    f.compact < 2 ^ (8 * w.bytes) ∧ At b.bytes pos (compactEncode f.compact) ∧
      f.startNextUnit = pos + (compactEncode f.compact).length := by
  rw [← map_id_eq] at h
  obtain ⟨v, h1, h2, h3, h4⟩ := findCompact_sound_map h
  rw [h2]; exact ⟨h1, h3, h4⟩

theorem findCompact_complete {w : UW} {b : Buf} (hr : Reliable b) {pos v : Nat}
    (hv : v < 2 ^ (8 * w.bytes)) (ha : At b.bytes pos (compactEncode v)) :
    findCompact (compactUInt w) b pos = .ok ⟨v, pos + (compactEncode v).length⟩ := by
  rw [← map_id_eq]
  exact findCompact_complete_map hr hv ha

theorem getCompact_sound {w : UW} {b : Buf} {pos v pos' : Nat}
    (h : getCompact (compactUInt w) b pos = .ok (v, pos')) :
    v < 2 ^ (8 * w.bytes) ∧ At b.bytes pos (compactEncode v) ∧
      pos' = pos + (compactEncode v).length := by
  unfold getCompact at h
  cases hf : findCompact (compactUInt w) b pos with
  | error e => rw [hf] at h; cases h
  | ok f => rw [hf] at h; cases h; exact findCompact_sound hf

theorem getCompact_complete {w : UW} {b : Buf} (hr : Reliable b) {pos v : Nat}
    (hv : v < 2 ^ (8 * w.bytes)) (ha : At b.bytes pos (compactEncode v)) :
    getCompact (compactUInt w) b pos = .ok (v, pos + (compactEncode v).length) := by
  unfold getCompact
  rw [findCompact_complete hr hv ha]; rfl

end Verif
