import Verif.Model.BitPatch
import Verif.Spec.BitPatch
import Verif.Props.Values
/-!
# C21: bit sequences with `u64` store on 32-bit targets
-/
namespace Verif
open Spec

theorem elementBits_halves (o : BitOrder) (e : Nat) :
    elementBits o 64 e = elementBits o 32 (firstHalf o e) ++ elementBits o 32 (secondHalf o e) := by
  apply List.ext_getElem?
  intro i
  rcases Nat.lt_or_ge i 32 with h | h
  · rw [List.getElem?_append_left (by rw [elementBits_length]; exact h), elementBits_get _ _ _ _ (by omega),
      elementBits_get _ _ _ _ h]
    cases o
    · simp only [bitPlace, firstHalf, Nat.testBit_mod_two_pow]
      rw [decide_eq_true h, Bool.true_and]
    · simp only [bitPlace, firstHalf, Nat.testBit_div_two_pow]
      congr 2; omega
  · rw [List.getElem?_append_right (by rw [elementBits_length]; exact h), elementBits_length]
    rcases Nat.lt_or_ge i 64 with h' | h'
    · rw [elementBits_get _ _ _ _ h', elementBits_get _ _ _ _ (by omega)]
      cases o
      · simp only [bitPlace, secondHalf, Nat.testBit_div_two_pow]
        congr 2; omega
      · simp only [bitPlace, secondHalf, Nat.testBit_mod_two_pow]
        rw [decide_eq_true (by omega : 32 - 1 - (i - 32) < 32), Bool.true_and]
        congr 2; omega
    · rw [List.getElem?_eq_none (by rw [elementBits_length]; exact h'),
        List.getElem?_eq_none (by rw [elementBits_length]; omega)]

theorem Spec.Stored.eq_take {o : BitOrder} {bits : List Bool} {els : List Nat} (h : Stored o bits els) :
    bits = (els.flatMap (elementBits o 64)).take bits.length := by
  apply List.ext_getElem?
  intro i
  rcases Nat.lt_or_ge i bits.length with hi | hi
  · obtain ⟨e, h1, h2⟩ := h.bit i hi
    have h3 := h.count.1
    obtain ⟨e', h4, h5⟩ := flatBits_get o (show 0 < 64 by decide) els i (by omega)
    rw [h1] at h4; cases h4
    rw [h2, List.getElem?_take, if_pos hi, h5]
  · rw [List.getElem?_eq_none hi, List.getElem?_take, if_neg (by omega)]

theorem leNat_halves {e : Nat} (h : e < 2 ^ 64) :
    leNat ((leBytes 8 e).take 4) = e % 2 ^ 32 ∧ leNat ((leBytes 8 e).drop 4) = e / 2 ^ 32 := by
  have h1 := leNat_append ((leBytes 8 e).take 4) ((leBytes 8 e).drop 4)
  rw [List.take_append_drop, leNat_leBytes 8 e (by simpa using h)] at h1
  have h2 := leNat_lt ((leBytes 8 e).take 4)
  have h3 : ((leBytes 8 e).take 4).length = 4 := by simp [leBytes_length]
  rw [h3] at h1 h2
  generalize leNat ((leBytes 8 e).take 4) = a at *
  generalize leNat ((leBytes 8 e).drop 4) = c at *
  omega

theorem msb_halves (x : Bytes) (h : x.length = 8) :
    (x.reverse.take 4).reverse = x.drop 4 ∧ (x.reverse.drop 4).reverse = x.take 4 := by
  rw [List.take_reverse, List.drop_reverse, h]
  simp

/-- Elements that one chunk is turned into; `last` if it is the last one. -/
def piece (o : BitOrder) (last : Bool) (e : Nat) : List Nat :=
  match o with
  | .lsb0 => firstHalf o e :: (if firstHalf o e ≠ 0 ∨ last = false then [secondHalf o e] else [])
  | .msb0 => (if firstHalf o e ≠ 0 ∨ last = false then [firstHalf o e] else []) ++ [secondHalf o e]

theorem flatMap_same {α β : Type} {l : List α} {f g : α → List β} (h : ∀ x ∈ l, f x = g x) :
    l.flatMap f = l.flatMap g := by
  induction l with
  | nil => rfl
  | cons a l ih =>
    rw [List.flatMap_cons, List.flatMap_cons, h a (by simp), ih fun x hx => h x (by simp [hx])]

theorem reformVec_eq (o : BitOrder) (els : List Nat) (h : ∀ e ∈ els, e < 2 ^ 64) :
    reformVec o (els.map (leBytes 8)) =
      els.zipIdx.flatMap fun (e, i) => piece o (i == els.length - 1) e := by
  have key : ∀ x ∈ els.zipIdx, x.1 < 2 ^ 64 := fun x hx => h _ (List.fst_mem_of_mem_zipIdx hx)
  cases o
  · simp only [reformVec, reformVecLsb0, List.zipIdx_map, List.flatMap_map, List.length_map]
    apply flatMap_same
    rintro ⟨e, i⟩ hx
    obtain ⟨h1, h2⟩ := leNat_halves (key _ hx)
    simp only [Prod.map, id, piece, firstHalf, secondHalf] at h1 h2 ⊢
    rw [h1, h2]
    simp
  · simp only [reformVec, reformVecMsb0, List.zipIdx_map, List.flatMap_map, List.length_map]
    apply flatMap_same
    rintro ⟨e, i⟩ hx
    obtain ⟨h1, h2⟩ := leNat_halves (key _ hx)
    obtain ⟨h3, h4⟩ := msb_halves (leBytes 8 e) (leBytes_length _ _)
    simp only [Prod.map, id, piece, firstHalf, secondHalf] at h1 h2 ⊢
    rw [h3, h4, h1, h2]
    simp

theorem piece_whole (o : BitOrder) (last : Bool) (e : Nat) (h : firstHalf o e ≠ 0 ∨ last = false) :
    (piece o last e).flatMap (elementBits o 32) = elementBits o 64 e := by
  cases o <;> simp only [piece, if_pos h] <;> simp [elementBits_halves _ e]

theorem pieces_init (o : BitOrder) (els : List Nat) (k n : Nat) (h : k + els.length ≤ n) :
    ((els.zipIdx k).flatMap fun (e, i) => piece o (i == n) e).flatMap (elementBits o 32) =
      els.flatMap (elementBits o 64) := by
  induction els generalizing k with
  | nil => rfl
  | cons e es ih =>
    rw [List.length_cons] at h
    simp only [List.zipIdx_cons, List.flatMap_cons, List.flatMap_append]
    rw [ih (k + 1) (by omega), piece_whole _ _ _ (.inr (by simp; omega))]

/-- Bits that are left of the last element. -/
def lastBits (o : BitOrder) (e : Nat) : List Bool := (piece o true e).flatMap (elementBits o 32)

theorem reformed_snoc (o : BitOrder) (init : List Nat) (e : Nat) (h : ∀ x ∈ init ++ [e], x < 2 ^ 64) :
    (reformVec o ((init ++ [e]).map (leBytes 8))).flatMap (elementBits o 32) =
      init.flatMap (elementBits o 64) ++ lastBits o e := by
  rw [reformVec_eq o _ h, List.zipIdx_append, List.flatMap_append, List.flatMap_append,
    pieces_init o init 0 _ (by simp)]
  simp [lastBits]

theorem lastBits_whole (o : BitOrder) (e : Nat) (h : firstHalf o e ≠ 0) :
    lastBits o e = elementBits o 64 e := piece_whole o true e (.inl h)

theorem lastBits_zero_lsb0 (e : Nat) (h : firstHalf .lsb0 e = 0) :
    lastBits .lsb0 e = elementBits .lsb0 32 (firstHalf .lsb0 e) := by
  simp [lastBits, piece, h]

theorem lastBits_zero_msb0 (e : Nat) (h : firstHalf .msb0 e = 0) :
    lastBits .msb0 e = elementBits .msb0 32 (secondHalf .msb0 e) := by
  simp [lastBits, piece, h]

theorem lastBits_zero_length (o : BitOrder) (e : Nat) (h : firstHalf o e = 0) :
    (lastBits o e).length = 32 := by
  cases o
  · rw [lastBits_zero_lsb0 e h, elementBits_length]
  · rw [lastBits_zero_msb0 e h, elementBits_length]

theorem readChunks_complete {b : Buf} (hr : Reliable b) (p : BitVecPositions) (els : List Nat) (i : Nat)
    (h : At b.bytes (p.dataStart + i * 8) (els.flatMap (leBytes 8))) :
    readChunks b p els.length i = .ok (els.map (leBytes 8)) := by
  induction els generalizing i with
  | nil => rfl
  | cons e es ih =>
    rw [List.flatMap_cons, at_append] at h
    obtain ⟨h1, h2⟩ := h
    rw [leBytes_length] at h2
    rw [List.length_cons, readChunks, readSlice_of_at' hr h1 (leBytes_length _ _)]
    dsimp only
    rw [if_pos (leBytes_length _ _), ih (i + 1) (by rw [Nat.succ_mul, ← Nat.add_assoc]; exact h2)]
    rfl

variable {b : Buf} {o : BitOrder} {bits : List Bool} {els : List Nat} {pos : Nat}

/-- What the replacement decoder does with an encoded bit sequence, of any length. -/
theorem patch_run_raw (hr : Reliable b) (hs : Stored o bits els) (hat : At b.bytes pos (storedEncode bits els))
    (hl : bits.length < 2 ^ 32) :
    patchBitvecU64 o b pos =
      (let kept := (reformVec o (els.map (leBytes 8))).flatMap (elementBits o 32)
       if 0x1fffffff < (reformVec o (els.map (leBytes 8))).length * 32 then .error .panic
       else if kept.length < bits.length then .error .panic
       else .ok (kept.take bits.length, pos + (storedEncode bits els).length)) := by
  have hat' := hat
  unfold storedEncode at hat'
  rw [at_append] at hat'
  have hc := hs.count
  unfold patchBitvecU64 BitVecPositions.new
  rw [findCompact_complete (w := .u32) hr (by simp only [UW.bytes]; omega) hat'.1]
  simp only [ok_bind]
  rw [ceilDiv_ceilDiv, show 8 * BitStore.u64.bytes = 64 from rfl,
    isCeil_unique (ceilDiv_isCeil bits.length (by decide)) hc,
    readChunks_complete hr _ els 0 (by simpa using hat'.2)]
  simp only [ok_bind]
  unfold storedEncode
  rw [List.length_append, flatBytes_length, Nat.add_assoc]
  rfl

/-- What the replacement decoder does with an encoded bit sequence. -/
theorem patch_run (hr : Reliable b) (hs : Stored o bits els) (hat : At b.bytes pos (storedEncode bits els))
    (hmax : 64 * els.length ≤ 0x1fffffff) :
    patchBitvecU64 o b pos =
      (let kept := (reformVec o (els.map (leBytes 8))).flatMap (elementBits o 32)
       if kept.length < bits.length then .error .panic
       else .ok (kept.take bits.length, pos + (storedEncode bits els).length)) := by
  have hc := hs.count
  rw [patch_run_raw hr hs hat (by have := hc.1; omega)]
  dsimp only
  have hk : (reformVec o (els.map (leBytes 8))).length * 32 ≤ 64 * els.length := by
    rw [reformVec_eq o _ hs.range]
    have hp : ∀ (last : Bool) (e : Nat), (piece o last e).length ≤ 2 := by
      intro last e
      cases o <;> simp only [piece] <;> split <;> simp
    have : ∀ (l : List Nat) (k n : Nat),
        ((l.zipIdx k).flatMap fun (e, i) => piece o (i == n) e).length ≤ 2 * l.length := by
      intro l
      induction l with
      | nil => intro k n; simp
      | cons a l ih =>
        intro k n
        have h1 := hp (k == n) a
        have h2 := ih (k + 1) n
        dsimp only at h2 ⊢
        simp only [List.zipIdx_cons, List.flatMap_cons, List.length_append, List.length_cons]
        omega
    have := this els 0 (els.length - 1)
    omega
  rw [if_neg (by omega)]

theorem flat_snoc_length (o : BitOrder) (init : List Nat) :
    (init.flatMap (elementBits o 64)).length = 64 * init.length := by
  rw [flatBits_length]; omega

theorem snoc_of_last {els : List Nat} {e : Nat} (h : els.getLast? = some e) : ∃ init, els = init ++ [e] := by
  rcases List.eq_nil_or_concat els with rfl | ⟨init, x, rfl⟩
  · simp at h
  · rw [List.concat_eq_append, List.getLast?_concat] at h
    cases h
    exact ⟨init, List.concat_eq_append⟩

/-- C21. If the last element does not start with 32 zero bits, the replacement decoder
returns the bits of the sequence and moves to its end, as the 64-bit decoder does. -/
theorem patch_agrees (hr : Reliable b) (hs : Stored o bits els) (hat : At b.bytes pos (storedEncode bits els))
    (hmax : 64 * els.length ≤ 0x1fffffff) (hz : ¬ ZeroStart o els) :
    patchBitvecU64 o b pos = .ok (bits, pos + (storedEncode bits els).length) := by
  rw [patch_run hr hs hat hmax]
  have hk : (reformVec o (els.map (leBytes 8))).flatMap (elementBits o 32) = els.flatMap (elementBits o 64) := by
    rcases List.eq_nil_or_concat els with rfl | ⟨init, e, rfl⟩
    · cases o <;> rfl
    · rw [List.concat_eq_append] at *
      have : firstHalf o e ≠ 0 := fun h => hz ⟨e, by simp, h⟩
      rw [reformed_snoc o init e hs.range, lastBits_whole o e this]
      simp
  rw [hk]
  dsimp only
  rw [flatBits_length, if_neg (by have := hs.count.1; omega), ← hs.eq_take]

theorem stored_last {init : List Nat} {e : Nat} (hs : Stored o bits (init ++ [e])) :
    bits = init.flatMap (elementBits o 64) ++ (elementBits o 64 e).take (bits.length - 64 * init.length) ∧
    64 * init.length < bits.length ∧ bits.length ≤ 64 * init.length + 64 := by
  have h1 := hs.count
  unfold IsCeil at h1
  simp only [List.length_append, List.length_singleton] at h1
  refine ⟨?_, by omega, by omega⟩
  conv => lhs; rw [hs.eq_take]
  rw [List.flatMap_append, List.take_append, flat_snoc_length, List.take_of_length_le
    (by rw [flat_snoc_length]; omega)]
  simp

theorem used_snoc {init : List Nat} {e : Nat} :
    usedInLast bits (init ++ [e]) = bits.length - 64 * init.length := by
  simp [usedInLast]

/-- C21. If the last element starts with 32 zero bits and holds more than 32 bits of the
sequence, the replacement decoder panics. -/
theorem patch_panics (hr : Reliable b) (hs : Stored o bits els) (hat : At b.bytes pos (storedEncode bits els))
    (hmax : 64 * els.length ≤ 0x1fffffff) (hz : ZeroStart o els) (hu : 32 < usedInLast bits els) :
    patchBitvecU64 o b pos = .error .panic := by
  rw [patch_run hr hs hat hmax]
  obtain ⟨e, h1, h2⟩ := hz
  obtain ⟨init, rfl⟩ := snoc_of_last h1
  rw [used_snoc] at hu
  dsimp only
  rw [reformed_snoc o init e hs.range, List.length_append, flat_snoc_length, lastBits_zero_length o e h2,
    if_pos (by omega)]

/-- C21. If the last element starts with 32 zero bits and holds at most 32 bits of the
sequence: the bits are right for `Lsb0`; for `Msb0` they are taken from the second half of
the last element, where there is only padding. -/
theorem patch_short (hr : Reliable b) (hs : Stored o bits els) (hat : At b.bytes pos (storedEncode bits els))
    (hmax : 64 * els.length ≤ 0x1fffffff) (hz : ZeroStart o els) (hu : usedInLast bits els ≤ 32) :
    ∃ bits', patchBitvecU64 o b pos = .ok (bits', pos + (storedEncode bits els).length) ∧
      bits'.length = bits.length ∧
      (bits' = bits ↔ o = .lsb0 ∨ ¬ SetInSecond o els (usedInLast bits els)) := by
  rw [patch_run hr hs hat hmax]
  obtain ⟨e, h1, h2⟩ := hz
  obtain ⟨init, rfl⟩ := snoc_of_last h1
  rw [used_snoc] at hu ⊢
  obtain ⟨h3, h4, h5⟩ := stored_last hs
  dsimp only
  rw [reformed_snoc o init e hs.range, List.length_append, flat_snoc_length, lastBits_zero_length o e h2,
    if_neg (by omega)]
  have hL : (lastBits o e).length = 32 := lastBits_zero_length o e h2
  refine ⟨_, rfl, ?_, ?_⟩
  · rw [List.length_take, List.length_append, flat_snoc_length, hL]; omega
  · generalize hu' : bits.length - 64 * init.length = u at *
    rw [List.take_append, flat_snoc_length, List.take_of_length_le (by rw [flat_snoc_length]; omega), hu']
    conv => lhs; rhs; rw [h3]
    rw [List.append_cancel_left_eq, elementBits_halves, List.take_append_of_le_length
      (by rw [elementBits_length]; omega)]
    cases o with
    | lsb0 => rw [lastBits_zero_lsb0 e h2]; simp
    | msb0 =>
      rw [lastBits_zero_msb0 e h2, h2]
      simp only [reduceCtorEq, false_or]
      constructor
      · rintro h ⟨e', i, g1, g2, g3⟩
        simp at g1; subst g1
        have := congrArg (fun l : List Bool => l[i]?) h
        simp only [List.getElem?_take, if_pos g2] at this
        rw [elementBits_get _ _ _ _ (by omega), elementBits_get _ _ _ _ (by omega), g3] at this
        simp at this
      · intro h
        apply List.ext_getElem?
        intro i
        rcases Nat.lt_or_ge i u with hi | hi
        · simp only [List.getElem?_take, if_pos hi]
          rw [elementBits_get _ _ _ _ (by omega), elementBits_get _ _ _ _ (by omega)]
          cases hb : (secondHalf .msb0 e).testBit (bitPlace .msb0 32 i) with
          | true => exact absurd ⟨e, i, by simp, hi, hb⟩ h
          | false => simp
        · simp only [List.getElem?_take]
          rw [if_neg (by omega), if_neg (by omega)]

/-- C21. The replacement decoder gives what the 64-bit decoder gives exactly in these cases. -/
theorem patch_agrees_iff (hr : Reliable b) (hs : Stored o bits els) (hat : At b.bytes pos (storedEncode bits els))
    (hmax : 64 * els.length ≤ 0x1fffffff) :
    patchBitvecU64 o b pos = .ok (bits, pos + (storedEncode bits els).length) ↔
      (ZeroStart o els → usedInLast bits els ≤ 32 ∧
        (o = .lsb0 ∨ ¬ SetInSecond o els (usedInLast bits els))) := by
  by_cases hz : ZeroStart o els
  · rcases Nat.lt_or_ge 32 (usedInLast bits els) with hu | hu
    · rw [patch_panics hr hs hat hmax hz hu]
      constructor
      · intro h; cases h
      · intro h; have := h hz; omega
    · obtain ⟨bits', h1, h2, h3⟩ := patch_short hr hs hat hmax hz hu
      rw [h1]
      constructor
      · intro h _
        cases h
        exact ⟨hu, h3.1 rfl⟩
      · intro h
        rw [h3.2 (h hz).2]
  · exact ⟨fun _ h => absurd h hz, fun _ => patch_agrees hr hs hat hmax hz⟩

/-- The same data is decoded by the 64-bit decoder without fail. -/
theorem stored_bitsEnc (hs : Stored o bits els) (h : bits.length ≤ 0x1fffffff) :
    BitsEnc .u64 o bits (storedEncode bits els) := ⟨els, h, hs.count, hs.range, hs.bit, rfl⟩

/-- Every encoded bit sequence with this store is of this form. -/
theorem bitsEnc_stored {bs : Bytes} (h : BitsEnc .u64 o bits bs) :
    ∃ els, Stored o bits els ∧ bs = storedEncode bits els := by
  obtain ⟨els, h1, h2, h3, h4, h5⟩ := h
  exact ⟨els, ⟨h2, h3, h4⟩, h5⟩

theorem readChunks_sound {p : BitVecPositions} {n i : Nat} {chunks : List Bytes}
    (h : readChunks b p n i = .ok chunks) (hp : p.dataStart + i * 8 ≤ b.bytes.length) :
    chunks.length = n ∧ (∀ c ∈ chunks, c.length = 8) ∧ At b.bytes (p.dataStart + i * 8) chunks.flatten := by
  induction n generalizing i chunks with
  | zero =>
    simp only [readChunks, Except.ok.injEq] at h
    subst h
    refine ⟨rfl, by simp, ?_⟩
    exact ⟨b.bytes.take (p.dataStart + i * 8), b.bytes.drop (p.dataStart + i * 8), by simp, by simp [hp]⟩
  | succ n ih =>
    unfold readChunks at h
    split at h
    · rename_i s hs
      obtain ⟨a1, a2⟩ := readSlice_ok hs
      have h8 := a2
      rw [if_pos a2] at h
      simp only [bind_ok, Except.ok.injEq] at h
      obtain ⟨rest, h1, rfl⟩ := h
      have hl := a1.le
      obtain ⟨b1, b2, b3⟩ := ih h1 (by rw [Nat.succ_mul]; omega)
      refine ⟨by simp [b1], ?_, ?_⟩
      · intro c hc
        rcases List.mem_cons.1 hc with rfl | hc
        · exact h8
        · exact b2 c hc
      · rw [List.flatten_cons, at_append]
        refine ⟨a1, ?_⟩
        rw [h8]
        rw [Nat.succ_mul, ← Nat.add_assoc] at b3
        exact b3
    · cases h
    · cases h

/-- C21. Whatever the replacement decoder accepts is an encoded bit sequence; the right
number of bits is returned and the position is moved to its end, as by the 64-bit decoder. -/
theorem patch_sound {bits' : List Bool} {q : Nat} (h : patchBitvecU64 o b pos = .ok (bits', q)) :
    ∃ bits els, Stored o bits els ∧ At b.bytes pos (storedEncode bits els) ∧
      q = pos + (storedEncode bits els).length ∧ bits'.length = bits.length ∧ bits.length ≤ 0x1fffffff := by
  unfold patchBitvecU64 BitVecPositions.new at h
  simp only [bind_ok, Except.ok.injEq] at h
  obtain ⟨p, ⟨f, h1, rfl⟩, chunks, h2, h3⟩ := h
  obtain ⟨-, c1, c2⟩ := findCompact_sound h1
  have hle := c1.le
  obtain ⟨d1, d2, d3⟩ := readChunks_sound h2 (by dsimp only; omega)
  dsimp only at d1 d3 h3
  split at h3
  · cases h3
  · split at h3
    · cases h3
    · rename_i hcap hlen
      cases h3
      have hceil := ceilDiv_isCeil f.compact (show 0 < 64 by decide)
      rw [ceilDiv_ceilDiv, show 8 * BitStore.u64.bytes = 64 from rfl] at d1
      rw [← d1] at hceil
      have hflat : chunks.flatten = (chunks.map leNat).flatMap (leBytes 8) := by
        rw [List.flatMap_map, ← List.flatMap_id]
        apply flatMap_same
        intro c hc
        have := leBytes_leNat c
        rw [d2 c hc] at this
        exact this.symm
      have hbl : ((((chunks.map leNat).flatMap (elementBits o 64)).take f.compact)).length = f.compact := by
        rw [List.length_take, flatBits_length, List.length_map]
        have := hceil.1
        omega
      refine ⟨((chunks.map leNat).flatMap (elementBits o 64)).take f.compact, chunks.map leNat, ⟨?_, ?_, ?_⟩, ?_, ?_, ?_, ?_⟩
      · rw [hbl, List.length_map]; exact hceil
      · intro e he
        obtain ⟨c, hc, rfl⟩ := List.mem_map.1 he
        have := leNat_lt c
        rw [d2 c hc] at this
        exact this
      · intro i hi
        rw [hbl] at hi
        obtain ⟨e, g1, g2⟩ := flatBits_get o (show 0 < 64 by decide) (chunks.map leNat) i
          (by rw [List.length_map]; have := hceil.1; omega)
        exact ⟨e, g1, by rw [List.getElem?_take, if_pos hi, g2]⟩
      · unfold storedEncode
        rw [hbl, at_append, ← hflat]
        refine ⟨c1, ?_⟩
        rw [← c2]
        simpa using d3
      · unfold storedEncode
        rw [hbl, List.length_append, ← hflat, List.length_flatten, ← Nat.add_assoc, ← c2]
        rw [ceilDiv_ceilDiv, show 8 * BitStore.u64.bytes = 64 from rfl, ← d1]
        congr 1
        have : chunks.map List.length = List.replicate chunks.length 8 := by
          rw [List.eq_replicate_iff]
          refine ⟨by simp, ?_⟩
          intro x hx
          obtain ⟨c, hc, rfl⟩ := List.mem_map.1 hx
          exact d2 c hc
        rw [this, List.sum_replicate_nat]
        rfl
      · rw [hbl, List.length_take]
        omega
      · rw [hbl]
        rw [flatBits_length] at hlen
        omega

/-- 40 bits, `Lsb0`; only bit 32 is set. -/
def lostBits : Bytes := [160, 0, 0, 0, 0, 1, 0, 0, 0]

/-- C21, refutation: the 64-bit decoder accepts this data, the replacement panics. -/
theorem patch_loses : patchBitvecU64 .lsb0 (.ofBytes lostBits) 0 = .error .panic ∧
    BitsEnc .u64 .lsb0 (List.replicate 32 false ++ true :: List.replicate 7 false) lostBits := by
  refine ⟨by rfl, bitVecDecodeAll_iff.1 (by decide)⟩

/-- One bit, `Msb0`, and non-zero padding. -/
def shiftedBits : Bytes := [4, 0, 0, 0, 128, 0, 0, 0, 0]

/-- C21, refutation: the 64-bit decoder returns another bit than the replacement. -/
theorem patch_misreads : patchBitvecU64 .msb0 (.ofBytes shiftedBits) 0 = .ok ([true], 9) ∧
    BitsEnc .u64 .msb0 [false] shiftedBits := by
  refine ⟨by rfl, bitVecDecodeAll_iff.1 (by decide)⟩

set_option maxRecDepth 4000 in
/-- 65 bits in two elements. -/
example : patchBitvecU64 .lsb0
    (.ofBytes [0x05, 0x01, 1, 0, 0, 0, 0, 0, 0, 128, 1, 0, 0, 0, 0, 0, 0, 0]) 0 =
      .ok (true :: List.replicate 62 false ++ [true, true], 18) := by rfl

/-- The hypotheses of `patch_agrees` are met: five bits `10001`, `Lsb0`. -/
example : Stored .lsb0 [true, false, false, false, true] [17] ∧ ¬ ZeroStart .lsb0 [17] ∧
    storedEncode [true, false, false, false, true] [17] = [20, 17, 0, 0, 0, 0, 0, 0, 0] := by
  refine ⟨⟨by unfold IsCeil; decide, by decide, ?_⟩, ?_, by decide⟩
  · intro i hi
    have : ∀ j : Fin 5, ∃ e, [17][j.1 / 64]? = some e ∧ [true, false, false, false, true][j.1]? =
        some (e.testBit (bitPlace .lsb0 64 (j.1 % 64))) := by
      intro j
      refine ⟨17, ?_, ?_⟩ <;> revert j <;> decide
    exact this ⟨i, hi⟩
  · rintro ⟨e, h1, h2⟩
    cases h1
    exact absurd h2 (by decide)

/-! ### The tests of the crate, `src/decoding_sci.rs:1229-1307` -/

/-- The elements of the tests. -/
def testElements : List Nat := [128, 1234567890123456, 0, 4234567890123456]

/-- Their encoding as a bit sequence: 256 bits. -/
def testEncoded : Bytes := compactEncode 256 ++ testElements.flatMap (leBytes 8)

/-- Outcome with its value tested. -/
def okIs {α : Type} [DecidableEq α] (r : Res α) (a : α) : Bool :=
  match r with | .ok x => decide (x = a) | .error _ => false

/-- `bitvec_correct_cut_1`, `src/decoding_sci.rs:1238-1247`. -/
example : okIs (intoBitvecDecode .u8 (.ofBytes ([0x60, 3, 14, 15] ++ List.replicate 30 0)) 0)
    ([0x60, 3, 14, 15], 4) = true := by decide +kernel

/-- `bitvec_correct_cut_2`, `src/decoding_sci.rs:1249-1258`. -/
example : okIs (intoBitvecDecode .u64 (.ofBytes (testEncoded ++ List.replicate 30 0)) 0)
    (testEncoded, testEncoded.length) = true := by decide +kernel

/-- `bitvec_patch_1`, `src/decoding_sci.rs:1260-1269`. -/
example : okIs (patchBitvecU64 .lsb0 (.ofBytes testEncoded) 0)
    (testElements.flatMap (elementBits .lsb0 64), testEncoded.length) = true := by decide +kernel

/-- `bitvec_patch_2`, `src/decoding_sci.rs:1271-1281`: 60 bits set, 30 bits not. -/
example : okIs (patchBitvecU64 .lsb0 (.ofBytes (compactEncode 90 ++ leBytes 8 (2 ^ 60 - 1) ++ leBytes 8 0)) 0)
    (List.replicate 60 true ++ List.replicate 30 false, 18) = true := by decide +kernel

/-- `bitvec_patch_3`, `src/decoding_sci.rs:1283-1292`. -/
example : okIs (patchBitvecU64 .msb0 (.ofBytes testEncoded) 0)
    (testElements.flatMap (elementBits .msb0 64), testEncoded.length) = true := by decide +kernel

/-- `bitvec_patch_4`, `src/decoding_sci.rs:1294-1304`. -/
example : okIs (patchBitvecU64 .msb0
    (.ofBytes (compactEncode 90 ++ leBytes 8 ((2 ^ 60 - 1) * 16) ++ leBytes 8 0)) 0)
    (List.replicate 60 true ++ List.replicate 30 false, 18) = true := by decide +kernel

end Verif
