import Verif.Proof.EraBits
/-!
# Property theorems about eras (C14, C15)
-/
namespace Verif
open Spec

theorem trailingZeros_go_pow : ∀ n k, k < n → trailingZeros.go n (2 ^ k) = k := by
  intro n
  induction n with
  | zero => intro k h; omega
  | succ n ih =>
    intro k h
    cases k with
    | zero => simp [trailingZeros.go]
    | succ k =>
      unfold trailingZeros.go
      rw [if_neg (by rw [Nat.pow_succ]; omega), Nat.pow_succ, Nat.mul_div_cancel _ (by omega),
        ih k (by omega)]
      omega

theorem trailingZeros_pow {k : Nat} (h : k < 64) : trailingZeros (2 ^ k) = k :=
  trailingZeros_go_pow 64 k h

/-- The encoder of the crate gives the bytes of the specification on well-formed
eras. -/
theorem Era.encode_eq {e : Era} (h : EraOk e) : e.encode = eraEncode e := by
  cases e with
  | immortal => rfl
  | mortal period phase =>
    obtain ⟨⟨k, h2, h16, rfl⟩, hph, _⟩ := h
    have hq := quantum_bound k (by omega)
    have hqp := quantum_pos (2 ^ k)
    have hdiv : phase / quantum (2 ^ k) < 4096 := by
      rw [Nat.div_lt_iff_lt_mul hqp]; omega
    unfold Era.encode eraEncode
    simp only [trailingZeros_pow (show k < 64 by omega), log2_pow, quantum_def]
    have hl : min (max (k - 1) 1) 15 = k - 1 := by omega
    rw [hl]
    generalize phase / quantum (2 ^ k) = m at *
    rw [Nat.mod_eq_of_lt (show m * 2 ^ 4 < 2 ^ 16 by omega)]
    have hor : (k - 1) ||| (m * 2 ^ 4) = k - 1 + 16 * m := by
      rw [Nat.or_comm, Nat.mul_comm, ← Nat.two_pow_add_eq_or_of_lt (by omega)]
      omega
    rw [hor]
    simp only [leBytes]
    have : (k - 1 + 16 * m) / 256 % 256 = (k - 1 + 16 * m) / 256 := by omega
    rw [this]

/-! ### C14 era decoding is the inverse of era encoding -/

/-- C14. A well-formed era is read back from its encoding, placed anywhere in the data;
the position moves past the encoding: one byte for the immortal era, two otherwise. -/
theorem era_roundtrip {e : Era} (h : EraOk e) (pre post : Bytes) :
    specialCaseEra (Buf.ofBytes (pre ++ e.encode ++ post)) pre.length =
      .ok (e, pre.length + if e = .immortal then 1 else 2) := by
  have h1 := (specialCaseEra_parses (b := Buf.ofBytes (pre ++ e.encode ++ post))).complete
    (fun _ _ => rfl) (pos := pre.length) ⟨h, rfl⟩ ⟨pre, post, by rw [← Era.encode_eq h]; rfl, rfl⟩
  rw [h1]
  congr 2
  cases e <;> simp [eraEncode, leBytes]

example : EraOk (.mortal 64 35) := ⟨⟨6, by decide⟩, by decide, by decide⟩
example : EraOk (.mortal 65536 65520) := ⟨⟨16, by decide⟩, by decide, by decide⟩
example : (Era.mortal 64 35).encode = [0x35, 0x02] := by decide

/-- C14. Conversely, bytes accepted as an era are the encoding of that era. -/
theorem era_reencode {b : Buf} {pos q : Nat} {e : Era} (h : specialCaseEra b pos = .ok (e, q)) :
    q = pos + (if e = .immortal then 1 else 2) ∧ q ≤ b.len ∧
      (b.bytes.drop pos).take (q - pos) = e.encode := by
  obtain ⟨bs, h2, h3, h1, rfl⟩ := specialCaseEra_parses.sound h
  have hne : eraEncode e ≠ [] := by cases e <;> simp [eraEncode, leBytes]
  have h2 : At b.bytes pos (eraEncode e) := by
    rcases h2 with h2 | h2
    · exact absurd h2 hne
    · exact h2
  have hl : (eraEncode e).length = if e = .immortal then 1 else 2 := by
    cases e <;> simp [eraEncode, leBytes]
  refine ⟨by rw [h3, hl], ?_, ?_⟩
  · have := h2.le; unfold Buf.len; omega
  · rw [Era.encode_eq h1, h3, Nat.add_sub_cancel_left]; exact (at_iff.1 h2).2

example : specialCaseEra (Buf.ofBytes [9, 0x35, 0x02]) 1 = .ok (.mortal 64 35, 3) := by rfl

/-- C14. Two different eras never share an encoding. -/
theorem era_encode_injective {e e' : Era} (h : EraOk e) (h' : EraOk e') (heq : e.encode = e'.encode) :
    e = e' := by
  have h1 := era_roundtrip h [] []
  have h2 := era_roundtrip h' [] []
  rw [heq] at h1
  rw [h1] at h2
  cases h2; rfl

/-! ### C15 decoded eras are well-formed -/

/-- C15. A decoded mortal era has a period that is a power of two between 4 and 65536
and a phase below the period that is a multiple of the quantize factor
`max(period / 4096, 1)`. -/
theorem era_wellformed {b : Buf} {pos q period phase : Nat}
    (h : specialCaseEra b pos = .ok (.mortal period phase, q)) :
    (∃ k, period = 2 ^ k) ∧ 4 ≤ period ∧ period ≤ 65536 ∧ phase < period ∧
      max (period / 4096) 1 ∣ phase := by
  obtain ⟨bs, _, _, ⟨⟨k, h2, h16, rfl⟩, h3, h4⟩, _⟩ := specialCaseEra_parses.sound h
  exact ⟨⟨k, rfl⟩, Nat.pow_le_pow_right (n := 2) (i := 2) (by omega) h2, Nat.pow_le_pow_right (n := 2) (j := 16) (by omega) h16, h3, h4⟩

example : specialCaseEra (Buf.ofBytes [0x0f, 0xff]) 0 = .ok (.mortal 65536 65280, 2) := by rfl

/-- C15. Conversely every such pair is decoded from some bytes. -/
theorem era_all_reachable {period phase k : Nat} (hk : 2 ≤ k) (hk' : k ≤ 16) (hp : period = 2 ^ k)
    (hph : phase < period) (hd : max (period / 4096) 1 ∣ phase) :
    ∃ x y, specialCaseEra (Buf.ofBytes [x, y]) 0 = .ok (.mortal period phase, 2) := by
  have h : EraOk (.mortal period phase) := ⟨⟨k, hk, hk', hp⟩, hph, hd⟩
  have := era_roundtrip h [] []
  simp only [List.nil_append, List.append_nil, List.length_nil] at this
  refine ⟨_, _, this⟩

end Verif
