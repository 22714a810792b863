import Verif.Proof.Bytes
/-! The codec's compact decoder inverts the specification's compact encoder. -/
namespace Verif
open Spec

theorem take_append_of_le {α} (l : List α) (n : Nat) (h : n ≤ l.length) :
    ∃ a r, l = a ++ r ∧ a.length = n ∧ l.take n = a ∧ l.drop n = r :=
  ⟨l.take n, l.drop n, (List.take_append_drop n l).symm, by simp [h], rfl, rfl⟩

theorem UInt8.ofNat_eq_of_toNat {b : UInt8} {n : Nat} (h : b.toNat = n) : UInt8.ofNat n = b := by
  subst h; simp

/-- Decoding yields only canonical encodings of in-range values. -/
theorem compactDecode_sound {w : UW} {bs rest : Bytes} {v : Nat}
    (h : compactDecode w bs = some (v, rest)) :
    v < 2 ^ (8 * w.bytes) ∧ bs = compactEncode v ++ rest := by
  cases bs with
  | nil => simp [compactDecode] at h
  | cons p tl =>
    have hp := p.toNat_lt
    simp only [compactDecode] at h
    split at h
    · -- mode 0
      simp only [Option.some.injEq, Prod.mk.injEq] at h
      obtain ⟨rfl, rfl⟩ := h
      have h6 : p.toNat / 4 < 2 ^ 6 := by omega
      refine ⟨?_, ?_⟩
      · cases w <;> simp only [UW.bytes] <;> omega
      · simp only [compactEncode, if_pos h6, leBytes, List.cons_append, List.nil_append]
        rw [UInt8.ofNat_eq_of_toNat]; omega
    · split at h
      · split at h
        · cases h
        · rename_i hl
          obtain ⟨a, r, rfl, ha, ht, hd⟩ := take_append_of_le tl 1 (by omega)
          simp only [ht, hd] at h
          split at h
          · rename_i hx
            simp only [Option.some.injEq, Prod.mk.injEq] at h
            obtain ⟨rfl, rfl⟩ := h
            refine ⟨hx.2, ?_⟩
            match a, ha with
            | [q], _ =>
              have hq := q.toNat_lt
              simp only [leNat] at hx ⊢
              have e : p.toNat + 256 * (q.toNat + 256 * 0) = 4 * ((p.toNat + 256 * (q.toNat + 256 * 0)) / 4) + 1 := by omega
              generalize (p.toNat + 256 * (q.toNat + 256 * 0)) / 4 = x at *
              have h6 : ¬ x < 2 ^ 6 := by omega
              have h14 : x < 2 ^ 14 := by omega
              simp only [compactEncode, if_neg h6, if_pos h14, leBytes, List.cons_append, List.nil_append]
              rw [UInt8.ofNat_eq_of_toNat (b := p) (by omega), UInt8.ofNat_eq_of_toNat (b := q) (by omega)]
          · cases h
      · split at h
        · split at h
          · cases h
          · split at h
            · cases h
            · rename_i hl
              obtain ⟨a, r, rfl, ha, ht, hd⟩ := take_append_of_le tl 3 (by omega)
              simp only [ht, hd] at h
              split at h
              · rename_i hx
                simp only [Option.some.injEq, Prod.mk.injEq] at h
                obtain ⟨rfl, rfl⟩ := h
                refine ⟨hx.2, ?_⟩
                have hlen : (p :: a).length = 4 := by simp [ha]
                have hlt : leNat (p :: a) < 256 ^ 4 := by
                  have := leNat_lt (p :: a); rwa [hlen] at this
                have hm : leNat (p :: a) % 4 = 2 := by simp only [leNat]; omega
                have h6 : ¬ leNat (p :: a) / 4 < 2 ^ 6 := by omega
                have h14 : ¬ leNat (p :: a) / 4 < 2 ^ 14 := by omega
                have h30 : leNat (p :: a) / 4 < 2 ^ 30 := by omega
                simp only [compactEncode, if_neg h6, if_neg h14, if_pos h30]
                have : 4 * (leNat (p :: a) / 4) + 2 = leNat (p :: a) := by omega
                rw [this, ← hlen, leBytes_leNat]
                simp
              · cases h
        · split at h
          · cases h
          · split at h
            · cases h
            · rename_i hm0 hm1 hm2 hw hl
              obtain ⟨a, r, rfl, ha, ht, hd⟩ := take_append_of_le tl (p.toNat / 4 + 4) (by omega)
              simp only [ht, hd] at h
              by_cases hx : (if p.toNat / 4 + 4 = 4 then 2 ^ 30 - 1
                  else 2 ^ (8 * (p.toNat / 4 + 4 - 1)) - 1) < leNat a
              · rw [if_pos hx] at h
                simp only [Option.some.injEq, Prod.mk.injEq] at h
                obtain ⟨rfl, rfl⟩ := h
                have hlt := leNat_lt a
                rw [ha] at hlt
                have hn : byteLen (leNat a) = p.toNat / 4 + 4 := by
                  apply byteLen_unique (by omega)
                  · split at hx
                    · rename_i h4
                      rw [h4]; omega
                    · rw [pow256]; omega
                  · exact hlt
                have h30 : 2 ^ 30 ≤ leNat a := by
                  split at hx
                  · omega
                  · have := Nat.pow_le_pow_right (n := 2) (by decide)
                      (show 32 ≤ 8 * (p.toNat / 4 + 4 - 1) by omega)
                    omega
                refine ⟨?_, ?_⟩
                · rw [← pow256]
                  exact Nat.lt_of_lt_of_le hlt (Nat.pow_le_pow_right (by decide) (by omega))
                · simp only [compactEncode]
                  rw [if_neg (by omega), if_neg (by omega), if_neg (by omega), hn]
                  rw [UInt8.ofNat_eq_of_toNat (b := p) (by omega), ← ha, leBytes_leNat]
                  simp
              · rw [if_neg hx] at h; cases h

/-- Canonical encodings of in-range values are decoded. -/
theorem compactDecode_complete {w : UW} {v : Nat} (rest : Bytes) (h : v < 2 ^ (8 * w.bytes)) :
    compactDecode w (compactEncode v ++ rest) = some (v, rest) := by
  simp only [compactEncode]
  split
  · rename_i h6
    simp only [leBytes, List.cons_append, List.nil_append, compactDecode, UInt8.toNat_ofNat']
    rw [if_pos (by omega)]
    congr 2; omega
  · split
    · rename_i h6 h14
      simp only [leBytes, List.cons_append, List.nil_append, compactDecode, UInt8.toNat_ofNat',
        List.take_succ_cons, List.take_zero, leNat, List.length_cons, List.drop_succ_cons,
        List.drop_zero]
      rw [if_neg (by omega), if_pos (by omega), if_neg (by omega)]
      have e : ((4 * v + 1) % 256 % 2 ^ 8 + 256 * ((4 * v + 1) / 256 % 256 % 2 ^ 8 + 256 * 0)) / 4 = v := by
        omega
      rw [e, if_pos (by omega)]
    · split
      · rename_i h6 h14 h30
        have hw : w ≠ .u8 := by
          rintro rfl; simp only [UW.bytes] at h; omega
        have hl : leNat (leBytes 4 (4 * v + 2)) = 4 * v + 2 := leNat_leBytes _ _ (by omega)
        have hlen := leBytes_length 4 (4 * v + 2)
        generalize leBytes 4 (4 * v + 2) = bs at *
        match bs, hlen with
        | p :: a, hlen =>
          have ha : a.length = 3 := by simpa using hlen
          have hp := p.toNat_lt
          have hm : p.toNat % 4 = 2 := by simp only [leNat] at hl; omega
          simp only [List.cons_append, compactDecode]
          rw [if_neg (by omega), if_neg (by omega), if_pos hm, if_neg hw, if_neg (by simp [ha])]
          rw [List.take_append_of_le_length (by omega), List.take_of_length_le (by omega), hl,
            if_pos (by omega), ← ha, List.drop_left]
          congr 2; omega
      · rename_i h6 h14 h30
        have hv : v ≠ 0 := by omega
        have a := byteLen_lt v hv
        have b := byteLen_le v hv
        have h4 : 4 ≤ byteLen v := by
          apply Decidable.byContradiction; intro hc
          have := Nat.pow_le_pow_right (n := 256) (by decide) (show byteLen v ≤ 3 by omega)
          omega
        have hwb : byteLen v ≤ w.bytes := by
          apply Decidable.byContradiction; intro hc
          have := Nat.pow_le_pow_right (n := 256) (by decide) (show w.bytes ≤ byteLen v - 1 by omega)
          rw [← pow256] at h
          omega
        have h16 : w.bytes ≤ 16 := by cases w <;> simp [UW.bytes]
        have hp : (UInt8.ofNat (4 * (byteLen v - 4) + 3)).toNat = 4 * (byteLen v - 4) + 3 := by
          simp only [UInt8.toNat_ofNat']; omega
        simp only [List.cons_append, compactDecode, hp]
        have hn : (4 * (byteLen v - 4) + 3) / 4 + 4 = byteLen v := by omega
        rw [if_neg (by omega), if_neg (by omega), if_neg (by omega), hn, if_neg (by omega),
          if_neg (by simp [leBytes_length])]
        have hll := leBytes_length (byteLen v) v
        have t : List.take (byteLen v) (leBytes (byteLen v) v ++ rest) = leBytes (byteLen v) v := by
          rw [List.take_append_of_le_length (by omega), List.take_of_length_le (by omega)]
        have d : List.drop (byteLen v) (leBytes (byteLen v) v ++ rest) = rest := by
          rw [List.drop_append_of_le_length (by omega), List.drop_of_length_le (by omega)]; rfl
        rw [t, d, leNat_leBytes _ _ a, if_pos]
        split
        · omega
        · rw [← pow256]; have := Nat.pow_pos (n := byteLen v - 1) (show 0 < 256 by decide); omega

theorem compactEncode_length_pos (v : Nat) : 0 < (compactEncode v).length := by
  simp only [compactEncode]
  split
  · simp [leBytes]
  · split
    · simp [leBytes]
    · split <;> simp [leBytes]

theorem compactEncode_length_le {v : Nat} (h : v < 2 ^ 128) : (compactEncode v).length ≤ 17 := by
  simp only [compactEncode]
  split
  · simp [leBytes]
  · split
    · simp [leBytes]
    · split
      · simp [leBytes]
      · simp only [List.length_cons, leBytes_length]
        have := byteLen_le v (by omega)
        apply Decidable.byContradiction; intro hc
        have := Nat.pow_le_pow_right (n := 256) (by decide) (show 16 ≤ byteLen v - 1 by omega)
        omega

theorem UW.bytes_le (w : UW) : w.bytes ≤ 16 := by cases w <;> simp [UW.bytes]

theorem lt_128 {w : UW} {v : Nat} (h : v < 2 ^ (8 * w.bytes)) : v < 2 ^ 128 :=
  Nat.lt_of_lt_of_le h (Nat.pow_le_pow_right (by decide) (by have := w.bytes_le; omega))

theorem compactEncode_inj {v v' : Nat} (h : v < 2 ^ 128) (h' : v' < 2 ^ 128)
    {r r' : Bytes} (e : compactEncode v ++ r = compactEncode v' ++ r') : v = v' ∧ r = r' := by
  have a := compactDecode_complete (w := .u128) r h
  have b := compactDecode_complete (w := .u128) r' h'
  rw [e, b] at a
  simp only [Option.some.injEq, Prod.mk.injEq] at a
  exact ⟨a.1.symm, a.2.symm⟩

/-- A proper prefix of a canonical encoding does not decode. -/
theorem compactUInt_prefix_none {w : UW} {v : Nat} (h : v < 2 ^ (8 * w.bytes)) {k : Nat}
    (hk : k < (compactEncode v).length) : compactUInt w ((compactEncode v).take k) = none := by
  simp only [compactUInt, Option.map_eq_none_iff]
  apply Option.eq_none_iff_forall_ne_some.2
  intro ⟨v', r⟩ he
  obtain ⟨h1, h2⟩ := compactDecode_sound he
  have h3 : compactEncode v = compactEncode v' ++ (r ++ (compactEncode v).drop k) := by
    rw [← List.append_assoc, ← h2, List.take_append_drop]
  have h4 := compactEncode_inj (lt_128 h) (lt_128 h1) (r := []) (by simpa using h3)
  obtain ⟨rfl, h5⟩ := h4
  have := congrArg List.length h3
  have h6 : ((compactEncode v).take k).length = k := by simp; omega
  rw [h2] at h6
  simp only [List.length_append] at *
  omega

end Verif
