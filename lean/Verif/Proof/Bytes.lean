import Verif.Model.Compact
import Verif.Spec.Scale
/-! Lemmas about bytes and little-endian numbers. -/
namespace Verif
open Spec

theorem leBytes_length (k v : Nat) : (leBytes k v).length = k := by
  induction k generalizing v with
  | zero => rfl
  | succ k ih => simp [leBytes, ih]

theorem leNat_lt (bs : Bytes) : leNat bs < 256 ^ bs.length := by
  induction bs with
  | nil => simp [leNat]
  | cons b bs ih =>
    simp only [leNat, List.length_cons, Nat.pow_succ]
    have := b.toNat_lt
    omega

theorem leNat_leBytes (k v : Nat) (h : v < 256 ^ k) : leNat (leBytes k v) = v := by
  induction k generalizing v with
  | zero => simp only [Nat.pow_zero, Nat.lt_one_iff] at h; simp [leBytes, leNat, h]
  | succ k ih =>
    simp only [leBytes, leNat]
    rw [ih (v / 256) (by rw [Nat.pow_succ] at h; omega)]
    have : (UInt8.ofNat (v % 256)).toNat = v % 256 := by
      simp [UInt8.toNat_ofNat']
    omega

theorem leBytes_leNat (bs : Bytes) : leBytes bs.length (leNat bs) = bs := by
  induction bs with
  | nil => rfl
  | cons b bs ih =>
    simp only [List.length_cons, leBytes, leNat]
    have hb := b.toNat_lt
    have h1 : (b.toNat + 256 * leNat bs) % 256 = b.toNat := by omega
    have h2 : (b.toNat + 256 * leNat bs) / 256 = leNat bs := by omega
    rw [h1, h2, ih]
    simp

theorem leBytes_inj {k v w : Nat} (hv : v < 256 ^ k) (hw : w < 256 ^ k)
    (h : leBytes k v = leBytes k w) : v = w := by
  rw [← leNat_leBytes k v hv, h, leNat_leBytes k w hw]

theorem leNat_append (xs ys : Bytes) :
    leNat (xs ++ ys) = leNat xs + 256 ^ xs.length * leNat ys := by
  induction xs with
  | nil => simp [leNat]
  | cons x xs ih =>
    simp only [List.cons_append, leNat, ih, List.length_cons, Nat.pow_succ]
    rw [Nat.mul_add, Nat.mul_comm (256 ^ xs.length) 256, Nat.mul_assoc]; omega

theorem pow256 (k : Nat) : (256 : Nat) ^ k = 2 ^ (8 * k) := by
  rw [Nat.pow_mul]

theorem byteLen_lt (v : Nat) (h : v ≠ 0) : v < 256 ^ byteLen v := by
  rw [pow256, byteLen]
  rw [← Nat.log2_lt h]
  omega

theorem byteLen_le (v : Nat) (h : v ≠ 0) : 256 ^ (byteLen v - 1) ≤ v := by
  rw [pow256, byteLen]
  rw [← Nat.le_log2 h]
  omega

theorem byteLen_unique {v n : Nat} (hn : 0 < n) (h1 : 256 ^ (n - 1) ≤ v) (h2 : v < 256 ^ n) :
    byteLen v = n := by
  have hv : v ≠ 0 := by
    have := Nat.pow_pos (n := n - 1) (show 0 < 256 by decide)
    omega
  have a := byteLen_lt v hv
  have b := byteLen_le v hv
  have hp : 0 < byteLen v := by simp [byteLen]
  rcases Nat.lt_trichotomy (byteLen v) n with h | h | h
  · have := Nat.pow_le_pow_right (n := 256) (by decide) (show byteLen v ≤ n - 1 by omega)
    omega
  · exact h
  · have := Nat.pow_le_pow_right (n := 256) (by decide) (show n ≤ byteLen v - 1 by omega)
    omega

end Verif
