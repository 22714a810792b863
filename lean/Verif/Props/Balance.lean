import Verif.Model.Balance
import Verif.Spec.Balance
/-!
# C35, C36: printing of balances
-/
namespace Verif
open Spec

/-- What the cut number is, for digits `b` and `d` decimals. -/
structure CutOk (b : List Char) (d : Nat) (c : CutNumber) : Prop where
  lo : -4 ≤ c.mag
  hi : c.mag ≤ 6
  ne : c.beforePoint ≠ []
  after : c.afterPoint ≠ some []
  digits : ∃ i j, c.beforePoint ++ c.afterPoint.getD [] = List.replicate i '0' ++ b ++ List.replicate j '0' ∧
    (b = ['0'] ∨ ((c.afterPoint.getD []).length : Int) + 3 * c.mag = d + j) ∧
    (b = ['0'] ∨ c.afterPoint = none ∨ j = 0) ∧
    (c.beforePoint = ['0'] ∧ (b = ['0'] ∨ c.mag = 6) ∨ i = 0 ∧ b ≠ ['0'])
  short : c.beforePoint.length ≤ 3 ∨ c.mag = -4

theorem assistFor_ok {b : List Char} {d o : Nat} (hb : b.length = o + 1) (h : o ≤ d) (h' : 18 < d - o) :
    ∃ c, assistFor b d o = some c ∧ CutOk b d c := by
  refine ⟨⟨['0'], some (List.replicate (d - o - 19) '0' ++ b), 6⟩, ?_, ?_⟩
  · have h1 : d - o - 18 - 1 = d - o - 19 := by omega
    have h2 : 18 ≤ d - o := by omega
    have h3 : 1 ≤ d - o - 18 := by omega
    simp [assistFor, mulU8, magHighestPos, subUnsigned, assist, h, h2, h3, h1]
  · refine ⟨by simp, by simp, by simp, ?_, ⟨d - o - 19 + 1, 0, ?_, .inr ?_, .inr (.inr rfl), .inl ⟨rfl, .inr rfl⟩⟩, .inl (by simp)⟩
    · intro h0
      have := congrArg (Option.map List.length) h0
      simp [hb] at this
    · simp [List.replicate_succ]
    · simp [hb]; omega

theorem cutAt_ok {b : List Char} {d length : Nat} {mag : Int} (hl : 0 < length) (hlt : length < b.length)
    (hlo : -4 ≤ mag) (hhi : mag ≤ 6) (hd : (length : Int) + 3 * mag = d)
    (hs : b.length - length ≤ 3 ∨ mag = -4) : ∃ c, cutAt b length mag = some c ∧ CutOk b d c := by
  refine ⟨⟨b.take (b.length - length), some (b.drop (b.length - length)), mag⟩, ?_, ?_⟩
  · simp [cutAt, subUnsigned, sliceTo, sliceFrom, Nat.le_of_lt hlt]
  · refine ⟨hlo, hhi, ?_, ?_, ⟨0, 0, ?_, .inr ?_, .inr (.inr rfl), .inr ⟨rfl, by rintro rfl; simp at hlt; omega⟩⟩, ?_⟩
    · intro h0
      have := congrArg List.length h0
      simp at this
      omega
    · intro h0
      have := congrArg (Option.map List.length) h0
      simp at this
      omega
    · simp
    · simp; omega
    · simpa using hs

theorem cutZero_ok {d : Nat} (hd : d < 256) : ∃ c, cutZero ['0'] d = some c ∧ CutOk ['0'] d c := by
  unfold cutZero
  simp only [mulU8, magHighestPos]
  by_cases h : d ≤ 18
  · simp [h]
    have hm : asI8 (d / 3) = (d / 3 : Nat) := by simp [asI8]; omega
    have h3 : d % 3 = 0 ∨ d % 3 = 1 ∨ d % 3 = 2 := by omega
    rcases h3 with h3 | h3 | h3 <;> simp only [h3, hm]
    · exact ⟨_, rfl, by simp; omega, by simp; omega, by simp, by simp, ⟨0, 0, by simp, by simp, by simp, by simp⟩, by simp⟩
    · exact ⟨_, rfl, by simp; omega, by simp; omega, by simp, by simp, ⟨1, 0, by simp, by simp, by simp, by simp⟩, by simp⟩
    · exact ⟨_, rfl, by simp; omega, by simp; omega, by simp, by simp, ⟨2, 0, by simp, by simp, by simp, by simp⟩, by simp⟩
  · have := assistFor_ok (b := ['0']) (d := d) (o := 0) rfl (by omega) (by omega)
    simpa [h] using this

theorem cutOne_ok {b : List Char} {d : Nat} (hb : b.length = 1) (hz : b ≠ ['0']) (hd : d < 256) :
    ∃ c, cutOne b d = some c ∧ CutOk b d c := by
  have hne : b ≠ [] := by intro h; simp [h] at hb
  unfold cutOne
  simp only [mulU8, magHighestPos]
  by_cases h : d ≤ 18
  · simp [h]
    have hm : asI8 (d / 3) = (d / 3 : Nat) := by simp [asI8]; omega
    have h3 : d % 3 = 0 ∨ d % 3 = 1 ∨ d % 3 = 2 := by omega
    have hi : i8 ((d / 3 : Nat) + 1) = some ((d / 3 : Nat) + 1 : Int) := by simp [i8]; omega
    rcases h3 with h3 | h3 | h3 <;> simp only [h3, hm, hi]
    · exact ⟨_, rfl, by simp; omega, by simp; omega, by simpa using hne, by simp,
        ⟨0, 0, by simp, .inr (by simp; omega), by simp, by simp [hz]⟩, by simp [hb]⟩
    · exact ⟨_, rfl, by simp; omega, by simp; omega, by simp, by simp,
        ⟨0, 2, by simp [List.replicate], .inr (by simp; omega), by simp, by simp [hz]⟩, by simp [hb]⟩
    · exact ⟨_, rfl, by simp; omega, by simp; omega, by simp, by simp,
        ⟨0, 1, by simp, .inr (by simp; omega), by simp, by simp [hz]⟩, by simp [hb]⟩
  · have := assistFor_ok (b := b) (d := d) (o := 0) hb (by omega) (by omega)
    simpa [h] using this

theorem cutTwo_ok {x y : Char} {d : Nat} (hd : d < 256) :
    ∃ c, cutTwo [x, y] d 1 = some c ∧ CutOk [x, y] d c := by
  unfold cutTwo
  simp only [mulU8, magHighestPos, subUnsigned]
  by_cases h0 : 1 ≤ d
  · by_cases h : d - 1 ≤ 18
    · have ha : addU8 d 2 = some (d + 2) := by simp [addU8]; omega
      have hm : asI8 (d / 3) = (d / 3 : Nat) := by simp [asI8]; omega
      have h3 : (d + 2) % 3 = 0 ∨ (d + 2) % 3 = 1 ∨ (d + 2) % 3 = 2 := by omega
      have hi : i8 ((d / 3 : Nat) + 1) = some ((d / 3 : Nat) + 1 : Int) := by simp [i8]; omega
      simp [h0, h, ha]
      rcases h3 with h3 | h3 | h3 <;> simp only [h3, hm, hi]
      · exact ⟨⟨[x], some [y], (d / 3 : Nat)⟩, rfl, by simp; omega, by simp; omega, by simp, by simp,
          ⟨0, 0, by simp, .inr (by simp; omega), by simp, by simp⟩, by simp⟩
      · exact ⟨⟨[x, y, '0'], none, (d / 3 : Nat) + 1⟩, rfl, by simp; omega, by simp; omega, by simp, by simp,
          ⟨0, 1, by simp, .inr (by simp; omega), by simp, by simp⟩, by simp⟩
      · exact ⟨⟨[x, y], none, (d / 3 : Nat)⟩, rfl, by simp; omega, by simp; omega, by simp, by simp,
          ⟨0, 0, by simp, .inr (by simp; omega), by simp, by simp⟩, by simp⟩
    · have := assistFor_ok (b := [x, y]) (d := d) (o := 1) rfl (by omega) (by omega)
      simpa [h0, h] using this
  · simp only [h0, if_false]
    exact ⟨⟨[x, y], none, 0⟩, rfl, by simp, by simp, by simp, by simp, ⟨0, 0, by simp, .inr (by simp; omega), by simp, by simp⟩, by simp⟩

theorem cutThree_ok {x y z : Char} {d : Nat} (hd : d < 256) :
    ∃ c, cutThree [x, y, z] d 2 = some c ∧ CutOk [x, y, z] d c := by
  unfold cutThree
  simp only [mulU8, magHighestPos, subUnsigned]
  by_cases h0 : 2 ≤ d
  · by_cases h : d - 2 ≤ 18
    · have ha : addU8 d 1 = some (d + 1) := by simp [addU8]; omega
      have hm : asI8 (d / 3) = (d / 3 : Nat) := by simp [asI8]; omega
      have h3 : (d + 1) % 3 = 0 ∨ (d + 1) % 3 = 1 ∨ (d + 1) % 3 = 2 := by omega
      simp [h0, h, ha]
      rcases h3 with h3 | h3 | h3 <;> simp only [h3, hm]
      · exact ⟨⟨[x], some [y, z], (d / 3 : Nat)⟩, rfl, by simp; omega, by simp; omega, by simp, by simp,
          ⟨0, 0, by simp, .inr (by simp; omega), by simp, by simp⟩, by simp⟩
      · exact ⟨⟨[x, y, z], none, (d / 3 : Nat)⟩, rfl, by simp; omega, by simp; omega, by simp, by simp,
          ⟨0, 0, by simp, .inr (by simp; omega), by simp, by simp⟩, by simp⟩
      · exact ⟨⟨[x, y], some [z], (d / 3 : Nat)⟩, rfl, by simp; omega, by simp; omega, by simp, by simp,
          ⟨0, 0, by simp, .inr (by simp; omega), by simp, by simp⟩, by simp⟩
    · have := assistFor_ok (b := [x, y, z]) (d := d) (o := 2) rfl (by omega) (by omega)
      simpa [h0, h] using this
  · by_cases h1 : d = 0
    · subst h1
      exact ⟨⟨[x, y, z], none, 0⟩, rfl, by simp, by simp, by simp, by simp,
        ⟨0, 0, by simp, .inr (by simp), by simp, by simp⟩, by simp⟩
    · obtain rfl : d = 1 := by omega
      exact ⟨⟨[x, y], some [z], 0⟩, rfl, by simp, by simp, by simp, by simp,
        ⟨0, 0, by simp, .inr (by simp), by simp, by simp⟩, by simp⟩

theorem cutMany_ok {b : List Char} {d o : Nat} (hb : b.length = o + 1) (ho : 3 ≤ o) (ho' : o < 200)
    (hd : d < 256) : ∃ c, cutMany b d o = some c ∧ CutOk b d c := by
  unfold cutMany
  simp only [mulU8, magHighestPos, magLowestNeg, subUnsigned]
  by_cases h0 : o ≤ d
  · by_cases h : d - o ≤ 18
    · have hm : asI8 ((d - o) / 3) = ((d - o) / 3 : Nat) := by simp [asI8]; omega
      have h3 : (d - o) % 3 = 0 ∨ (d - o) % 3 = 1 ∨ (d - o) % 3 = 2 := by omega
      have hi : i8 (((d - o) / 3 : Nat) + 1) = some (((d - o) / 3 : Nat) + 1 : Int) := by simp [i8]; omega
      have h2 : 2 ≤ o := by omega
      have h1 : 1 ≤ o := by omega
      simp [h0, h]
      rcases h3 with h3 | h3 | h3 <;> simp only [h3, hm, hi, h2, h1, if_true] <;>
        first
        | exact cutAt_ok (by omega) (by omega) (by omega) (by omega) (by omega) (.inl (by omega))
        | (simp only [Option.bind_some]
           exact cutAt_ok (by omega) (by omega) (by omega) (by omega) (by omega) (.inl (by omega)))
    · have := assistFor_ok (b := b) (d := d) (o := o) hb (by omega) (by omega)
      simpa [h0, h] using this
  · have h0' : d ≤ o := by omega
    by_cases h : o - d ≤ 12
    · have hm : asI8 (o - d) = ((o - d : Nat) : Int) := by simp [asI8]; omega
      have ht : Int.tdiv ((o - d : Nat) : Int) 3 = ((o - d) / 3 : Nat) := by
        rw [Int.tdiv_eq_ediv_of_nonneg (by omega)]; omega
      have hi : i8 (-((o - d) / 3 : Nat)) = some (-((o - d) / 3 : Nat) : Int) := by simp [i8]; omega
      have hs : (o - d) % 3 ≤ o := by omega
      simp only [h0, h0', hm, ht, hi, hs, if_true, if_false, Option.bind_eq_bind, Option.bind_some]
      simp only [show (4 * 3 < 256) from by omega, if_true, Option.bind_some, h]
      exact cutAt_ok (by omega) (by omega) (by omega) (by omega) (by omega) (.inl (by omega))
    · have ha : addU8 12 d = some (12 + d) := by simp [addU8]; omega
      simp [h0, h0', h, ha, i8, asI8]
      exact cutAt_ok (by omega) (by omega) (by omega) (by omega) (by omega) (.inr rfl)

theorem cutNumber_ok {b : List Char} {d : Nat} (hne : b ≠ []) (hb : b.length ≤ 100) (hd : d < 256) :
    ∃ c, cutNumber b d = some c ∧ CutOk b d c := by
  obtain ⟨o, ho⟩ : ∃ o, b.length = o + 1 := by
    cases b with
    | nil => exact absurd rfl hne
    | cons x l => exact ⟨l.length, rfl⟩
  have h1 : subUnsigned (b.length % 256) 1 = some o := by
    simp [subUnsigned]; omega
  unfold cutNumber
  simp only [h1, Option.bind_eq_bind, Option.bind_some]
  match o, ho with
  | 0, ho =>
    by_cases hz : b = ['0']
    · subst hz; simpa using cutZero_ok hd
    · simpa [hz] using cutOne_ok ho hz hd
  | 1, ho =>
    match b, ho with
    | [x, y], _ => exact cutTwo_ok hd
  | 2, ho =>
    match b, ho with
    | [x, y, z], _ => exact cutThree_ok hd
  | n + 3, ho => exact cutMany_ok ho (by omega) (by omega) hd

theorem length_digits {v : Nat} (hv : v < 2 ^ 128) : (Nat.toDigits 10 v).length ≤ 39 :=
  (Nat.length_toDigits_le_iff (by omega) (by omega)).2 (by omega)

theorem isDigit_digits {v : Nat} {c : Char} (h : c ∈ Nat.toDigits 10 v) : c.isDigit = true :=
  Nat.isDigit_of_mem_toDigits (by omega) (by omega) h

theorem digits_zero_iff {v : Nat} : Nat.toDigits 10 v = ['0'] ↔ v = 0 := by
  constructor
  · intro h
    have h1 := @Nat.ofDigitChars_ten_toDigits v
    rw [h] at h1
    exact h1.symm.trans (by decide)
  · rintro rfl
    exact Nat.toDigits_zero 10

/-- The first digit of a positive number is not zero. -/
theorem head_digits {v : Nat} (hv : 0 < v) : (Nat.toDigits 10 v).head? ≠ some '0' := by
  induction v using Nat.strongRecOn with
  | _ v ih =>
    by_cases h : v < 10
    · rw [Nat.toDigits_of_lt_base h]
      have : ∀ n : Fin 10, 0 < n.1 → some n.1.digitChar ≠ some '0' := by decide
      exact this ⟨v, h⟩ hv
    · rw [Nat.toDigits_of_base_le (by omega) (by omega)]
      have := ih (v / 10) (by omega) (by omega)
      have hne : Nat.toDigits 10 (v / 10) ≠ [] := Nat.toDigits_ne_nil
      cases h2 : Nat.toDigits 10 (v / 10) with
      | nil => exact absurd h2 hne
      | cons x l => rw [h2] at this; simpa using this

/-- `convert_balance_pretty` by its cut number. -/
theorem convert_eq {v d : Nat} {unit : String} (hv : v < 2 ^ 128) (hd : d < 256) :
    ∃ c p, CutOk (Nat.toDigits 10 v) d c ∧ unitPrefix c.mag = some p ∧
      convertBalancePretty v d unit = some ⟨c.number, p ++ unit⟩ := by
  obtain ⟨c, hc, ok⟩ := cutNumber_ok (b := Nat.toDigits 10 v) (d := d) Nat.toDigits_ne_nil
    (Nat.le_trans (length_digits hv) (by omega)) hd
  have hp : ∃ p, unitPrefix c.mag = some p := by
    have h1 := ok.lo
    have h2 := ok.hi
    have : c.mag = -4 ∨ c.mag = -3 ∨ c.mag = -2 ∨ c.mag = -1 ∨ c.mag = 0 ∨ c.mag = 1 ∨ c.mag = 2 ∨
      c.mag = 3 ∨ c.mag = 4 ∨ c.mag = 5 ∨ c.mag = 6 := by omega
    rcases this with h | h | h | h | h | h | h | h | h | h | h <;> rw [h] <;> exact ⟨_, rfl⟩
  obtain ⟨p, hp⟩ := hp
  exact ⟨c, p, ok, hp, by simp [convertBalancePretty, convertBalanceString, hc, hp]⟩

/-- The table of prefixes against the metric ones. -/
theorem unitPrefix_metric {mag : Int} {p : String} (h : unitPrefix mag = some p) :
    ∃ num den, (p, num, den) ∈ metricPrefixes ∧
      (0 ≤ mag ∧ num = 1 ∧ den = 10 ^ (3 * mag).toNat ∨ mag ≤ 0 ∧ num = 10 ^ (-(3 * mag)).toNat ∧ den = 1) ∧
      (p = "T" ↔ mag = -4) ∧ (p = "a" ↔ mag = 6) := by
  unfold unitPrefix at h
  split at h <;> first
    | (simp only [Option.some.injEq] at h; subst h; simp [metricPrefixes]; done)
    | simp at h

/-- The text of the number. -/
theorem CutOk.decimal {v d : Nat} {c : CutNumber} (ok : CutOk (Nat.toDigits 10 v) d c) :
    Decimal c.number c.beforePoint (c.afterPoint.getD []) := by
  refine ⟨ok.ne, ?_, ?_⟩
  · intro x hx
    obtain ⟨i, j, h, -⟩ := ok.digits
    rw [h] at hx
    simp only [List.mem_append, List.mem_replicate] at hx
    rcases hx with (hx | hx) | hx
    · rw [hx.2]; rfl
    · exact isDigit_digits hx
    · rw [hx.2]; rfl
  · unfold CutNumber.number
    cases h : c.afterPoint with
    | none => simp
    | some x =>
      have : x ≠ [] := by
        rintro rfl
        exact ok.after h
      simp [this]

/-- **C35.** For every amount of up to 128 bits, every number of decimals and every unit,
the printed number times the printed metric prefix is exactly `amount / 10 ^ decimals`:
`(mantissa / 10 ^ fraction) * (num / den) = amount / 10 ^ decimals`, cross-multiplied. -/
theorem balance_value (v d : Nat) (unit : String) (hv : v < 2 ^ 128) (hd : d < 256) :
    ∃ cur pre num den whole fraction, convertBalancePretty v d unit = some cur ∧
      cur.units = pre ++ unit ∧ (pre, num, den) ∈ metricPrefixes ∧
      Decimal cur.number whole fraction ∧
      mantissa whole fraction * num * 10 ^ d = v * (10 ^ fraction.length * den) := by
  obtain ⟨c, p, ok, hp, h⟩ := convert_eq (unit := unit) hv hd
  obtain ⟨num, den, hmem, hnd, -, -⟩ := unitPrefix_metric hp
  refine ⟨_, p, num, den, c.beforePoint, c.afterPoint.getD [], h, rfl, hmem, ok.decimal, ?_⟩
  obtain ⟨i, j, hdig, hlen, -, -⟩ := ok.digits
  have hm : mantissa c.beforePoint (c.afterPoint.getD []) = v * 10 ^ j := by
    unfold mantissa
    rw [hdig, Nat.ofDigitChars_append, Nat.ofDigitChars_append, Nat.ofDigitChars_replicate_zero,
      Nat.ofDigitChars_replicate_zero, Nat.mul_zero, Nat.ofDigitChars_ten_toDigits, Nat.mul_comm]
  rw [hm]
  rcases hlen with hz | hlen
  · rw [digits_zero_iff] at hz
    subst hz
    simp
  · rw [Nat.mul_assoc, Nat.mul_assoc]
    congr 1
    rcases hnd with ⟨h0, rfl, rfl⟩ | ⟨h0, rfl, rfl⟩
    · rw [Nat.one_mul, ← Nat.pow_add, ← Nat.pow_add]
      congr 1
      omega
    · rw [Nat.mul_one, ← Nat.pow_add, ← Nat.pow_add]
      congr 1
      omega

/-- **C36.** Printing never panics; the text is a plain decimal number whose digits are
the digits of the amount, with only zeros around (zeros are appended only when there is no
point); the whole part has no superfluous leading zero and at most three digits unless the
largest prefix is in use; it is zero only for the amount zero or with the smallest prefix. -/
theorem balance_form (v d : Nat) (unit : String) (hv : v < 2 ^ 128) (hd : d < 256) :
    ∃ cur pre num den whole fraction i j, convertBalancePretty v d unit = some cur ∧
      cur.units = pre ++ unit ∧ (pre, num, den) ∈ metricPrefixes ∧
      Decimal cur.number whole fraction ∧
      whole ++ fraction = List.replicate i '0' ++ Nat.toDigits 10 v ++ List.replicate j '0' ∧
      (v = 0 ∨ fraction = [] ∨ j = 0) ∧
      (whole.head? ≠ some '0' ∨ whole = ['0'] ∧ (v = 0 ∨ pre = "a")) ∧
      (whole.length ≤ 3 ∨ pre = "T") := by
  obtain ⟨c, p, ok, hp, h⟩ := convert_eq (unit := unit) hv hd
  obtain ⟨num, den, hmem, hnd, hT, ha⟩ := unitPrefix_metric hp
  obtain ⟨i, j, hdig, hlen, hj, hi⟩ := ok.digits
  refine ⟨_, p, num, den, c.beforePoint, c.afterPoint.getD [], i, j, h, rfl, hmem, ok.decimal, hdig, ?_, ?_, ?_⟩
  · rcases hj with hj | hj | hj
    · exact .inl (digits_zero_iff.1 hj)
    · exact .inr (.inl (by simp [hj]))
    · exact .inr (.inr hj)
  · rcases hi with ⟨h1, h2⟩ | ⟨rfl, hnz⟩
    · refine .inr ⟨h1, ?_⟩
      rcases h2 with h2 | h2
      · exact .inl (digits_zero_iff.1 h2)
      · exact .inr (ha.2 h2)
    · left
      have hz : v ≠ 0 := fun h0 => hnz (digits_zero_iff.2 h0)
      have := head_digits (Nat.pos_of_ne_zero hz)
      have hne := @Nat.toDigits_ne_nil v 10
      cases h2 : Nat.toDigits 10 v with
      | nil => exact absurd h2 hne
      | cons x l =>
        have hne' := ok.ne
        cases h3 : c.beforePoint with
        | nil => exact absurd h3 hne'
        | cons y l' =>
          rw [h2, h3] at hdig
          simp at hdig
          rw [h2] at this
          simpa [hdig.1] using this
  · rcases ok.short with h1 | h1
    · exact .inl h1
    · exact .inr (hT.2 h1)

/-- A decimal text determines its digits. -/
theorem decimal_unique {s : String} {a b a' b' : List Char} (h : Decimal s a b) (h' : Decimal s a' b') :
    a = a' ∧ b = b' := by
  have hp : ('.' : Char).isDigit = false := by decide
  have key : ∀ (x y x' y' : List Char), (∀ c ∈ x, c.isDigit = true) → (∀ c ∈ x', c.isDigit = true) →
      x ++ '.' :: y = x' ++ '.' :: y' → x = x' ∧ y = y' := by
    intro x
    induction x with
    | nil =>
      intro y x' y' _ h2 h3
      cases x' with
      | nil => simpa using h3
      | cons c l =>
        simp at h3
        have := h2 c (by simp)
        rw [← h3.1, hp] at this
        exact absurd this (by simp)
    | cons c l ih =>
      intro y x' y' h1 h2 h3
      cases x' with
      | nil =>
        simp at h3
        have := h1 c (by simp)
        rw [h3.1, hp] at this
        exact absurd this (by simp)
      | cons c' l' =>
        simp at h3
        obtain ⟨h4, h5⟩ := ih y l' y' (fun c hc => h1 c (by simp [hc])) (fun c hc => h2 c (by simp [hc])) h3.2
        exact ⟨by rw [h3.1, h4], h5⟩
  have nodot : ∀ (x x' y' : List Char), (∀ c ∈ x, c.isDigit = true) → x = x' ++ '.' :: y' → False := by
    intro x x' y' h1 h2
    have := h1 '.' (by simp [h2])
    rw [hp] at this
    exact absurd this (by simp)
  obtain ⟨-, d1, e1⟩ := h
  obtain ⟨-, d2, e2⟩ := h'
  rw [e1] at e2
  by_cases hb : b = [] <;> by_cases hb' : b' = []
  · subst hb hb'; simpa using e2
  · simp [hb, hb'] at e2
    exact (nodot a a' b' (fun c hc => d1 c (by simp [hc])) e2).elim
  · simp [hb, hb'] at e2
    exact (nodot a' a b (fun c hc => d2 c (by simp [hc])) e2.symm).elim
  · simp [hb, hb'] at e2
    exact key a b a' b' (fun c hc => d1 c (by simp [hc])) (fun c hc => d2 c (by simp [hc])) e2

/-- A metric prefix stands for one factor. -/
theorem metricPrefixes_unique {p : String} {n d n' d' : Nat} (h : (p, n, d) ∈ metricPrefixes)
    (h' : (p, n', d') ∈ metricPrefixes) : n = n' ∧ d = d' ∧ 0 < n ∧ 0 < d := by
  simp only [metricPrefixes, List.mem_cons, Prod.mk.injEq, List.not_mem_nil, or_false] at h h'
  rcases h with ⟨rfl, rfl, rfl⟩ | ⟨rfl, rfl, rfl⟩ | ⟨rfl, rfl, rfl⟩ | ⟨rfl, rfl, rfl⟩ | ⟨rfl, rfl, rfl⟩ |
    ⟨rfl, rfl, rfl⟩ | ⟨rfl, rfl, rfl⟩ | ⟨rfl, rfl, rfl⟩ | ⟨rfl, rfl, rfl⟩ | ⟨rfl, rfl, rfl⟩ | ⟨rfl, rfl, rfl⟩ <;>
  · simp at h'
    obtain ⟨rfl, rfl⟩ := h'
    simp

/-- Different amounts are printed differently. -/
theorem balance_injective {v v' d : Nat} {unit : String} (hv : v < 2 ^ 128) (hv' : v' < 2 ^ 128) (hd : d < 256)
    (h : convertBalancePretty v d unit = convertBalancePretty v' d unit) : v = v' := by
  obtain ⟨cur, p, n, e, a, b, h1, h2, h3, h4, h5⟩ := balance_value v d unit hv hd
  obtain ⟨cur', p', n', e', a', b', h1', h2', h3', h4', h5'⟩ := balance_value v' d unit hv' hd
  rw [h, h1'] at h1
  cases h1
  obtain ⟨rfl, rfl⟩ := decimal_unique h4 h4'
  have hpp : p = p' := by
    rw [h2'] at h2
    have := congrArg String.toList h2
    simp at this
    exact String.toList_inj.1 this.symm
  subst hpp
  obtain ⟨rfl, rfl, hn, he⟩ := metricPrefixes_unique h3 h3'
  rw [h5'] at h5
  exact (Nat.eq_of_mul_eq_mul_right (Nat.mul_pos (Nat.pow_pos (by omega)) he) h5).symm

/-- Cases of the documentation (`src/printing_balance.rs:36-56`). -/
example : convertBalancePretty 1 12 "WND" = some ⟨"1", "pWND"⟩ := by decide
example : convertBalancePretty 1000000 12 "WND" = some ⟨"1.000000", "uWND"⟩ := by decide
example : convertBalancePretty 0 12 "WND" = some ⟨"0", "pWND"⟩ := by decide
example : convertBalancePretty 123456000123 12 "WND" = some ⟨"123.456000123", "mWND"⟩ := by decide
example : convertBalancePretty 0 14 "SMTH" = some ⟨"0.00", "pSMTH"⟩ := by decide

end Verif
