import Verif.Proof.Truth
import Verif.Props.Example
/-!
# C49 errors are true

Whatever the types, the data and the memory, an error returned by the decoder tells the
truth: positions are in the part of the data asked for, what is said to be missing is
missing, and types that are blamed deserve it.
-/
namespace Verif
open Spec

variable {R : Registry}

theorem fresh_ok (R : Registry) (id : Nat) : Call.Ok R none id Propagated.new.checker :=
  ⟨(fun _ h => by cases h), (fun _ h => by cases h), cmpOk_none⟩

/-- A report true of the same bytes in reliable memory is true. -/
theorem Spec.TrueOf.of_clean {b : Buf} {start : Nat} {e : PErr} (h : TrueOf R b.clean start e) : TrueOf R b start e := by
  cases h with
  | outOfRange h1 h2 => exact .outOfRange h1 h2
  | tooShort h1 h2 h3 => exact .tooShort h1 h2 h3
  | memory h1 h2 => cases h2
  | noCompact h1 h2 h3 => exact .noCompact h1 h2 h3
  | typeFailure h1 h2 h3 => exact .typeFailure h1 h2 h3
  | enumVariant h1 h2 h3 h4 h5 => exact .enumVariant h1 h2 h3 h4 h5
  | registry h => exact .registry h

theorem decode_true_any {b : Buf} {start : Nat} {tyIn : TyIn} {pos : Nat} {p : Propagated} (hp : start ≤ pos)
    (hk : Call.Ok R tyIn.typ tyIn.tyId p.checker) : Honest (TrueOf R b start) (decode R b tyIn pos p) := by
  intro e he
  rcases decode_tame (R := R) (b := b) tyIn pos p with ⟨⟨q, n, h1, h2⟩, h⟩ | h
  · rw [h] at he
    cases he
    exact .memory h1 h2
  · rw [h] at he
    exact (decode_true (b := b.clean) (reliable_ofBytes _) hp hk e he).of_clean

/-- **C49.** An error of `decode_as_type_at_position` is true of the registry, or of the data from
the position on. -/
theorem decode_errors_true {b : Buf} {id pos : Nat} {e : PErr}
    (h : decodeAsTypeAtPosition R b id pos = .error (.err e)) : TrueOf R b pos e :=
  decode_true_any (Nat.le_refl _) (fresh_ok R id) e h

/-- **C49.** The same for `decode_all_as_type`, which also may say where unused data starts. -/
theorem decodeAll_errors_true {b : Buf} {id : Nat} {e : PErr} (h : decodeAllAsType R b id = .error (.err e)) :
    TrueOf R b 0 e ∨ ∃ p d, e = .someDataNotUsedBlob p ∧ p < b.bytes.length ∧
      decodeAsTypeAtPosition R b id 0 = .ok (d, p) := by
  unfold decodeAllAsType at h
  rcases hd : decodeAsTypeAtPosition R b id 0 with f | ⟨d, p⟩
  · rw [hd, error_bind] at h
    cases h
    exact .inl (decode_errors_true hd)
  · rw [hd, ok_bind] at h
    dsimp only at h
    split at h
    · rename_i hne
      cases h
      refine .inr ⟨p, d, rfl, ?_, rfl⟩
      obtain ⟨bs, h1, h2, -⟩ := (decode_parses R b (.symbol id) Propagated.new).sound hd
      have := (h1.at (Nat.zero_le _)).le
      unfold Buf.len at hne
      omega
    · cases h

/-- **C10.** `decode_all_as_type` reports unused data at a position exactly if the value ends there, before the end
of the data. -/
theorem decodeAllAsType_surplus_iff {b : Buf} {id pos : Nat} :
    decodeAllAsType R b id = .error (.err (.someDataNotUsedBlob pos)) ↔
      ∃ d, decodeAsTypeAtPosition R b id 0 = .ok (d, pos) ∧ pos < b.len := by
  constructor
  · intro h
    rcases decodeAll_errors_true h with ht | ⟨p, d, he, hp, hd⟩
    · cases ht
    · cases he
      exact ⟨d, hd, hp⟩
  · rintro ⟨d, hd, hp⟩
    exact decodeAllAsType_not_all hd hp

/-- **C49**, seen from the data: every position in an error is in the data asked for, except
"out of range", which names one past the end. -/
theorem decode_errors_position {b : Buf} {id pos : Nat} {e : PErr} {q : Nat}
    (h : decodeAsTypeAtPosition R b id pos = .error (.err e))
    (hq : e = .noCompact q ∨ (∃ n, e = .buffer (.dataTooShort q n)) ∨ (∃ s, e = .typeFailure q s) ∨
      e = .unexpectedEnumVariant q) : pos ≤ q ∧ q ≤ b.bytes.length := by
  have ht := decode_errors_true h
  rcases hq with rfl | ⟨n, rfl⟩ | ⟨s, rfl⟩ | rfl
  · cases ht with
    | noCompact h1 h2 _ => exact ⟨h1, h2⟩
  · cases ht with
    | tooShort h1 h2 _ => exact ⟨h1, h2⟩
  · cases ht with
    | typeFailure h1 h2 _ => exact ⟨h1, by omega⟩
  · cases ht with
    | enumVariant h1 h2 _ _ _ =>
      have := (List.getElem?_eq_some_iff.1 h2).1
      exact ⟨h1, by omega⟩

/-- **C49** for a list of types: "type not resolved" names an id past the end of the list. -/
theorem decode_unresolved_true {ts : List Typ} {b : Buf} {id pos j : Nat}
    (h : decodeAsTypeAtPosition (Registry.portable ts) b id pos =
      .error (.err (.registry (.internal (.typeNotResolved j))))) : ts.length ≤ j := by
  cases decode_errors_true h with
  | registry ht =>
    cases ht with
    | unresolved hr =>
      simp only [Registry.portable] at hr
      split at hr
      · cases hr
      · rename_i hn
        cases hr
        exact List.getElem?_eq_none_iff.1 hn

/-- Without cycles in the types, no cycle is reported. -/
theorem decode_no_cycle {rank : Nat → Nat} (hrank : Ranked R rank) {b : Buf} {id pos j : Nat} (hj : ∀ i, R.resolve i ≠
      .error (.internal (.cyclicMetadata j))) :
    decodeAsTypeAtPosition R b id pos ≠ .error (.err (.registry (.internal (.cyclicMetadata j)))) := by
  have hpart : ∀ {i k}, Part R i k → rank k < rank i := by
    intro i k h
    cases h with
    | field h1 h2 h3 => exact (hrank _ _ h1).1 _ h2 _ h3
    | tuple h1 h2 h3 => exact (hrank _ _ h1).2.1 _ h2 _ h3
    | array h1 h2 => exact (hrank _ _ h1).2.2.1 _ _ h2
    | compact h1 h2 => exact (hrank _ _ h1).2.2.2 _ h2
  have hw : ∀ {i k}, Within R i k → rank k < rank i := by
    intro i k h
    induction h with
    | part h => exact hpart h
    | step _ h ih => have := hpart h; omega
  intro h
  cases decode_errors_true h with
  | registry ht =>
    cases ht with
    | unresolved hr => exact hj _ hr
    | cyclic hc => exact absurd (hw hc) (by omega)

/-! Errors of every kind happen. -/

/-- Types of the examples: `0: bool`, `1: (0, 1)`, `2: Compact<bool>`, `3: bits of 0`, `4: u8`,
`5: bits with order 4`, `6: str`, `7: enum { A = 3 }`, `8: Era`, `9: Compact<u32>`, `10: u32`,
`11: struct (20)`, `12: struct Lsb0`, `13: bits of store 0`. -/
def errTypes : List Typ :=
  [ { typeDef := .primitive .bool },
    { typeDef := .tuple [0, 1] },
    { typeDef := .compact 0 },
    { typeDef := .bitSequence 0 4 },
    { typeDef := .primitive .u8 },
    { typeDef := .bitSequence 4 4 },
    { typeDef := .primitive .str },
    { typeDef := .variant [{ name := "A", index := 3 }] },
    { path := ["sp_runtime", "generic", "era", "Era"], typeDef := .variant [] },
    { typeDef := .compact 10 },
    { typeDef := .primitive .u32 },
    { typeDef := .composite [{ ty := 20 }] },
    { path := ["Lsb0"], typeDef := .composite [] },
    { typeDef := .bitSequence 12 0 } ]

/-- Registry of the types. -/
def errReg : Registry := Registry.portable errTypes

example : decodeAsTypeAtPosition errReg (Buf.ofBytes [9, 7]) 0 1 = .error (.err (.typeFailure 1 "bool")) := rfl
example : TrueOf errReg (Buf.ofBytes [9, 7]) 1 (.typeFailure 1 "bool") := decode_errors_true (R := errReg) (id := 0) rfl
example : decodeAsTypeAtPosition errReg (Buf.ofBytes [1, 1, 1]) 1 0 =
    .error (.err (.registry (.internal (.cyclicMetadata 1)))) := rfl
example : Within errReg 1 1 := .part (.tuple (t := { typeDef := .tuple [0, 1] }) rfl rfl (by simp))
example : decodeAsTypeAtPosition errReg (Buf.ofBytes [1]) 2 0 =
    .error (.err (.registry (.internal (.unexpectedCompactInsides 2)))) := rfl
example : decodeAsTypeAtPosition errReg (Buf.ofBytes [1]) 5 0 =
    .error (.err (.registry (.internal (.notBitOrderType 5)))) := rfl
example : decodeAsTypeAtPosition errReg (Buf.ofBytes [1]) 13 0 =
    .error (.err (.registry (.internal (.notBitStoreType 13)))) := rfl
example : decodeAsTypeAtPosition errReg (Buf.ofBytes [8, 0xc3, 0x28]) 6 0 = .error (.err (.typeFailure 0 "str")) := rfl
example : decodeAsTypeAtPosition errReg (Buf.ofBytes [4]) 7 0 = .error (.err (.unexpectedEnumVariant 0)) := rfl
example : decodeAsTypeAtPosition errReg (Buf.ofBytes [5, 255]) 8 0 = .error (.err (.typeFailure 0 "Era")) := rfl
example : decodeAsTypeAtPosition errReg (Buf.ofBytes [3, 1, 1, 1, 0]) 9 0 = .error (.err (.noCompact 0)) := rfl
example : decodeAsTypeAtPosition errReg (Buf.ofBytes []) 11 0 =
    .error (.err (.registry (.internal (.typeNotResolved 20)))) := rfl
example : decodeAsTypeAtPosition errReg (Buf.ofBytes [1]) 10 0 = .error (.err (.buffer (.dataTooShort 0 4))) := rfl
example : decodeAsTypeAtPosition errReg (Buf.ofBytes [1]) 10 3 = .error (.err (.buffer (.outOfRange 3 1))) := rfl
example : decodeAllAsType errReg (Buf.ofBytes [1, 2, 3]) 4 = .error (.err (.someDataNotUsedBlob 1)) := rfl

end Verif
