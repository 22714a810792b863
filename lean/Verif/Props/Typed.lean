import Verif.Spec.Typed
import Verif.Props.Canonical
import Verif.Props.Decode
/-!
# C73: the values shown are the values of the type, all of them
-/
namespace Verif
open Spec

variable {R : Registry}

/-! ### Every value has an encoding -/

/-- Bits of a number can be chosen. -/
theorem nat_of_bits (n : Nat) (f : Nat → Bool) : ∃ e, e < 2 ^ n ∧ ∀ i, i < n → e.testBit i = f i := by
  refine ⟨(BitVec.ofBoolListLE ((List.range n).map f)).toNat, ?_, fun i hi => ?_⟩
  · have := (BitVec.ofBoolListLE ((List.range n).map f)).isLt
    have hl : ((List.range n).map f).length = n := by rw [List.length_map, List.length_range]
    exact Nat.lt_of_lt_of_eq this (congrArg (2 ^ ·) hl)
  · rw [BitVec.testBit_toNat, BitVec.getLsbD_ofBoolListLE]
    simp [List.getD, hi]

theorem bitStore_pos (s : BitStore) : 0 < 8 * s.bytes := by cases s <;> decide

/-- Every bit sequence that is not too long can be stored. -/
theorem bits_stored (s : BitStore) (o : BitOrder) (l : List Bool) (h : l.length ≤ 0x1fffffff) :
    ∃ bs, BitsEnc s o l bs := by
  have hn := bitStore_pos s
  generalize hN : 8 * s.bytes = n at hn
  have hel : ∀ k, ∃ e, e < 2 ^ n ∧ ∀ i, i < n → e.testBit (bitPlace o n i) = l.getD (k * n + i) false := by
    intro k
    obtain ⟨e, h1, h2⟩ := nat_of_bits n fun j => l.getD (k * n + bitPlace o n j) false
    refine ⟨e, h1, fun i hi => ?_⟩
    have hb : bitPlace o n i < n ∧ bitPlace o n (bitPlace o n i) = i := by
      cases o
      · exact ⟨hi, rfl⟩
      · simp only [bitPlace]; omega
    rw [h2 _ hb.1, hb.2]
  have hch : ∃ el : Nat → Nat, ∀ k, el k < 2 ^ n ∧ ∀ i, i < n → (el k).testBit (bitPlace o n i) = l.getD (k * n + i) false :=
    ⟨fun k => (hel k).choose, fun k => (hel k).choose_spec⟩
  obtain ⟨el, hel⟩ := hch
  generalize hK : (l.length + (n - 1)) / n = K
  have hdm := Nat.div_add_mod (l.length + (n - 1)) n
  have hml := Nat.mod_lt (l.length + (n - 1)) hn
  rw [hK, Nat.mul_comm] at hdm
  refine ⟨_, (List.range K).map el, h, ?_, ?_, ?_, rfl⟩
  · rw [hN, List.length_map, List.length_range]
    unfold IsCeil
    generalize K * n = x at hdm ⊢
    exact ⟨by omega, by omega⟩
  · intro e he
    obtain ⟨k, _, rfl⟩ := List.mem_map.1 he
    rw [hN]
    exact (hel k).1
  · intro i hi
    rw [hN]
    have hdi := Nat.div_add_mod i n
    have hmi := Nat.mod_lt i hn
    rw [Nat.mul_comm] at hdi
    have hk : i / n < K := by
      apply Classical.byContradiction
      intro hc
      have : K * n ≤ i / n * n := Nat.mul_le_mul_right n (by omega)
      omega
    refine ⟨el (i / n), by simp [hk], ?_⟩
    rw [(hel (i / n)).2 _ hmi, hdi, List.getD, List.getElem?_eq_getElem hi]
    rfl

theorem accuracy_fits (k : PerKind) : k.accuracy < 2 ^ (8 * k.inner.bytes) := by cases k <;> decide

/-- Parts that have encodings one by one. -/
theorem parts_encoded {c : Bool} : ∀ {ids : List Nat} {vs : List Value}, vs.length = ids.length →
    (∀ x ∈ ids.zip vs, ∃ bs, Enc R c x.1 x.2 bs) →
    ∃ ps : Parts, ps.length = ids.length ∧ ps.values = vs ∧ ∀ x ∈ ids.zip ps, Enc R c x.1 x.2.1 x.2.2
  | [], [], _, _ => ⟨[], rfl, rfl, fun _ h => by cases h⟩
  | [], _ :: _, h, _ => by cases h
  | _ :: _, [], h, _ => by cases h
  | id :: ids, v :: vs, h, he => by
    obtain ⟨bs, hb⟩ := he (id, v) (List.mem_cons_self ..)
    obtain ⟨ps, h1, h2, h3⟩ := parts_encoded (ids := ids) (vs := vs) (by simpa using h)
      fun x hx => he x (List.mem_cons_of_mem _ hx)
    refine ⟨(v, bs) :: ps, by simp [h1], by show v :: ps.values = _; rw [h2], ?_⟩
    intro x hx
    rcases List.mem_cons.1 hx with rfl | hx
    · exact hb
    · exact h3 x hx

theorem elements_encoded {c : Bool} {elem : Nat} : ∀ {vs : List Value}, (∀ v ∈ vs, ∃ bs, Enc R c elem v bs) →
    ∃ ps : Parts, ps.length = vs.length ∧ ps.values = vs ∧ ∀ x ∈ ps, Enc R c elem x.1 x.2
  | [], _ => ⟨[], rfl, rfl, fun _ h => by cases h⟩
  | v :: vs, he => by
    obtain ⟨bs, hb⟩ := he v (List.mem_cons_self ..)
    obtain ⟨ps, h1, h2, h3⟩ := elements_encoded (vs := vs) fun x hx => he x (List.mem_cons_of_mem _ hx)
    refine ⟨(v, bs) :: ps, by simp [h1], by show v :: ps.values = _; rw [h2], ?_⟩
    intro x hx
    rcases List.mem_cons.1 hx with rfl | hx
    · exact hb
    · exact h3 x hx

theorem primTyped_encoded {c : Bool} {p : Prim} {v : Value} (h : PrimTyped c p v) : ∃ bs, EncPrim c p v bs := by
  cases h with
  | bool v => cases v
              · exact ⟨_, .false⟩
              · exact ⟨_, .true⟩
  | char v => exact ⟨_, .char v⟩
  | str v h => exact ⟨_, .str v h⟩
  | uint c h1 h2 => cases c
                    · exact ⟨_, .uint h1 h2⟩
                    · exact ⟨_, .compact h1 h2⟩
  | u256 h => exact ⟨_, .u256 h⟩
  | int h1 h2 h3 => exact ⟨_, .int h1 h2 h3⟩

/-- Every value of a type has an encoding. -/
theorem typed_encoded {c : Bool} {id : Nat} {v : Value} (h : Typed R c id v) : ∃ bs, Enc R c id v bs := by
  induction h with
  | fixed h1 h2 h3 => exact ⟨_, .fixed h1 h2 h3⟩
  | hash h1 h2 h3 => exact ⟨_, .hash h1 h2 h3⟩
  | era h1 h2 h3 => exact ⟨_, .era h1 h2 h3⟩
  | per h1 h2 h3 =>
    rename_i c _ _ k v
    cases c with
    | false => exact ⟨_, .per h1 h2 h3⟩
    | true =>
      have := Enc.perCompact (v := v) h1 h2 (Nat.lt_of_le_of_lt h3 (accuracy_fits k))
      rw [Nat.min_eq_left h3] at this
      exact ⟨_, this⟩
  | newtype h1 h2 h3 _ ih => obtain ⟨bs, hb⟩ := ih; exact ⟨bs, .newtype h1 h2 h3 hb⟩
  | unit h1 h2 h3 => exact ⟨_, .unit h1 h2 h3⟩
  | record h1 h2 h3 h4 h5 _ ih =>
    obtain ⟨ps, g1, g2, g3⟩ := parts_encoded (by rw [List.length_map]; exact h5) ih
    have := Enc.record h1 h2 h3 h4 (by rw [g1, List.length_map]) g3
    rw [Parts.named, g2] at this
    exact ⟨_, this⟩
  | never h1 h2 h3 => exact ⟨_, .never h1 h2 h3⟩
  | variant h1 h2 h3 h4 h5 h6 h7 _ ih =>
    obtain ⟨ps, g1, g2, g3⟩ := parts_encoded (by rw [List.length_map]; exact h7) ih
    have := Enc.variant h1 h2 h3 h4 h5 h6 (by rw [g1, List.length_map]) g3
    rw [Parts.named, g2] at this
    exact ⟨_, this⟩
  | signature h1 h2 h3 => exact ⟨_, .signature h1 h2 h3⟩
  | pallet h1 h2 h3 h4 _ ih =>
    obtain ⟨ps, g1, g2, g3⟩ := parts_encoded (by rw [List.length_map]; exact h4) ih
    have := Enc.pallet h1 h2 h3 (by rw [g1, List.length_map]) g3
    rw [Parts.named, g2] at this
    exact ⟨_, this⟩
  | sequence h1 h2 h3 h4 h5 _ ih =>
    obtain ⟨ps, g1, g2, g3⟩ := elements_encoded ih
    have := Enc.sequence h1 h2 h3 h4 (by rw [g1]; exact h5) g3
    rw [g2] at this
    exact ⟨_, this⟩
  | array h1 h2 h3 h4 _ ih =>
    obtain ⟨ps, g1, g2, g3⟩ := elements_encoded ih
    have := Enc.array (ps := ps) h1 h2 (by rw [g1]; exact h3) h4 g3
    rw [g2] at this
    exact ⟨_, this⟩
  | tuple h1 h2 h3 h4 h5 _ ih =>
    obtain ⟨ps, g1, g2, g3⟩ := parts_encoded h5 ih
    have := Enc.tuple h1 h2 h3 h4 g1 g3
    rw [g2] at this
    exact ⟨_, this⟩
  | primitive h1 h2 h3 h4 => obtain ⟨bs, hb⟩ := primTyped_encoded h4; exact ⟨_, .primitive h1 h2 h3 hb⟩
  | compact h1 h2 h3 _ ih => obtain ⟨bs, hb⟩ := ih; exact ⟨bs, .compact h1 h2 h3 hb⟩
  | bits h1 h2 h3 h4 h5 h6 =>
    obtain ⟨bs, hb⟩ := bits_stored _ _ _ h6
    exact ⟨bs, .bits h1 h2 h3 h4 h5 hb⟩

/-! ### Every encoding is of a value -/

theorem zip_values {α : Type} {P : α → Value → Prop} : ∀ {ids : List α} {ps : Parts},
    (∀ x ∈ ids.zip ps, P x.1 x.2.1) → ∀ x ∈ ids.zip ps.values, P x.1 x.2
  | [], _, _, _, h => by simp at h
  | _ :: _, [], _, _, h => by simp [Parts.values] at h
  | id :: ids, p :: ps, he, x, hx => by
    have hx : x ∈ (id, p.1) :: ids.zip (Parts.values ps) := hx
    rcases List.mem_cons.1 hx with rfl | hx
    · exact he (id, p) (List.mem_cons_self ..)
    · exact zip_values (ids := ids) (ps := ps) (fun y hy => he y (List.mem_cons_of_mem _ hy)) x hx

theorem values_length (ps : Parts) : ps.values.length = ps.length := List.length_map ..

theorem encoded_typed {c : Bool} {id : Nat} {v : Value} {bs : Bytes} (h : Enc R c id v bs) : Typed R c id v := by
  induction h with
  | fixed h1 h2 h3 => exact .fixed h1 h2 h3
  | hash h1 h2 h3 => exact .hash h1 h2 h3
  | era h1 h2 h3 => exact .era h1 h2 h3
  | per h1 h2 h3 => exact .per h1 h2 h3
  | perCompact h1 h2 h3 => exact .per h1 h2 (Nat.min_le_right ..)
  | newtype h1 h2 h3 _ ih => exact .newtype h1 h2 h3 ih
  | unit h1 h2 h3 => exact .unit h1 h2 h3
  | record h1 h2 h3 h4 h5 _ ih =>
    exact .record h1 h2 h3 h4 (by rw [values_length, h5]) (zip_values (P := fun i v => Typed R false i v) ih)
  | never h1 h2 h3 => exact .never h1 h2 h3
  | variant h1 h2 h3 h4 h5 h6 h7 _ ih =>
    exact .variant h1 h2 h3 h4 h5 h6 (by rw [values_length, h7]) (zip_values (P := fun i v => Typed R false i v) ih)
  | signature h1 h2 h3 => exact .signature h1 h2 h3
  | pallet h1 h2 h3 h4 _ ih =>
    exact .pallet h1 h2 h3 (by rw [values_length, h4]) (zip_values (P := fun i v => Typed R false i v) ih)
  | sequence h1 h2 h3 h4 h5 _ ih =>
    refine .sequence h1 h2 h3 h4 (by rw [values_length]; exact h5) fun v hv => ?_
    obtain ⟨x, hx, rfl⟩ := List.mem_map.1 hv
    exact ih x hx
  | array h1 h2 h3 h4 _ ih =>
    refine .array h1 h2 (by rw [values_length]; exact h3) h4 fun v hv => ?_
    obtain ⟨x, hx, rfl⟩ := List.mem_map.1 hv
    exact ih x hx
  | tuple h1 h2 h3 h4 h5 _ ih =>
    exact .tuple h1 h2 h3 h4 (by rw [values_length, h5]) (zip_values (P := fun i v => Typed R _ i v) ih)
  | primitive h1 h2 h3 h4 =>
    refine .primitive h1 h2 h3 ?_
    cases h4 with
    | false => exact .bool _
    | true => exact .bool _
    | char v => exact .char v
    | str v h => exact .str v h
    | uint g1 g2 => exact .uint _ g1 g2
    | compact g1 g2 => exact .uint _ g1 g2
    | u256 h => exact .u256 h
    | int g1 g2 g3 => exact .int g1 g2 g3
  | compact h1 h2 h3 _ ih => exact .compact h1 h2 h3 ih
  | bits h1 h2 h3 h4 h5 h6 => obtain ⟨_, g, _⟩ := h6; exact .bits h1 h2 h3 h4 h5 g

/-! ### The property -/

/-- **C73.** Only values of the type are shown. -/
theorem decode_typed {b : Buf} {id pos q : Nat} {d : ED} (h : decodeAsTypeAtPosition R b id pos = .ok (d, q)) :
    Typed R false id (edValue d) := encoded_typed (decodeAsTypeAtPosition_sound h)

/-- **C73.** All values of the type are shown: exactly these, for suitable data. -/
theorem shown_iff_typed (hk : EmptyArraysGrounded R) (id : Nat) (v : Value) :
    (∃ bs d, decodeAllAsType R (Buf.ofBytes bs) id = .ok d ∧ edValue d = v) ↔ Typed R false id v := by
  constructor
  · rintro ⟨bs, d, h, rfl⟩
    exact encoded_typed (decodeAllAsType_sound h)
  · intro h
    obtain ⟨bs, he⟩ := typed_encoded h
    obtain ⟨d, h1, h2⟩ := decodeAllAsType_complete hk he
    exact ⟨bs, d, h1, h2⟩

/-- **C73.** With distinct names, a firm value of the type has exactly one data that shows it. -/
theorem typed_one_data (hk : EmptyArraysGrounded R) (hn : NamesDistinct R) (hs : SignaturesDistinct R)
    {id : Nat} {v : Value} (hv : Typed R false id v) (hf : Firm v) :
    ∃ bs, ∀ bs', (∃ d, decodeAllAsType R (Buf.ofBytes bs') id = .ok d ∧ edValue d = v) ↔ bs' = bs := by
  obtain ⟨bs, d, h1, h2⟩ := (shown_iff_typed hk id v).2 hv
  refine ⟨bs, fun bs' => ⟨?_, ?_⟩⟩
  · rintro ⟨d', h1', h2'⟩
    exact decodeAllAsType_canonical hn hs h1' h1 (h2' ▸ hf) (h2'.trans h2.symm)
  · rintro rfl
    exact ⟨d, h1, h2⟩

/-! ### Instances -/

theorem sValue_typed : Typed Example.good false 4 Example.sValue :=
  encoded_typed (decodeAllAsType_sound (R := Example.good) (b := Buf.ofBytes Example.sBytes) (id := 4) rfl)

example : ∃ bs, ∀ bs', (∃ d, decodeAllAsType Example.good (Buf.ofBytes bs') 4 = .ok d ∧ edValue d = Example.sValue) ↔
    bs' = bs :=
  typed_one_data Example.good_ranked.emptyArrays good_names good_signatures sValue_typed sValue_firm

/-- A number too large is no value of the type. -/
example : ¬ ∃ bs d, decodeAllAsType Example.good (Buf.ofBytes bs) 0 = .ok d ∧ edValue d = .uint .u8 256 := by
  rw [shown_iff_typed Example.good_ranked.emptyArrays]
  intro h
  cases h with
  | newtype h1 _ h3 => cases h1; cases h3
  | compact h1 _ h3 => cases h1; cases h3
  | primitive h1 _ h3 h4 =>
    cases h4 with
    | uint _ _ h => exact absurd h (by decide)

end Verif
