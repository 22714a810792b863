import Verif.Props.Decode
/-!
# Property theorems about decoded values (C16, C18, C19, C20)
-/
namespace Verif
open Spec

variable {R : Registry}

/-! ### C16 ranges -/

/-- Every number, hash, key, era inside the value is in the range of its type. -/
inductive Ranged : Value → Prop
  | bool (v : Bool) : Ranged (.bool v)
  | char (v : Char) : Ranged (.char v)
  | str (v : String) : Ranged (.str v)
  | uint {w : UW} {v : Nat} : v < 2 ^ (8 * w.bytes) → Ranged (.uint w v)
  | u256 {v : Nat} : v < 2 ^ 256 → Ranged (.u256 v)
  | int {w : IW} {v : Int} : -(2 ^ (8 * w.bytes - 1) : Nat) ≤ v → v < (2 ^ (8 * w.bytes - 1) : Nat) →
      Ranged (.int w v)
  | seq {l : List Value} : (∀ v ∈ l, Ranged v) → Ranged (.seq l)
  | tuple {l : List Value} : (∀ v ∈ l, Ranged v) → Ranged (.tuple l)
  | record {l : List (Option String × Value)} : (∀ f ∈ l, Ranged f.2) → Ranged (.record l)
  | variant {n : String} {l : List (Option String × Value)} : (∀ f ∈ l, Ranged f.2) →
      Ranged (.variant n l)
  | pallet {item : PalletItem} {p n : String} {l : List (Option String × Value)} :
      (∀ f ∈ l, Ranged f.2) → Ranged (.pallet item p n l)
  | fixed {k : FixedKind} {bs : Bytes} : bs.length = k.len → Ranged (.fixed k bs)
  | hash {bs : Bytes} : bs.length = 32 → Ranged (.hash bs)
  | per {k : PerKind} {v : Nat} : v ≤ k.accuracy → Ranged (.per k v)
  | era {e : Era} : EraOk e → Ranged (.era e)
  | bits {s : BitStore} {o : BitOrder} {l : List Bool} : l.length ≤ 0x1fffffff → Ranged (.bits s o l)
  | never : Ranged .never

theorem mem_named {fields : List Field} {ps : Parts} {f : Option String × Value}
    (h : f ∈ ps.named fields) (hl : ps.length = fields.length) :
    ∃ x ∈ (fields.map (·.ty)).zip ps, x.2.1 = f.2 := by
  induction fields generalizing ps with
  | nil => simp [Parts.named] at h
  | cons g gs ih =>
    cases ps with
    | nil => simp at hl
    | cons p ps =>
      simp only [Parts.named, Parts.values, List.map_cons, List.zip_cons_cons, List.mem_cons] at h
      rcases h with rfl | h
      · exact ⟨_, List.mem_cons_self .., rfl⟩
      · obtain ⟨x, hx, hx'⟩ := ih (ps := ps) h (by simpa using hl)
        exact ⟨x, List.mem_cons_of_mem _ hx, hx'⟩

theorem mem_zip_values {ids : List Nat} {ps : Parts} {v : Value}
    (h : v ∈ ps.values) (hl : ps.length = ids.length) :
    ∃ x ∈ ids.zip ps, x.2.1 = v := by
  induction ids generalizing ps with
  | nil =>
    cases ps with
    | nil => simp [Parts.values] at h
    | cons p ps => simp at hl
  | cons g gs ih =>
    cases ps with
    | nil => simp at hl
    | cons p ps =>
      simp only [Parts.values, List.map_cons, List.mem_cons] at h
      rcases h with rfl | h
      · exact ⟨_, List.mem_cons_self .., rfl⟩
      · obtain ⟨x, hx, hx'⟩ := ih (ps := ps) h (by simpa using hl)
        exact ⟨x, List.mem_cons_of_mem _ hx, hx'⟩

theorem mem_values {ps : Parts} {v : Value} (h : v ∈ ps.values) : ∃ x ∈ ps, x.1 = v := by
  simpa [Parts.values] using h

theorem enc_ranged {c : Bool} {id : Nat} {v : Value} {bs : Bytes} (h : Enc R c id v bs) : Ranged v := by
  induction h with
  | fixed _ _ h => exact .fixed h
  | hash _ _ h => exact .hash h
  | era _ _ h => exact .era h
  | per _ _ h => exact .per h
  | perCompact _ _ _ => exact .per (Nat.min_le_right ..)
  | newtype _ _ _ _ ih => exact ih
  | unit => exact .record (by simp)
  | record _ _ _ _ hl _ ih =>
    exact .record fun f hf => by
      obtain ⟨x, hx, hx'⟩ := mem_named hf hl
      rw [← hx']; exact ih x hx
  | never => exact .never
  | variant _ _ _ _ _ _ hl _ ih =>
    exact .variant fun f hf => by
      obtain ⟨x, hx, hx'⟩ := mem_named hf hl
      rw [← hx']; exact ih x hx
  | signature _ _ h => exact .fixed h
  | pallet _ _ _ hl _ ih =>
    exact .pallet fun f hf => by
      obtain ⟨x, hx, hx'⟩ := mem_named hf hl
      rw [← hx']; exact ih x hx
  | sequence _ _ _ _ _ _ ih =>
    exact .seq fun v hv => by
      obtain ⟨x, hx, hx'⟩ := mem_values hv
      rw [← hx']; exact ih x hx
  | array _ _ _ _ _ ih =>
    exact .seq fun v hv => by
      obtain ⟨x, hx, hx'⟩ := mem_values hv
      rw [← hx']; exact ih x hx
  | tuple _ _ _ _ hl _ ih =>
    exact .tuple fun v hv => by
      obtain ⟨x, hx, hx'⟩ := mem_zip_values hv hl
      rw [← hx']; exact ih x hx
  | primitive _ _ _ h =>
    cases h with
    | false => exact .bool _
    | true => exact .bool _
    | char v => exact .char _
    | str v _ => exact .str _
    | uint _ h => exact .uint h
    | compact _ h => exact .uint h
    | u256 h => exact .u256 h
    | int _ h1 h2 => exact .int h1 h2
  | compact _ _ _ _ ih => exact ih
  | bits _ _ _ _ _ h => obtain ⟨_, h, _⟩ := h; exact .bits h

/-- C16. Every number inside a decoded value is in the range of its type, every hash,
key or signature has its length, every PerThing is at most its maximum, every era is
well-formed. -/
theorem decode_ranged {b : Buf} {id pos pos' : Nat} {p : Propagated} {d : ED} (hp : Fresh p)
    (h : decode R b (.symbol id) pos p = .ok (d, pos')) : Ranged (edValue d) :=
  enc_ranged (decode_sound hp h)

/-- C16, for all data, entry point `decode_all_as_type`. -/
theorem decodeAllAsType_ranged {b : Buf} {id : Nat} {d : ED} (h : decodeAllAsType R b id = .ok d) :
    Ranged (edValue d) := enc_ranged (decodeAllAsType_sound h)

example : ∃ d, decodeAllAsType Example.good (Buf.ofBytes Example.sBytes) 4 = .ok d ∧
    Ranged (edValue d) ∧ edValue d = Example.sValue := by
  obtain ⟨d, h1, h2⟩ := decodeAllAsType_complete Example.good_ranked.emptyArrays Example.s_enc
  exact ⟨d, h1, decodeAllAsType_ranged h1, h2⟩

/-- A value out of range is not `Ranged`: the predicate is not trivial. -/
example : ¬ Ranged (.uint .u8 256) := by
  intro h; cases h with | uint h => simp [UW.bytes] at h

/-! ### C18 enum variants -/

/-- C18. `pick_variant` gives the first variant whose index is the byte at the position. -/
theorem pickVariant_iff {vs : List Variant} {b : Buf} (hr : Reliable b) {pos : Nat} {v : Variant} :
    pickVariant vs b pos = .ok v ↔ ∃ i, At b.bytes pos [i] ∧ Selects vs i v := by
  unfold pickVariant
  rw [bind_ok]
  constructor
  · rintro ⟨i, h1, h2⟩
    refine ⟨i, readByte_ok h1, find_selects.1 ?_⟩
    split at h2
    · cases h2; assumption
    · cases h2
  · rintro ⟨i, h1, h2⟩
    exact ⟨i, readByte_of_at hr h1, by rw [find_selects.2 h2]⟩

/-- C18. If no variant has the index at the position, the error says so. -/
theorem pickVariant_unknown {vs : List Variant} {b : Buf} (hr : Reliable b) {pos : Nat} {i : UInt8}
    (hi : At b.bytes pos [i]) :
    pickVariant vs b pos = .error (.err (.unexpectedEnumVariant pos)) ↔ ∀ v ∈ vs, v.index ≠ i := by
  unfold pickVariant
  rw [readByte_of_at hr hi, ok_bind]
  cases hf : vs.find? (fun v => v.index == i) with
  | none =>
    simp only [true_iff]
    intro v hv heq
    have := List.find?_eq_none.1 hf v hv
    simp [heq] at this
  | some v =>
    simp only [reduceCtorEq, false_iff]
    intro h
    have h1 := List.mem_of_find?_eq_some hf
    have h2 := List.find?_some hf
    exact h v h1 (by simpa using h2)

/-- C18. With distinct indices, the order of the variants in the metadata does not
matter. -/
theorem pickVariant_perm {vs vs' : List Variant} (hp : vs.Perm vs')
    (hd : (vs.map (·.index)).Nodup) (b : Buf) (pos : Nat) :
    pickVariant vs b pos = pickVariant vs' b pos := by
  have key : ∀ i : UInt8, vs.find? (fun v => v.index == i) = vs'.find? (fun v => v.index == i) := by
    intro i
    induction hp with
    | nil => rfl
    | cons x _ ih =>
      simp only [List.map_cons, List.nodup_cons] at hd
      simp only [List.find?_cons]
      split
      · rfl
      · exact ih hd.2
    | swap x y l =>
      simp only [List.map_cons, List.nodup_cons, List.mem_cons, not_or] at hd
      simp only [List.find?_cons]
      by_cases hx : x.index = i
      · have : ¬ y.index = i := fun hy => hd.1.1 (by rw [hx, hy])
        have e1 : (y.index == i) = false := by simpa using this
        have e2 : (x.index == i) = true := by simpa using hx
        simp only [e1, e2]
      · have e2 : (x.index == i) = false := by simpa using hx
        simp only [e2]
    | trans h1 _ ih1 ih2 =>
      rw [ih1 hd, ih2 ((h1.map _).nodup_iff.1 hd)]
  unfold pickVariant
  simp only [key]

example : pickVariant [{ name := "A", index := 4 }, { name := "B", index := 2 }, { name := "C", index := 2 }]
    (Buf.ofBytes [9, 2]) 1 = .ok { name := "B", index := 2 } := by rfl
example : pickVariant [{ name := "A", index := 4 }] (Buf.ofBytes [9, 2]) 1 =
    .error (.err (.unexpectedEnumVariant 1)) := by rfl

/-! ### C19 collected sequences -/

/-- C19. Collecting a decoded list into a typed sequence keeps every element, in order,
with nothing added. -/
theorem wrapSequence_lossless {l : List PD} {s : Sequence} (h : wrapSequence l = some s) :
    sequenceValues s = pdsValue l := wrapSequence_values h

/-- C19. A non-empty list of unlabelled integers of one width is always collected. -/
theorem wrapSequence_uints (w : UW) (v : Nat) (vs : List Nat) :
    wrapSequence ((v :: vs).map fun v => PD.uint w v .none) = some (.uints w (v :: vs)) := by
  have h : ∀ l : List Nat, huskUInts w (l.map fun v => PD.uint w v .none) = some l := by
    intro l
    induction l with
    | nil => rfl
    | cons x xs ih => simp [huskUInts, ih]
  have h1 := h (v :: vs)
  simp only [List.map_cons] at h1 ⊢
  unfold wrapSequence
  simp only [h1, Option.map_some]

/-- C19. A non-empty list of byte strings with the same element info, the first one
non-empty, is always collected. -/
theorem wrapSequence_bytes (info : List Info) (l : List (List Nat)) (x : List Nat) :
    wrapSequence ((x :: l).map fun a => PD.sequence info (.uints .u8 a)) = some (.vecU8 (x :: l) info) := by
  have h : ∀ l : List (List Nat), huskVecU8 (some info) (l.map fun a => PD.sequence info (.uints .u8 a))
      = some (l, some info) := by
    intro l
    induction l with
    | nil => rfl
    | cons y ys ih =>
      simp only [List.map_cons, huskVecU8, ne_eq, not_true_eq_false, if_false, ih, Option.map_some]
  unfold wrapSequence
  simp only [List.map_cons, huskVecU8, h, Option.map_some, Option.getD_some]

example : wrapSequence [.uint .u8 1 .none, .uint .u8 2 .none] = some (.uints .u8 [1, 2]) := by rfl

/-! ### C20 bit sequences -/

/-- C20. A bit sequence is accepted exactly when the data at the position is: the compact
number of bits, then the smallest number of store elements that holds them; exactly that
many bits are returned, each one the bit of the element it is in; the position moves past
the last element. -/
theorem decodeBitSequence_iff {b : Buf} (hr : Reliable b) {order store id pos q : Nat} {d : PD} :
    decodeBitSequence R order store id b pos = .ok (d, q) ↔
      ∃ st o bits bs, IsBitOrder R order o ∧ IsBitStore R store st ∧ d = .bitVec st o bits ∧
        BitsEnc st o bits bs ∧ At b.bytes pos bs ∧ q = pos + bs.length := by
  constructor
  · intro h
    obtain ⟨bs, h1, h2, ⟨st, o⟩, h3, bits, h4, h5⟩ :=
      (decodeBitSequence_parses R order store id).sound h
    obtain ⟨h6, h7⟩ := bitKind_iff.1 h3
    refine ⟨st, o, bits, bs, h6, h7, h4, h5, ?_, h2⟩
    rcases h1 with rfl | h1
    · obtain ⟨els, _, _, _, _, hb⟩ := h5
      have := compactEncode_length_pos bits.length
      have h0 := congrArg List.length hb
      simp at h0; omega
    · exact h1
  · rintro ⟨st, o, bits, bs, h1, h2, rfl, h4, h5, rfl⟩
    exact (decodeBitSequence_parses R order store id).complete hr
      ⟨(st, o), bitKind_iff.2 ⟨h1, h2⟩, bits, rfl, h4⟩ h5

/-- C20. Number of bytes consumed: the compact prefix and `⌈bits / store bits⌉` stores. -/
theorem bitsEnc_length {st : BitStore} {o : BitOrder} {bits : List Bool} {bs : Bytes}
    (h : BitsEnc st o bits bs) :
    bs.length = (compactEncode bits.length).length +
      (bits.length + 8 * st.bytes - 1) / (8 * st.bytes) * st.bytes := by
  obtain ⟨els, h1, ⟨h2, h2'⟩, h3, h4, rfl⟩ := h
  rw [List.length_append, flatBytes_length]
  congr 2
  have hp : 0 < 8 * st.bytes := by have := st.bytes_pos; omega
  symm
  rw [Nat.div_eq_iff hp]
  constructor
  · rw [Nat.mul_comm] at h2 h2'
    rw [Nat.mul_comm]; omega
  · omega

/-- C20. The value decoded is determined by the bytes. -/
theorem bitsEnc_unique {st : BitStore} {o : BitOrder} {bits bits' : List Bool} {bs : Bytes}
    (h : BitsEnc st o bits bs) (h' : BitsEnc st o bits' bs) : bits = bits' := by
  have h1 := bitVecDecodeAll_iff.2 h
  have h2 := bitVecDecodeAll_iff.2 h'
  rw [h1] at h2; cases h2; rfl

/-- Registry with a bit order and a store. -/
def bitReg : Registry := Registry.portable
  [{ path := ["bitvec", "order", "Msb0"], typeDef := .composite [] }, { typeDef := .primitive .u16 },
   { typeDef := .bitSequence 0 1 }]

example : decodeBitSequence bitReg 0 1 2 (Buf.ofBytes [7, 0x0c, 0x34, 0xc0, 9]) 1 =
    .ok (.bitVec .u16 .msb0 [true, true, false], 4) := by rfl

end Verif
