import Verif.Props.Example
import Verif.Proof.Faults
/-!
# Decoding: soundness, completeness, position, locality, truncation, faults

`decode R b (.symbol id) pos p` is `decode_with_type` on the type `id` of registry
`R`, buffer `b`, position `pos`, propagated data `p` (which holds the hint). A
fresh start has `p` with no compact above and no types seen: `Fresh p`.
-/
namespace Verif
open Spec

/-- Propagated data of a public call: any hint, no compact above, no types seen
yet. -/
def Fresh (p : Propagated) : Prop := p.checker.specialtySet.compactAt = none ∧ p.checker.cycleCheck = []

/-- Bytes of the data between two positions. -/
def between (b : Buf) (pos pos' : Nat) : Bytes := (b.bytes.drop pos).take (pos' - pos)

theorem has_between {b : Buf} {pos : Nat} {bs : Bytes} (h : Has b.bytes pos bs) :
    between b pos (pos + bs.length) = bs := by
  unfold between
  rcases h with rfl | h
  · simp
  · have := (at_iff.1 h).2
    rw [show pos + bs.length - pos = bs.length by omega]; exact this

variable {R : Registry}

/-! ### C01 soundness -/

/-- C01. Whatever is decoded, is a value whose encoding (by the registry) is
exactly the bytes between the old and the new position. -/
theorem decode_sound {b : Buf} {id pos pos' : Nat} {p : Propagated} {d : ED} (hp : Fresh p)
    (h : decode R b (.symbol id) pos p = .ok (d, pos')) :
    Enc R false id (edValue d) (between b pos pos') := by
  obtain ⟨bs, h1, h2, h3⟩ := (decode_parses R b (.symbol id) p).sound h
  have h4 := run_sound.symbol h3
  subst h2
  rw [has_between h1]
  have : p.compactAt = none := hp.1
  rw [this] at h4; exact h4

/-- C01, entry point `decode_as_type_at_position`. -/
theorem decodeAsTypeAtPosition_sound {b : Buf} {id pos pos' : Nat} {d : ED}
    (h : decodeAsTypeAtPosition R b id pos = .ok (d, pos')) :
    Enc R false id (edValue d) (between b pos pos') :=
  decode_sound ⟨rfl, rfl⟩ h

/-- C01, entry point `decode_all_as_type`. -/
theorem decodeAllAsType_sound {b : Buf} {id : Nat} {d : ED} (h : decodeAllAsType R b id = .ok d) :
    Enc R false id (edValue d) b.bytes := by
  unfold decodeAllAsType at h
  obtain ⟨⟨d', pos⟩, h1, h2⟩ := bind_ok.1 h
  simp only at h2
  split at h2
  · cases h2
  · rename_i hpos
    cases h2
    have h3 := decodeAsTypeAtPosition_sound h1
    have : pos = b.bytes.length := by simpa [Buf.len] using hpos
    subst this
    have h4 : between b 0 b.bytes.length = b.bytes := by simp [between]
    rwa [h4] at h3

example : ∃ d, decode Example.reg (Buf.ofBytes (9 :: Example.sBytes ++ [3])) (.symbol 4) 1 {} = .ok (d, 7) ∧
    edValue d = Example.sValue := ⟨_, rfl, rfl⟩

/-! ### C02 completeness -/

/-- C02. If the elements of zero-length arrays do not contain themselves without an enum or a vector
in between (nothing is asked of other types), every
encoding of every value of the type is decoded, wherever it is and whatever
surrounds it, with any hint. -/
theorem decode_complete (hk : EmptyArraysGrounded R) {b : Buf} (hr : Reliable b) {id pos : Nat}
    {v : Value} {bs : Bytes} {p : Propagated} (hp : Fresh p) (he : Enc R false id v bs)
    (hat : At b.bytes pos bs) :
    ∃ d, decode R b (.symbol id) pos p = .ok (d, pos + bs.length) ∧ edValue d = v := by
  obtain ⟨rk, hf⟩ := exists_falling R
  have hg := enc_good hk hf he
  obtain ⟨t, ht⟩ := hg.ex
  obtain ⟨d, h1, h2⟩ := hg.plain (p := p) ht (by unfold Propagated.compactAt; rw [hp.1]; rfl)
    (by rw [hp.2]; intro x hx; cases hx)
  exact ⟨d, (decode_parses R b (.symbol id) p).complete hr (run_symbol ht h1) hat, h2⟩

/-- C02, entry point `decode_all_as_type`. -/
theorem decodeAllAsType_complete (hk : EmptyArraysGrounded R) {id : Nat} {v : Value} {bs : Bytes}
    (he : Enc R false id v bs) : ∃ d, decodeAllAsType R (Buf.ofBytes bs) id = .ok d ∧ edValue d = v := by
  obtain ⟨d, h1, h2⟩ := decode_complete hk (reliable_ofBytes bs) (pos := 0) (p := Propagated.new)
    ⟨rfl, rfl⟩ he (at_self bs)
  refine ⟨d, ?_, h2⟩
  unfold decodeAllAsType decodeAsTypeAtPosition
  rw [h1, ok_bind]
  simp [Buf.len, Buf.ofBytes]

example : EmptyArraysGrounded Example.good ∧ Enc Example.good false 4 Example.sValue Example.sBytes :=
  ⟨Example.good_ranked.emptyArrays, Example.s_enc⟩

/-- Types that contain themselves do no harm: `0` is a pair of itself with itself, and `1` an enum that may
have it as a field, or a byte. No ranking exists. -/
def Example.oddTypes : List Typ :=
  [{ typeDef := .tuple [0, 0] },
   { typeDef := .variant [{ name := "Odd", index := 0, fields := [{ ty := 0 }] },
      { name := "Even", index := 1, fields := [{ ty := 2 }] }] },
   { typeDef := .primitive .u8 }]

example : EmptyArraysGrounded (Registry.portable Example.oddTypes) ∧ (¬ ∃ rk, Ranked (Registry.portable Example.oddTypes) rk) ∧
    (decodeAllAsType (Registry.portable Example.oddTypes) (Buf.ofBytes [1, 7]) 1).map edValue =
      .ok (.variant "Even" [(none, .uint .u8 7)]) := by
  refine ⟨no_empty_arrays (fun id t elem hr hd => ?_), fun ⟨rk, h⟩ => ?_, rfl⟩
  · match id, hr with
    | 0, hr | 1, hr | 2, hr => cases hr; cases hd
    | _ + 3, hr => cases hr
  · exact absurd ((h 0 _ rfl).2.1 _ rfl 0 (by simp)) (Nat.lt_irrefl _)

/-- `struct S { a: [S; 0], b: u8 }`, and a tuple with one element of type `S`. -/
def Example.selfTypes : List Typ :=
  [{ typeDef := .composite [{ name := some "a", ty := 1 }, { name := some "b", ty := 2 }] },
   { typeDef := .array 0 0 }, { typeDef := .primitive .u8 }, { typeDef := .tuple [0] }]

/-- The condition cannot be dropped: `(S,)` has values of one byte, but the decoder takes the empty array
for a cycle. -/
example : Enc (Registry.portable Example.selfTypes) false 3 (.tuple [.record [(some "a", .seq []), (some "b", .uint .u8 7)]]) [7] ∧
    (decodeAllAsType (Registry.portable Example.selfTypes) (Buf.ofBytes [7]) 3).toOption = none := by
  refine ⟨?_, rfl⟩
  refine .tuple (ids := [0]) (ps := [(.record [(some "a", .seq []), (some "b", .uint .u8 7)], [7])]) rfl trivial rfl
    (by decide) rfl ?_
  intro x hx
  simp at hx
  subst hx
  refine .record (fields := [{ name := some "a", ty := 1 }, { name := some "b", ty := 2 }])
    (ps := [(.seq [], []), (.uint .u8 7, [7])]) rfl trivial rfl (by decide) rfl ?_
  intro x hx
  simp at hx
  rcases hx with rfl | rfl
  · exact .array (ps := []) rfl trivial rfl ⟨_, _, _, _, .stop rfl (fun _ => by simp)⟩ (by intro x hx; cases hx)
  · exact .primitive rfl trivial rfl (.uint .u8 (by decide))

/-- C01 and C02 together: reading encodings is unambiguous. No encoding is a
prefix of another one of the same type, and equal encodings are of equal values. -/
theorem encoding_unambiguous (hk : EmptyArraysGrounded R) {id : Nat} {v v' : Value}
    {bs bs' rest : Bytes} (h : Enc R false id v bs) (h' : Enc R false id v' bs') (hb : bs' = bs ++ rest) :
    v = v' ∧ rest = [] := by
  subst hb
  have a := decode_complete hk (reliable_ofBytes (bs ++ rest)) (pos := 0) (p := {}) ⟨rfl, rfl⟩ h
    ⟨[], rest, by simp [Buf.ofBytes], rfl⟩
  have b := decode_complete hk (reliable_ofBytes (bs ++ rest)) (pos := 0) (p := {}) ⟨rfl, rfl⟩ h'
    ⟨[], [], by simp [Buf.ofBytes], rfl⟩
  obtain ⟨d, h1, h2⟩ := a
  obtain ⟨d', h3, h4⟩ := b
  rw [h1] at h3
  simp only [Except.ok.injEq, Prod.mk.injEq] at h3
  obtain ⟨rfl, h5⟩ := h3
  refine ⟨h2.symm.trans h4, ?_⟩
  simp at h5
  exact h5

/-! ### C05 position -/

/-- C05. The position never moves back; it stays inside the data, unless it was
outside already and nothing was read. -/
theorem decode_position {b : Buf} {tyIn : TyIn} {pos pos' : Nat} {p : Propagated} {d : ED}
    (h : decode R b tyIn pos p = .ok (d, pos')) :
    pos ≤ pos' ∧ (pos ≤ b.len → pos' ≤ b.len) ∧ (b.len < pos → pos' = pos) := by
  obtain ⟨bs, h1, rfl, _⟩ := (decode_parses R b tyIn p).sound h
  refine ⟨by omega, ?_, ?_⟩
  · intro hp
    exact (h1.at hp).le
  · intro hp
    rcases h1 with rfl | h1
    · rfl
    · have := h1.le
      simp only [Buf.len] at hp
      have h0 : bs.length = 0 := by omega
      omega

example : ∃ d, decode Example.reg (Buf.ofBytes Example.sBytes) (.symbol 4) 0 {} = .ok (d, 6) := ⟨_, rfl⟩

/-- C05, the case left open by the statement: at a position past the end of the
data a type without data is still decoded. -/
example : ∃ d, decode Example.reg (Buf.ofBytes []) (.symbol 6) 5 {} = .ok (d, 5) := ⟨_, rfl⟩

/-! ### C06 locality and shift invariance -/

/-- C06. Success depends only on the bytes consumed: any other buffer that holds
the same bytes at any position gives the identical result there. -/
theorem decode_local {b b' : Buf} (hr : Reliable b') {tyIn : TyIn} {pos q pos' : Nat} {p : Propagated} {d : ED}
    (h : decode R b tyIn pos p = .ok (d, q)) (hat : At b'.bytes pos' (between b pos q)) :
    decode R b' tyIn pos' p = .ok (d, pos' + (q - pos)) := by
  obtain ⟨bs, h1, rfl, h3⟩ := (decode_parses R b tyIn p).sound h
  rw [has_between h1] at hat
  rw [show pos + bs.length - pos = bs.length by omega]
  exact (decode_parses R b' tyIn p).complete hr h3 hat

example : ∃ d, decode Example.reg (Buf.ofBytes Example.sBytes) (.symbol 4) 0 {} = .ok (d, 6) ∧
    At ([1, 2, 3] ++ Example.sBytes ++ [4]) 3 (between (Buf.ofBytes Example.sBytes) 0 6) :=
  ⟨_, rfl, [1, 2, 3], [4], rfl, rfl⟩

/-! ### C07 truncation -/

/-- C07. If decoding consumed the bytes between `pos` and `q`, then it fails on
every strictly shorter prefix of them (at the end of any data). -/
theorem decode_truncated {b : Buf} {tyIn : TyIn} {pos q k : Nat} {p : Propagated} {d : ED}
    (h : decode R b tyIn pos p = .ok (d, q)) (hk : k < q - pos) {b' : Buf} {pre : Bytes}
    (hb : b'.bytes = pre ++ (between b pos q).take k) :
    ∃ e, decode R b' tyIn pre.length p = .error (.err e) := by
  rcases (decode_fine (R := R) (b := b') tyIn pre.length p).cases with ⟨⟨d', q'⟩, hd⟩ | he
  · exfalso
    obtain ⟨bs, h1, rfl, h3⟩ := (decode_parses R b tyIn p).sound h
    rw [has_between h1] at hb
    obtain ⟨bs', h1', rfl, h3'⟩ := (decode_parses R b' tyIn p).sound hd
    have hat := h1'.at (by rw [hb]; simp)
    have hle := hat.le
    rw [hb] at hle
    simp at hle
    -- the shorter run starts the longer one
    have hpre : ∃ post, bs = bs' ++ post := by
      rw [at_iff, hb] at hat
      have h5 := hat.2
      simp only [List.drop_left] at h5
      rw [List.take_take] at h5
      refine ⟨bs.drop bs'.length, ?_⟩
      conv => lhs; rw [← List.take_append_drop bs'.length bs]
      congr 1
      rw [← h5]
      congr 1
      simp
      omega
    obtain ⟨post, rfl⟩ := hpre
    have c1 := (decode_parses R (Buf.ofBytes (bs' ++ post)) tyIn p).complete (reliable_ofBytes _) (pos := 0) h3
      (at_self _)
    have c2 := (decode_parses R (Buf.ofBytes (bs' ++ post)) tyIn p).complete (reliable_ofBytes _) (pos := 0) h3'
      ⟨[], post, by simp [Buf.ofBytes], rfl⟩
    rw [c1] at c2
    simp only [Except.ok.injEq, Prod.mk.injEq] at c2
    simp at c2 hk hle
    have := c2.2
    subst this
    simp at hle hk
    omega
  · exact he

example : (∃ d, decode Example.reg (Buf.ofBytes Example.sBytes) (.symbol 4) 0 {} = .ok (d, 6)) ∧
    decode Example.reg (Buf.ofBytes [7, 0xb1, 0x04, 8, 1]) (.symbol 4) 0 {} =
      .error (.err (.buffer (.dataTooShort 5 1))) := ⟨⟨_, rfl⟩, rfl⟩

/-! ### C09 failing memory -/

/-- C09. With memory that fails on some reads, success gives exactly the result of
reliable memory. -/
theorem decode_faulty {b : Buf} {tyIn : TyIn} {pos pos' : Nat} {p : Propagated} {d : ED}
    (hpos : pos ≤ b.len) (h : decode R b tyIn pos p = .ok (d, pos')) :
    decode R (Buf.ofBytes b.bytes) tyIn pos p = .ok (d, pos') := by
  obtain ⟨bs, h1, rfl, h3⟩ := (decode_parses R b tyIn p).sound h
  exact (decode_parses R (Buf.ofBytes b.bytes) tyIn p).complete (reliable_ofBytes _) h3 (h1.at hpos)

/-- C09. The outcome with failing memory is an error or the result of reliable
memory. -/
theorem decode_faulty_cases {b : Buf} {tyIn : TyIn} {pos : Nat} {p : Propagated} (hpos : pos ≤ b.len) :
    (∃ e, decode R b tyIn pos p = .error (.err e)) ∨
    decode R b tyIn pos p = decode R (Buf.ofBytes b.bytes) tyIn pos p := by
  rcases (decode_fine (R := R) (b := b) tyIn pos p).cases with ⟨⟨d, q⟩, hd⟩ | he
  · exact .inr (hd.trans (decode_faulty hpos hd).symm)
  · exact .inl he

/-- **C09.** Memory failing on some of the data gives its own error, or exactly the outcome
(result or error) of reliable memory. -/
theorem decode_faulty_exact (b : Buf) (tyIn : TyIn) (pos : Nat) (p : Propagated) :
    ((∃ q n, q + n ≤ b.bytes.length ∧ b.fault q n = true) ∧
      decode R b tyIn pos p = .error (.err (.buffer .external))) ∨
    decode R b tyIn pos p = decode R (Buf.ofBytes b.bytes) tyIn pos p := decode_tame tyIn pos p

example : decode Example.reg { bytes := Example.sBytes, fault := fun p n => decide (p ≤ 5 ∧ 5 < p + n) }
      (.symbol 4) 0 {} = .error (.err (.buffer .external)) ∧
    ∃ d, decode Example.reg { bytes := Example.sBytes ++ [1], fault := fun p n => decide (p ≤ 6 ∧ 6 < p + n) }
      (.symbol 4) 0 {} = .ok (d, 6) := ⟨rfl, _, rfl⟩

/-! ### C10 `decode_all_as_type` -/

/-- C10. All bytes are used, or the call fails. -/
theorem decodeAllAsType_iff {b : Buf} {id : Nat} {d : ED} :
    decodeAllAsType R b id = .ok d ↔ decode R b (.symbol id) 0 Propagated.new = .ok (d, b.len) := by
  unfold decodeAllAsType decodeAsTypeAtPosition
  constructor
  · intro h
    obtain ⟨⟨d', pos⟩, h1, h2⟩ := bind_ok.1 h
    simp only at h2
    split at h2
    · cases h2
    · rename_i hn
      cases h2
      have : pos = b.len := by simpa using hn
      subst this
      exact h1
  · intro h
    rw [h, ok_bind]; simp

/-- C10. Surplus bytes are reported with the first unused position. -/
theorem decodeAllAsType_surplus {b : Buf} {id pos : Nat} :
    decodeAllAsType R b id = .error (.err (.someDataNotUsedBlob pos)) →
      (∃ d, decode R b (.symbol id) 0 Propagated.new = .ok (d, pos) ∧ pos < b.len) ∨
      decode R b (.symbol id) 0 Propagated.new = .error (.err (.someDataNotUsedBlob pos)) := by
  unfold decodeAllAsType decodeAsTypeAtPosition
  intro h
  cases hd : decode R b (.symbol id) 0 Propagated.new with
  | error e => rw [hd, error_bind] at h; cases h; exact .inr rfl
  | ok r =>
    obtain ⟨d, q⟩ := r
    rw [hd, ok_bind] at h
    simp only at h
    split at h
    · rename_i hn
      cases h
      have := (decode_position hd).2.1 (Nat.zero_le _)
      exact .inl ⟨d, rfl, by omega⟩
    · cases h

/-- C10. Conversely, surplus bytes always are an error. -/
theorem decodeAllAsType_not_all {b : Buf} {id pos : Nat} {d : ED}
    (h : decode R b (.symbol id) 0 Propagated.new = .ok (d, pos)) (hlt : pos < b.len) :
    decodeAllAsType R b id = .error (.err (.someDataNotUsedBlob pos)) := by
  unfold decodeAllAsType decodeAsTypeAtPosition
  rw [h, ok_bind]
  simp only
  rw [if_pos (by omega)]

example : decodeAllAsType Example.reg (Buf.ofBytes (Example.sBytes ++ [1])) 4 =
    .error (.err (.someDataNotUsedBlob 6)) := rfl

/-! ### C03, C04 termination, no panics -/

/-- C03 and C04. The outcome is always a value or a parser error: no panic, and
the recursion bound `depthBound` is never hit. -/
theorem decode_total (b : Buf) (tyIn : TyIn) (pos : Nat) (p : Propagated) :
    (∃ d pos', decode R b tyIn pos p = .ok (d, pos')) ∨ (∃ e, decode R b tyIn pos p = .error (.err e)) := by
  rcases (decode_fine (R := R) (b := b) tyIn pos p).cases with ⟨⟨d, q⟩, h⟩ | h
  · exact .inl ⟨d, q, h⟩
  · exact .inr h

/-- C03. The bound on nested calls is no restriction: `decode` satisfies the
recursive equation of the code, and any larger bound gives the same outcome. -/
theorem decode_recursive (b : Buf) :
    (∀ tyIn pos p, decode R b tyIn pos p = decodeStep R b (decode R b) tyIn pos p) ∧
    (∀ n tyIn pos p, depthBound R b pos ≤ n → decodeF R b n tyIn pos p = decode R b tyIn pos p) := by
  refine ⟨fun tyIn pos p => decode_fix tyIn pos p, fun n tyIn pos p hn => ?_⟩
  exact decodeF_eq_decode n tyIn pos p (by have := measure_le (R := R) (b := b) pos p.checker; omega)

/-- C03, C04 for `husk_type`: a value or a parser error. -/
theorem huskType_total (id : Nat) (c : Checker) :
    (∃ h, huskType R id c = .ok h) ∨ (∃ e, huskType R id c = .error (.err e)) :=
  (huskType_fine R id c).cases

/-- `j` is the first thing decoded inside a value of type `id`: first field of a
struct or first element of a tuple. -/
def FirstPart (R : Registry) (id j : Nat) : Prop :=
  ∃ t, R.resolve id = .ok t ∧ Structural t.path ∧
    ((∃ f fs, t.typeDef = .composite (f :: fs) ∧ f.ty = j) ∨ (∃ ids, t.typeDef = .tuple (j :: ids)))

/-- C03. A set of types each of which starts with another one of the set can not
be decoded: the cycle is reported, no data is read. -/
theorem decode_cyclic {S : Nat → Prop} (hS : ∀ id, S id → ∃ j, FirstPart R id j ∧ S j)
    (b : Buf) (pos id : Nat) (hid : S id) {p : Propagated} (hp : p.checker.specialtySet.compactAt = none) :
    ∃ j, S j ∧ decode R b (.symbol id) pos p =
      .error (.err (.registry (.internal (.cyclicMetadata j)))) := by
  have hcyc : ∀ {c : Checker} {j : Nat}, c.cycleCheck.contains j = true →
      c.checkId j = .error (.err (.registry (.internal (.cyclicMetadata j)))) := by
    intro c j h
    unfold Checker.checkId; rw [if_pos h]; rfl
  -- on the number of types not seen
  have key : ∀ n id t (p : Propagated), free R p.checker.cycleCheck ≤ n → S id → R.resolve id = .ok t →
      p.checker.specialtySet.compactAt = none →
      ∃ j, S j ∧ decode R b (.resolved t id) pos p =
        .error (.err (.registry (.internal (.cyclicMetadata j)))) := by
    intro n
    induction n with
    | zero =>
      intro id t p hn hid ht hp
      obtain ⟨j, ⟨t', h1, h2, h3⟩, h4⟩ := hS id hid
      rw [ht] at h1; cases h1
      obtain ⟨k, ⟨tj, h5, _⟩, _⟩ := hS j h4
      have hcon : p.checker.cycleCheck.contains j = true := by
        cases hc : p.checker.cycleCheck.contains j with
        | true => rfl
        | false => have := free_append R (Registry.get_lt (get_ok.2 h5)) hc; omega
      refine ⟨j, h4, ?_⟩
      rw [decode_fix]
      unfold decodeStep
      have ho := hinted_open.2 h2
      simp only [TyIn.resolve, ok_bind]
      rcases h3 with ⟨f, fs, hd, rfl⟩ | ⟨ids, hd⟩
      · rw [fromType_nonEnum ho (by intro vs; rw [hd]; simp), ok_bind]
        simp only [decodeChecked, decodeTypeDef, hd, decodeFields]
        split
        · have : (p.addInfo (Info.fromTy t)).checker.rejectCompact = .ok () := by
            rw [addInfo_checker]; exact rejectCompact_ok.2 hp
          rw [this, ok_bind]
          simp only [decodeFieldsLoop, Propagated.forField, Checker.updateForField]
          rw [hcyc]; · rfl
          rw [hintFromField_cycle, forgetHint_cycle, addInfo_checker]; exact hcon
        · simp only [decodeFieldsLoop, Propagated.forField, Checker.updateForField]
          rw [hcyc]; · rfl
          rw [hintFromField_cycle, addInfo_checker]; exact hcon
      · rw [fromType_nonEnum ho (by intro vs; rw [hd]; simp), ok_bind]
        simp only [decodeChecked, decodeTypeDef, hd, decodeTuple]
        split
        · have : (p.addInfo (Info.fromTy t)).rejectCompact = .ok () := by
            unfold Propagated.rejectCompact; rw [addInfo_checker]; exact rejectCompact_ok.2 hp
          rw [this, ok_bind, ok_bind]
          simp only [decodeTupleLoop, get_ok.2 h5, ok_bind, Propagated.forTy, Checker.updateForTy]
          rw [hcyc]; · rfl
          show (p.addInfo (Info.fromTy t)).checker.cycleCheck.contains j = true
          rw [addInfo_checker]; exact hcon
        · rw [ok_bind]
          simp only [decodeTupleLoop, get_ok.2 h5, ok_bind, Propagated.forTy, Checker.updateForTy]
          rw [hcyc]; · rfl
          rw [addInfo_checker]; exact hcon
    | succ n ih =>
      intro id t p hn hid ht hp
      obtain ⟨j, ⟨t', h1, h2, h3⟩, h4⟩ := hS id hid
      rw [ht] at h1; cases h1
      obtain ⟨k, ⟨tj, h5, _⟩, _⟩ := hS j h4
      have hsym : ∀ q, decode R b (.symbol j) pos q = decode R b (.resolved tj j) pos q := by
        intro q
        rw [decode_fix, decode_fix]
        unfold decodeStep
        simp only [TyIn.resolve, get_ok.2 h5, ok_bind]
      -- a call for the first part, with any checker that has seen the same types
      have hrec : ∀ q : Propagated, q.checker.cycleCheck = p.checker.cycleCheck ++ [j] →
          p.checker.cycleCheck.contains j = false → q.checker.specialtySet.compactAt = none →
          ∃ j', S j' ∧ decode R b (.resolved tj j) pos q =
            .error (.err (.registry (.internal (.cyclicMetadata j')))) := by
        intro q hq hc hqc
        refine ih j tj q ?_ h4 h5 hqc
        have := free_append R (Registry.get_lt (get_ok.2 h5)) hc
        rw [hq]; omega
      rw [decode_fix]
      unfold decodeStep
      have ho := hinted_open.2 h2
      simp only [TyIn.resolve, ok_bind]
      rcases h3 with ⟨f, fs, hd, rfl⟩ | ⟨ids, hd⟩
      · rw [fromType_nonEnum ho (by intro vs; rw [hd]; simp), ok_bind]
        simp only [decodeChecked, decodeTypeDef, hd]
        -- the loop over the fields
        have hloop : ∀ c : Checker, c.cycleCheck = p.checker.cycleCheck →
            c.specialtySet.compactAt = none →
            ∃ j', S j' ∧ decodeFieldsLoop (decode R b) c (f :: fs) pos =
              .error (.err (.registry (.internal (.cyclicMetadata j')))) := by
          intro c hc hcc
          unfold decodeFieldsLoop
          cases hcon : p.checker.cycleCheck.contains f.ty with
          | true =>
            refine ⟨f.ty, h4, ?_⟩
            simp only [Propagated.forField, Checker.updateForField]
            rw [hcyc]; · rfl
            rw [hintFromField_cycle, hc]; exact hcon
          | false =>
            have hck := (checkId_ok (c := c.hintFromField f) (id := f.ty)).2
              ⟨by rw [hintFromField_cycle, hc]; exact hcon, rfl⟩
            simp only [Propagated.forField, Checker.updateForField, hck, ok_bind, hsym]
            obtain ⟨j', hj, hdec⟩ := hrec { checker := { (c.hintFromField f) with
                cycleCheck := (c.hintFromField f).cycleCheck ++ [f.ty] } }
              (by simp only [hintFromField_cycle, hc]) hcon
              (by simp only [hintFromField_compact]; exact hcc)
            exact ⟨j', hj, by rw [hdec]; rfl⟩
        unfold decodeFields
        split
        · have : (p.addInfo (Info.fromTy t)).checker.rejectCompact = .ok () := by
            rw [addInfo_checker]; exact rejectCompact_ok.2 hp
          rw [this, ok_bind]
          obtain ⟨j', hj, hl⟩ := hloop (p.addInfo (Info.fromTy t)).checker.forgetHint
            (by rw [forgetHint_cycle, addInfo_checker]) (by rw [forgetHint_compact, addInfo_checker]; exact hp)
          exact ⟨j', hj, by rw [hl]; rfl⟩
        · obtain ⟨j', hj, hl⟩ := hloop (p.addInfo (Info.fromTy t)).checker
            (by rw [addInfo_checker]) (by rw [addInfo_checker]; exact hp)
          exact ⟨j', hj, by rw [hl]; rfl⟩
      · rw [fromType_nonEnum ho (by intro vs; rw [hd]; simp), ok_bind]
        simp only [decodeChecked, decodeTypeDef, hd]
        have hloop : ∀ c : Checker, c.cycleCheck = p.checker.cycleCheck →
            c.specialtySet.compactAt = none →
            ∃ j', S j' ∧ decodeTupleLoop R (decode R b) c (j :: ids) pos =
              .error (.err (.registry (.internal (.cyclicMetadata j')))) := by
          intro c hc hcc
          unfold decodeTupleLoop
          simp only [get_ok.2 h5, ok_bind]
          cases hcon : p.checker.cycleCheck.contains j with
          | true =>
            refine ⟨j, h4, ?_⟩
            simp only [Propagated.forTy, Checker.updateForTy]
            rw [hcyc]; · rfl
            rw [hc]; exact hcon
          | false =>
            have hck := (checkId_ok (c := c) (id := j)).2 ⟨by rw [hc]; exact hcon, rfl⟩
            simp only [Propagated.forTy, Checker.updateForTy, hck, ok_bind]
            obtain ⟨j', hj, hdec⟩ := hrec ⟨⟨c.specialtySet.updateFromPath tj, c.cycleCheck ++ [j]⟩, []⟩
              (by simp only [hc]) hcon
              (by simp only [updateFromPath_compact]; exact hcc)
            exact ⟨j', hj, by rw [hdec]; rfl⟩
        unfold decodeTuple
        split
        · have : (p.addInfo (Info.fromTy t)).rejectCompact = .ok () := by
            unfold Propagated.rejectCompact; rw [addInfo_checker]; exact rejectCompact_ok.2 hp
          rw [this, ok_bind, ok_bind]
          obtain ⟨j', hj, hl⟩ := hloop (p.addInfo (Info.fromTy t)).forgetHint.checker
            (by show (p.addInfo (Info.fromTy t)).checker.forgetHint.cycleCheck = _
                rw [forgetHint_cycle, addInfo_checker])
            (by show (p.addInfo (Info.fromTy t)).checker.forgetHint.specialtySet.compactAt = _
                rw [forgetHint_compact, addInfo_checker]; exact hp)
          exact ⟨j', hj, by dsimp only; rw [hl]; rfl⟩
        · rw [ok_bind]
          obtain ⟨j', hj, hl⟩ := hloop (p.addInfo (Info.fromTy t)).checker
            (by rw [addInfo_checker]) (by rw [addInfo_checker]; exact hp)
          exact ⟨j', hj, by dsimp only; rw [hl]; rfl⟩
  obtain ⟨j0, ⟨t, ht, _⟩, _⟩ := hS id hid
  obtain ⟨j, h1, h2⟩ := key _ id t p (Nat.le_refl _) hid ht hp
  refine ⟨j, h1, ?_⟩
  rw [decode_fix] at h2 ⊢
  unfold decodeStep at h2 ⊢
  simpa only [TyIn.resolve, get_ok.2 ht, ok_bind] using h2

example : FirstPart Example.reg 10 10 :=
  ⟨{ path := ["X"], typeDef := .composite [{ ty := 10 }] }, rfl, trivial, .inl ⟨_, _, rfl, rfl⟩⟩

example : decode Example.reg (Buf.ofBytes [1, 2]) (.symbol 10) 0 {} =
    .error (.err (.registry (.internal (.cyclicMetadata 10)))) := rfl

/-! ### C45 unresolved types -/

/-- C45. A type that is not in the registry: exactly the registry's error. -/
theorem decode_unresolved (b : Buf) (id pos : Nat) (p : Propagated) {e : RegErr}
    (h : R.resolve id = .error e) : decode R b (.symbol id) pos p = .error (.err (.registry e)) := by
  rw [decode_fix]
  unfold decodeStep
  simp only [TyIn.resolve, Registry.get, h]
  rfl

/-- Decoding a value of type `id` always needs type `j`. -/
inductive Needs (R : Registry) : Nat → Nat → Prop
  | self {id : Nat} : Needs R id id
  | field {id j : Nat} {t : Typ} {fields : List Field} {f : Field} : R.resolve id = .ok t →
      Structural t.path → t.typeDef = .composite fields → f ∈ fields → Needs R f.ty j → Needs R id j
  | elem {id i j : Nat} {t : Typ} {ids : List Nat} : R.resolve id = .ok t →
      Structural t.path → t.typeDef = .tuple ids → i ∈ ids → Needs R i j → Needs R id j
  | compact {id i j : Nat} {t : Typ} : R.resolve id = .ok t →
      Structural t.path → t.typeDef = .compact i → Needs R i j → Needs R id j
  | array {id i j n : Nat} {t : Typ} : R.resolve id = .ok t →
      Structural t.path → t.typeDef = .array (n + 1) i → Needs R i j → Needs R id j
  | emptyArray {id i : Nat} {t : Typ} : R.resolve id = .ok t →
      Structural t.path → t.typeDef = .array 0 i → Needs R id i
  | vector {id i : Nat} {t : Typ} : R.resolve id = .ok t →
      Structural t.path → t.typeDef = .sequence i → Needs R id i
  | order {id i s : Nat} {t : Typ} : R.resolve id = .ok t →
      Structural t.path → t.typeDef = .bitSequence i s → Needs R id i
  | store {id i o : Nat} {t : Typ} : R.resolve id = .ok t →
      Structural t.path → t.typeDef = .bitSequence o i → Needs R id i

theorem mem_zip_of_mem {α β : Type} {l : List α} {l' : List β} {a : α} (hl : l'.length = l.length)
    (h : a ∈ l) : ∃ b, (a, b) ∈ l.zip l' := by
  induction l generalizing l' with
  | nil => cases h
  | cons x xs ih =>
    match l', hl with
    | y :: ys, hl =>
      rcases List.mem_cons.1 h with rfl | h
      · exact ⟨y, by simp⟩
      · obtain ⟨z, hz⟩ := ih (l' := ys) (by simpa using hl) h
        exact ⟨z, by simp [hz]⟩

theorem enc_resolve {c : Bool} {id : Nat} {v : Value} {bs : Bytes} (h : Enc R c id v bs) :
    ∃ t, R.resolve id = .ok t := by
  cases h <;> exact ⟨_, by assumption⟩

theorem enc_needs {c : Bool} {id j : Nat} {v : Value} {bs : Bytes} (hn : Needs R id j)
    (h : Enc R c id v bs) : ∃ t, R.resolve j = .ok t := by
  have hcl : ∀ {p : List String} {s : Special}, special p = some s → Structural p →
      (s = .multiSignature ∨ (∃ i, s = .pallet i) ∨ s = .extrinsic) := by
    intro p s hs hp
    unfold Structural at hp
    rw [hs] at hp
    cases s <;> simp_all
  induction hn generalizing c v bs with
  | self => exact enc_resolve h
  | @field id j t fields f hr hs hd hf _ ih =>
    cases h with
    | newtype hr' _ hd' he =>
      rw [hr] at hr'; cases hr'; rw [hd] at hd'; cases hd'
      simp at hf; subst hf; exact ih he
    | unit hr' _ hd' => rw [hr] at hr'; cases hr'; rw [hd] at hd'; cases hd'; cases hf
    | record hr' _ hd' _ hl he =>
      rw [hr] at hr'; cases hr'; rw [hd] at hd'; cases hd'
      obtain ⟨q, hq⟩ := mem_zip_of_mem (by simpa using hl) (List.mem_map.2 ⟨f, hf, rfl⟩)
      exact ih (he _ hq)
    | fixed hr' hs' _ | hash hr' hs' _ | era hr' hs' _ | per hr' hs' _ | perCompact hr' hs' _ =>
      rw [hr] at hr'; cases hr'; have := hcl hs' hs; simp at this
    | signature hr' hsig _ =>
      obtain ⟨_, vs, v, f, hd', _⟩ := hsig
      rw [hr] at hr'; cases hr'; rw [hd] at hd'; cases hd'
    | pallet hr' hsig _ =>
      obtain ⟨_, vs, v, f, t', hd', _⟩ := hsig
      rw [hr] at hr'; cases hr'; rw [hd] at hd'; cases hd'
    | never hr' _ hd' | variant hr' _ hd' | sequence hr' _ hd' | array hr' _ hd' | tuple hr' _ hd'
    | primitive hr' _ hd' | compact hr' _ hd' | bits hr' _ hd' =>
      rw [hr] at hr'; cases hr'; rw [hd] at hd'; cases hd'
  | @elem id i j t ids hr hs hd hf _ ih =>
    cases h with
    | tuple hr' _ hd' _ hl he =>
      rw [hr] at hr'; cases hr'; rw [hd] at hd'; cases hd'
      obtain ⟨q, hq⟩ := mem_zip_of_mem hl hf
      exact ih (he _ hq)
    | fixed hr' hs' _ | hash hr' hs' _ | era hr' hs' _ | per hr' hs' _ | perCompact hr' hs' _ =>
      rw [hr] at hr'; cases hr'; have := hcl hs' hs; simp at this
    | signature hr' hsig _ =>
      obtain ⟨_, vs, v, f, hd', _⟩ := hsig
      rw [hr] at hr'; cases hr'; rw [hd] at hd'; cases hd'
    | pallet hr' hsig _ =>
      obtain ⟨_, vs, v, f, t', hd', _⟩ := hsig
      rw [hr] at hr'; cases hr'; rw [hd] at hd'; cases hd'
    | newtype hr' _ hd' | unit hr' _ hd' | record hr' _ hd'
    | never hr' _ hd' | variant hr' _ hd' | sequence hr' _ hd' | array hr' _ hd'
    | primitive hr' _ hd' | compact hr' _ hd' | bits hr' _ hd' =>
      rw [hr] at hr'; cases hr'; rw [hd] at hd'; cases hd'
  | @compact id i j t hr hs hd _ ih =>
    cases h with
    | compact hr' _ hd' he =>
      rw [hr] at hr'; cases hr'; rw [hd] at hd'; cases hd'
      exact ih he
    | fixed hr' hs' _ | hash hr' hs' _ | era hr' hs' _ | per hr' hs' _ | perCompact hr' hs' _ =>
      rw [hr] at hr'; cases hr'; have := hcl hs' hs; simp at this
    | signature hr' hsig _ =>
      obtain ⟨_, vs, v, f, hd', _⟩ := hsig
      rw [hr] at hr'; cases hr'; rw [hd] at hd'; cases hd'
    | pallet hr' hsig _ =>
      obtain ⟨_, vs, v, f, t', hd', _⟩ := hsig
      rw [hr] at hr'; cases hr'; rw [hd] at hd'; cases hd'
    | newtype hr' _ hd' | unit hr' _ hd' | record hr' _ hd'
    | never hr' _ hd' | variant hr' _ hd' | sequence hr' _ hd' | array hr' _ hd'
    | primitive hr' _ hd' | tuple hr' _ hd' | bits hr' _ hd' =>
      rw [hr] at hr'; cases hr'; rw [hd] at hd'; cases hd'
  | @array id i j n t hr hs hd _ ih =>
    cases h with
    | @array _ _ _ ps hr' _ hd' _ he =>
      rw [hr] at hr'; cases hr'; rw [hd] at hd'
      simp only [TypeDef.array.injEq] at hd'
      obtain ⟨hl, rfl⟩ := hd'
      match ps, hl with
      | q :: _, _ => exact ih (he q (by simp))
    | fixed hr' hs' _ | hash hr' hs' _ | era hr' hs' _ | per hr' hs' _ | perCompact hr' hs' _ =>
      rw [hr] at hr'; cases hr'; have := hcl hs' hs; simp at this
    | signature hr' hsig _ =>
      obtain ⟨_, vs, v, f, hd', _⟩ := hsig
      rw [hr] at hr'; cases hr'; rw [hd] at hd'; cases hd'
    | pallet hr' hsig _ =>
      obtain ⟨_, vs, v, f, t', hd', _⟩ := hsig
      rw [hr] at hr'; cases hr'; rw [hd] at hd'; cases hd'
    | newtype hr' _ hd' | unit hr' _ hd' | record hr' _ hd'
    | never hr' _ hd' | variant hr' _ hd' | sequence hr' _ hd' | compact hr' _ hd'
    | primitive hr' _ hd' | tuple hr' _ hd' | bits hr' _ hd' =>
      rw [hr] at hr'; cases hr'; rw [hd] at hd'; cases hd'
  | @emptyArray id i t hr hs hd =>
    cases h with
    | array hr' _ hd' hk _ =>
      rw [hr] at hr'; cases hr'; rw [hd] at hd'
      simp only [TypeDef.array.injEq] at hd'
      obtain ⟨_, rfl⟩ := hd'
      obtain ⟨_, _, _, _, hc⟩ := hk
      exact hc.resolve
    | fixed hr' hs' _ | hash hr' hs' _ | era hr' hs' _ | per hr' hs' _ | perCompact hr' hs' _ =>
      rw [hr] at hr'; cases hr'; have := hcl hs' hs; simp at this
    | signature hr' hsig _ =>
      obtain ⟨_, vs, v, f, hd', _⟩ := hsig
      rw [hr] at hr'; cases hr'; rw [hd] at hd'; cases hd'
    | pallet hr' hsig _ =>
      obtain ⟨_, vs, v, f, t', hd', _⟩ := hsig
      rw [hr] at hr'; cases hr'; rw [hd] at hd'; cases hd'
    | newtype hr' _ hd' | unit hr' _ hd' | record hr' _ hd'
    | never hr' _ hd' | variant hr' _ hd' | sequence hr' _ hd' | compact hr' _ hd'
    | primitive hr' _ hd' | tuple hr' _ hd' | bits hr' _ hd' =>
      rw [hr] at hr'; cases hr'; rw [hd] at hd'; cases hd'
  | @vector id i t hr hs hd =>
    cases h with
    | sequence hr' _ hd' hk _ _ =>
      rw [hr] at hr'; cases hr'; rw [hd] at hd'; cases hd'
      obtain ⟨_, _, _, _, hc⟩ := hk
      exact hc.resolve
    | fixed hr' hs' _ | hash hr' hs' _ | era hr' hs' _ | per hr' hs' _ | perCompact hr' hs' _ =>
      rw [hr] at hr'; cases hr'; have := hcl hs' hs; simp at this
    | signature hr' hsig _ =>
      obtain ⟨_, vs, v, f, hd', _⟩ := hsig
      rw [hr] at hr'; cases hr'; rw [hd] at hd'; cases hd'
    | pallet hr' hsig _ =>
      obtain ⟨_, vs, v, f, t', hd', _⟩ := hsig
      rw [hr] at hr'; cases hr'; rw [hd] at hd'; cases hd'
    | newtype hr' _ hd' | unit hr' _ hd' | record hr' _ hd'
    | never hr' _ hd' | variant hr' _ hd' | array hr' _ hd' | compact hr' _ hd'
    | primitive hr' _ hd' | tuple hr' _ hd' | bits hr' _ hd' =>
      rw [hr] at hr'; cases hr'; rw [hd] at hd'; cases hd'
  | @order id i s t hr hs hd =>
    cases h with
    | bits hr' _ hd' ho _ _ =>
      rw [hr] at hr'; cases hr'; rw [hd] at hd'; cases hd'
      obtain ⟨t, _, h1, _⟩ := ho
      exact ⟨t, h1⟩
    | fixed hr' hs' _ | hash hr' hs' _ | era hr' hs' _ | per hr' hs' _ | perCompact hr' hs' _ =>
      rw [hr] at hr'; cases hr'; have := hcl hs' hs; simp at this
    | signature hr' hsig _ =>
      obtain ⟨_, vs, v, f, hd', _⟩ := hsig
      rw [hr] at hr'; cases hr'; rw [hd] at hd'; cases hd'
    | pallet hr' hsig _ =>
      obtain ⟨_, vs, v, f, t', hd', _⟩ := hsig
      rw [hr] at hr'; cases hr'; rw [hd] at hd'; cases hd'
    | newtype hr' _ hd' | unit hr' _ hd' | record hr' _ hd'
    | never hr' _ hd' | variant hr' _ hd' | array hr' _ hd' | compact hr' _ hd'
    | primitive hr' _ hd' | tuple hr' _ hd' | sequence hr' _ hd' =>
      rw [hr] at hr'; cases hr'; rw [hd] at hd'; cases hd'
  | @store id i o t hr hs hd =>
    cases h with
    | bits hr' _ hd' _ ho _ =>
      rw [hr] at hr'; cases hr'; rw [hd] at hd'; cases hd'
      obtain ⟨t, _, h1, _⟩ := ho
      exact ⟨t, h1⟩
    | fixed hr' hs' _ | hash hr' hs' _ | era hr' hs' _ | per hr' hs' _ | perCompact hr' hs' _ =>
      rw [hr] at hr'; cases hr'; have := hcl hs' hs; simp at this
    | signature hr' hsig _ =>
      obtain ⟨_, vs, v, f, hd', _⟩ := hsig
      rw [hr] at hr'; cases hr'; rw [hd] at hd'; cases hd'
    | pallet hr' hsig _ =>
      obtain ⟨_, vs, v, f, t', hd', _⟩ := hsig
      rw [hr] at hr'; cases hr'; rw [hd] at hd'; cases hd'
    | newtype hr' _ hd' | unit hr' _ hd' | record hr' _ hd'
    | never hr' _ hd' | variant hr' _ hd' | array hr' _ hd' | compact hr' _ hd'
    | primitive hr' _ hd' | tuple hr' _ hd' | sequence hr' _ hd' =>
      rw [hr] at hr'; cases hr'; rw [hd] at hd'; cases hd'

/-- C45. If a needed type is not in the registry, decoding is an error. -/
theorem decode_needs {b : Buf} {id j pos : Nat} {p : Propagated} (hp : Fresh p) (hn : Needs R id j)
    {e : RegErr} (hj : R.resolve j = .error e) :
    ∃ e', decode R b (.symbol id) pos p = .error (.err e') := by
  rcases (decode_fine (R := R) (b := b) (.symbol id) pos p).cases with ⟨⟨d, q⟩, hd⟩ | he
  · exfalso
    obtain ⟨t, ht⟩ := enc_needs hn (decode_sound hp hd)
    rw [hj] at ht; cases ht
  · exact he

example : Needs (Registry.portable [{ typeDef := .tuple [1] }, { typeDef := .sequence 7 }]) 0 7 ∧
    ∃ e, (Registry.portable [{ typeDef := .tuple [1] }, { typeDef := .sequence 7 }]).resolve 7 = .error e :=
  ⟨.elem (i := 1) (j := 7) (t := { typeDef := .tuple [1] }) rfl trivial rfl (by simp)
    (.vector (id := 1) (t := { typeDef := .sequence 7 }) rfl trivial rfl), _, rfl⟩

/-! ### C46 output size -/

/-- Registry of `()` and `Vec<()>`. -/
def unitReg : Registry := Registry.portable [{ typeDef := .tuple [] }, { typeDef := .sequence 0 }]

/-- C46. The output is not bounded by the input: a vector of empty tuples of any
length below `2^32` is decoded from its length prefix of at most five bytes. -/
theorem decode_unbounded_output (n : Nat) (hn : n < 2 ^ 32) :
    (compactEncode n).length ≤ 5 ∧
    ∃ d, decodeAllAsType unitReg (Buf.ofBytes (compactEncode n)) 1 = .ok d ∧
      edValue d = .seq (List.replicate n (.tuple [])) := by
  constructor
  · unfold compactEncode
    split
    · simp [leBytes]
    · split
      · simp [leBytes]
      · split
        · simp [leBytes]
        · have : Nat.log2 n < 32 := (Nat.log2_lt (by omega)).2 hn
          have hl : ∀ k v, (leBytes k v).length = k := fun k v => leBytes_length k v
          simp only [List.length_cons, hl, byteLen]
          omega
  · have hu : Enc unitReg false 0 (.tuple []) [] :=
      .tuple (t := { typeDef := .tuple [] }) (ids := []) (ps := []) rfl trivial rfl (by simp) rfl (by simp)
    have he : Enc unitReg false 1 (.seq (Parts.values (List.replicate n (.tuple [], []))))
        (compactEncode (List.replicate n (Value.tuple [], ([] : Bytes))).length ++
          Parts.bytes (List.replicate n (.tuple [], []))) :=
      .sequence (t := { typeDef := .sequence 0 }) rfl trivial rfl
        ⟨_, _, _, _, .stop (t := { typeDef := .tuple [] }) rfl (fun _ => ⟨by simp, by simp⟩)⟩
        (by simpa using hn) (by
          intro x hx
          obtain ⟨_, rfl⟩ := List.mem_replicate.1 hx
          exact hu)
    have h1 : Parts.bytes (List.replicate n (Value.tuple [], ([] : Bytes))) = [] := by
      simp [Parts.bytes, List.flatMap_eq_nil_iff]
    have h2 : Parts.values (List.replicate n (Value.tuple [], ([] : Bytes))) =
        List.replicate n (.tuple []) := by simp [Parts.values]
    rw [h1, h2, List.length_replicate, List.append_nil] at he
    exact decodeAllAsType_complete
      (Example.ranked_of_check (ts := [{ typeDef := .tuple [] }, { typeDef := .sequence 0 }]) (rk := fun _ => 0)
        (by decide)).emptyArrays he

end Verif
