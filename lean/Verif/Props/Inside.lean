import Verif.Proof.Touched
import Verif.Props.Shift
/-!
# C72: the consumed bytes are read, all of them and no others

Data that decode go on to decode, into the same value with the same end, on a memory that
answers nothing but requests inside the consumed range: no byte before the position or after
the end is needed. (The single read that may go further, the look at the index byte of an
enum without variants, does not influence the outcome.) And each of the
consumed bytes is needed: if the memory does not give it out, there is no value.
-/
namespace Verif
open Spec

variable {R : Registry} {b b' : Buf}

/-- **C72.** Requests outside of the consumed range may fail. -/
theorem decode_reads_inside {id pos q : Nat} {d : ED} (h : decodeAsTypeAtPosition R b id pos = .ok (d, q))
    (ha : Answers pos q b b') : decodeAsTypeAtPosition R b' id pos = .ok (d, q) :=
  (decode_inside ha (.symbol id) pos Propagated.new (Nat.le_refl _) d q h).2 (Nat.le_refl _)

/-- **C72.** In one direction the memory can only get better: a value decoded with failures
outside of the range is the value of the bytes. -/
theorem decode_reads_inside_reliable {id pos q : Nat} {d : ED} (h : decodeAsTypeAtPosition R b id pos = .ok (d, q)) :
    decodeAsTypeAtPosition R (Buf.ofBytes b.bytes) id pos = .ok (d, q) :=
  decode_reads_inside h ⟨rfl, fun _ _ _ _ => rfl⟩

/-! ### Transactions -/

variable {ME : Type} {M : Metadata ME}

theorem mapErr_isOk {ε α : Type} {f : PErr → ε} {r : Res α} {a : α} :
    Res.mapErr f r = .ok a ↔ r = .ok a := by
  constructor
  · intro h
    cases r with
    | ok x => cases h; rfl
    | error e => cases e <;> cases h
  · intro h; rw [h]; rfl

/-- **C72** for `decode_as_call_unmarked`. -/
theorem call_reads_inside {pos q : Nat} {c : Call} (h : decodeAsCallUnmarked M b pos = .ok (c, q))
    (ha : Answers pos q b b') : decodeAsCallUnmarked M b' pos = .ok (c, q) := by
  unfold decodeAsCallUnmarked at h ⊢
  obtain ⟨id, h1, h2⟩ := ebind_ok.1 h
  obtain ⟨⟨d, q1⟩, h3, h4⟩ := ebind_ok.1 h2
  rw [mapErr_isOk] at h3
  rw [h1, eok_bind]
  dsimp only at h4
  cases hc : d.data.asCall with
  | none => rw [hc] at h4; cases h4
  | some c' =>
    rw [hc] at h4
    cases h4
    rw [show decode M.types b' (.symbol id) pos Propagated.new = .ok (d, q) from decode_reads_inside h3 ha]
    show (match d.data.asCall with | some call => _ | none => _) = _
    rw [hc]

/-- **C72** for `decode_as_call`: the call of a signable transaction needs neither the length
before it nor a byte of the extensions. -/
theorem marked_call_reads_inside {m : Marked} {c : Call} (h : decodeAsCall M m = .ok c)
    (ha : Answers m.callStart m.extensionsStart m.data b') : decodeAsCall M { m with data := b' } = .ok c := by
  unfold decodeAsCall at h ⊢
  obtain ⟨x, h1, h2⟩ := ebind_ok.1 h
  obtain ⟨⟨c', q⟩, h3, h4⟩ := ebind_ok.1 h2
  unfold Marked.dataNoExtensions Buf.limitLength at h1 ⊢
  have hl : b'.len = m.data.len := by unfold Buf.len; rw [ha.data]
  dsimp only
  rw [hl]
  by_cases hlen : m.data.len < m.extensionsStart
  · rw [if_pos hlen] at h1; cases h1
  · rw [if_neg hlen] at h1 ⊢
    cases h1
    dsimp only at h4 ⊢
    rw [eok_bind]
    by_cases hq : q ≠ m.extensionsStart
    · rw [if_pos hq] at h4; cases h4
    · rw [if_neg hq] at h4
      cases h4
      have hq : q = m.extensionsStart := Classical.not_not.1 hq
      subst hq
      have : decodeAsCallUnmarked M { b' with bytes := b'.bytes.take m.extensionsStart } m.callStart
          = .ok (c, m.extensionsStart) :=
        call_reads_inside h3 ⟨by simp only [ha.data], ha.fault⟩
      rw [this, eok_bind]
      exact if_neg (fun h => h rfl)

theorem extensionsLoop_inside {lo hi : Nat} (ha : Answers lo hi b b') (sel : SignedExt → Nat) (es : List SignedExt) :
    ∀ {pos q : Nat} {ds : List ED}, lo ≤ pos → extensionsLoop (ME := ME) R b sel es pos = .ok (ds, q) →
      pos ≤ q ∧ (q ≤ hi → extensionsLoop (ME := ME) R b' sel es pos = .ok (ds, q)) := by
  induction es with
  | nil => intro pos q ds _ h; cases h; exact ⟨Nat.le_refl _, fun _ => rfl⟩
  | cons e es ih =>
    intro pos q ds hlo h
    unfold extensionsLoop at h ⊢
    obtain ⟨⟨d, q1⟩, h1, h2⟩ := ebind_ok.1 h
    obtain ⟨⟨ds', q2⟩, h3, h4⟩ := ebind_ok.1 h2
    cases h4
    rw [mapErr_isOk] at h1
    obtain ⟨g1, g2⟩ := decode_inside ha _ pos _ hlo d q1 h1
    obtain ⟨k1, k2⟩ := ih (Nat.le_trans hlo g1) h3
    refine ⟨Nat.le_trans g1 k1, fun hq => ?_⟩
    rw [g2 (Nat.le_trans k1 hq), show (Res.mapErr SErr.parsing (.ok (d, q1)) : SRes ME (ED × Nat)) = .ok (d, q1) from rfl,
      eok_bind]
    dsimp only
    rw [k2 hq]
    rfl

/-- **C72** for the extensions: nothing before them is read. -/
theorem extensions_reads_inside {pos : Nat} {g : Option Bytes} {exts : List ED}
    (h : decodeExtensionsUnmarked M b pos g = .ok exts) (ha : Answers pos b.bytes.length b b') :
    decodeExtensionsUnmarked M b' pos g = .ok exts := by
  unfold decodeExtensionsUnmarked at h ⊢
  obtain ⟨signed, h1, h⟩ := ebind_ok.1 h
  obtain ⟨⟨first, q1⟩, h2, h⟩ := ebind_ok.1 h
  obtain ⟨⟨second, q2⟩, h3, h⟩ := ebind_ok.1 h
  obtain ⟨g1, g2⟩ := extensionsLoop_inside ha _ _ (Nat.le_refl _) h2
  obtain ⟨k1, k2⟩ := extensionsLoop_inside ha _ _ g1 h3
  have hl : b'.len = b.len := by unfold Buf.len; rw [ha.data]
  dsimp only at h k2 ⊢
  by_cases hq : q2 ≠ b.len
  · rw [if_pos hq] at h; cases h
  · have hq2 : q2 ≤ b.bytes.length := Nat.le_of_eq (Classical.not_not.1 hq)
    rw [h1, eok_bind, g2 (Nat.le_trans k1 hq2), eok_bind]
    dsimp only
    rw [k2 hq2, eok_bind]
    dsimp only
    rw [hl]
    exact h

/-- **C72** for `decode_extensions`: a transaction's extensions are checked and shown without a
read in the call. -/
theorem marked_extensions_reads_inside {m : Marked} {g : Option Bytes} {exts : List ED}
    (h : decodeExtensions M m g = .ok exts) (ha : Answers m.extensionsStart m.data.bytes.length m.data b') :
    decodeExtensions M { m with data := b' } g = .ok exts :=
  extensions_reads_inside h ha

/-! ### Every consumed byte -/

variable {j : Nat}

/-- **C72.** No value is shown for a byte that was not read. -/
theorem decode_reads_every_byte (hj : Blocked j b) {id pos q : Nat} {d : ED}
    (h : decodeAsTypeAtPosition R b id pos = .ok (d, q)) : j < pos ∨ q ≤ j :=
  (decode_touched hj (.symbol id) pos Propagated.new d q h).2

theorem decodeAll_reads_every_byte (hj : Blocked j b) {id : Nat} {d : ED}
    (h : decodeAllAsType R b id = .ok d) : b.bytes.length ≤ j := by
  unfold decodeAllAsType at h
  obtain ⟨⟨d', q⟩, h1, h2⟩ := bind_ok.1 h
  have := decode_reads_every_byte hj h1
  dsimp only at h2
  split at h2
  · cases h2
  · rename_i hq
    have hq : q = b.bytes.length := Classical.not_not.1 hq
    omega

/-- **C72** for `decode_as_call_unmarked`. -/
theorem call_reads_every_byte (hj : Blocked j b) {pos q : Nat} {c : Call}
    (h : decodeAsCallUnmarked M b pos = .ok (c, q)) : j < pos ∨ q ≤ j := by
  unfold decodeAsCallUnmarked at h
  obtain ⟨id, h1, h2⟩ := ebind_ok.1 h
  obtain ⟨⟨d, q1⟩, h3, h4⟩ := ebind_ok.1 h2
  rw [mapErr_isOk] at h3
  have := decode_reads_every_byte hj h3
  dsimp only at h4
  cases hc : d.data.asCall with
  | none => rw [hc] at h4; cases h4
  | some c' => rw [hc] at h4; cases h4; exact this

theorem extensionsLoop_touched (hj : Blocked j b) (sel : SignedExt → Nat) (es : List SignedExt) :
    ∀ {pos q : Nat} {ds : List ED}, extensionsLoop (ME := ME) R b sel es pos = .ok (ds, q) →
      pos ≤ q ∧ (j < pos ∨ q ≤ j) := by
  induction es with
  | nil => intro pos q ds h; cases h; exact ⟨Nat.le_refl _, by omega⟩
  | cons e es ih =>
    intro pos q ds h
    unfold extensionsLoop at h
    obtain ⟨⟨d, q1⟩, h1, h2⟩ := ebind_ok.1 h
    obtain ⟨⟨ds', q2⟩, h3, h4⟩ := ebind_ok.1 h2
    cases h4
    rw [mapErr_isOk] at h1
    have g := decode_touched hj _ pos _ d q1 h1
    have k := ih h3
    omega

/-- **C72** for the extensions: every byte from their start on. -/
theorem extensions_reads_every_byte (hj : Blocked j b) {pos : Nat} {g : Option Bytes} {exts : List ED}
    (h : decodeExtensionsUnmarked M b pos g = .ok exts) : j < pos ∨ b.bytes.length ≤ j := by
  unfold decodeExtensionsUnmarked at h
  obtain ⟨signed, h1, h⟩ := ebind_ok.1 h
  obtain ⟨⟨first, q1⟩, h2, h⟩ := ebind_ok.1 h
  obtain ⟨⟨second, q2⟩, h3, h⟩ := ebind_ok.1 h
  have g := extensionsLoop_touched hj _ _ h2
  have k := extensionsLoop_touched hj _ _ h3
  dsimp only at h k
  by_cases hq : q2 ≠ b.len
  · rw [if_pos hq] at h; cases h
  · have hq2 : q2 = b.bytes.length := Classical.not_not.1 hq
    omega

theorem mark_reads (hj : Blocked j b) {m : Marked} (h : mark (ME := ME) b = .ok m) :
    m.data = b ∧ m.extensionsStart ≤ j := by
  unfold mark cut at h
  obtain ⟨⟨n, q⟩, h1, h2⟩ := ebind_ok.1 h
  obtain ⟨s, h3, h4⟩ := ebind_ok.1 h2
  cases h4
  rw [mapErr_isOk] at h1 h3
  have := getCompact_touched hj _ _ _ h1
  have := hj.read h3
  exact ⟨rfl, by dsimp only; omega⟩

/-- **C72** for whole transactions: shown, with their call or with the error of their call, only
if every byte was read. -/
theorem parseTransaction_reads_every_byte (hj : Blocked j b) {g : Option Bytes} {t : TransactionParsed ME}
    (h : parseTransaction M b g = .ok t) : b.bytes.length ≤ j := by
  unfold parseTransaction at h
  obtain ⟨m, h1, h⟩ := ebind_ok.1 h
  obtain ⟨exts, h2, h⟩ := ebind_ok.1 h
  obtain ⟨g1, g2⟩ := mark_reads hj h1
  have := extensions_reads_every_byte (g1 ▸ hj) h2
  rw [g1] at this
  omega

theorem parseTransactionUnmarked_reads_every_byte (hj : Blocked j b) {g : Option Bytes} {t : TransactionUnmarkedParsed}
    (h : parseTransactionUnmarked M b g = .ok t) : b.bytes.length ≤ j := by
  unfold parseTransactionUnmarked at h
  obtain ⟨⟨c, q⟩, h1, h⟩ := ebind_ok.1 h
  obtain ⟨exts, h2, h⟩ := ebind_ok.1 h
  have g1 := call_reads_every_byte hj h1
  have g2 := extensions_reads_every_byte hj h2
  omega

/-! ### Instances -/

/-- Memory that answers in a range only. -/
def only (lo hi : Nat) (bs : Bytes) : Buf := ⟨bs, fun p n => !(lo ≤ p && p + n ≤ hi)⟩

theorem only_answers (lo hi : Nat) (bs : Bytes) : Answers lo hi (Buf.ofBytes bs) (only lo hi bs) where
  data := rfl
  fault := fun p n h1 h2 => by simp [only, h1, h2]

theorem only_blocked {lo hi : Nat} {bs : Bytes} (h : j < lo ∨ hi ≤ j) : Blocked j (only lo hi bs) := by
  intro p n h1 h2
  simp only [only, Bool.not_eq_true', Bool.and_eq_false_iff, decide_eq_false_iff_not]
  omega

/-- A struct among other data: no other byte is needed, one byte less is not enough. -/
example : (decodeAsTypeAtPosition Example.reg (Buf.ofBytes ([1, 2] ++ Example.sBytes ++ [3])) 4 2).toOption.map (·.2) = some 8 ∧
    (decodeAsTypeAtPosition Example.reg (only 2 8 ([1, 2] ++ Example.sBytes ++ [3])) 4 2).toOption.map (·.2) = some 8 ∧
    (decodeAsTypeAtPosition Example.reg (only 2 7 ([1, 2] ++ Example.sBytes ++ [3])) 4 2).toOption.isNone = true ∧
    (decodeAsTypeAtPosition Example.reg (only 3 8 ([1, 2] ++ Example.sBytes ++ [3])) 4 2).toOption.isNone = true := by
  decide +kernel

/-- The extensions of the sample transaction, from a memory that holds back the call. -/
example : (decodeExtensionsUnmarked Example.chain
      (only (1 + Example.callBytes.length) Example.payload.bytes.length Example.payload.bytes)
      (1 + Example.callBytes.length) none).toOption.isSome = true := rfl

/-- Its call, from a memory that holds back all else. -/
example : (decodeAsCallUnmarked Example.chain
      (only 1 (1 + Example.callBytes.length) Example.payload.bytes) 1).toOption.isSome = true := rfl

end Verif
