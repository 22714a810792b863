import Verif.Proof.Flaky
/-! Whatever the memory answers, the decoder ends with a result or an error. -/
namespace Verif
open Spec

variable {σ α β : Type} {D : Device σ} {R : Registry} {b : Buf}

/-- Memory of known size whose answers are not known. `R` and `b` stand for the sizes only. -/
structure HostileD (D : Device σ) (R : Registry) (b : Buf) : Prop where
  len : D.len = b.len
  size : D.size = R.size
  word : Fits D.word b.len
  read : ∀ pos n, Sat (D.read pos n) (fun bs => bs.length = n ∧ pos + n ≤ b.len)
  get : ∀ id, Sat (D.get id) (fun _ => id < R.size)

/-- Positions move forward, inside the data. -/
def Fwd (b : Buf) (pos q : Nat) : Prop := q = pos ∨ (pos < q ∧ q ≤ b.len)

theorem Fwd.le {pos q : Nat} (h : Fwd b pos q) : pos ≤ q := by unfold Fwd at h; omega
theorem Fwd.refl (pos : Nat) : Fwd b pos pos := .inl rfl
theorem Fwd.trans {p q r : Nat} (h : Fwd b p q) (h' : Fwd b q r) : Fwd b p r := by unfold Fwd at *; omega
theorem Fwd.of_le {p q : Nat} (h : p ≤ q) (h' : q ≤ b.len) : Fwd b p q := by unfold Fwd; omega

theorem Sat.err {e : PErr} {P : α → Prop} : Sat (σ := σ) (Dev.of (.error (.err e))) P := fun _ => .inr ⟨e, rfl⟩
theorem Sat.internal {e : RegInternal} {P : α → Prop} : Sat (σ := σ) (Dev.of (failInternal e)) P := fun _ => .inr ⟨_, rfl⟩
theorem Sat.andThen {x : Dev σ α} {k : α → Dev σ β} {Q : β → Prop} {P : α → Prop} (hx : Sat x P)
    (hk : ∀ a, P a → Sat (k a) Q) : Sat (Dev.bind x k) Q := Sat.bind hx hk

theorem Sat.swallow {x : Dev σ α} {P : α → Prop} (h : Sat x P) : Sat (swallowD x) (fun o => ∀ a, o = some a → P a) := by
  intro s
  left
  have hs := h s
  unfold swallowD
  rcases hx : x s with ⟨o, s'⟩
  rw [hx] at hs
  rcases hs with ⟨a, rfl, ha⟩ | ⟨e, rfl⟩
  · exact ⟨_, rfl, fun a' h' => by cases h'; exact ha⟩
  · exact ⟨_, rfl, fun a' h' => by cases h'⟩

theorem Sat.any {r : Res α} (hf : Fine r) : Sat (σ := σ) (Dev.of r) (fun _ => True) := Sat.of hf (fun _ _ => trivial)

theorem HostileD.add (H : HostileD D R b) {pos n : Nat} (h : pos + n ≤ b.len) : D.add pos n = Dev.of (.ok (pos + n)) := by
  have := H.word.room
  unfold Device.add
  rw [word_add (by omega)]

theorem HostileD.move (H : HostileD D R b) {pos n : Nat} (h : pos + n ≤ b.len) {k : Nat → Dev σ α} {P : α → Prop}
    (hk : Sat (k (pos + n)) P) : Sat (D.add pos n >>= k) P := by
  rw [H.add h]; exact hk

theorem HostileD.u32 (H : HostileD D R b) {n : Nat} (h : n < 2 ^ 32) : D.word.ofU32 n = n :=
  Nat.mod_eq_of_lt (Nat.lt_of_lt_of_le h H.word.words)

/-! ### Leaves -/

theorem readByteD_safe (H : HostileD D R b) (pos : Nat) : Sat (D.readByte pos) (fun _ => pos + 1 ≤ b.len) := by
  refine Sat.bind (H.read pos 1) (fun x hx => ?_)
  match x, hx.1 with
  | [y], _ => exact Sat.ok hx.2

theorem compactUInt_lt {w : UW} {h : Bytes} {v : Nat} (hd : compactUInt w h = some v) : v < 2 ^ (8 * w.bytes) := by
  unfold compactUInt at hd
  cases hc : compactDecode w h with
  | none => rw [hc] at hd; cases hd
  | some r => obtain ⟨v', rest⟩ := r; rw [hc] at hd; cases hd; exact (compactDecode_sound hc).1

/-- What a found compact is: some bytes decode to it. -/
def FoundSafe (dec : Bytes → Option Nat) (b : Buf) (pos : Nat) (f : FoundCompact) : Prop :=
  pos < f.startNextUnit ∧ f.startNextUnit ≤ b.len ∧ ∃ h, dec h = some f.compact

theorem findCompactLoopD_safe (H : HostileD D R b) (dec : Bytes → Option Nat) (pos left : Nat) : ∀ i,
    Sat (findCompactLoopD D dec pos left i) (fun o => ∀ f, o = some f → FoundSafe dec b pos f) := by
  induction left with
  | zero => exact fun i => Sat.ok (fun f h => by cases h)
  | succ left ih =>
    intro i
    unfold findCompactLoopD
    split
    · exact Sat.ok (fun f h => by cases h)
    · refine Sat.bind (H.read pos (i + 1)) (fun x hx => ?_)
      split
      · rename_i v hv
        rw [if_neg (by rw [H.len]; omega)]
        refine H.move (show pos + i ≤ b.len by omega) (H.move (show pos + i + 1 ≤ b.len by omega) (Sat.ok ?_))
        rintro f h
        cases h
        exact ⟨by dsimp only; omega, by dsimp only; omega, x, hv⟩
      · exact ih (i + 1)

theorem findCompactD_safe (H : HostileD D R b) (dec : Bytes → Option Nat) (pos : Nat) :
    Sat (findCompactD D dec pos) (FoundSafe dec b pos) := by
  unfold findCompactD
  split
  · exact Sat.err
  · refine Sat.bind (findCompactLoopD_safe H dec pos _ _) (fun o ho => ?_)
    split
    · exact Sat.ok (ho _ rfl)
    · exact Sat.err

theorem getCompactD_safe (H : HostileD D R b) (dec : Bytes → Option Nat) (pos : Nat) :
    Sat (getCompactD D dec pos) (fun r => pos < r.2 ∧ r.2 ≤ b.len ∧ ∃ h, dec h = some r.1) :=
  Sat.bind (findCompactD_safe H dec pos) (fun _ hf => Sat.ok hf)

theorem cut_safe (H : HostileD D R b) (pos n : Nat) (k : Bytes → Nat → Dev σ (α × Nat)) (P : α × Nat → Prop)
    (hk : ∀ x q, x.length = n → q = pos + n → q ≤ b.len → Sat (k x q) P) :
    Sat (D.read pos n >>= fun x => D.add pos n >>= fun q => k x q) P :=
  Sat.bind (H.read pos n) (fun _ hx => H.move hx.2 (hk _ _ hx.1 rfl hx.2))

theorem cutUIntD_safe (H : HostileD D R b) (w : UW) (pos : Nat) :
    Sat (cutUIntD D w pos) (fun r => Fwd b pos r.2 ∧ r.1 < 2 ^ (8 * w.bytes)) := by
  refine cut_safe H pos w.bytes _ _ (fun x q hx hq hl => Sat.ok ⟨Fwd.of_le (by dsimp only; omega) hl, ?_⟩)
  have := leNat_lt x
  rw [hx, pow256] at this
  exact this

theorem cutU256D_safe (H : HostileD D R b) (pos : Nat) :
    Sat (cutU256D D pos) (fun r => Fwd b pos r.2 ∧ r.1 < 2 ^ 256) := by
  refine cut_safe H pos 32 _ _ (fun x q hx hq hl => Sat.ok ⟨Fwd.of_le (by dsimp only; omega) hl, ?_⟩)
  have := leNat_lt x
  rw [hx, pow256] at this
  exact this

theorem cutIntD_safe (H : HostileD D R b) (w : IW) (pos : Nat) :
    Sat (cutIntD D w pos) (fun r => Fwd b pos r.2 ∧ InRange w.bytes r.1) := by
  refine cut_safe H pos w.bytes _ _ (fun x q hx hq hl => Sat.ok ⟨Fwd.of_le (by dsimp only; omega) hl, ?_⟩)
  exact ((eq_signedBytes_iff w.bytes_pos).1 ⟨hx, rfl⟩).1

theorem cutBoolD_safe (H : HostileD D R b) (pos : Nat) : Sat (cutBoolD D pos) (fun r => Fwd b pos r.2) := by
  refine Sat.bind (H.read pos 1) (fun x hx => ?_)
  have : Fwd b pos (pos + 1) := Fwd.of_le (by omega) hx.2
  split
  · exact H.move hx.2 (Sat.ok this)
  · split
    · exact H.move hx.2 (Sat.ok this)
    · exact Sat.err

theorem cutCharD_safe (H : HostileD D R b) (pos : Nat) : Sat (cutCharD D pos) (fun r => Fwd b pos r.2) := by
  refine Sat.bind (H.read pos 4) (fun x hx => ?_)
  rw [if_neg (by simp [hx.1])]
  split
  · exact H.move hx.2 (Sat.ok (Fwd.of_le (by dsimp only; omega) hx.2))
  · exact Sat.err

theorem cutPerD_safe (H : HostileD D R b) (k : PerKind) (pos : Nat) :
    Sat (cutPerD D k pos) (fun r => Fwd b pos r.2 ∧ r.1 ≤ k.accuracy) := by
  refine Sat.bind (H.read pos k.inner.bytes) (fun x hx => ?_)
  split
  · rename_i hle
    exact H.move hx.2 (Sat.ok ⟨Fwd.of_le (by dsimp only; omega) hx.2, hle⟩)
  · exact Sat.err

theorem cutArrayD_safe (H : HostileD D R b) (n pos : Nat) :
    Sat (cutArrayD D n pos) (fun r => Fwd b pos r.2 ∧ r.1.length = n) := by
  refine Sat.bind (H.read pos n) (fun x hx => ?_)
  rw [if_neg (by simp [hx.1])]
  exact H.move hx.2 (Sat.ok ⟨Fwd.of_le (by dsimp only; omega) hx.2, hx.1⟩)

theorem parseUIntD_safe (H : HostileD D R b) (w : UW) (pos : Nat) (s : SpecialtySet) :
    Sat (parseUIntD D w pos s) (fun r => Fwd b pos r.2 ∧ ∃ v, r.1 = .uint w v s.hint.unsignedInteger ∧
      v < 2 ^ (8 * w.bytes)) := by
  have h : Sat (if s.compactAt.isSome then getCompactD D (compactUInt w) pos else cutUIntD D w pos)
      (fun r => Fwd b pos r.2 ∧ r.1 < 2 ^ (8 * w.bytes)) := by
    split
    · exact (getCompactD_safe H _ pos).mono
        (fun r h => ⟨Fwd.of_le (by omega) h.2.1, compactUInt_lt h.2.2.choose_spec⟩)
    · exact cutUIntD_safe H w pos
  unfold parseUIntD
  dsimp only
  split
  · rename_i hc
    rw [if_pos hc] at h
    exact Sat.bind h (fun r hr => Sat.ok ⟨hr.1, r.1, rfl, hr.2⟩)
  · rename_i hc
    rw [if_neg hc] at h
    exact Sat.bind h (fun r hr => Sat.ok ⟨hr.1, r.1, rfl, hr.2⟩)

theorem compactPer_le {k : PerKind} {h : Bytes} {v : Nat} (hd : compactPer k h = some v) : v ≤ k.accuracy := by
  unfold compactPer at hd
  cases hc : compactUInt k.inner h with
  | none => rw [hc] at hd; cases hd
  | some r => rw [hc] at hd; cases hd; exact Nat.min_le_right _ _

theorem parsePerD_safe (H : HostileD D R b) (k : PerKind) (pos : Nat) (c : Option Nat) :
    Sat (parsePerD D k pos c) (fun r => Fwd b pos r.2 ∧ ∃ v, r.1 = .perThing k v ∧ v ≤ k.accuracy) := by
  have h : Sat (if c.isSome then getCompactD D (compactPer k) pos else cutPerD D k pos)
      (fun r => Fwd b pos r.2 ∧ r.1 ≤ k.accuracy) := by
    split
    · exact (getCompactD_safe H _ pos).mono
        (fun r h => ⟨Fwd.of_le (by omega) h.2.1, compactPer_le h.2.2.choose_spec⟩)
    · exact cutPerD_safe H k pos
  unfold parsePerD
  dsimp only
  split
  · rename_i hc
    rw [if_pos hc] at h
    exact Sat.bind h (fun r hr => Sat.ok ⟨hr.1, r.1, rfl, hr.2⟩)
  · rename_i hc
    rw [if_neg hc] at h
    exact Sat.bind h (fun r hr => Sat.ok ⟨hr.1, r.1, rfl, hr.2⟩)

theorem blockCompact_sat (c : Option Nat) : Sat (σ := σ) (Dev.of (blockCompact c)) (fun _ => c = none) := by
  cases c
  · exact Sat.ok rfl
  · exact Sat.internal

theorem parseFixedD_safe (H : HostileD D R b) (k : FixedKind) (pos : Nat) (c : Option Nat) :
    Sat (parseFixedD D k pos c) (fun r => Fwd b pos r.2 ∧ c = none ∧ ∃ bs, r.1 = .fixed k bs ∧ bs.length = k.len) :=
  Sat.bind (blockCompact_sat c) (fun _ hc => Sat.bind (cutArrayD_safe H k.len pos)
    (fun r hr => Sat.ok ⟨hr.1, hc, r.1, rfl, hr.2⟩))

theorem specialCaseH256D_safe (H : HostileD D R b) (pos : Nat) (s : SpecH256) :
    Sat (specialCaseH256D D pos s) (fun r => Fwd b pos r.2 ∧ ∃ bs, r.1 = h256Data s bs ∧ bs.length = 32) := by
  refine Sat.bind (cutArrayD_safe H 32 pos) (fun r hr => ?_)
  cases s <;> exact Sat.ok ⟨hr.1, r.1, rfl, hr.2⟩

theorem specialCaseEraD_safe (H : HostileD D R b) (pos : Nat) :
    Sat (specialCaseEraD D pos) (fun r => Fwd b pos r.2 ∧ ∃ x, Era.decodeAll x = some r.1) := by
  refine Sat.bind (H.read pos 1) (fun x hx => ?_)
  split
  · rename_i e he
    exact H.move hx.2 (Sat.ok ⟨Fwd.of_le (by dsimp only; omega) hx.2, x, he⟩)
  · refine Sat.bind (H.read pos 2) (fun x hx => ?_)
    split
    · rename_i e he
      exact H.move hx.2 (Sat.ok ⟨Fwd.of_le (by dsimp only; omega) hx.2, x, he⟩)
    · exact Sat.err

theorem decodeStrD_safe (H : HostileD D R b) (pos : Nat) (h : Hint) :
    Sat (decodeStrD D pos h) (fun r => Fwd b pos r.2 ∧ ∃ t, r.1 = .text t h.string ∧ (utf8 t).length < 2 ^ 32) := by
  refine Sat.bind (findCompactD_safe H _ pos) (fun f hf => ?_)
  obtain ⟨h1, h2, x, hx⟩ := hf
  have hlt : f.compact < 2 ^ 32 := compactUInt_lt hx
  dsimp only
  rw [H.u32 hlt]
  refine Sat.bind (H.read _ _) (fun y hy => ?_)
  split
  · rename_i t ht
    refine H.move hy.2 (Sat.ok ⟨Fwd.of_le (by dsimp only; omega) hy.2, t, rfl, ?_⟩)
    rw [← stringFromUtf8_iff.1 ht, hy.1]
    exact hlt
  · exact Sat.err

theorem parseIntD_safe (H : HostileD D R b) (w : IW) (pos : Nat) (c : Option Nat) :
    Sat (parseIntD D w pos c) (fun r => Fwd b pos r.2 ∧ c = none ∧ ∃ v, r.1 = .int w v ∧ InRange w.bytes v) :=
  Sat.bind (blockCompact_sat c) (fun _ hc => Sat.bind (cutIntD_safe H w pos)
    (fun r hr => Sat.ok ⟨hr.1, hc, r.1, rfl, hr.2⟩))

theorem decodePrimitiveD_safe (H : HostileD D R b) (p : Prim) (pos : Nat) (s : SpecialtySet) :
    Sat (decodePrimitiveD D p pos s) (fun r => Fwd b pos r.2 ∧ ∃ bs, PrimRel s p r.1 bs) := by
  have huint : ∀ w, uwOf p = some w → Sat (parseUIntD D w pos s) (fun r => Fwd b pos r.2 ∧ ∃ bs, PrimRel s p r.1 bs) := by
    intro w hw
    refine (parseUIntD_safe H w pos s).mono ?_
    rintro ⟨d, q⟩ ⟨h1, v, rfl, h2⟩
    exact ⟨h1, _, .uint hw h2⟩
  have hint : ∀ w, iwOf p = some w → Sat (parseIntD D w pos s.compactAt)
      (fun r => Fwd b pos r.2 ∧ ∃ bs, PrimRel s p r.1 bs) := by
    intro w hw
    refine (parseIntD_safe H w pos s.compactAt).mono ?_
    rintro ⟨d, q⟩ ⟨h1, hc, v, rfl, h2⟩
    exact ⟨h1, _, .int hw hc h2⟩
  cases p with
  | bool => exact Sat.bind (blockCompact_sat _) (fun _ hc => Sat.bind (cutBoolD_safe H pos)
      (fun r hr => Sat.ok ⟨hr, _, .bool r.1 hc⟩))
  | char => exact Sat.bind (blockCompact_sat _) (fun _ hc => Sat.bind (cutCharD_safe H pos)
      (fun r hr => Sat.ok ⟨hr, _, .char r.1 hc⟩))
  | str =>
    refine Sat.bind (Sat.of (rejectCompact_fine s) (P := fun _ => s.compactAt = none) (fun _ h => rejectCompact_ok.1 h))
      (fun _ hc => (decodeStrD_safe H pos s.hint).mono ?_)
    rintro ⟨d, q⟩ ⟨h1, t, rfl, h2⟩
    exact ⟨h1, _, .str t hc h2⟩
  | u8 => exact huint _ rfl
  | u16 => exact huint _ rfl
  | u32 => exact huint _ rfl
  | u64 => exact huint _ rfl
  | u128 => exact huint _ rfl
  | u256 => exact Sat.bind (blockCompact_sat _) (fun _ hc => Sat.bind (cutU256D_safe H pos)
      (fun r hr => Sat.ok ⟨hr.1, _, .u256 hc hr.2⟩))
  | i8 => exact hint _ rfl
  | i16 => exact hint _ rfl
  | i32 => exact hint _ rfl
  | i64 => exact hint _ rfl
  | i128 => exact hint _ rfl
  | i256 => exact hint _ rfl

/-! ### Bit sequences -/

theorem bitVecPositionsD_safe (H : HostileD D R b) (st : BitStore) (pos : Nat) :
    Sat (bitVecPositionsD D st pos) (fun r => pos ≤ r.1 ∧ r.1 = pos + r.2) := by
  refine Sat.bind (findCompactD_safe H _ pos) (fun f hf => ?_)
  obtain ⟨h1, hle, x, hx⟩ := hf
  have hc : f.compact < 2 ^ 32 := compactUInt_lt hx
  have hw := H.word.words
  have hr := H.word.room
  have hn : ceilDiv f.compact 8 ≤ 2 ^ 29 := by unfold ceilDiv; split <;> omega
  have hst := storeBytes_cases st
  have hm : ceilDiv (ceilDiv f.compact 8) st.bytes * st.bytes < 2 ^ 30 := by
    generalize ceilDiv f.compact 8 = n at hn
    unfold ceilDiv
    split <;> rcases hst with h | h | h | h <;> rw [h] <;> omega
  rw [H.u32 hc, word_ceilDiv (by omega)]
  refine (show Sat (Dev.of (D.word.ceilDiv (ceilDiv f.compact 8) st.bytes) >>= _) _ from ?_)
  rw [word_ceilDiv (by rcases hst with h | h | h | h <;> rw [h] <;> omega)]
  refine (show Sat (Dev.of (D.word.mul (ceilDiv (ceilDiv f.compact 8) st.bytes) st.bytes) >>= _) _ from ?_)
  rw [word_mul (by omega)]
  refine (show Sat (D.add f.startNextUnit (ceilDiv (ceilDiv f.compact 8) st.bytes * st.bytes) >>= _) _ from ?_)
  unfold Device.add
  rw [word_add (by omega)]
  refine (show Sat (Dev.of (D.word.sub (f.startNextUnit + ceilDiv (ceilDiv f.compact 8) st.bytes * st.bytes) pos) >>= _) _ from ?_)
  rw [word_sub (by omega)]
  exact Sat.ok ⟨by dsimp only; omega, by dsimp only; omega⟩

theorem intoBitvecDecodeD_safe (H : HostileD D R b) (st : BitStore) (pos : Nat) :
    Sat (intoBitvecDecodeD D st pos) (fun r => Fwd b pos r.2) := by
  refine Sat.bind (bitVecPositionsD_safe H st pos) (fun p hp => ?_)
  refine Sat.bind (H.read pos p.2) (fun x hx => Sat.ok (Fwd.of_le hp.1 ?_))
  dsimp only; omega

theorem bitOrderOf_fine (t : Typ) (id : Nat) : Fine (bitOrderOf t id) := by
  unfold bitOrderOf
  split
  · split
    · split
      · exact Fine.ok _
      · split
        · exact Fine.ok _
        · exact Fine.internal _
    · exact Fine.internal _
  · exact Fine.internal _

theorem decodeBitSequenceD_safe (H : HostileD D R b) (order store id pos : Nat) :
    Sat (decodeBitSequenceD D order store id pos) (fun r => Fwd b pos r.2) := by
  refine Sat.bind (P := fun _ => True) (Sat.bind (H.get order) (fun t _ => Sat.any (bitOrderOf_fine t id))) (fun o _ => ?_)
  refine Sat.bind (H.get store) (fun t _ => ?_)
  split
  · split
    · refine Sat.bind (intoBitvecDecodeD_safe H _ pos) (fun r hr => ?_)
      split
      · exact Sat.ok hr
      · exact Sat.err
    · exact Sat.internal
  · exact Sat.internal

/-! ### Types -/

theorem huskLoopD_safe (H : HostileD D R b) (n : Nat) : ∀ (ty : Typ) (id : Nat) (info : List Info) (c : Checker),
    free R c.cycleCheck < n →
    Sat (huskLoopD D n ty id info c) (fun h => free R h.checker.cycleCheck ≤ free R c.cycleCheck) := by
  induction n with
  | zero => intro ty id info c h; omega
  | succ n ih =>
    intro ty id info c h
    unfold huskLoopD
    dsimp only
    split
    · split
      · refine Sat.bind (Sat.of (checkId_fine _ _) (P := fun c' => c.checkId _ = .ok c') (fun _ h => h)) (fun c' hc => ?_)
        obtain ⟨h1, rfl⟩ := checkId_ok.1 hc
        refine Sat.bind (H.get _) (fun t ht => ?_)
        have h2 := free_append R ht h1
        refine (ih _ _ _ _ ?_).mono (fun r hr => ?_)
        · rw [hintFromField_cycle]; dsimp only; omega
        · rw [hintFromField_cycle] at hr; dsimp only at hr; omega
      · rename_i inner _
        refine Sat.bind (Sat.any (rejectCompact_fine _)) (fun _ _ => ?_)
        refine Sat.bind (Sat.of (checkId_fine _ _) (P := fun c' => ({ c with
          specialtySet := { c.specialtySet with compactAt := some id } } : Checker).checkId inner = .ok c') (fun _ h => h)) (fun c' hc => ?_)
        obtain ⟨h1, rfl⟩ := checkId_ok.1 hc
        refine Sat.bind (H.get _) (fun t ht => ?_)
        have h2 := free_append R ht h1
        refine (ih _ _ _ _ ?_).mono (fun r hr => ?_)
        · dsimp only at *; omega
        · dsimp only at *; omega
      · exact Sat.ok (Nat.le_refl _)
    · exact Sat.ok (Nat.le_refl _)

theorem huskTypeD_safe (H : HostileD D R b) (id : Nat) (c : Checker) :
    Sat (huskTypeD D id c) (fun h => free R h.checker.cycleCheck < free R c.cycleCheck) := by
  refine Sat.bind (Sat.of (checkId_fine _ _) (P := fun c' => c.checkId id = .ok c') (fun _ h => h)) (fun c' hc => ?_)
  obtain ⟨h1, rfl⟩ := checkId_ok.1 hc
  refine Sat.bind (H.get _) (fun t ht => ?_)
  have h2 := free_append R ht h1
  refine (huskLoopD_safe H _ _ _ _ _ ?_).mono (fun r hr => ?_)
  · rw [H.size]
    have := free_le R (c.cycleCheck ++ [id])
    dsimp only; omega
  · dsimp only at hr; omega

theorem pickVariantD_safe (H : HostileD D R b) (vs : List Variant) (pos : Nat) :
    Sat (pickVariantD D vs pos) (fun _ => pos + 1 ≤ b.len) := by
  refine Sat.bind (readByteD_safe H pos) (fun i hi => ?_)
  split
  · exact Sat.ok hi
  · exact Sat.err

theorem signatureIndicatorD_safe (H : HostileD D R b) (f : Field) : Sat (signatureIndicatorD D f) (fun _ => True) := by
  refine Sat.bind (huskTypeD_safe H f.ty Checker.new).swallow (fun o _ => ?_)
  split
  · exact Sat.ok trivial
  · split
    · refine Sat.bind (H.get _).swallow (fun o _ => ?_)
      split
      · exact Sat.ok trivial
      · split
        · split
          · split
            · exact Sat.ok trivial
            · split
              · exact Sat.ok trivial
              · split <;> exact Sat.ok trivial
          · exact Sat.ok trivial
        · exact Sat.ok trivial
    · exact Sat.ok trivial

theorem checkMultiSignatureD_safe (H : HostileD D R b) (ty : Typ) (pos : Nat) :
    Sat (checkMultiSignatureD D ty pos) (fun r => Fwd b pos r.2) := by
  unfold checkMultiSignatureD
  split
  · refine Sat.bind (pickVariantD_safe H _ pos).swallow (fun o ho => ?_)
    split
    · have hle := ho _ rfl
      split
      · refine Sat.bind (signatureIndicatorD_safe H _) (fun o _ => ?_)
        split
        · exact H.move hle (Sat.ok (Fwd.of_le (by dsimp only; omega) hle))
        · exact Sat.ok (Fwd.refl _)
      · exact Sat.ok (Fwd.refl _)
    · exact Sat.ok (Fwd.refl _)
  · exact Sat.ok (Fwd.refl _)

theorem checkPalletSpecificD_safe (H : HostileD D R b) (item : PalletItem) (ty : Typ) (pos : Nat) :
    Sat (checkPalletSpecificD D item ty pos) (fun r => Fwd b pos r.2) := by
  unfold checkPalletSpecificD
  split
  · refine Sat.bind (pickVariantD_safe H _ pos).swallow (fun o ho => ?_)
    split
    · have hle := ho _ rfl
      split
      · refine Sat.bind (H.get _).swallow (fun o _ => ?_)
        split
        · split
          · split
            · exact Sat.ok (Fwd.refl _)
            · split
              · exact H.move hle (Sat.ok (Fwd.of_le (by dsimp only; omega) hle))
              · exact Sat.ok (Fwd.refl _)
          · exact Sat.ok (Fwd.refl _)
        · exact Sat.ok (Fwd.refl _)
      · exact Sat.ok (Fwd.refl _)
    · exact Sat.ok (Fwd.refl _)
  · exact Sat.ok (Fwd.refl _)

theorem fromTypeD_safe (H : HostileD D R b) (ty : Typ) (pos : Nat) :
    Sat (fromTypeD D ty pos) (fun r => Fwd b pos r.2) := by
  unfold fromTypeD
  split
  · exact Sat.ok (Fwd.refl _)
  · exact Sat.ok (Fwd.refl _)
  · exact Sat.ok (Fwd.refl _)
  · exact Sat.ok (Fwd.refl _)
  · exact checkMultiSignatureD_safe H ty pos
  · exact checkPalletSpecificD_safe H _ ty pos
  · exact Sat.ok (Fwd.refl _)
  · exact Sat.ok (Fwd.refl _)

/-! ### Recursion -/

/-- Recursive calls: below the bound, or for a type that does not exist. -/
structure RecSafe (R : Registry) (b : Buf) (rec : DecD σ) (m : Nat) : Prop where
  symbol : ∀ id pos p, (measure R b pos p.checker < m ∨ ¬ id < R.size) →
    Sat (rec (.symbol id) pos p) (fun r => Fwd b pos r.2)
  resolved : ∀ ty id pos p, measure R b pos p.checker < m →
    Sat (rec (.resolved ty id) pos p) (fun r => Fwd b pos r.2)

variable {rec : DecD σ} {m : Nat}

theorem decodeFieldsLoopD_safe (hr : RecSafe R b rec m) (c : Checker) (fs : List Field) :
    ∀ pos, measure R b pos c < m + 1 → Sat (decodeFieldsLoopD rec c fs pos) (fun r => Fwd b pos r.2) := by
  induction fs with
  | nil => exact fun pos _ => Sat.ok (Fwd.refl _)
  | cons f fs ih =>
    intro pos hm
    refine Sat.bind (Sat.of (forField_fine c f) (P := fun p => Propagated.forField c f = .ok p) (fun a h => h))
      (fun p hp => ?_)
    obtain ⟨h1, h2, _⟩ := forField_ok hp
    refine Sat.bind (hr.symbol f.ty pos p ?_) (fun d hd => ?_)
    · by_cases ht : f.ty < R.size
      · left
        have := free_append R ht h1
        unfold measure at hm ⊢
        rw [h2]; omega
      · exact .inr ht
    · refine Sat.bind (ih d.2 ?_) (fun l hl => Sat.ok (hd.trans hl))
      have := measure_mono (R := R) (b := b) c hd.le
      omega

theorem decodeFieldsD_safe (hr : RecSafe R b rec m) (fs : List Field) (pos : Nat) (c : Checker)
    (hm : measure R b pos c < m + 1) : Sat (decodeFieldsD rec fs pos c) (fun r => Fwd b pos r.2) := by
  unfold decodeFieldsD
  split
  · exact Sat.bind (Sat.any (rejectCompact_fine _)) (fun _ _ => decodeFieldsLoopD_safe hr c.forgetHint fs pos hm)
  · exact decodeFieldsLoopD_safe hr c fs pos hm

theorem decodeElementsLoopD_safe (hr : RecSafe R b rec m) (h : HuskedType) (n : Nat) :
    ∀ pos, measure R b pos h.checker < m → Sat (decodeElementsLoopD rec h n pos) (fun r => Fwd b pos r.2) := by
  induction n with
  | zero => exact fun pos _ => Sat.ok (Fwd.refl _)
  | succ n ih =>
    intro pos hm
    refine Sat.bind (hr.resolved _ _ pos _ hm) (fun d hd => ?_)
    refine Sat.bind (ih d.2 ?_) (fun l hl => Sat.ok (hd.trans hl))
    have := measure_mono (R := R) (b := b) h.checker hd.le
    omega

theorem decodeElementsSetD_safe (H : HostileD D R b) (hr : RecSafe R b rec m) (elem n pos : Nat)
    (p : Propagated) (hm : measure R b pos p.checker < m + 1) :
    Sat (decodeElementsSetD D rec elem n pos p) (fun r => Fwd b pos r.2) := by
  refine Sat.bind (Sat.any (rejectCompact_fine _)) (fun _ _ => ?_)
  refine Sat.bind (huskTypeD_safe H elem p.checker) (fun h hh => ?_)
  split
  · exact Sat.ok (Fwd.refl _)
  · refine Sat.bind (decodeElementsLoopD_safe hr h n pos ?_) (fun l hl => ?_)
    · unfold measure at *; omega
    · split <;> exact Sat.ok hl

theorem decodeVariantD_safe (H : HostileD D R b) (hr : RecSafe R b rec m) (vs : List Variant) (pos : Nat)
    (c : Checker) (hm : measure R b pos c < m + 1) : Sat (decodeVariantD D rec vs pos) (fun r => Fwd b pos r.2.2) := by
  refine Sat.bind (pickVariantD_safe H vs pos) (fun v hle => ?_)
  have hd := measure_drop (R := R) c Checker.new (show pos < pos + 1 by omega) hle
  refine H.move hle (Sat.bind (decodeFieldsD_safe hr v.fields (pos + 1) Checker.new (by omega)) (fun r h => ?_))
  exact Sat.ok (Fwd.trans (Fwd.of_le (by omega) hle) h)

theorem decodeTupleLoopD_safe (H : HostileD D R b) (hr : RecSafe R b rec m) (c : Checker) (ids : List Nat) :
    ∀ pos, measure R b pos c < m + 1 → Sat (decodeTupleLoopD D rec c ids pos) (fun r => Fwd b pos r.2) := by
  induction ids with
  | nil => exact fun pos _ => Sat.ok (Fwd.refl _)
  | cons id ids ih =>
    intro pos hm
    refine Sat.bind (H.get id) (fun t ht => ?_)
    refine Sat.bind (Sat.of (forTy_fine c t id) (P := fun p => Propagated.forTy c t id = .ok p) (fun a h => h))
      (fun p hp => ?_)
    obtain ⟨h1, h2, _⟩ := forTy_ok hp
    refine Sat.bind (hr.resolved t id pos p ?_) (fun d hd => ?_)
    · have := free_append R ht h1
      unfold measure at hm ⊢
      rw [h2]; omega
    · refine Sat.bind (ih d.2 ?_) (fun l hl => Sat.ok (hd.trans hl))
      have := measure_mono (R := R) (b := b) c hd.le
      omega

theorem withInfoD_safe {x : Dev σ (PD × Nat)} {pos : Nat} (info : List Info) (h : Sat x (fun r => Fwd b pos r.2)) :
    Sat (withInfoD info x) (fun r => Fwd b pos r.2) :=
  Sat.bind h (fun _ hp => Sat.ok hp)

theorem decodeTypeDefD_safe (H : HostileD D R b) (hr : RecSafe R b rec m) (ty : Typ) (id pos : Nat)
    (p : Propagated) (hm : measure R b pos p.checker < m + 1) :
    Sat (decodeTypeDefD D rec ty id pos p) (fun r => Fwd b pos r.2) := by
  have hrej : Sat (σ := σ) (Dev.of p.rejectCompact) (fun _ => True) := Sat.any (rejectCompact_fine _)
  unfold decodeTypeDefD
  cases ty.typeDef with
  | composite fields => exact Sat.bind (decodeFieldsD_safe hr fields pos p.checker hm) (fun r h => Sat.ok h)
  | variant vs =>
    refine Sat.bind hrej (fun _ _ => ?_)
    split
    · exact Sat.ok (Fwd.refl _)
    · exact Sat.bind (decodeVariantD_safe H hr vs pos p.checker hm) (fun r h => Sat.ok h)
  | sequence elem =>
    refine Sat.bind (getCompactD_safe H (compactUInt .u32) pos) (fun r h => ?_)
    have hdrop := measure_drop (R := R) p.checker p.checker.dropCycleCheck h.1 h.2.1
    refine (decodeElementsSetD_safe H hr elem r.1 r.2 { p with checker := p.checker.dropCycleCheck }
      (by dsimp only; omega)).mono (fun r' h' => ?_)
    exact Fwd.trans (Fwd.of_le (by omega) h.2.1) h'
  | array len elem => exact decodeElementsSetD_safe H hr elem len pos p hm
  | tuple ids =>
    have hfine : Fine (if 1 < ids.length then (p.rejectCompact >>= fun _ => .ok p.forgetHint) else .ok p) := by
      split
      · exact Fine.bind (rejectCompact_fine _) (fun _ _ => Fine.ok _)
      · exact Fine.ok _
    refine Sat.bind (Sat.of hfine (P := fun p' => p'.checker.cycleCheck = p.checker.cycleCheck) ?_) (fun p' hp' => ?_)
    · intro a h
      split at h
      · obtain ⟨_, h1, h2⟩ := bind_ok.1 h
        cases h2
        rfl
      · cases h; rfl
    · refine Sat.bind (decodeTupleLoopD_safe H hr p'.checker ids pos ?_) (fun r h => Sat.ok h)
      unfold measure at *; rw [hp']; exact hm
  | primitive pr => exact withInfoD_safe p.info ((decodePrimitiveD_safe H pr pos _).mono (fun r h => h.1))
  | compact inner =>
    refine Sat.bind hrej (fun _ _ => ?_)
    refine Sat.bind (Sat.of (checkId_fine _ _) (P := fun c => (compactChecker p.checker id).checkId inner = .ok c)
      (fun a h => h)) (fun c hck => ?_)
    obtain ⟨h1, rfl⟩ := checkId_ok.1 hck
    refine hr.symbol inner pos _ ?_
    by_cases ht : inner < R.size
    · left
      have := free_append R ht h1
      unfold measure at hm ⊢
      dsimp only [compactChecker] at *
      omega
    · exact .inr ht
  | bitSequence order store =>
    exact Sat.bind hrej (fun _ _ => withInfoD_safe p.info (decodeBitSequenceD_safe H order store id pos))

theorem decodeStepD_safe (H : HostileD D R b) (hr : RecSafe R b rec m) (ty : Typ) (id pos : Nat)
    (p : Propagated) (hm : measure R b pos p.checker < m + 1) :
    Sat (fromTypeD D ty pos >>= fun r => decodeCheckedD D rec r.1 ty id r.2 (p.addInfo (Info.fromTy ty)))
      (fun r => Fwd b pos r.2) := by
  refine Sat.bind (fromTypeD_safe H ty pos) (fun r h => ?_)
  have hck := addInfo_checker p (Info.fromTy ty)
  generalize p.addInfo (Info.fromTy ty) = p' at hck
  rw [← hck] at hm
  have hm' : measure R b r.2 p'.checker < m + 1 := by
    have := measure_mono (R := R) (b := b) p'.checker h.le
    omega
  have hrej : Sat (σ := σ) (Dev.of p'.rejectCompact) (fun _ => True) := Sat.any (rejectCompact_fine _)
  refine Sat.mono (P := fun x => Fwd b r.2 x.2) ?_ (fun x hx => h.trans hx)
  unfold decodeCheckedD
  split
  · exact decodeTypeDefD_safe H hr ty id r.2 p' hm'
  · exact withInfoD_safe p'.info ((parseFixedD_safe H _ _ _).mono (fun x h => h.1))
  · exact Sat.bind hrej (fun _ _ => Sat.bind (specialCaseEraD_safe H r.2) (fun x h => Sat.ok h.1))
  · exact Sat.bind hrej (fun _ _ => withInfoD_safe p'.info ((specialCaseH256D_safe H r.2 _).mono (fun x h => h.1)))
  · exact Sat.bind hrej (fun _ _ => Sat.bind (decodeVariantD_safe H hr _ r.2 p'.checker hm') (fun x h => Sat.ok h))
  · exact withInfoD_safe p'.info ((parsePerD_safe H _ _ _).mono (fun x h => h.1))

theorem decodeFD_safe (H : HostileD D R b) (n : Nat) : RecSafe R b (decodeFD D (n + 1)) n := by
  induction n with
  | zero =>
    refine ⟨fun id pos p h => ?_, fun ty id pos p h => absurd h (Nat.not_lt_zero _)⟩
    rcases h with h | h
    · exact absurd h (Nat.not_lt_zero _)
    · refine Sat.bind (P := fun _ => False) (Sat.bind (H.get id) (fun _ hl => absurd hl h)) (fun _ hf => hf.elim)
  | succ n ih =>
    refine ⟨fun id pos p h => ?_, fun ty id pos p h => ?_⟩
    · rcases h with h | h
      · exact Sat.bind (P := fun _ => True) (Sat.bind (H.get id) (fun _ _ => Sat.ok trivial))
          (fun t _ => decodeStepD_safe H ih t.1 t.2 pos p h)
      · exact Sat.bind (P := fun _ => False) (Sat.bind (H.get id) (fun _ hl => absurd hl h)) (fun _ hf => hf.elim)
    · exact Sat.bind (P := fun t => t = (ty, id)) (Sat.ok rfl) (fun t ht => by subst ht; exact decodeStepD_safe H ih ty id pos p h)

theorem decodeD_safe (H : HostileD D R b) (id pos : Nat) (p : Propagated) :
    Sat (decodeD D (.symbol id) pos p) (fun r => Fwd b pos r.2) := by
  unfold decodeD
  rw [H.len, H.size]
  exact (decodeFD_safe H (((b.len - pos) * (R.size + 1) + R.size) + 1)).symbol id pos p
    (.inl (by have := measure_le (R := R) (b := b) pos p.checker; unfold depthBound at this; omega))

end Verif
