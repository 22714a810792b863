import Verif.Spec.Device
import Verif.Proof.Fuel
/-! The decoder on a device, compared with the decoder on fixed memory. -/
namespace Verif
open Spec

variable {σ α β : Type} {E : Fail → Prop} {D : Device σ} {R : Registry} {b : Buf}

/-- In every state the outcome is an error admitted by `E`, or `r`. -/
def Follows (E : Fail → Prop) (x : Dev σ α) (r : Res α) : Prop :=
  ∀ s, (∃ e, E e ∧ (x s).1 = .error e) ∨ (x s).1 = r

theorem Follows.of (r : Res α) : Follows (σ := σ) E (Dev.of r) r := fun _ => .inr rfl

theorem Follows.bind {x : Dev σ α} {r : Res α} {k : α → Dev σ β} {g : α → Res β}
    (hx : Follows E x r) (hk : ∀ a, r = .ok a → Follows E (k a) (g a)) :
    Follows E (x >>= k) (r >>= g) := by
  intro s
  show (∃ e, E e ∧ (Dev.bind x k s).1 = .error e) ∨ (Dev.bind x k s).1 = _
  have h := hx s
  unfold Dev.bind
  rcases hxs : x s with ⟨o, s'⟩
  rw [hxs] at h
  cases o with
  | error e =>
    rcases h with ⟨e', he, h⟩ | h
    · cases h; exact .inl ⟨_, he, rfl⟩
    · dsimp only at h; subst h; exact .inr rfl
  | ok a =>
    rcases h with ⟨e', he, h⟩ | h
    · cases h
    · dsimp only at h; subst h; exact hk a rfl s'

/-- The bodies agree. -/
theorem Follows.bind' {x : Dev σ α} {r : Res α} {k : α → Dev σ β} {g : α → Res β}
    (hx : Follows E x r) (hk : ∀ a, Follows E (k a) (g a)) : Follows E (x >>= k) (r >>= g) :=
  hx.bind (fun a _ => hk a)

/-- Access to the memory follows the truth, but for errors in `E`. -/
structure HonestD (E : Fail → Prop) (D : Device σ) (R : Registry) (b : Buf) : Prop where
  len : D.len = b.len
  size : D.size = R.size
  word : Fits D.word b.len
  read : ∀ pos n, Follows E (D.read pos n) (b.readSlice pos n)
  get : ∀ id, Follows E (D.get id) (R.get id)

/-- The memory's own error. -/
abbrev External (e : Fail) : Prop := MemoryError e

theorem Spec.Flaky.honest {data : Bytes} (h : Flaky D R data) : HonestD External D R (Buf.ofBytes data) where
  len := h.len
  size := h.size
  word := by have := h.word; rw [h.len] at this; exact this
  read := fun pos n s => by
    rcases h.read pos n s with h | h
    · exact .inr h
    · exact .inl ⟨_, .inl rfl, h⟩
  get := fun id s => by
    unfold Device.get Registry.get
    have := h.resolve id s
    rcases hr : D.resolve id s with ⟨o, s'⟩
    rw [hr] at this
    dsimp only at this
    rcases this with rfl | rfl
    · right; cases R.resolve id <;> rfl
    · exact .inl ⟨_, .inr rfl, rfl⟩

theorem Spec.Steady.honest (h : Steady D R b) : HonestD (fun _ => False) D R b where
  len := h.len
  size := h.size
  word := by have := h.word; rw [h.len] at this; exact this
  read := fun pos n s => .inr (h.read pos n s)
  get := fun id s => by
    unfold Device.get Registry.get
    have := h.resolve id s
    rcases hr : D.resolve id s with ⟨o, s'⟩
    rw [hr] at this
    dsimp only at this
    subst this
    right; cases R.resolve id <;> rfl

/-! ### Machine words -/

theorem word_add {w : Word} {a n : Nat} (h : a + n < w.cap) : w.add a n = .ok (a + n) := by
  unfold Word.add; rw [if_pos h]

theorem word_mul {w : Word} {a n : Nat} (h : a * n < w.cap) : w.mul a n = .ok (a * n) := by
  unfold Word.mul; rw [if_pos h]

theorem word_sub {w : Word} {a n : Nat} (h : n ≤ a) : w.sub a n = .ok (a - n) := by
  unfold Word.sub; rw [if_pos h]

theorem word_ceilDiv {w : Word} {n k : Nat} (h : n / k + 1 < w.cap) : w.ceilDiv n k = .ok (ceilDiv n k) := by
  unfold Word.ceilDiv Verif.ceilDiv
  split
  · rfl
  · exact word_add h

/-- Positions within the data are added without overflow. -/
theorem HonestD.add (H : HonestD E D R b) {pos n : Nat} (h : pos + n ≤ b.len) : D.add pos n = Dev.of (.ok (pos + n)) := by
  unfold Device.add
  rw [word_add (by have := H.word.room; omega)]

theorem HonestD.add_follows (H : HonestD E D R b) {pos n : Nat} (h : pos + n ≤ b.len) {k : Nat → Dev σ α} {r : Res α}
    (hk : Follows E (k (pos + n)) r) : Follows E (D.add pos n >>= k) r := by
  rw [H.add h]; exact hk

theorem readSlice_le {pos n : Nat} {x : Bytes} (h : b.readSlice pos n = .ok x) : pos + n ≤ b.len := by
  obtain ⟨h1, h2⟩ := readSlice_ok h
  have := h1.le
  simp only [Buf.len]; omega

theorem u32_word (H : HonestD E D R b) {n : Nat} (h : n < 2 ^ 32) : D.word.ofU32 n = n :=
  Nat.mod_eq_of_lt (Nat.lt_of_lt_of_le h H.word.words)

/-! ### Leaves -/

theorem readByteD_follows (H : HonestD E D R b) (pos : Nat) : Follows E (D.readByte pos) (b.readByte pos) := by
  refine (H.read pos 1).bind' (fun x => ?_)
  cases x <;> exact .of _

theorem findCompactLoopD_follows (H : HonestD E D R b) (dec : Bytes → Option Nat) (pos left i : Nat) :
    Follows E (findCompactLoopD D dec pos left i) (findCompactLoop dec b pos left i) := by
  induction left generalizing i with
  | zero => exact .of _
  | succ left ih =>
    unfold findCompactLoopD findCompactLoop
    split
    · exact .of _
    · refine (H.read pos (i + 1)).bind (fun x hx => ?_)
      have hle := readSlice_le hx
      cases dec x with
      | none => exact ih _
      | some v =>
        dsimp only
        rw [H.len]
        split
        · exact .of _
        · exact H.add_follows (by omega) (H.add_follows (by omega) (.of _))

theorem findCompactD_follows (H : HonestD E D R b) (dec : Bytes → Option Nat) (pos : Nat) :
    Follows E (findCompactD D dec pos) (findCompact dec b pos) := by
  unfold findCompactD findCompact
  rw [H.len]
  split
  · exact .of _
  · refine (findCompactLoopD_follows H dec pos _ 0).bind' (fun x => ?_)
    cases x <;> exact .of _

theorem getCompactD_follows (H : HonestD E D R b) (dec : Bytes → Option Nat) (pos : Nat) :
    Follows E (getCompactD D dec pos) (getCompact dec b pos) :=
  (findCompactD_follows H dec pos).bind' (fun _ => .of _)

theorem cutArrayD_follows (H : HonestD E D R b) (n pos : Nat) :
    Follows E (cutArrayD D n pos) (cutArray n b pos) := by
  refine (H.read pos n).bind (fun x hx => ?_)
  split
  · exact .of _
  · exact H.add_follows (readSlice_le hx) (.of _)

theorem cutPerD_follows (H : HonestD E D R b) (k : PerKind) (pos : Nat) :
    Follows E (cutPerD D k pos) (cutPer k b pos) := by
  refine (H.read pos _).bind (fun x hx => ?_)
  split
  · exact H.add_follows (readSlice_le hx) (.of _)
  · exact .of _

theorem cutUIntD_follows (H : HonestD E D R b) (w : UW) (pos : Nat) :
    Follows E (cutUIntD D w pos) (cutUInt w b pos) :=
  (H.read pos _).bind (fun _ hx => H.add_follows (readSlice_le hx) (.of _))

theorem parseUIntD_follows (H : HonestD E D R b) (w : UW) (pos : Nat) (t : SpecialtySet) :
    Follows E (parseUIntD D w pos t) (parseUInt w b pos t) := by
  unfold parseUIntD parseUInt
  dsimp only
  split
  · exact (getCompactD_follows H _ pos).bind' (fun _ => .of _)
  · exact (cutUIntD_follows H w pos).bind' (fun _ => .of _)

theorem parsePerD_follows (H : HonestD E D R b) (k : PerKind) (pos : Nat) (c : Option Nat) :
    Follows E (parsePerD D k pos c) (parsePer k b pos c) := by
  unfold parsePerD parsePer
  dsimp only
  split
  · exact (getCompactD_follows H _ pos).bind' (fun _ => .of _)
  · exact (cutPerD_follows H k pos).bind' (fun _ => .of _)

theorem parseFixedD_follows (H : HonestD E D R b) (k : FixedKind) (pos : Nat) (c : Option Nat) :
    Follows E (parseFixedD D k pos c) (parseFixed k b pos c) :=
  (Follows.of _).bind' (fun _ => (cutArrayD_follows H k.len pos).bind' (fun _ => .of _))

theorem specialCaseH256D_follows (H : HonestD E D R b) (pos : Nat) (t : SpecH256) :
    Follows E (specialCaseH256D D pos t) (specialCaseH256 b pos t) := by
  refine (cutArrayD_follows H 32 pos).bind' (fun x => ?_)
  cases t <;> exact .of _

theorem specialCaseEraD_follows (H : HonestD E D R b) (pos : Nat) :
    Follows E (specialCaseEraD D pos) (specialCaseEra b pos) := by
  refine (H.read pos 1).bind (fun x hx => ?_)
  cases Era.decodeAll x with
  | some e => exact H.add_follows (readSlice_le hx) (.of _)
  | none =>
    refine (H.read pos 2).bind (fun y hy => ?_)
    cases Era.decodeAll y with
    | some e => exact H.add_follows (readSlice_le hy) (.of _)
    | none => exact .of _

theorem decodeStrD_follows (H : HonestD E D R b) (pos : Nat) (h : Hint) :
    Follows E (decodeStrD D pos h) (decodeStr b pos h) := by
  refine (findCompactD_follows H _ pos).bind (fun f hf => ?_)
  have hc := (findCompact_sound hf).1
  dsimp only
  rw [u32_word H hc]
  refine (H.read _ _).bind (fun x hx => ?_)
  cases stringFromUtf8 x with
  | some t => exact H.add_follows (readSlice_le hx) (.of _)
  | none => exact .of _

theorem parseIntD_follows (H : HonestD E D R b) (w : IW) (pos : Nat) (c : Option Nat) :
    Follows E (parseIntD D w pos c) (parseInt w b pos c) :=
  (Follows.of _).bind' (fun _ => ((H.read pos _).bind (fun _ hx => H.add_follows (readSlice_le hx) (.of _)) :
    Follows E (cutIntD D w pos) (cutInt w b pos)).bind' (fun _ => .of _))

theorem decodePrimitiveD_follows (H : HonestD E D R b) (p : Prim) (pos : Nat) (t : SpecialtySet) :
    Follows E (decodePrimitiveD D p pos t) (decodePrimitive p b pos t) := by
  cases p with
  | bool =>
    refine (Follows.of _).bind' (fun _ => Follows.bind' (?_ : Follows E (cutBoolD D pos) (cutBool b pos))
      (fun _ => .of _))
    refine (H.read pos 1).bind (fun x hx => ?_)
    split
    · exact H.add_follows (readSlice_le hx) (.of _)
    · split
      · exact H.add_follows (readSlice_le hx) (.of _)
      · exact .of _
  | char =>
    refine (Follows.of _).bind' (fun _ => Follows.bind' (?_ : Follows E (cutCharD D pos) (cutChar b pos))
      (fun _ => .of _))
    refine (H.read pos 4).bind (fun x hx => ?_)
    split
    · exact .of _
    · cases charFromU32 (leNat x) with
      | some c => exact H.add_follows (readSlice_le hx) (.of _)
      | none => exact .of _
  | str => exact (Follows.of _).bind' (fun _ => decodeStrD_follows H pos _)
  | u8 => exact parseUIntD_follows H _ pos t
  | u16 => exact parseUIntD_follows H _ pos t
  | u32 => exact parseUIntD_follows H _ pos t
  | u64 => exact parseUIntD_follows H _ pos t
  | u128 => exact parseUIntD_follows H _ pos t
  | u256 =>
    exact (Follows.of _).bind' (fun _ => ((H.read pos _).bind (fun _ hx => H.add_follows (readSlice_le hx) (.of _)) :
      Follows E (cutU256D D pos) (cutU256 b pos)).bind' (fun _ => .of _))
  | i8 => exact parseIntD_follows H _ pos _
  | i16 => exact parseIntD_follows H _ pos _
  | i32 => exact parseIntD_follows H _ pos _
  | i64 => exact parseIntD_follows H _ pos _
  | i128 => exact parseIntD_follows H _ pos _
  | i256 => exact parseIntD_follows H _ pos _

theorem storeBytes_cases (st : BitStore) : st.bytes = 1 ∨ st.bytes = 2 ∨ st.bytes = 4 ∨ st.bytes = 8 := by
  cases st <;> simp [BitStore.bytes]

theorem bitVecPositionsD_follows (H : HonestD E D R b) (st : BitStore) (pos : Nat) :
    Follows E (bitVecPositionsD D st pos) (findCompact (compactUInt .u32) b pos >>= fun f =>
      .ok (f.startNextUnit + ceilDiv (ceilDiv f.compact 8) st.bytes * st.bytes,
        f.startNextUnit + ceilDiv (ceilDiv f.compact 8) st.bytes * st.bytes - pos)) := by
  refine (findCompactD_follows H _ pos).bind (fun f hf => ?_)
  obtain ⟨hc, hat, hs⟩ := findCompact_sound hf
  have hc : f.compact < 2 ^ 32 := hc
  have hle : f.startNextUnit ≤ b.len := by have := hat.le; simp only [Buf.len]; omega
  have hw := H.word.words
  have hr := H.word.room
  have hn : ceilDiv f.compact 8 ≤ 2 ^ 29 := by unfold ceilDiv; split <;> omega
  have hst := storeBytes_cases st
  have hm : ceilDiv (ceilDiv f.compact 8) st.bytes * st.bytes < 2 ^ 30 := by
    generalize ceilDiv f.compact 8 = n at hn
    unfold ceilDiv
    split <;> rcases hst with h | h | h | h <;> rw [h] <;> omega
  rw [u32_word H hc, word_ceilDiv (by omega)]
  refine (show Follows E (Dev.of (D.word.ceilDiv (ceilDiv f.compact 8) st.bytes) >>= _) _ from ?_)
  rw [word_ceilDiv (by rcases hst with h | h | h | h <;> rw [h] <;> omega)]
  refine (show Follows E (Dev.of (D.word.mul (ceilDiv (ceilDiv f.compact 8) st.bytes) st.bytes) >>= _) _ from ?_)
  rw [word_mul (by omega)]
  refine (show Follows E (D.add f.startNextUnit (ceilDiv (ceilDiv f.compact 8) st.bytes * st.bytes) >>= _) _ from ?_)
  unfold Device.add
  rw [word_add (by omega)]
  refine (show Follows E (Dev.of (D.word.sub (f.startNextUnit + ceilDiv (ceilDiv f.compact 8) st.bytes * st.bytes) pos) >>= _) _ from ?_)
  rw [word_sub (by omega)]
  exact .of _

theorem intoBitvecDecodeD_follows (H : HonestD E D R b) (st : BitStore) (pos : Nat) :
    Follows E (intoBitvecDecodeD D st pos) (intoBitvecDecode st b pos) := by
  have : intoBitvecDecode st b pos = ((findCompact (compactUInt .u32) b pos >>= fun f =>
      .ok (f.startNextUnit + ceilDiv (ceilDiv f.compact 8) st.bytes * st.bytes,
        f.startNextUnit + ceilDiv (ceilDiv f.compact 8) st.bytes * st.bytes - pos)) >>= fun p : Nat × Nat =>
      b.readSlice pos p.2 >>= fun x => .ok (x, p.1)) := by
    unfold intoBitvecDecode BitVecPositions.new
    cases findCompact (compactUInt .u32) b pos <;> rfl
  rw [this]
  exact (bitVecPositionsD_follows H st pos).bind' (fun f => (H.read _ _).bind' (fun x => .of _))

theorem decodeBitSequenceD_follows (H : HonestD E D R b) (order store id pos : Nat) :
    Follows E (decodeBitSequenceD D order store id pos) (decodeBitSequence R order store id b pos) := by
  have ho : Follows E (findBitOrderD D order id) (findBitOrder R order id) :=
    (H.get order).bind' (fun _ => .of _)
  refine ho.bind' (fun o => (H.get store).bind' (fun t => ?_))
  cases t.typeDef with
  | primitive p =>
    dsimp only
    cases BitStore.ofPrim p with
    | none => exact .of _
    | some st =>
      refine (intoBitvecDecodeD_follows H st pos).bind' (fun r => ?_)
      obtain ⟨x, q⟩ := r
      dsimp only
      cases bitVecDecodeAll st o x <;> exact .of _
  | _ => exact .of _

/-! ### Types -/

theorem huskLoopD_follows (H : HonestD E D R b) (n : Nat) : ∀ (ty : Typ) (id : Nat) (info : List Info) (c : Checker),
    Follows E (huskLoopD D n ty id info c) (huskLoop R n ty id info c) := by
  induction n with
  | zero => intro ty id info c; exact .of _
  | succ n ih =>
    intro ty id info c
    unfold huskLoopD huskLoop
    dsimp only
    split
    · cases ty.typeDef with
      | composite fs =>
        rcases fs with _ | ⟨f, _ | ⟨g, gs⟩⟩
        · exact .of _
        · exact (Follows.of _).bind' (fun c' => (H.get _).bind' (fun t => ih _ _ _ _))
        · exact .of _
      | compact inner =>
        exact (Follows.of _).bind' (fun _ => (Follows.of _).bind' (fun c' => (H.get _).bind' (fun t => ih _ _ _ _)))
      | _ => exact .of _
    · exact .of _

theorem huskTypeD_follows (H : HonestD E D R b) (id : Nat) (c : Checker) :
    Follows E (huskTypeD D id c) (huskType R id c) := by
  unfold huskTypeD huskType
  rw [H.size]
  exact (Follows.of _).bind' (fun c' => (H.get _).bind' (fun t => huskLoopD_follows H _ _ _ _ _))

theorem pickVariantD_follows (H : HonestD E D R b) (vs : List Variant) (pos : Nat) :
    Follows E (pickVariantD D vs pos) (pickVariant vs b pos) := by
  refine (readByteD_follows H pos).bind' (fun i => ?_)
  cases vs.find? (fun v => v.index == i) <;> exact .of _

theorem resolveD_follows (H : HonestD E D R b) (t : TyIn) : Follows E (t.resolveD D) (t.resolve R) := by
  cases t with
  | resolved ty id => exact .of _
  | symbol id => exact (H.get id).bind' (fun _ => .of _)

/-! ### Recognition: failed accesses are forgotten -/

/-- In every state the outcome is `r`, or, if memory can fail, the value `d`. -/
def Blurs (E : Fail → Prop) (x : Dev σ α) (r : Res α) (d : α) : Prop :=
  ∀ s, (x s).1 = r ∨ ((∃ e, E e) ∧ (x s).1 = .ok d)

theorem Blurs.of (r : Res α) (d : α) : Blurs (σ := σ) E (Dev.of r) r d := fun _ => .inl rfl

theorem Blurs.bind {x : Dev σ α} {r : Res α} {d : α} {k : α → Dev σ β} {g : α → Res β} {d' : β}
    (hx : Blurs E x r d) (hk : ∀ a, r = .ok a → Blurs E (k a) (g a) d') (hd : ∀ s, (k d s).1 = .ok d') :
    Blurs E (x >>= k) (r >>= g) d' := by
  intro s
  show (Dev.bind x k s).1 = _ ∨ _ ∧ (Dev.bind x k s).1 = _
  have h := hx s
  unfold Dev.bind
  rcases hxs : x s with ⟨o, s'⟩
  rw [hxs] at h
  cases o with
  | error e =>
    rcases h with h | ⟨_, h⟩
    · dsimp only at h; subst h; exact .inl rfl
    · cases h
  | ok a =>
    rcases h with h | ⟨he, h⟩
    · dsimp only at h; subst h; exact hk a rfl s'
    · cases h; exact .inr ⟨he, hd s'⟩

theorem Follows.swallow (hE : ∀ e, E e → ∃ pe, e = .err pe) {x : Dev σ α} {r : Res α} (hx : Follows E x r) :
    Blurs E (swallowD x) (swallow r) none := by
  intro s
  have h := hx s
  unfold swallowD
  rcases hxs : x s with ⟨o, s'⟩
  rw [hxs] at h
  rcases h with ⟨e, he, h⟩ | h
  · obtain ⟨pe, rfl⟩ := hE e he
    cases h
    exact .inr ⟨⟨_, he⟩, rfl⟩
  · dsimp only at h
    subst h
    left
    cases o with
    | ok a => rfl
    | error f => cases f <;> rfl

theorem HonestD.add_blurs (H : HonestD E D R b) {pos n : Nat} (h : pos + n ≤ b.len) {k : Nat → Dev σ α} {r : Res α} {d : α}
    (hk : Blurs E (k (pos + n)) r d) : Blurs E (D.add pos n >>= k) r d := by
  rw [H.add h]; exact hk

theorem swallow_got {r : Res α} {a : α} (h : swallow r = .ok (some a)) : r = .ok a := by
  cases r with
  | ok x => cases h; rfl
  | error e => cases e <;> cases h

theorem pickVariant_le {vs : List Variant} {pos : Nat} {v : Variant} (h : pickVariant vs b pos = .ok v) : pos + 1 ≤ b.len := by
  obtain ⟨i, h1, _⟩ := bind_ok.1 h
  have := (readByte_ok h1).le
  simpa [Buf.len] using this

variable (hE : ∀ e, E e → ∃ pe, e = .err pe)
include hE

theorem signatureIndicatorD_blurs (H : HonestD E D R b) (f : Field) :
    Blurs E (signatureIndicatorD D f) (signatureIndicator R f) none := by
  refine ((huskTypeD_follows H f.ty Checker.new).swallow hE).bind (fun o ho => ?_) (fun s => rfl)
  cases o with
  | none => exact .of _ _
  | some h =>
    dsimp only
    cases h.ty.typeDef with
    | array len elem =>
      refine (((H.get elem).swallow hE)).bind (fun o ho => ?_) (fun s => rfl)
      cases o with
      | none => exact .of _ _
      | some t =>
        dsimp only
        split
        · cases f.typeName with
          | none => exact .of _ _
          | some n =>
            dsimp only
            split
            · exact .of _ _
            · split
              · exact .of _ _
              · split <;> exact .of _ _
        · exact .of _ _
    | _ => exact .of _ _

theorem checkMultiSignatureD_blurs (H : HonestD E D R b) (ty : Typ) (pos : Nat) :
    Blurs E (checkMultiSignatureD D ty pos) (checkMultiSignature R ty b pos) (.none, pos) := by
  unfold checkMultiSignatureD checkMultiSignature
  cases ty.typeDef with
  | variant vs =>
    refine ((pickVariantD_follows H vs pos).swallow hE).bind (fun o ho => ?_) (fun s => rfl)
    cases o with
    | none => exact .of _ _
    | some v =>
      dsimp only
      rcases v.fields with _ | ⟨f, _ | ⟨g, gs⟩⟩
      · exact .of _ _
      · refine (signatureIndicatorD_blurs hE H f).bind (fun o _ => ?_) (fun s => rfl)
        cases o with
        | none => exact .of _ _
        | some k => exact H.add_blurs (pickVariant_le (swallow_got ho)) (.of _ _)
      · exact .of _ _
  | _ => exact .of _ _

theorem checkPalletSpecificD_blurs (H : HonestD E D R b) (item : PalletItem) (ty : Typ) (pos : Nat) :
    Blurs E (checkPalletSpecificD D item ty pos) (checkPalletSpecific R item ty b pos) (.none, pos) := by
  unfold checkPalletSpecificD checkPalletSpecific
  cases ty.typeDef with
  | variant vs =>
    refine ((pickVariantD_follows H vs pos).swallow hE).bind (fun o ho => ?_) (fun s => rfl)
    cases o with
    | none => exact .of _ _
    | some v =>
      dsimp only
      rcases v.fields with _ | ⟨f, _ | ⟨g, gs⟩⟩
      · exact .of _ _
      · refine ((H.get f.ty).swallow hE).bind (fun o _ => ?_) (fun s => rfl)
        cases o with
        | none => exact .of _ _
        | some t =>
          dsimp only
          cases TypeHinted.fromType t with
          | palletSpecific item' =>
            dsimp only
            split
            · exact .of _ _
            · cases t.typeDef with
              | variant vs' => exact H.add_blurs (pickVariant_le (swallow_got ho)) (.of _ _)
              | _ => exact .of _ _
          | _ => exact .of _ _
      · exact .of _ _
  | _ => exact .of _ _

theorem fromTypeD_blurs (H : HonestD E D R b) (ty : Typ) (pos : Nat) :
    ∀ s, (fromTypeD D ty pos s).1 = TypeChecked.fromType R ty b pos ∨
      ((∃ e, E e) ∧ (TypeHinted.fromType ty).open = true ∧ (fromTypeD D ty pos s).1 = .ok (.none, pos)) := by
  intro s
  unfold fromTypeD TypeChecked.fromType
  cases TypeHinted.fromType ty with
  | multiSignature =>
    rcases checkMultiSignatureD_blurs hE H ty pos s with h | h
    · exact .inl h
    · exact .inr ⟨h.1, rfl, h.2⟩
  | palletSpecific item =>
    rcases checkPalletSpecificD_blurs hE H item ty pos s with h | h
    · exact .inl h
    · exact .inr ⟨h.1, rfl, h.2⟩
  | _ => exact .inl rfl

end Verif
