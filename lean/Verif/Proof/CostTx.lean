import Verif.Proof.CostTypes
import Verif.Proof.DeviceTx
/-! Cost of the memory accesses: transactions, extrinsics, storage entries. -/
namespace Verif
open Spec

variable {σ ME : Type} {D : Device σ} {R : Registry} {b : Buf} {c : σ → Nat}

/-- Starting at `pos`, the accesses cost at most `m`, plus `W` for each byte up to the end `L`. -/
def PaysO (c : σ → Nat) (W L : Nat) {ε α : Type} (x : DevO σ ε α) (pos : Nat) (fin : α → Nat) (m : Nat) : Prop := ∀ s,
  (∀ a, (x s).1 = .ok a → Span L pos (fin a) ∧ c (x s).2 ≤ c s + m + W * (fin a - pos)) ∧
  (∀ e, (x s).1 = .error e → c (x s).2 ≤ c s + m + W * (L - pos))

section
variable {ε α β : Type} {W L κ : Nat}

theorem Pays.mapErr {x : Dev σ α} {pos : Nat} {fin : α → Nat} {m : Nat} (h : Pays c W L κ 0 x pos fin m) (f : PErr → ε) :
    PaysO c W L (x.mapErr f) pos fin m := by
  intro s
  obtain ⟨h1, h2⟩ := h s
  unfold Dev.mapErr Res.mapErr
  rcases hx : x s with ⟨o, s'⟩
  rw [hx] at h1 h2
  cases o with
  | ok a =>
    refine ⟨fun a' ha => ?_, fun e he => (by cases he)⟩
    cases ha
    obtain ⟨h3, h4⟩ := h1 a rfl
    exact ⟨h3, by dsimp only at h4 ⊢; omega⟩
  | error e =>
    refine ⟨fun a' ha => (by cases e <;> cases ha), fun e' _ => ?_⟩
    have := h2 e rfl
    dsimp only at this ⊢
    omega

/-- In some state, the outcome is `a`. -/
def OutsO (x : DevO σ ε α) (a : α) : Prop := ∃ s, (x s).1 = .ok a

theorem PaysO.bind {x : DevO σ ε α} {k : α → DevO σ ε β} {pos : Nat} {fin : α → Nat} {fin' : β → Nat} {m n : Nat}
    (hx : PaysO c W L x pos fin m) (hk : ∀ a, OutsO x a → PaysO c W L (k a) (fin a) fin' n) :
    PaysO c W L (x >>= k) pos fin' (m + n) := by
  intro s
  show (∀ d, (DevO.bind x k s).1 = .ok d → _ ∧ c (DevO.bind x k s).2 ≤ _) ∧
    ∀ e, (DevO.bind x k s).1 = .error e → c (DevO.bind x k s).2 ≤ _
  have h := hx s
  unfold DevO.bind
  rcases hxs : x s with ⟨o, s'⟩
  rw [hxs] at h
  cases o with
  | error e =>
    refine ⟨fun d hd => (by cases hd), fun e' _ => ?_⟩
    have := h.2 e rfl
    dsimp only at this ⊢
    omega
  | ok a =>
    obtain ⟨h1, h2⟩ := h.1 a rfl
    obtain ⟨g1, g2⟩ := hk a ⟨s, by rw [hxs]⟩ s'
    dsimp only at h2 ⊢
    constructor
    · intro d hd
      obtain ⟨g3, g4⟩ := g1 d hd
      refine ⟨h1.trans g3, ?_⟩
      have := toll_add (W := W) h1.1 g3.1
      omega
    · intro e he
      have := g2 e he
      have := toll_end (W := W) h1
      omega

theorem PaysO.mono {x : DevO σ ε α} {pos : Nat} {fin : α → Nat} {m m' W' : Nat} (h : PaysO c W L x pos fin m) (hm : m ≤ m')
    (hW : W ≤ W') : PaysO c W' L x pos fin m' := by
  intro s
  obtain ⟨h1, h2⟩ := h s
  constructor
  · intro a ha
    obtain ⟨h3, h4⟩ := h1 a ha
    have := Nat.mul_le_mul_right (fin a - pos) hW
    exact ⟨h3, by omega⟩
  · intro e he
    have := h2 e he
    have := Nat.mul_le_mul_right (L - pos) hW
    omega

theorem PaysO.of {r : Except (Out ε) α} {pos : Nat} {fin : α → Nat} (m : Nat) (h : ∀ a, r = .ok a → fin a = pos) :
    PaysO c W L (DevO.of r) pos fin m := by
  intro s
  constructor
  · intro a ha
    rw [h a ha]
    exact ⟨Span.self _ _, show c s ≤ _ by omega⟩
  · intro e _
    show c s ≤ _
    omega

theorem PaysO.ok {a : α} {pos : Nat} {fin : α → Nat} {m : Nat} (h : fin a = pos) :
    PaysO (ε := ε) c W L (DevO.of (.ok a)) pos fin m := PaysO.of m (fun a ha => by cases ha; exact h)

theorem PaysO.error {e : Out ε} {pos : Nat} {fin : α → Nat} {m : Nat} :
    PaysO c W L (DevO.of (.error e)) pos fin m := PaysO.of m (fun a ha => by cases ha)

/-- The accesses cost `n` at most. -/
def SpendsO (c : σ → Nat) (x : DevO σ ε α) (n : Nat) : Prop := ∀ s, c (x s).2 ≤ c s + n

theorem Spends.mapErr {x : Dev σ α} {n : Nat} (h : Spends c x n) (f : PErr → ε) : SpendsO c (x.mapErr f) n := h

theorem SpendsO.of (r : Except (Out ε) α) (n : Nat) : SpendsO c (DevO.of r) n := fun s => Nat.le_add_right (c s) n

theorem SpendsO.arith (r : Res Nat) (n : Nat) : SpendsO (ε := ε) c (Device.arith r) n := by
  intro s
  unfold Device.arith
  cases r <;> exact Nat.le_add_right _ _

theorem SpendsO.mono {x : DevO σ ε α} {n m : Nat} (h : SpendsO c x n) (hn : n ≤ m) : SpendsO c x m :=
  fun s => Nat.le_trans (h s) (Nat.add_le_add_left hn _)

theorem SpendsO.bind {x : DevO σ ε α} {k : α → DevO σ ε β} {n m : Nat} (hx : SpendsO c x n)
    (hk : ∀ a, OutsO x a → SpendsO c (k a) m) : SpendsO c (x >>= k) (n + m) := by
  intro s
  show c (DevO.bind x k s).2 ≤ _
  have h := hx s
  unfold DevO.bind
  rcases hxs : x s with ⟨o, s'⟩
  rw [hxs] at h
  cases o with
  | error e => dsimp only at h ⊢; omega
  | ok a =>
    have h2 := hk a ⟨s, by rw [hxs]⟩ s'
    dsimp only at h ⊢
    omega

theorem SpendsO.free {x : DevO σ ε α} {k : α → DevO σ ε β} {n : Nat} (hx : SpendsO c x 0)
    (hk : ∀ a, OutsO x a → SpendsO c (k a) n) : SpendsO c (x >>= k) n := (hx.bind hk).mono (by omega)

theorem SpendsO.pays {x : DevO σ ε α} {n : Nat} (h : SpendsO c x n) (pos : Nat) :
    PaysO c W L x pos (fun _ => pos) n := by
  intro s
  have := h s
  exact ⟨fun a _ => ⟨Span.self _ _, by omega⟩, fun e _ => by omega⟩

theorem PaysO.free {x : DevO σ ε α} {k : α → DevO σ ε β} {pos n : Nat} {fin : β → Nat} (hx : SpendsO c x 0)
    (hk : ∀ a, OutsO x a → PaysO c W L (k a) pos fin n) : PaysO c W L (x >>= k) pos fin n :=
  (PaysO.bind (hx.pays pos) hk).mono (by omega) (Nat.le_refl _)

theorem PaysO.spends {x : DevO σ ε α} {pos : Nat} {fin : α → Nat} {m : Nat} (h : PaysO c W L x pos fin m) :
    SpendsO c x (m + W * (L - pos)) := by
  intro s
  obtain ⟨h1, h2⟩ := h s
  cases ho : (x s).1 with
  | error x => have := h2 x ho; omega
  | ok a =>
    obtain ⟨h1, h2⟩ := h1 a ho
    have := toll_end (W := W) h1
    omega

end


theorem OutsO.of {ε α : Type} {r : Except (Out ε) α} {a : α} (h : OutsO (σ := σ) (DevO.of r) a) : r = .ok a := by
  obtain ⟨_, h⟩ := h; exact h

theorem OutsO.bind {ε α β : Type} {x : DevO σ ε α} {k : α → DevO σ ε β} {d : β} (h : OutsO (x >>= k) d) :
    ∃ a, OutsO x a ∧ OutsO (k a) d := by
  obtain ⟨s, h⟩ := h
  have h : (DevO.bind x k s).1 = .ok d := h
  unfold DevO.bind at h
  rcases hx : x s with ⟨o, s'⟩
  rw [hx] at h
  cases o with
  | error e => cases h
  | ok a => exact ⟨a, ⟨s, by rw [hx]⟩, ⟨s', h⟩⟩

theorem OutsO.mapErr {ε α : Type} {x : Dev σ α} {f : PErr → ε} {a : α} (h : OutsO (x.mapErr f) a) : Outs x a := by
  obtain ⟨s, h⟩ := h
  refine ⟨s, ?_⟩
  unfold Dev.mapErr Res.mapErr at h
  dsimp only at h
  cases hx : (x s).1 with
  | ok a' => rw [hx] at h; cases h; rfl
  | error e => rw [hx] at h; cases e <;> cases h

theorem OutsO.arith {ε : Type} {r : Res Nat} {n : Nat} (h : OutsO (σ := σ) (ε := ε) (Device.arith r) n) : r = .ok n := by
  obtain ⟨s, h⟩ := h
  unfold Device.arith at h
  cases r with
  | ok m => cases h; rfl
  | error e => cases h

theorem read_spends_len (M : Metered D c) (H : HonestD External D R b) (pos n : Nat) : Spends c (D.read pos n) (1 + b.len) := by
  intro s
  have h := M.read pos n s
  have h2 : delivered (D.read pos n s).1 ≤ b.len := by
    unfold delivered
    split
    · rename_i x hx
      have h1 := (H.read pos n).outs ⟨s, hx⟩
      have := (readSlice_ok h1).2
      have := readSlice_le h1
      omega
    · exact Nat.zero_le _
  omega

variable {sz : Nat → Nat} {K : Nat}

theorem mark_spends (M : Metered D c) (H : HonestD External D R b) :
    SpendsO c (markD D : DevO σ (SErr ME) Marks) (343 + b.len) := by
  refine (SpendsO.bind (m := 1 + b.len) ((getCompact_spends M H _ 0).mapErr _) (fun r _ => ?_)).mono (by omega)
  refine SpendsO.free (.arith _ _) (fun e _ => ?_)
  exact SpendsO.bind (m := 0) ((read_spends_len M H _ _).mapErr _) (fun _ _ => .of _ _)

theorem mark_outs (H : HonestD External D R b) {m : Marks} (h : OutsO (markD D : DevO σ (SErr ME) Marks) m) :
    m.callStart ≤ m.extensionsStart ∧ m.extensionsStart ≤ b.len := by
  unfold markD at h
  obtain ⟨r, h1, h⟩ := h.bind
  obtain ⟨e, h2, h⟩ := h.bind
  obtain ⟨x, h3, h⟩ := h.bind
  cases h.of
  have h4 := readSlice_le ((H.read _ _).outs h3.mapErr)
  have h5 := h2.arith
  have := H.word.room
  rw [word_add (by omega)] at h5
  cases h5
  exact ⟨by dsimp only; omega, h4⟩

theorem limit_metered (M : Metered D c) {n : Nat} {D' : Device σ} (h : D.limitLength n = some D') : Metered D' c := by
  unfold Device.limitLength at h
  split at h
  · cases h
  · cases h
    refine ⟨fun pos k s => ?_, M.resolve⟩
    dsimp only
    split
    · show c s ≤ _; omega
    · split
      · show c s ≤ _; omega
      · exact M.read pos k s

theorem decodeD_paysO (T : Toll R sz K) (hv : SolidVectors R) (M : Metered D c) (H : HonestD External D R b) (id pos : Nat)
    (p : Propagated) {ε : Type} (f : PErr → ε) :
    PaysO c (2 * K) b.len ((decodeD D (.symbol id) pos p).mapErr f) pos (·.2) K :=
  ((decodeD_pays T hv M H id pos p).mapErr f).mono (T.within id) (Nat.le_refl _)

theorem callUnmarked_pays {X : Metadata ME} (T : Toll X.types sz K) (hv : SolidVectors X.types) (M : Metered D c)
    (H : HonestD External D X.types b) (pos : Nat) :
    PaysO c (2 * K) b.len (decodeAsCallUnmarkedD D X pos) pos (·.2) K := by
  refine PaysO.free (.of _ _) (fun ty _ => ?_)
  refine PaysO.bind (n := 0) (decodeD_paysO T hv M H ty pos _ _) (fun r _ => ?_)
  split
  · exact .ok rfl
  · exact .error

theorem call_spends {X : Metadata ME} (T : Toll X.types sz K) (hv : SolidVectors X.types) (M : Metered D c)
    (H : HonestD External D X.types b) {m : Marks} (hm : m.callStart ≤ m.extensionsStart ∧ m.extensionsStart ≤ b.len) :
    SpendsO c (decodeAsCallD D X m) (K + 2 * K * m.extensionsStart) := by
  obtain ⟨D', h1, h2, _⟩ := limitLength_honest H hm.2
  unfold decodeAsCallD
  rw [h1]
  have hlen : ({ b with bytes := b.bytes.take m.extensionsStart } : Buf).len = m.extensionsStart := by
    have := hm.2
    simp only [Buf.len, List.length_take] at this ⊢; omega
  have h3 := (callUnmarked_pays T hv (limit_metered M h1) h2 m.callStart).spends
  rw [hlen] at h3
  refine (SpendsO.bind (m := 0) h3 (fun r _ => ?_)).mono ?_
  · split <;> exact .of _ _
  · have := Nat.mul_le_mul_left (2 * K) (show m.extensionsStart - m.callStart ≤ m.extensionsStart by omega)
    omega

theorem extensionsLoop_pays (T : Toll R sz K) (hv : SolidVectors R) (M : Metered D c) (H : HonestD External D R b)
    (sel : SignedExt → Nat) : ∀ (es : List SignedExt) pos,
    PaysO c (2 * K) b.len (extensionsLoopD D sel es pos : DevO σ (SErr ME) _) pos (·.2) (es.length * K)
  | [], _ => .ok rfl
  | e :: es, pos => by
    refine (PaysO.bind (n := es.length * K) (decodeD_paysO T hv M H (sel e) pos _ _) (fun d _ => ?_)).mono
      (by rw [List.length_cons, Nat.add_mul]; omega) (Nat.le_refl _)
    exact PaysO.bind (n := 0) (extensionsLoop_pays T hv M H sel es d.2) (fun _ _ => .ok rfl)

theorem PaysO.spend {ε α β : Type} {W L m n pos : Nat} {x : DevO σ ε α} {k : α → DevO σ ε β} {fin : α → Nat}
    (hx : PaysO c W L x pos fin m) (hk : ∀ a, OutsO x a → SpendsO c (k a) (n + W * (L - fin a))) :
    SpendsO c (x >>= k) (m + n + W * (L - pos)) := by
  intro s
  show c (DevO.bind x k s).2 ≤ _
  have h := hx s
  unfold DevO.bind
  rcases hxs : x s with ⟨o, s'⟩
  rw [hxs] at h
  cases o with
  | error e =>
    have := h.2 e rfl
    dsimp only at this ⊢
    omega
  | ok a =>
    obtain ⟨h1, h2⟩ := h.1 a rfl
    have h3 := hk a ⟨s, by rw [hxs]⟩ s'
    have := toll_end (W := W) h1
    dsimp only at h2 h3 ⊢
    omega

theorem extensions_spends {X : Metadata ME} (T : Toll X.types sz K) (hv : SolidVectors X.types) (M : Metered D c)
    (H : HonestD External D X.types b) (pos : Nat) (expected : Option Bytes) :
    SpendsO c (decodeExtensionsUnmarkedD D X pos expected) (2 * extensionCount X * K + 2 * K * (b.len - pos)) := by
  refine SpendsO.free (.of _ _) (fun signed hs => ?_)
  have hc : extensionCount X = signed.length := by
    have := hs.of
    unfold mapOut at this
    unfold extensionCount
    cases hx : X.signedExtensions with
    | ok l => rw [hx] at this; cases this; rfl
    | error e => rw [hx] at this; cases e <;> cases this
  rw [hc]
  refine (PaysO.spend (n := signed.length * K) (extensionsLoop_pays (ME := ME) T hv M H (·.ty) signed pos)
    (fun first _ => ?_)).mono (by have := Nat.mul_assoc 2 signed.length K; omega)
  refine (PaysO.spend (n := 0) (extensionsLoop_pays (ME := ME) T hv M H (·.additionalSigned) signed first.2)
    (fun second _ => ?_)).mono (by omega)
  split
  · exact .of _ _
  · exact (SpendsO.free (.of _ _) fun _ _ => SpendsO.free (.of _ _) fun _ _ => .of _ 0).mono (by omega)

theorem keepErr_spends {α : Type} {x : DevO σ (SErr ME) α} {n : Nat} (h : SpendsO c x n) : SpendsO c (keepErr x) n := by
  intro s
  have h := h s
  unfold keepErr
  rcases hx : x s with ⟨o, s'⟩
  rw [hx] at h
  cases o with
  | ok a => exact h
  | error e => cases e <;> exact h

theorem transaction_spends {X : Metadata ME} (T : Toll X.types sz K) (hv : SolidVectors X.types) (M : Metered D c)
    (H : HonestD External D X.types b) (expected : Option Bytes) :
    SpendsO c (parseTransactionD D X expected) (343 + b.len + K * (2 * extensionCount X + 1 + 2 * b.len)) := by
  refine (SpendsO.bind (m := K * (2 * extensionCount X + 1 + 2 * b.len)) (mark_spends M H) (fun m hm => ?_)).mono (by omega)
  have hm := mark_outs H hm
  refine (SpendsO.bind (m := K + 2 * K * m.extensionsStart) (extensions_spends T hv M H m.extensionsStart expected)
    (fun es _ => ?_)).mono ?_
  · exact SpendsO.bind (m := 0) (keepErr_spends (call_spends T hv M H hm)) (fun _ _ => .of _ _)
  · have h1 : 2 * K * (b.len - m.extensionsStart) + 2 * K * m.extensionsStart = 2 * K * b.len := by
      rw [← Nat.mul_add]; congr 1; omega
    have h2 : K * (2 * extensionCount X + 1 + 2 * b.len) = 2 * extensionCount X * K + K + 2 * K * b.len := by
      rw [Nat.mul_add, Nat.mul_add, Nat.mul_comm K (2 * _), Nat.mul_one, Nat.mul_left_comm, Nat.mul_assoc 2 K]
    omega

theorem transactionUnmarked_spends {X : Metadata ME} (T : Toll X.types sz K) (hv : SolidVectors X.types) (M : Metered D c)
    (H : HonestD External D X.types b) (expected : Option Bytes) :
    SpendsO c (parseTransactionUnmarkedD D X expected) (K * (2 * extensionCount X + 1 + 2 * b.len)) := by
  refine (PaysO.spend (n := 2 * extensionCount X * K) (callUnmarked_pays T hv M H 0) (fun r _ => ?_)).mono ?_
  · exact SpendsO.bind (m := 0) (extensions_spends T hv M H r.2 expected) (fun _ _ => .of _ _)
  · have h2 : K * (2 * extensionCount X + 1 + 2 * b.len) = 2 * extensionCount X * K + K + 2 * K * b.len := by
      rw [Nat.mul_add, Nat.mul_add, Nat.mul_comm K (2 * _), Nat.mul_one, Nat.mul_left_comm, Nat.mul_assoc 2 K]
    rw [h2, Nat.sub_zero]; omega

/-! ### Extrinsics -/

theorem extrinsicPart_pays (T : Toll R sz K) (hv : SolidVectors R) (M : Metered D c) (H : HonestD External D R b) (id pos : Nat) :
    PaysO c (2 * K) b.len (extrinsicPartD D id pos : DevO σ (UErr ME) _) pos (·.2) K :=
  decodeD_paysO T hv M H id pos Propagated.new _

theorem extrinsicCall_spends (T : Toll R sz K) (hv : SolidVectors R) (M : Metered D c) (H : HonestD External D R b) (id pos : Nat) :
    SpendsO c (extrinsicCallD D id pos : DevO σ (UErr ME) _) (K + 2 * K * (b.len - pos)) := by
  refine (PaysO.spend (n := 0) (extrinsicPart_pays T hv M H id pos) (fun r _ => ?_)).mono (by omega)
  split <;> exact .of _ _

theorem extrinsicContent_spends (T : Toll R sz K) (hv : SolidVectors R) (M : Metered D c) (H : HonestD External D R b)
    (params : ExtrinsicParams) (vb v : UInt8) (pos : Nat) :
    SpendsO c (extrinsicContentD D params vb v pos : DevO σ (UErr ME) _) (4 * K + 2 * K * (b.len - pos)) := by
  unfold extrinsicContentD
  split
  · exact .of _ _
  split
  · exact (SpendsO.bind (m := 0) (extrinsicCall_spends T hv M H _ pos) (fun _ _ => .of _ _)).mono (by omega)
  · refine (PaysO.spend (n := 3 * K) (extrinsicPart_pays T hv M H _ pos) (fun a _ => ?_)).mono (by omega)
    refine (PaysO.spend (n := 2 * K) (extrinsicPart_pays T hv M H _ a.2) (fun g _ => ?_)).mono (by omega)
    refine (PaysO.spend (n := K) (extrinsicPart_pays T hv M H _ g.2) (fun e _ => ?_)).mono (by omega)
    exact (SpendsO.bind (m := 0) (extrinsicCall_spends T hv M H _ e.2) (fun _ _ => .of _ _)).mono (by omega)

theorem extrinsicFrame_spends {X : CompleteMetadata ME} (T : Toll R sz K) (hv : SolidVectors R) (M : Metered D c)
    (H : HonestD External D R b) (params : ExtrinsicParams) (n start : Nat) :
    SpendsO c (extrinsicFrameD D X params n start) (2 + 4 * K + 2 * K * b.len) := by
  unfold extrinsicFrameD
  refine SpendsO.free (.arith _ _) (fun sum _ => ?_)
  split
  · exact (SpendsO.bind (m := 0) (.arith _ 0) (fun _ _ => .of _ _)).mono (by omega)
  split
  · exact .of _ _
  refine (SpendsO.bind (m := 4 * K + 2 * K * b.len) ((readByte_spends M H start).mapErr _) (fun vb _ => ?_)).mono (by omega)
  refine SpendsO.free (.arith _ _) (fun pos _ => ?_)
  refine SpendsO.free (.of _ _) (fun v _ => ?_)
  refine (extrinsicContent_spends T hv M H params vb v pos).mono ?_
  have := Nat.mul_le_mul_left (2 * K) (Nat.sub_le b.len pos)
  omega

theorem extrinsic_spends {X : CompleteMetadata ME} (T : Toll R sz K) (hv : SolidVectors R) (M : Metered D c)
    (H : HonestD External D R b) : SpendsO c (decodeUncheckedExtrinsicD D X) (344 + 2 * K * (2 + b.len)) := by
  refine SpendsO.free (.of _ _) (fun params _ => ?_)
  refine (SpendsO.bind (m := 2 + 4 * K + 2 * K * b.len) ((getCompact_spends M H _ 0).mapErr _) (fun r _ => ?_)).mono
    (by rw [Nat.mul_add]; omega)
  exact extrinsicFrame_spends T hv M H params _ _

/-! ### Storage entries -/

/-- After a part, an access to the bytes of the part again. -/
theorem PaysO.again {ε α β : Type} {W L m n pos : Nat} {x : DevO σ ε α} {k : α → DevO σ ε β} {fin : α → Nat} {fin' : β → Nat}
    (hx : PaysO c W L x pos fin m) (hk : ∀ a, OutsO x a → SpendsO c (k a) (n + (fin a - pos)))
    (hf : ∀ a d, OutsO x a → OutsO (k a) d → fin' d = fin a) : PaysO c (W + 1) L (x >>= k) pos fin' (m + n) := by
  intro s
  show (∀ d, (DevO.bind x k s).1 = .ok d → _ ∧ c (DevO.bind x k s).2 ≤ _) ∧
    ∀ e, (DevO.bind x k s).1 = .error e → c (DevO.bind x k s).2 ≤ _
  have h := hx s
  unfold DevO.bind
  rcases hxs : x s with ⟨o, s'⟩
  rw [hxs] at h
  cases o with
  | error e =>
    refine ⟨fun d hd => (by cases hd), fun e' _ => ?_⟩
    have := h.2 e rfl
    dsimp only at this ⊢
    rw [Nat.add_mul]
    omega
  | ok a =>
    obtain ⟨h1, h2⟩ := h.1 a rfl
    have ho : OutsO x a := ⟨s, by rw [hxs]⟩
    have h3 := hk a ho s'
    dsimp only at h2 ⊢
    constructor
    · intro d hd
      rw [hf a d ho ⟨s', hd⟩]
      refine ⟨h1, ?_⟩
      rw [Nat.add_mul]
      omega
    · intro e he
      have h5 := toll_end (W := W) h1
      have h6 := toll_end (W := 1) h1
      rw [Nat.add_mul]
      omega

theorem SpendsO.leaps {ε α : Type} {W L n pos : Nat} {x : DevO σ ε α} {fin : α → Nat} (h : SpendsO c x n)
    (hf : ∀ a, OutsO x a → Span L pos (fin a)) : PaysO c W L x pos fin n := by
  intro s
  have := h s
  exact ⟨fun a ha => ⟨hf a ⟨s, ha⟩, by omega⟩, fun e _ => by omega⟩

theorem OutsO.expect {ε α : Type} {x : Dev σ α} {a : α} (h : OutsO (expectD x : DevO σ ε α) a) : Outs x a := by
  obtain ⟨s, h⟩ := h
  refine ⟨s, ?_⟩
  unfold expectD at h
  rcases hx : x s with ⟨o, s'⟩
  rw [hx] at h
  cases o with
  | ok a' => cases h; rfl
  | error e => cases h

theorem Spends.expect {ε α : Type} {x : Dev σ α} {n : Nat} (h : Spends c x n) : SpendsO c (expectD x : DevO σ ε α) n := by
  intro s
  have h := h s
  unfold expectD
  rcases hx : x s with ⟨o, s'⟩
  rw [hx] at h
  cases o <;> exact h

theorem kind_len (k : HashKind) : k.len ≤ 32 := by cases k <;> decide

theorem cutHash_pays (M : Metered D c) (H : HonestD External D R b) {W : Nat} (kind : HashKind) (ty pos : Nat) :
    PaysO c W b.len (cutHashD D kind ty pos) pos (·.2) 33 := by
  have hk := kind_len kind
  refine SpendsO.leaps ?_ ?_
  · refine (SpendsO.bind (m := 0) ((read_spends M H pos kind.len).mapErr _) (fun sl _ => ?_)).mono (by omega)
    split
    · exact .of _ _
    · exact SpendsO.free (.arith _ _) (fun _ _ => .of _ _)
  · intro a h
    obtain ⟨sl, h1, h⟩ := h.bind
    have h2 := readSlice_le ((H.read _ _).outs h1.mapErr)
    split at h
    · cases h.of
    · obtain ⟨q, h3, h⟩ := h.bind
      have h3 := h3.arith
      have := H.word.room
      rw [word_add (by omega)] at h3
      cases h3
      cases h.of
      exact ⟨Nat.le_add_right _ _, by dsimp only; omega⟩

theorem checkHash_pays (T : Toll R sz K) (hv : SolidVectors R) (M : Metered D c) (H : HonestD External D R b)
    {n : Nat} (hn : n ≤ 32) (f : Bytes → Bytes) (ty pos : Nat) :
    PaysO c (2 * K + 1) b.len (checkHashD D n f ty pos) pos (·.2) (34 + K) := by
  unfold checkHashD
  refine (PaysO.bind (n := 1 + K) (fin := fun _ => pos) (((read_spends M H pos n).mapErr _).pays pos) (fun sl h1 => ?_)).mono
    (by omega) (Nat.le_refl _)
  have h2 := readSlice_le ((H.read _ _).outs h1.mapErr)
  split
  · exact .error
  refine (PaysO.bind (m := 0) (n := 1 + K) (fin := fun start => start) (SpendsO.leaps (.arith _ _) ?_) (fun start h3 => ?_)).mono
    (by omega) (Nat.le_refl _)
  · intro start h3
    have h3 := h3.arith
    have := H.word.room
    rw [word_add (by omega)] at h3
    cases h3
    exact ⟨Nat.le_add_right _ _, by omega⟩
  · refine (PaysO.again (n := 1) (decodeD_paysO T hv M H ty start _ _) (fun d hd => ?_) ?_).mono (by omega) (Nat.le_refl _)
    · refine SpendsO.free (.arith _ _) (fun k hk => ?_)
      refine (SpendsO.bind (m := 0) ((read_spends M H start k).expect) (fun bs _ => ?_)).mono ?_
      · split <;> exact .of _ _
      · obtain ⟨s, hs⟩ := hd
        have h5 := ((decodeD_paysO T hv M H ty start _ _ s).1 d hs).1.1
        have hk := hk.arith
        rw [word_sub h5] at hk
        cases hk
        show 1 + (d.2 - start) + 0 ≤ 1 + (d.2 - start)
        exact Nat.le_refl _
    · intro d e _ he
      obtain ⟨k, _, he⟩ := he.bind
      obtain ⟨bs, _, he⟩ := he.bind
      split at he
      · cases he.of
      · cases he.of; rfl

theorem processHasher_pays (T : Toll R sz K) (hv : SolidVectors R) (M : Metered D c) (H : HonestD External D R b)
    (F : HashFns) (h : Hasher) (ty pos : Nat) :
    PaysO c (2 * K + 1) b.len (processHasherD D F h ty pos) pos (·.2) (34 + K) := by
  unfold processHasherD
  cases h with
  | identity =>
    refine PaysO.mono (m := K + 0) (W := 2 * K) ?_ (by omega) (by omega)
    exact PaysO.bind (n := 0) (decodeD_paysO T hv M H ty pos _ _) (fun _ _ => .ok rfl)
  | blake2_128Concat => exact checkHash_pays T hv M H (by omega) _ _ _
  | twox64Concat => exact checkHash_pays T hv M H (by omega) _ _ _
  | _ => exact (cutHash_pays M H _ ty pos).mono (by omega) (Nat.le_refl _)

theorem hashersLoop_pays (T : Toll R sz K) (hv : SolidVectors R) (M : Metered D c) (H : HonestD External D R b)
    (F : HashFns) : ∀ (hs : List Hasher) (tys : List Nat) pos,
    PaysO c (2 * K + 1) b.len (hashersLoopD D F hs tys pos) pos (·.2) (hs.length * (34 + K))
  | h :: hs, ty :: tys, pos => by
    unfold hashersLoopD
    refine (PaysO.bind (n := hs.length * (34 + K)) (processHasher_pays T hv M H F h ty pos) (fun p _ => ?_)).mono
      (by rw [List.length_cons, Nat.add_mul]; omega) (Nat.le_refl _)
    exact PaysO.bind (n := 0) (hashersLoop_pays T hv M H F hs tys p.2) (fun _ _ => .ok rfl)
  | [], _, _ => by unfold hashersLoopD; exact .ok rfl
  | _ :: _, [], _ => by unfold hashersLoopD; exact .ok rfl

theorem keyData_pays (T : Toll R sz K) (hv : SolidVectors R) (M : Metered D c) (H : HonestD External D R b)
    (F : HashFns) (hs : List Hasher) (keyTy pos : Nat) :
    PaysO c (2 * K + 1) b.len (keyDataD D F hs keyTy pos) pos (·.2) (1 + hs.length * (34 + K)) := by
  unfold keyDataD
  split
  · refine PaysO.mono (m := 34 + K + 0) (W := 2 * K + 1) ?_ (by simp only [List.length_cons, List.length_nil]; omega) (Nat.le_refl _)
    exact PaysO.bind (n := 0) (processHasher_pays T hv M H F _ keyTy pos) (fun _ _ => .ok rfl)
  · refine PaysO.bind (n := hs.length * (34 + K)) (((get_spends M keyTy).mapErr _).pays pos) (fun t _ => ?_)
    split
    · split
      · exact .error
      · exact PaysO.bind (n := 0) (hashersLoop_pays T hv M H F hs _ pos) (fun _ _ => .ok rfl)
    · exact .error

theorem processKey_spends (T : Toll R sz K) (hv : SolidVectors R) (M : Metered D c) (H : HonestD External D R b)
    (F : HashFns) (hs : List Hasher) (keyTy pos : Nat) :
    SpendsO c (processKeyMappedD D F hs keyTy pos) (1 + hs.length * (34 + K) + (2 * K + 1) * (b.len - pos)) := by
  refine (PaysO.spend (n := 0) (keyData_pays T hv M H F hs keyTy pos) (fun r _ => ?_)).mono (by omega)
  split <;> exact .of _ _

theorem decodeAll_spends (T : Toll R sz K) (hv : SolidVectors R) (M : Metered D c) (H : HonestD External D R b) (id : Nat) {ε : Type}
    (f : PErr → ε) : SpendsO c ((decodeAllAsTypeD D id).mapErr f) (K + 2 * K * b.len) := by
  refine Spends.mapErr ?_ f
  intro s
  have h := (decodeD_paysO T hv M H id 0 Propagated.new f).spends s
  have e : (decodeAllAsTypeD D id s).2 = (decodeD D (.symbol id) 0 Propagated.new s).2 := by
    show (Dev.bind (decodeD D (.symbol id) 0 Propagated.new) _ s).2 = _
    unfold Dev.bind
    rcases decodeD D (.symbol id) 0 Propagated.new s with ⟨o, s'⟩
    cases o with
    | error e => rfl
    | ok a => dsimp only; split <;> rfl
  rw [e]
  exact h

theorem storage_spends {DK DV : Device σ} {bk bv : Buf} (T : Toll R sz K) (hv : SolidVectors R) (MK : Metered DK c)
    (HK : HonestD External DK R bk) (MV : Metered DV c) (HV : HonestD External DV R bv) (F : HashFns) (e : Entry) :
    SpendsO c (decodeStorageEntryD F DK DV e)
      (1 + keyParts e.ty * (34 + K) + (2 * K + 1) * bk.len + K * (1 + 2 * bv.len)) := by
  have e1 : K * (1 + 2 * bv.len) = K + 2 * K * bv.len := by
    rw [Nat.mul_add, Nat.mul_one, Nat.mul_left_comm, Nat.mul_assoc]
  rw [e1]
  unfold decodeStorageEntryD keyParts
  dsimp only
  split
  · exact .of _ _
  split
  · split
    · exact .of _ _
    · exact (SpendsO.bind (m := 0) (decodeAll_spends T hv MV HV _ _) (fun _ _ => .of _ _)).mono (by omega)
  · rename_i hs keyTy valueTy he
    rw [he]
    refine (SpendsO.bind (m := K + 2 * K * bv.len) (processKey_spends T hv MK HK F hs keyTy 32) (fun _ _ => ?_)).mono ?_
    · exact SpendsO.bind (m := 0) (decodeAll_spends T hv MV HV _ _) (fun _ _ => .of _ _)
    · have := Nat.mul_le_mul_left (2 * K + 1) (Nat.sub_le bk.len 32)
      dsimp only
      omega

end Verif
