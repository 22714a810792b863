import Verif.Model.DeviceTx
import Verif.Proof.Steady
import Verif.Proof.Out
import Verif.Props.Decode
/-! Transactions, extrinsics and storage entries on steady memory with machine words. -/
namespace Verif
open Spec

variable {σ α β ε ME : Type} {D : Device σ} {R : Registry} {b : Buf}

/-- In every state the outcome is `r`. -/
def SameO (x : DevO σ ε α) (r : Except (Out ε) α) : Prop := ∀ s, (x s).1 = r

theorem SameO.of (r : Except (Out ε) α) : SameO (σ := σ) (DevO.of r) r := fun _ => rfl

theorem SameO.bind {x : DevO σ ε α} {r : Except (Out ε) α} {k : α → DevO σ ε β} {g : α → Except (Out ε) β}
    (hx : SameO x r) (hk : ∀ a, r = .ok a → SameO (k a) (g a)) : SameO (x >>= k) (r >>= g) := by
  intro s
  show (DevO.bind x k s).1 = _
  have h := hx s
  unfold DevO.bind
  rcases hxs : x s with ⟨o, s'⟩
  rw [hxs] at h
  dsimp only at h
  subst h
  cases o with
  | error e => rfl
  | ok a => exact hk a rfl s'

theorem SameO.bind' {x : DevO σ ε α} {r : Except (Out ε) α} {k : α → DevO σ ε β} {g : α → Except (Out ε) β}
    (hx : SameO x r) (hk : ∀ a, SameO (k a) (g a)) : SameO (x >>= k) (r >>= g) := hx.bind (fun a _ => hk a)

theorem Follows.mapErr {x : Dev σ α} {r : Res α} (h : Follows Nope x r) (f : PErr → ε) : SameO (x.mapErr f) (r.mapErr f) := by
  intro s
  unfold Dev.mapErr
  rw [h.nope s]

theorem SameO.arith {r : Res Nat} {n : Nat} (h : r = .ok n) {k : Nat → DevO σ ε α} {g : Except (Out ε) α}
    (hk : SameO (k n) g) : SameO (Device.arith r >>= k) g := by
  subst h; exact hk

/-- `expect` on an outcome. -/
def expecting (r : Res α) : Except (Out ε) α :=
  match r with
  | .ok a => .ok a
  | .error _ => .error .panic

/-- The limited device is as good as the original. -/
theorem limitLength_honest {E : Fail → Prop} (H : HonestD E D R b) {n : Nat} (hn : n ≤ b.len) :
    ∃ D', D.limitLength n = some D' ∧ HonestD E D' R { b with bytes := b.bytes.take n } ∧ D'.word = D.word := by
  have hlen : ({ b with bytes := b.bytes.take n } : Buf).len = n := by
    simp only [Buf.len, List.length_take] at hn ⊢; omega
  have hlim : D.limitLength n = some { D with
      len := n
      read := fun pos k =>
        if n < pos then Dev.of (.error (.err (.buffer (.outOfRange pos n))))
        else if n < pos + k then Dev.of (.error (.err (.buffer (.dataTooShort pos k))))
        else D.read pos k } := by
    unfold Device.limitLength; rw [H.len, if_neg (by omega)]
  refine ⟨_, hlim, ⟨?_, H.size, ?_, ?_, H.get⟩, rfl⟩
  · exact hlen.symm
  · rw [hlen]; exact ⟨H.word.words, by have := H.word.room; show n + 2 ^ 30 ≤ D.word.cap; omega⟩
  · intro pos k
    dsimp only
    by_cases h1 : n < pos
    · rw [if_pos h1]
      have : Buf.readSlice { b with bytes := b.bytes.take n } pos k = .error (.err (.buffer (.outOfRange pos n))) := by
        unfold Buf.readSlice; rw [hlen, if_pos h1]
      rw [this]; exact .of _
    · rw [if_neg h1]
      by_cases h2 : n < pos + k
      · rw [if_pos h2]
        have : Buf.readSlice { b with bytes := b.bytes.take n } pos k = .error (.err (.buffer (.dataTooShort pos k))) := by
          unfold Buf.readSlice; rw [hlen, if_neg h1, if_pos h2]
        rw [this]; exact .of _
      · rw [if_neg h2]
        have : Buf.readSlice { b with bytes := b.bytes.take n } pos k = b.readSlice pos k := by
          unfold Buf.readSlice
          rw [hlen, if_neg h1, if_neg h2, if_neg (show ¬ b.len < pos by omega), if_neg (show ¬ b.len < pos + k by omega)]
          have : (List.drop pos (List.take n b.bytes)).take k = (List.drop pos b.bytes).take k := by
            rw [List.drop_take, List.take_take, Nat.min_eq_left (by omega)]
          rw [this]
        rw [this]; exact H.read pos k

/-! ### Transactions -/

/-- The sum of a position and a length prefix fits, or wraps around, or panics. -/
theorem word_add_prefix {w : Word} {len a n : Nat} (ha : a ≤ len) (hn : n < 2 ^ 32) (hf : Fits w len)
    (hc : w.cap ≤ a + n) : w.add a n = if w.wraps then .ok (a + n - w.cap) else .error .panic := by
  have h1 := hf.words
  have h2 := hf.room
  have : (a + n) % w.cap = a + n - w.cap := by
    rw [Nat.mod_eq_sub_mod (by omega), Nat.mod_eq_of_lt (by omega)]
  unfold Word.add
  rw [if_neg (by omega), this]

theorem getCompact_overflows {w : Word} {n q : Nat} (h : getCompact (compactUInt .u32) b 0 = .ok (n, q))
    (hc : w.cap ≤ q + n) : PrefixOverflows w b.bytes := by
  obtain ⟨h1, ⟨pre, post, h2, h3⟩, rfl⟩ := getCompact_sound h
  rw [List.length_eq_zero_iff.1 h3] at h2
  exact ⟨n, post, by simpa [UW.bytes] using h1, by simpa using h2, by omega⟩

/-- The marks on the data. -/
def Marks.on (m : Marks) (b : Buf) : Marked := ⟨b, m.callStart, m.extensionsStart⟩

theorem getCompact_start {n q pos : Nat} (h : getCompact (compactUInt .u32) b pos = .ok (n, q)) : n < 2 ^ 32 ∧ q ≤ b.len := by
  obtain ⟨h1, h2, rfl⟩ := getCompact_sound h
  exact ⟨h1, by have := h2.le; simpa [Buf.len] using this⟩

theorem markD_same (H : HonestD Nope D R b) (hs : D.word.wraps = true ∨ ¬ PrefixOverflows D.word b.bytes) (s : σ) :
    (match (markD (ME := ME) D s).1 with
      | .ok m => .ok (m.on b)
      | .error e => .error e) = mark (ME := ME) b := by
  have key : ∀ (g : Except (Out (SErr ME)) Marks), SameO (markD (ME := ME) D) g →
      (match g with | .ok m => .ok (m.on b) | .error e => .error e) = mark (ME := ME) b →
      (match (markD (ME := ME) D s).1 with
      | .ok m => .ok (m.on b)
      | .error e => .error e) = mark (ME := ME) b := by
    intro g h1 h2; rw [h1 s]; exact h2
  refine key ((getCompact (compactUInt .u32) b 0).mapErr (fun _ => SErr.cutSignable) >>= fun c =>
    (b.readSlice c.2 c.1).mapErr (fun _ => SErr.cutSignable) >>= fun _ => .ok (Marks.mk c.2 (c.2 + c.1))) ?_ ?_
  · refine SameO.bind ((getCompactD_follows H _ 0).mapErr _) (fun c hc => ?_)
    obtain ⟨n, q⟩ := c
    have hov := getCompact_overflows (w := D.word) (mapErr_ok.1 hc)
    have hc := getCompact_start (mapErr_ok.1 hc)
    dsimp only
    rw [u32_word H hc.1]
    obtain ⟨e, h1, h2⟩ : ∃ e, D.word.add q n = .ok e ∧ (q + n < D.word.cap → e = q + n) := by
      by_cases hlt : q + n < D.word.cap
      · exact ⟨_, word_add hlt, fun _ => rfl⟩
      · rcases hs with hs | hs
        · exact ⟨_, by rw [word_add_prefix hc.2 hc.1 H.word (by omega), if_pos hs], fun h => absurd h hlt⟩
        · exact absurd (hov (by omega)) hs
    refine SameO.arith h1 ?_
    refine SameO.bind ((H.read q n).mapErr _) (fun x hx => ?_)
    have hx := readSlice_le (mapErr_ok.1 hx)
    rw [h2 (by have := H.word.room; omega)]
    exact .of _
  · unfold mark cut
    cases getCompact (compactUInt .u32) b 0 with
    | error e => cases e <;> rfl
    | ok c =>
      obtain ⟨n, q⟩ := c
      rw [show (Res.mapErr (fun _ => SErr.cutSignable (ME := ME)) (.ok (n, q) : Res (Nat × Nat))) = .ok (n, q) from rfl]
      simp only [eok_bind]
      cases b.readSlice q n with
      | error e => cases e <;> rfl
      | ok x => rfl

theorem decodeD_sameO (H : HonestD Nope D R b) (t : TyIn) (pos : Nat) (p : Propagated) (f : PErr → ε) :
    SameO ((decodeD D t pos p).mapErr f) ((decode R b t pos p).mapErr f) :=
  (show Follows Nope _ _ from decodeD_same H t pos p).mapErr f

variable {M : Metadata ME}

theorem decodeAsCallUnmarkedD_same (H : HonestD Nope D M.types b) (pos : Nat) :
    SameO (decodeAsCallUnmarkedD D M pos) (decodeAsCallUnmarked M b pos) := by
  refine (SameO.of _).bind' (fun id => (decodeD_sameO H _ _ _ _).bind' (fun r => ?_))
  obtain ⟨d, q⟩ := r
  dsimp only
  cases d.data.asCall <;> exact .of _

theorem decodeAsCallD_same (H : HonestD Nope D M.types b) {m : Marks} (hm : m.extensionsStart ≤ b.len) :
    SameO (decodeAsCallD D M m) (decodeAsCall M (m.on b)) := by
  obtain ⟨D', h1, h2, _⟩ := limitLength_honest H hm
  have h3 : (m.on b).dataNoExtensions (ME := ME) = .ok { b with bytes := b.bytes.take m.extensionsStart } := by
    have : b.limitLength m.extensionsStart = .ok { b with bytes := b.bytes.take m.extensionsStart } := by
      unfold Buf.limitLength; exact if_neg (by omega)
    unfold Marked.dataNoExtensions
    rw [show (m.on b).data = b from rfl, show (m.on b).extensionsStart = m.extensionsStart from rfl, this]
  unfold decodeAsCallD decodeAsCall
  rw [h1, h3]
  dsimp only
  rw [eok_bind]
  refine (decodeAsCallUnmarkedD_same h2 _).bind' (fun r => ?_)
  obtain ⟨c, q⟩ := r
  have he : (m.on b).extensionsStart = m.extensionsStart := rfl
  rw [he]
  dsimp only
  split <;> exact .of _

theorem extensionsLoopD_same (H : HonestD Nope D R b) (sel : SignedExt → Nat) (es : List SignedExt) : ∀ pos,
    SameO (extensionsLoopD (ME := ME) D sel es pos) (extensionsLoop R b sel es pos) := by
  induction es with
  | nil => intro pos; exact .of _
  | cons e es ih =>
    intro pos
    refine (decodeD_sameO H _ _ _ _).bind' (fun d => ?_)
    obtain ⟨d, q⟩ := d
    refine (ih q).bind' (fun r => ?_)
    obtain ⟨ds, q'⟩ := r
    exact .of _

theorem decodeExtensionsUnmarkedD_same (H : HonestD Nope D M.types b) (pos : Nat) (expected : Option Bytes) :
    SameO (decodeExtensionsUnmarkedD D M pos expected) (decodeExtensionsUnmarked M b pos expected) := by
  refine (SameO.of _).bind' (fun signed => (extensionsLoopD_same H _ _ _).bind' (fun r => ?_))
  obtain ⟨ds, q⟩ := r
  refine (extensionsLoopD_same H _ _ _).bind' (fun r => ?_)
  obtain ⟨ds', q'⟩ := r
  dsimp only
  rw [H.len]
  split
  · exact .of _
  · exact (SameO.of _).bind' (fun spec => (SameO.of _).bind' (fun _ => .of _))

theorem mark_le {m : Marked} (h : mark (ME := ME) b = .ok m) : m.data = b ∧ m.extensionsStart ≤ b.len := by
  unfold mark cut at h
  obtain ⟨⟨n, q⟩, h1, h2⟩ := ebind_ok.1 h
  obtain ⟨x, h3, h4⟩ := ebind_ok.1 h2
  cases h4
  exact ⟨rfl, readSlice_le (mapErr_ok.1 h3)⟩

theorem parseTransactionD_same (H : HonestD Nope D M.types b)
    (hs : D.word.wraps = true ∨ ¬ PrefixOverflows D.word b.bytes) (expected : Option Bytes) :
    SameO (parseTransactionD D M expected) (parseTransaction M b expected) := by
  intro s
  have hm := markD_same (ME := ME) H hs s
  show (DevO.bind (markD D) _ s).1 = _
  unfold DevO.bind parseTransaction
  rcases hms : markD (ME := ME) D s with ⟨o, s'⟩
  rw [hms] at hm
  dsimp only at hm
  rw [← hm]
  cases o with
  | error e => rfl
  | ok m =>
    dsimp only at hm ⊢
    have hle := (mark_le (ME := ME) hm.symm).2
    rw [eok_bind]
    have hr : ∀ g : List ED → Except (Out (SErr ME)) (TransactionParsed ME),
        (∀ l, SameO (keepErr (decodeAsCallD D M m) >>= fun c => DevO.of (.ok { callResult := c, extensions := l })) (g l)) →
        ((decodeExtensionsUnmarkedD D M m.extensionsStart expected >>= fun l =>
          keepErr (decodeAsCallD D M m) >>= fun c => DevO.of (.ok { callResult := c, extensions := l })) s').1 =
          (decodeExtensions M (m.on b) expected >>= g) :=
      fun g hg => (decodeExtensionsUnmarkedD_same H m.extensionsStart expected).bind' hg s'
    refine hr _ (fun l s'' => ?_)
    have hc := decodeAsCallD_same H hle s''
    show (DevO.bind (keepErr _) _ s'').1 = _
    unfold DevO.bind keepErr
    rcases hcs : decodeAsCallD D M m s'' with ⟨o, s3⟩
    rw [hcs] at hc
    dsimp only at hc
    rw [← hc]
    cases o with
    | ok c => rfl
    | error e => cases e <;> rfl

theorem parseTransactionUnmarkedD_same (H : HonestD Nope D M.types b) (expected : Option Bytes) :
    SameO (parseTransactionUnmarkedD D M expected) (parseTransactionUnmarked M b expected) := by
  refine (decodeAsCallUnmarkedD_same H 0).bind' (fun r => ?_)
  obtain ⟨c, q⟩ := r
  exact (decodeExtensionsUnmarkedD_same H q expected).bind' (fun l => .of _)

/-! ### Unchecked extrinsics -/

theorem extrinsicPartD_same (H : HonestD Nope D R b) (id pos : Nat) :
    SameO (extrinsicPartD (ME := ME) D id pos) (extrinsicPart R b id pos) := decodeD_sameO H _ _ _ _

theorem extrinsicCallD_same (H : HonestD Nope D R b) (id pos : Nat) :
    SameO (extrinsicCallD (ME := ME) D id pos) (extrinsicCall R b id pos) := by
  refine (extrinsicPartD_same H id pos).bind' (fun r => ?_)
  obtain ⟨d, q⟩ := r
  dsimp only
  cases d.data.asCall <;> exact .of _

theorem extrinsicContentD_same (H : HonestD Nope D R b) (params : ExtrinsicParams) (vb v : UInt8) (pos : Nat) :
    SameO (extrinsicContentD (ME := ME) D params vb v pos) (extrinsicContent R params b vb v pos) := by
  unfold extrinsicContentD extrinsicContent
  split
  · exact .of _
  · split
    · exact (extrinsicCallD_same H _ _).bind' (fun _ => .of _)
    · refine (extrinsicPartD_same H _ _).bind' (fun a => ?_)
      obtain ⟨a, q⟩ := a
      refine (extrinsicPartD_same H _ _).bind' (fun a => ?_)
      obtain ⟨a', q'⟩ := a
      refine (extrinsicPartD_same H _ _).bind' (fun a => ?_)
      obtain ⟨a'', q''⟩ := a
      exact (extrinsicCallD_same H _ _).bind' (fun _ => .of _)

variable {MC : CompleteMetadata ME}

/-- With room for the sum: the same outcome. -/
theorem extrinsicFrameD_same (H : HonestD Nope D MC.types b) (params : ExtrinsicParams) {n start : Nat}
    (hq : start ≤ b.len) (hn : start + n < D.word.cap) :
    SameO (extrinsicFrameD D MC params n start)
      (if b.len < start + n then .error (.err (.parsing (.buffer (.dataTooShort b.len (start + n - b.len)))))
        else if start + n < b.len then .error (.err (.parsing (.someDataNotUsedBlob (start + n))))
        else do
          let versionByte ← (b.readByte start).mapErr .parsing
          let version ← mapOut .metaStructure MC.extrinsicVersion
          extrinsicContent MC.types params b versionByte version (start + 1)) := by
  unfold extrinsicFrameD
  refine SameO.arith (word_add hn) ?_
  rw [H.len]
  by_cases h1 : b.len < start + n
  · rw [if_pos h1, if_pos h1]
    exact SameO.arith (word_sub (by omega)) (.of _)
  · rw [if_neg h1, if_neg h1]
    by_cases h2 : start + n < b.len
    · rw [if_pos h2, if_pos h2]; exact .of _
    · rw [if_neg h2, if_neg h2]
      refine ((readByteD_follows H start).mapErr _).bind' (fun vb => ?_)
      refine SameO.arith (word_add (by have := H.word.room; omega)) ?_
      exact (SameO.of _).bind' (fun v => extrinsicContentD_same H _ _ _ _)

/-- With machine words that have room for every sum, the outcome is the same. -/
theorem decodeUncheckedExtrinsicD_same (H : HonestD Nope D MC.types b) (hs : ¬ PrefixOverflows D.word b.bytes) :
    SameO (decodeUncheckedExtrinsicD D MC) (decodeUncheckedExtrinsic MC b) := by
  refine (SameO.of _).bind' (fun params => ((getCompactD_follows H _ 0).mapErr _).bind (fun c hc => ?_))
  obtain ⟨n, q⟩ := c
  have hov := getCompact_overflows (w := D.word) (mapErr_ok.1 hc)
  have hc := getCompact_start (mapErr_ok.1 hc)
  dsimp only
  rw [u32_word H hc.1]
  exact extrinsicFrameD_same H _ hc.2 (Nat.lt_of_not_le fun h => hs (hov h))

/-- The prefix at the beginning, when it is read. -/
theorem overflows_getCompact {w : Word} (hs : PrefixOverflows w b.bytes) {r : Res (Nat × Nat)}
    (h : getCompact (compactUInt .u32) b 0 = r) :
    (∃ n q, r = .ok (n, q) ∧ n < 2 ^ 32 ∧ q ≤ b.len ∧ w.cap ≤ q + n) ∨ (∃ e, r = .error e ∧ ¬ Reliable b) := by
  obtain ⟨n, rest, h1, h2, h3⟩ := hs
  have h4 := getCompact_complete (w := .u32) (b := b.clean) (reliable_ofBytes _) (pos := 0) (v := n)
    (by simpa [UW.bytes] using h1) ⟨[], rest, h2, rfl⟩
  cases r with
  | ok c =>
    obtain ⟨n', q⟩ := c
    have hc := getCompact_start h
    obtain ⟨g1, g2, rfl⟩ := getCompact_sound h
    have h5 := getCompact_complete (w := .u32) (b := b.clean) (reliable_ofBytes _) g1 (show At b.bytes _ _ from g2)
    rw [h4] at h5
    simp only [Except.ok.injEq, Prod.mk.injEq] at h5
    obtain ⟨rfl, _⟩ := h5
    exact .inl ⟨_, _, rfl, hc.1, hc.2, by omega⟩
  | error e =>
    refine .inr ⟨e, rfl, fun hr => ?_⟩
    have := getCompact_complete (w := .u32) (b := b) hr (pos := 0) (v := n)
      (by simpa [UW.bytes] using h1) ⟨[], rest, by simpa using h2, rfl⟩
    rw [h] at this
    cases this

/-! ### Storage entries -/

theorem cutHashD_same (H : HonestD Nope D R b) (kind : HashKind) (ty pos : Nat) :
    SameO (cutHashD D kind ty pos) (cutHash kind ty b pos) := by
  refine ((H.read _ _).mapErr _).bind (fun x hx => ?_)
  have hx := readSlice_le (mapErr_ok.1 hx)
  split
  · exact .of _
  · exact SameO.arith (word_add (by have := H.word.room; omega)) (.of _)

theorem expectD_same {x : Dev σ α} {r : Res α} (h : Follows Nope x r) :
    SameO (ε := ε) (expectD x) (expecting r) := by
  intro s
  have := h.nope s
  unfold expectD
  rcases hx : x s with ⟨o, s'⟩
  rw [hx] at this
  dsimp only at this
  subst this
  cases o <;> rfl

theorem checkHashD_same (H : HonestD Nope D R b) (n : Nat) (f : Bytes → Bytes) (ty pos : Nat) :
    SameO (checkHashD D n f ty pos) (checkHash R n f ty b pos) := by
  refine ((H.read _ _).mapErr _).bind (fun x hx => ?_)
  have hx := readSlice_le (mapErr_ok.1 hx)
  split
  · exact .of _
  · refine SameO.arith (word_add (by have := H.word.room; omega)) ?_
    refine (decodeD_sameO H _ _ _ _).bind (fun d hd => ?_)
    obtain ⟨d, q⟩ := d
    have hq := (decode_position (mapErr_ok.1 hd)).1
    refine SameO.arith (word_sub hq) ?_
    have hb := (expectD_same (ε := StErr) (H.read (pos + n) (q - (pos + n)))).bind'
      (k := fun bs => if x ≠ f bs then DevO.of (.error (.err .keyPartHashMismatch)) else DevO.of (.ok (KeyPart.parsed d, q)))
      (g := fun bs => if x ≠ f bs then .error (.err .keyPartHashMismatch) else .ok (KeyPart.parsed d, q))
      (fun bs => by split <;> exact .of _)
    intro s
    rw [hb s]
    dsimp only
    cases b.readSlice (pos + n) (q - (pos + n)) <;> rfl

variable {HF : HashFns}

theorem processHasherD_same (H : HonestD Nope D R b) (h : Hasher) (ty pos : Nat) :
    SameO (processHasherD D HF h ty pos) (processHasher HF R h ty b pos) := by
  cases h with
  | blake2_128 => exact cutHashD_same H _ _ _
  | blake2_256 => exact cutHashD_same H _ _ _
  | blake2_128Concat => exact checkHashD_same H _ _ _ _
  | twox128 => exact cutHashD_same H _ _ _
  | twox256 => exact cutHashD_same H _ _ _
  | twox64Concat => exact checkHashD_same H _ _ _ _
  | identity => exact (decodeD_sameO H _ _ _ _).bind' (fun d => .of _)

theorem hashersLoopD_same (H : HonestD Nope D R b) (hs : List Hasher) : ∀ (tys : List Nat) (pos : Nat),
    SameO (hashersLoopD D HF hs tys pos) (hashersLoop HF R b hs tys pos) := by
  induction hs with
  | nil => intro tys pos; cases tys <;> exact .of _
  | cons h hs ih =>
    intro tys pos
    cases tys with
    | nil => exact .of _
    | cons ty tys =>
      exact (processHasherD_same H h ty pos).bind' (fun a => (ih tys a.2).bind' (fun r => .of _))

/-- `processKeyMapped` without the final check. -/
def keyData (HF : HashFns) (R : Registry) (hs : List Hasher) (ty : Nat) (b : Buf) (pos : Nat) : StRes (KeyData × Nat) :=
  match hs with
  | [h] => processHasher HF R h ty b pos >>= fun c => .ok (KeyData.singleHash c.1, c.2)
  | _ => (R.get ty).mapErr .parsingKey >>= fun t =>
      match t.typeDef with
      | .tuple elems =>
        if elems.length ≠ hs.length then .error (.err .multipleHashesNumberMismatch)
        else hashersLoop HF R b hs elems pos >>= fun c => .ok (KeyData.tupleHash c.1 (Info.fromTy t), c.2)
      | _ => .error (.err .multipleHashesNotATuple)

theorem processKeyMapped_keyData (hs : List Hasher) (ty pos : Nat) : processKeyMapped HF R hs ty b pos =
    keyData HF R hs ty b pos >>= fun r => if r.2 = b.len then .ok r.1 else .error (.err .keyPartsUnused) := by
  match hs with
  | [h] =>
    unfold processKeyMapped keyData
    dsimp only
    cases processHasher HF R h ty b pos <;> rfl
  | [] =>
    unfold processKeyMapped keyData
    dsimp only
    cases R.get ty with
    | error e => cases e <;> rfl
    | ok t =>
      rw [show (Res.mapErr StErr.parsingKey (.ok t : Res Typ)) = .ok t from rfl]
      simp only [eok_bind]
      cases t.typeDef with
      | tuple elems =>
        dsimp only
        split
        · rfl
        · cases hashersLoop HF R b _ elems pos <;> rfl
      | _ => rfl
  | h :: h' :: hs =>
    unfold processKeyMapped keyData
    dsimp only
    cases R.get ty with
    | error e => cases e <;> rfl
    | ok t =>
      rw [show (Res.mapErr StErr.parsingKey (.ok t : Res Typ)) = .ok t from rfl]
      simp only [eok_bind]
      cases t.typeDef with
      | tuple elems =>
        dsimp only
        split
        · rfl
        · cases hashersLoop HF R b _ elems pos <;> rfl
      | _ => rfl

theorem keyDataD_same (H : HonestD Nope D R b) (hs : List Hasher) (ty pos : Nat) :
    SameO (keyDataD D HF hs ty pos) (keyData HF R hs ty b pos) := by
  match hs with
  | [h] => exact (processHasherD_same H _ ty pos).bind' (fun c => .of _)
  | [] =>
    refine ((H.get ty).mapErr _).bind' (fun t => ?_)
    cases t.typeDef with
    | tuple elems =>
      dsimp only
      split
      · exact .of _
      · exact (hashersLoopD_same H _ elems pos).bind' (fun c => .of _)
    | _ => exact .of _
  | h :: h' :: hs =>
    refine ((H.get ty).mapErr _).bind' (fun t => ?_)
    cases t.typeDef with
    | tuple elems =>
      dsimp only
      split
      · exact .of _
      · exact (hashersLoopD_same H _ elems pos).bind' (fun c => .of _)
    | _ => exact .of _

theorem processKeyMappedD_same (H : HonestD Nope D R b) (hs : List Hasher) (ty pos : Nat) :
    SameO (processKeyMappedD D HF hs ty pos) (processKeyMapped HF R hs ty b pos) := by
  rw [processKeyMapped_keyData]
  refine (keyDataD_same H hs ty pos).bind' (fun r => ?_)
  obtain ⟨d, q⟩ := r
  dsimp only
  rw [H.len]
  split <;> exact .of _

theorem decodeAllAsTypeD_same (H : HonestD Nope D R b) (id : Nat) :
    Follows Nope (decodeAllAsTypeD D id) (decodeAllAsType R b id) := by
  refine (show Follows Nope _ _ from decodeD_same H (.symbol id) 0 Propagated.new).bind' (fun r => ?_)
  obtain ⟨d, q⟩ := r
  dsimp only
  rw [H.len]
  split <;> exact .of _

theorem decodeAllAsTypeD_sameO (H : HonestD Nope D R b) (id : Nat) (f : PErr → ε) :
    SameO ((decodeAllAsTypeD D id).mapErr f) ((decodeAllAsType R b id).mapErr f) :=
  (decodeAllAsTypeD_same H id).mapErr f

theorem decodeStorageEntryD_same {DK DV : Device σ} {k v : Buf} (HK : HonestD Nope DK R k) (HV : HonestD Nope DV R v)
    (entry : Entry) : SameO (decodeStorageEntryD HF DK DV entry) (decodeStorageEntry HF R k v entry) := by
  unfold decodeStorageEntryD decodeStorageEntry
  dsimp only
  rw [HK.len]
  split
  · exact .of _
  · cases entry.ty with
    | plain ty =>
      dsimp only
      split
      · exact .of _
      · exact (decodeAllAsTypeD_sameO HV ty _).bind' (fun _ => .of _)
    | map hs kt vt =>
      exact (processKeyMappedD_same HK hs kt 32).bind' (fun _ => (decodeAllAsTypeD_sameO HV vt _).bind' (fun _ => .of _))

end Verif
