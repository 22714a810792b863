import Verif.Proof.DeviceTx
import Verif.Props.Storage
import Verif.Props.Extrinsic
import Verif.Props.Device
/-!
# C59: machine words

Positions and lengths are numbers in `Model/Decode.lean`, `Model/Transaction.lean` and so on. Here: on
machine words (`Model/Device.lean`, `Model/DeviceTx.lean`) the outcomes are the same, whether or not the
program is compiled with overflow checks, but for length prefixes too large for a 32-bit machine.
-/
namespace Verif
open Spec

variable {σ ME : Type} {D : Device σ} {R : Registry} {b : Buf} {M : Metadata ME} {MC : CompleteMetadata ME}

/-- C59. With machine words of 64 bits no length prefix is too large. -/
theorem usize64_fits (wraps : Bool) (data : Bytes) : ¬ PrefixOverflows (usize64 wraps) data := by
  rintro ⟨n, rest, h1, _, h3⟩
  have := compactEncode_length_le (v := n) (by omega)
  have h4 : (usize64 wraps).cap = 2 ^ 64 := rfl
  omega

/-- C59. Decoding of a type: the outcome on machine words is the outcome on numbers. -/
theorem decodeAsTypeAtPositionD_words (h : Steady D R b) (id pos : Nat) (s : σ) :
    (decodeAsTypeAtPositionD D id pos s).1 = decodeAsTypeAtPosition R b id pos := decodeD_steady h _ _ _ s

/-- C59. A whole transaction: the same, unless the length prefix overflows and overflow is checked. -/
theorem parseTransactionD_words (h : Steady D M.types b)
    (hs : D.word.wraps = true ∨ ¬ PrefixOverflows D.word b.bytes) (expected : Option Bytes) (s : σ) :
    (parseTransactionD D M expected s).1 = parseTransaction M b expected := parseTransactionD_same h.honest hs expected s

/-- C59. An unmarked transaction has no length prefix: the same always. -/
theorem parseTransactionUnmarkedD_words (h : Steady D M.types b) (expected : Option Bytes) (s : σ) :
    (parseTransactionUnmarkedD D M expected s).1 = parseTransactionUnmarked M b expected :=
  parseTransactionUnmarkedD_same h.honest expected s

/-- C59. An extrinsic: the same, unless the length prefix overflows. -/
theorem decodeUncheckedExtrinsicD_words (h : Steady D MC.types b) (hs : ¬ PrefixOverflows D.word b.bytes) (s : σ) :
    (decodeUncheckedExtrinsicD D MC s).1 = decodeUncheckedExtrinsic MC b := decodeUncheckedExtrinsicD_same h.honest hs s

/-- C59. A storage entry: the same always. -/
theorem decodeStorageEntryD_words {H : HashFns} {DK DV : Device σ} {k v : Buf} (hk : Steady DK R k) (hv : Steady DV R v)
    (entry : Entry) (s : σ) : (decodeStorageEntryD H DK DV entry s).1 = decodeStorageEntry H R k v entry :=
  decodeStorageEntryD_same hk.honest hv.honest entry s

/-! ### The length prefix that overflows -/

theorem getCompactD_ok (H : HonestD Nope D R b) {r : Res (Nat × Nat)} (h : getCompact (compactUInt .u32) b 0 = r) (s : σ) :
    (getCompactD D (compactUInt .u32) 0 s).1 = r := by
  rw [(getCompactD_follows H _ 0).nope s, h]

/-- C59. The transaction's length prefix overflows: with overflow checks, marking panics. Without, and
on larger machines, it is the error `CutSignable`. -/
theorem markD_overflow (h : Steady D R b) (hr : Reliable b) (ho : PrefixOverflows D.word b.bytes) (s : σ) :
    mark (ME := ME) b = .error (.err .cutSignable) ∧
      (markD (ME := ME) D s).1 = if D.word.wraps then .error (.err .cutSignable) else .error .panic := by
  have H : HonestD Nope D R b := h.honest
  obtain ⟨n, q, h1, h2, h3, h4⟩ : ∃ n q, getCompact (compactUInt .u32) b 0 = .ok (n, q) ∧ n < 2 ^ 32 ∧ q ≤ b.len ∧
      D.word.cap ≤ q + n := by
    rcases overflows_getCompact ho rfl with ⟨n, q, h⟩ | ⟨e, _, h⟩
    · exact ⟨n, q, h⟩
    · exact absurd hr h
  have hroom := H.word.room
  have hread : b.readSlice q n = .error (.err (.buffer (.dataTooShort q n))) := by
    unfold Buf.readSlice
    rw [if_neg (by omega), if_pos (by omega)]
  have hmark : mark (ME := ME) b = .error (.err .cutSignable) := by
    unfold mark cut
    rw [h1]
    show (Res.mapErr _ (b.readSlice q n) >>= _) = _
    rw [hread]
    rfl
  refine ⟨hmark, ?_⟩
  cases hw : D.word.wraps with
  | true =>
    have := markD_same (ME := ME) H (.inl hw) s
    rw [hmark] at this
    split at this
    · cases this
    · rename_i e he
      cases this
      rw [he]
      rfl
  | false =>
    show (DevO.bind _ _ s).1 = _
    unfold DevO.bind Dev.mapErr
    rw [getCompactD_ok H h1 s]
    show (DevO.bind _ _ _).1 = _
    dsimp only
    rw [u32_word H h2, word_add_prefix h3 h2 H.word h4, hw]
    rfl

/-- C59. An extrinsic's length prefix overflows: the data is too short for it. With overflow checks
there is a panic, without there is another error, which is not true of the data. -/
theorem decodeUncheckedExtrinsicD_overflow {params : ExtrinsicParams} (hp : MC.extrinsicTypeParams = .ok params)
    (h : Steady D MC.types b) (hr : Reliable b) (ho : PrefixOverflows D.word b.bytes) (s : σ) :
    (∃ n, decodeUncheckedExtrinsic MC b = .error (.err (.parsing (.buffer (.dataTooShort b.len n))))) ∧
      ((D.word.wraps = false ∧ (decodeUncheckedExtrinsicD D MC s).1 = .error .panic) ∨
        (D.word.wraps = true ∧ ∃ q, (decodeUncheckedExtrinsicD D MC s).1 = .error (.err (.parsing (.someDataNotUsedBlob q))))) := by
  have H : HonestD Nope D MC.types b := h.honest
  obtain ⟨n, q, h1, h2, h3, h4⟩ : ∃ n q, getCompact (compactUInt .u32) b 0 = .ok (n, q) ∧ n < 2 ^ 32 ∧ q ≤ b.len ∧
      D.word.cap ≤ q + n := by
    rcases overflows_getCompact ho rfl with ⟨n, q, h⟩ | ⟨e, _, h⟩
    · exact ⟨n, q, h⟩
    · exact absurd hr h
  have hroom := H.word.room
  have hwords := H.word.words
  constructor
  · refine ⟨q + n - b.len, ?_⟩
    unfold decodeUncheckedExtrinsic
    rw [hp, h1]
    show (if b.len < q + n then _ else _) = _
    rw [if_pos (by omega)]
  · have hrun : (decodeUncheckedExtrinsicD D MC s).1 =
        (extrinsicFrameD D MC params n q (getCompactD D (compactUInt .u32) 0 s).2).1 := by
      unfold decodeUncheckedExtrinsicD
      rw [hp]
      show (DevO.bind (Dev.mapErr (fun _ => UErr.formatNoCompact) (getCompactD D (compactUInt .u32) 0))
        (fun c => extrinsicFrameD D MC params (D.word.ofU32 c.1) c.2) s).1 = _
      unfold DevO.bind Dev.mapErr
      rw [getCompactD_ok H h1 s]
      show (extrinsicFrameD D MC params (D.word.ofU32 n) q _).1 = _
      rw [u32_word H h2]
    rw [hrun]
    unfold extrinsicFrameD
    rw [word_add_prefix h3 h2 H.word h4]
    cases hw : D.word.wraps with
    | false => exact .inl ⟨rfl, rfl⟩
    | true =>
      refine .inr ⟨rfl, q + n - D.word.cap, ?_⟩
      show ((if D.len < q + n - D.word.cap then _ else if q + n - D.word.cap < D.len then _ else _ : DevO σ _ _) _).1 = _
      rw [H.len, if_neg (by omega), if_pos (by omega)]
      rfl

/-- C59. So in any case: an extrinsic is decoded on machine words to some result exactly if it is
decoded on numbers to this result. -/
theorem decodeUncheckedExtrinsicD_success (h : Steady D MC.types b) (hr : Reliable b) (s : σ) (u : UncheckedExtrinsic) :
    (decodeUncheckedExtrinsicD D MC s).1 = .ok u ↔ decodeUncheckedExtrinsic MC b = .ok u := by
  by_cases ho : PrefixOverflows D.word b.bytes
  · cases hp : MC.extrinsicTypeParams with
    | error e =>
      have : ∀ r, decodeUncheckedExtrinsic MC b = r → (decodeUncheckedExtrinsicD D MC s).1 = r := by
        intro r hr'
        rw [← hr']
        unfold decodeUncheckedExtrinsicD decodeUncheckedExtrinsic
        rw [hp]
        cases e <;> rfl
      exact ⟨fun hu => by rw [← hu]; exact (this _ rfl).symm, fun hu => this _ hu⟩
    | ok params =>
      obtain ⟨⟨n, h1⟩, h2 | ⟨_, q, h2⟩⟩ := decodeUncheckedExtrinsicD_overflow hp h hr ho s
      · rw [h1, h2.2]; exact ⟨(nomatch ·), (nomatch ·)⟩
      · rw [h1, h2]; exact ⟨(nomatch ·), (nomatch ·)⟩
  · rw [decodeUncheckedExtrinsicD_words h ho s]

/-! ### Examples -/

namespace WordsExample

/-- The memory of the example chain, where nothing fails. -/
def memory (w : Word) (data : Bytes) : Device Nat := scripted w Example.chain.types data (fun _ => false)

theorem memory_steady {w : Word} {data : Bytes} (h : Fits w data.length) :
    Steady (memory w data) Example.chain.types (Buf.ofBytes data) :=
  ⟨rfl, rfl, h, fun _ _ _ => rfl, fun _ _ => rfl⟩

/-- Length prefix 2^32 - 1, and no data. -/
def huge : Bytes := [0x03, 0xff, 0xff, 0xff, 0xff]

theorem payload_fits {wraps : Bool} : Fits (usize32 wraps) Example.payload.bytes.length :=
  ⟨Nat.le_refl _, show 77 + 2 ^ 30 ≤ 2 ^ 32 by decide⟩

theorem huge_overflows (wraps : Bool) : PrefixOverflows (usize32 wraps) huge :=
  ⟨2 ^ 32 - 1, [], by decide, by decide, show 2 ^ 32 ≤ _ by decide⟩

end WordsExample

open WordsExample

example (expected : Option Bytes) (wraps : Bool) :
    (parseTransactionD (memory (usize32 wraps) Example.payload.bytes) Example.chain expected 0).1 =
      parseTransaction Example.chain Example.payload expected :=
  parseTransactionD_words (memory_steady payload_fits)
    (.inr (by
      rintro ⟨n, rest, h1, h2, h3⟩
      have h4 := getCompact_complete (w := .u32) (b := Example.payload) (reliable_ofBytes _) (pos := 0) (v := n) (by simpa [UW.bytes] using h1)
        ⟨[], rest, h2, rfl⟩
      have h5 : getCompact (compactUInt .u32) Example.payload 0 = .ok (7, 1) := rfl
      rw [h5] at h4
      simp only [Except.ok.injEq, Prod.mk.injEq] at h4
      obtain ⟨rfl, h4⟩ := h4
      rw [show (memory (usize32 wraps) Example.payload.bytes).word.cap = 2 ^ 32 from rfl] at h3
      omega)) expected 0

/-- On 32 bits with overflow checks: panic. Without, and on 64 bits: `CutSignable`. -/
example : (markD (ME := Unit) (memory (usize32 false) huge) 0).1 = .error .panic := rfl
example : (markD (ME := Unit) (memory (usize32 true) huge) 0).1 = .error (.err .cutSignable) := rfl
example : (markD (ME := Unit) (memory (usize64 false) huge) 0).1 = .error (.err .cutSignable) := rfl

/-- An extrinsic: panic, the wrong error, the right error. -/
example : (decodeUncheckedExtrinsicD (memory (usize32 false) huge) Example.extrinsicChain 0).1 = .error .panic := rfl
example : (decodeUncheckedExtrinsicD (memory (usize32 true) huge) Example.extrinsicChain 0).1 =
    .error (.err (.parsing (.someDataNotUsedBlob 4))) := rfl
example : (decodeUncheckedExtrinsicD (memory (usize64 false) huge) Example.extrinsicChain 0).1 =
    .error (.err (.parsing (.buffer (.dataTooShort 5 (2 ^ 32 - 1))))) := rfl

end Verif
