import Verif.Props.Extensions
import Verif.Props.Extrinsic
import Verif.Props.Metadata
/-!
# C54 The forms of a call agree

The same call can reach the parser in a signable transaction with a length prefix
(`parse_transaction`), in one without (`parse_transaction_unmarked`), in a blob of its own
(`decode_as_call_unmarked`), or in an unchecked extrinsic. The outcome is the same call.
-/
namespace Verif
open Spec

variable {ME : Type} {M : Metadata ME} {b b' : Buf}

/-- C54. Wherever the bytes of a decoded call are found, the same call is decoded. -/
theorem decodeAsCallUnmarked_local (hr : Reliable b') {pos q pos' : Nat} {c : Call}
    (h : decodeAsCallUnmarked M b pos = .ok (c, q)) (hat : At b'.bytes pos' (between b pos q)) :
    decodeAsCallUnmarked M b' pos' = .ok (c, pos' + (q - pos)) := by
  unfold decodeAsCallUnmarked at h ⊢
  obtain ⟨id, h1, h⟩ := ebind_ok.1 h
  obtain ⟨⟨d, q1⟩, h2, h⟩ := ebind_ok.1 h
  rw [mapErr_ok] at h2
  dsimp only at h
  split at h
  · rename_i call hcall
    cases h
    rw [h1, eok_bind, mapErr_ok.2 (decode_local hr h2 hat), eok_bind]
    dsimp only
    rw [hcall]
  · cases h

theorem between_take {n pos q : Nat} (h : q ≤ n) :
    between { b with bytes := b.bytes.take n } pos q = between b pos q := by
  unfold between
  simp only [List.drop_take, List.take_take]
  congr 1
  omega

/-- The call region of a marked payload holds a call, that is decoded also without the marks. -/
theorem decodeAsCall_iff (hr : Reliable b) (hr' : Reliable b') {call ext : Bytes} (hl : call.length < 2 ^ 32)
    (hb : b.bytes = compactEncode call.length ++ call ++ ext) (hb' : b'.bytes = call ++ ext) {m : Marked} {c : Call}
    (hm : mark (ME := ME) b = .ok m) :
    decodeAsCall M m = .ok c ↔ decodeAsCallUnmarked M b' 0 = .ok (c, call.length) := by
  have hm' := mark_complete (ME := ME) hr hl hb
  rw [hm] at hm'
  have hm' : m = ⟨b, (compactEncode call.length).length, (compactEncode call.length).length + call.length⟩ := by
    cases hm'; rfl
  obtain ⟨hd, hle⟩ := dataNoExtensions_eq hm
  have hbt : b.bytes.take m.extensionsStart = compactEncode call.length ++ call := by
    rw [hb, hm', List.take_left' (by simp)]
  have hcall : between b m.callStart m.extensionsStart = call := by
    unfold between
    rw [hb, hm']
    dsimp only
    rw [List.append_assoc, List.drop_left' rfl, Nat.add_sub_cancel_left, List.take_left' rfl]
  have hcall' : between b' 0 call.length = call := by
    unfold between; rw [hb', List.drop_zero, Nat.sub_zero, List.take_left' rfl]
  unfold decodeAsCall
  rw [hd, eok_bind]
  constructor
  · intro h
    obtain ⟨⟨c', q⟩, h1, h⟩ := ebind_ok.1 h
    dsimp only at h
    split at h
    · cases h
    · rename_i hq
      cases h
      have hq : q = m.extensionsStart := by simpa using hq
      subst hq
      have := decodeAsCallUnmarked_local hr' (pos' := 0) h1
        (by rw [between_take (Nat.le_refl _), hcall]; exact ⟨[], ext, by simp [hb'], rfl⟩)
      rw [this, hm']
      simp
  · intro h
    have := decodeAsCallUnmarked_local (b := b') (b' := { b with bytes := b.bytes.take m.extensionsStart })
      (fun p n => hr p n) (pos' := m.callStart) h
      (by rw [hcall', hbt]; exact ⟨compactEncode call.length, [], by simp, by rw [hm']⟩)
    rw [this, eok_bind]
    dsimp only
    rw [if_neg (by rw [hm']; simp)]

theorem decodeExtensionsUnmarked_iff (hr : Reliable b) (hr' : Reliable b') {pos pos' : Nat} {g : Option Bytes}
    {es : List ED} (hb : b.bytes.drop pos = b'.bytes.drop pos') (h : pos ≤ b.len) (h' : pos' ≤ b'.len) :
    decodeExtensionsUnmarked M b pos g = .ok es ↔ decodeExtensionsUnmarked M b' pos' g = .ok es :=
  ⟨decodeExtensionsUnmarked_local hr' hb h', decodeExtensionsUnmarked_local hr hb.symm h⟩

/-- C54. A payload with a length prefix is parsed, with a call, exactly if the payload without the
prefix is, and the call has the length that the prefix says; the outcome is the same. -/
theorem parseTransaction_marked_iff (hr : Reliable b) (hr' : Reliable b') {call ext : Bytes} (hl : call.length < 2 ^ 32)
    (hb : b.bytes = compactEncode call.length ++ call ++ ext) (hb' : b'.bytes = call ++ ext) {g : Option Bytes}
    {c : Call} {es : List ED} :
    parseTransaction M b g = .ok ⟨.ok c, es⟩ ↔
      parseTransactionUnmarked M b' g = .ok ⟨c, es⟩ ∧ decodeAsCallUnmarked M b' 0 = .ok (c, call.length) := by
  have hm := mark_complete (ME := ME) hr hl hb
  have hext : decodeExtensions M ⟨b, (compactEncode call.length).length, (compactEncode call.length).length + call.length⟩ g =
      .ok es ↔ decodeExtensionsUnmarked M b' call.length g = .ok es := by
    unfold decodeExtensions
    refine decodeExtensionsUnmarked_iff hr hr' ?_ ?_ ?_
    · dsimp only
      rw [hb, hb', List.drop_left' (by simp), List.drop_left' rfl]
    · unfold Buf.len; rw [hb]; simp
    · unfold Buf.len; rw [hb']; simp
  rw [parseTransaction_iff]
  constructor
  · rintro ⟨m, h1, h2, h3⟩
    have e : m = ⟨b, (compactEncode call.length).length, (compactEncode call.length).length + call.length⟩ := by
      rw [hm] at h1; cases h1; rfl
    rcases h3 with ⟨c', h3, h4⟩ | ⟨e, _, h4⟩
    · cases h4
      have k1 := (decodeAsCall_iff hr hr' hl hb hb' h1).1 h3
      refine ⟨?_, k1⟩
      subst e
      unfold parseTransactionUnmarked
      rw [k1, eok_bind]
      dsimp only
      rw [hext.1 h2, eok_bind]
    · cases h4
  · rintro ⟨h1, h2⟩
    refine ⟨_, hm, hext.2 ?_, .inl ⟨c, (decodeAsCall_iff hr hr' hl hb hb' hm).2 h2, rfl⟩⟩
    unfold parseTransactionUnmarked at h1
    rw [h2, eok_bind] at h1
    obtain ⟨es', h3, h1⟩ := ebind_ok.1 h1
    cases h1
    exact h3

/-- C54. Every payload parsed without a prefix has a form with a prefix, that is parsed with the same
outcome. -/
theorem parseTransactionUnmarked_marked (hr' : Reliable b') {g : Option Bytes} {r : TransactionUnmarkedParsed}
    (h : parseTransactionUnmarked M b' g = .ok r) : ∃ call ext, b'.bytes = call ++ ext ∧
      (call.length < 2 ^ 32 → ∀ b, Reliable b → b.bytes = compactEncode call.length ++ call ++ ext →
        parseTransaction M b g = .ok ⟨.ok r.call, r.extensions⟩) := by
  have h0 := h
  unfold parseTransactionUnmarked at h
  obtain ⟨⟨c, q⟩, h1, h⟩ := ebind_ok.1 h
  obtain ⟨es, h2, h⟩ := ebind_ok.1 h
  cases h
  obtain ⟨_, _, _, k1, k2⟩ := decodeAsCallUnmarked_sound h1
  have hle := k1.le
  have hq : (b'.bytes.take q).length = q := by
    rw [List.length_take]; omega
  refine ⟨b'.bytes.take q, b'.bytes.drop q, (List.take_append_drop _ _).symm, ?_⟩
  intro hl b hr hb
  refine (parseTransaction_marked_iff hr hr' hl hb (List.take_append_drop _ _).symm).2 ⟨h0, ?_⟩
  rw [h1, hq]

/-! ### Extrinsics -/

/-- The call in an extrinsic. -/
def UncheckedExtrinsic.call : UncheckedExtrinsic → Call
  | .signed _ _ _ c => c
  | .unsigned c => c

theorem extrinsicCall_decodes {M : CompleteMetadata ME} {id pos : Nat} (hid : M.callTy = .ok id) {c : Call}
    (h : extrinsicCall (ME := ME) M.types b id pos = .ok c) : ∃ q, decodeAsCallUnmarked M.toMetadata b pos = .ok (c, q) := by
  unfold extrinsicCall extrinsicPart decodeAsTypeAtPosition at h
  obtain ⟨⟨d, q⟩, h1, h⟩ := ebind_ok.1 h
  rw [mapErr_ok] at h1
  refine ⟨q, ?_⟩
  unfold decodeAsCallUnmarked
  rw [mapOut_ok.2 hid, eok_bind, mapErr_ok.2 h1, eok_bind]
  dsimp only at h ⊢
  split at h
  · rename_i hc; cases h; rw [hc]
  · cases h

/-- C54. The call shown for an extrinsic is what `decode_as_call_unmarked` shows at some position of the
extrinsic, if the call types are the same. -/
theorem decodeUncheckedExtrinsic_call {M : CompleteMetadata ME} {params : ExtrinsicParams}
    (hp : M.extrinsicTypeParams = .ok params) (hid : M.callTy = .ok params.callTy) {u : UncheckedExtrinsic}
    (h : decodeUncheckedExtrinsic M b = .ok u) :
    ∃ pos q, decodeAsCallUnmarked M.toMetadata b pos = .ok (u.call, q) := by
  unfold decodeUncheckedExtrinsic at h
  rw [hp] at h
  rw [show mapOut UErr.metaStructure (.ok params : Except (Out ME) ExtrinsicParams) = .ok params from rfl, eok_bind] at h
  obtain ⟨⟨n, start⟩, h1, h⟩ := ebind_ok.1 h
  dsimp only at h
  split at h
  · cases h
  · split at h
    · cases h
    · obtain ⟨vb, h2, h⟩ := ebind_ok.1 h
      obtain ⟨v, h3, h⟩ := ebind_ok.1 h
      unfold extrinsicContent at h
      split at h
      · cases h
      · split at h
        · obtain ⟨c, h4, h⟩ := ebind_ok.1 h
          cases h
          exact ⟨_, extrinsicCall_decodes hid h4⟩
        · obtain ⟨x, h4, h⟩ := ebind_ok.1 h
          obtain ⟨y, h5, h⟩ := ebind_ok.1 h
          obtain ⟨z, h6, h⟩ := ebind_ok.1 h
          obtain ⟨c, h7, h⟩ := ebind_ok.1 h
          cases h
          exact ⟨_, extrinsicCall_decodes hid h7⟩

/-- C54. A decoded call, put into an unsigned extrinsic, is decoded as the same call. -/
theorem decodeUncheckedExtrinsic_unsigned_call {M : CompleteMetadata ME} {params : ExtrinsicParams} {version : UInt8}
    (hp : M.extrinsicTypeParams = .ok params) (hid : M.callTy = .ok params.callTy)
    (hv : M.extrinsicVersion = .ok version) (hv7 : version.toNat < 128) {pos q : Nat} {c : Call}
    (h : decodeAsCallUnmarked M.toMetadata b pos = .ok (c, q)) (hl : (between b pos q).length + 1 < 2 ^ 32)
    (hr : Reliable b')
    (hb : b'.bytes = compactEncode ((between b pos q).length + 1) ++ (version :: between b pos q)) :
    decodeUncheckedExtrinsic M b' = .ok (.unsigned c) := by
  rw [decodeUncheckedExtrinsic_frame hr hp hv hl hb]
  unfold extrinsicContent
  rw [if_neg (fun h => (version_bits _ _).1 h (Nat.mod_eq_of_lt hv7)), if_pos ((sign_bit _).2 hv7)]
  have hat : At b'.bytes ((compactEncode ((between b pos q).length + 1)).length + 1) (between b pos q) :=
    ⟨compactEncode ((between b pos q).length + 1) ++ [version], [], by rw [hb]; simp, by simp⟩
  have hc := decodeAsCallUnmarked_local hr h hat
  unfold decodeAsCallUnmarked at hc
  rw [mapOut_ok.2 hid, eok_bind] at hc
  obtain ⟨⟨d, q1⟩, h2, hc⟩ := ebind_ok.1 hc
  unfold extrinsicCall extrinsicPart decodeAsTypeAtPosition
  rw [mapErr_ok] at h2
  rw [mapErr_ok.2 h2, eok_bind]
  dsimp only at hc ⊢
  split at hc
  · rename_i hcall; cases hc; rw [hcall]; rfl
  · cases hc

/-- C54. The call types are the same in V14 and V15 metadata. -/
theorem call_types_agree {params : ExtrinsicParams} :
    (∀ m : V14, m.metadata.extrinsicTypeParams = .ok params → m.metadata.callTy = .ok params.callTy) ∧
    (∀ m : V15, m.metadata.extrinsicTypeParams = .ok params → m.metadata.callTy = .ok params.callTy) := by
  refine ⟨fun m h => V14_callTy_iff.2 ⟨params, h, rfl⟩, fun m h => ?_⟩
  have h : (.ok m.params : Except (Out VersionErr) ExtrinsicParams) = .ok params := h
  cases h
  rfl

/-! ### Examples -/

namespace Example

theorem unmarked_parsed : ∃ es, parseTransactionUnmarked chain (Buf.ofBytes (callBytes ++ extBytes)) (some genesis) =
    .ok ⟨call, es⟩ := ⟨_, rfl⟩

/-- The example payload with and without its prefix. -/
example : ∃ es, parseTransaction chain payload (some genesis) = .ok ⟨.ok call, es⟩ := by
  obtain ⟨es, h⟩ := unmarked_parsed
  exact ⟨es, (parseTransaction_marked_iff (b := payload) (b' := Buf.ofBytes (callBytes ++ extBytes)) (reliable_ofBytes _)
    (reliable_ofBytes _) (call := callBytes) (ext := extBytes) (by decide) rfl rfl).2 ⟨h, rfl⟩⟩

/-- A prefix that says another length does not give the outcome of the payload without it. -/
example : ∃ es, parseTransactionUnmarked chain (Buf.ofBytes (callBytes ++ extBytes)) (some genesis) = .ok ⟨call, es⟩ ∧
    decodeAsCallUnmarked chain (Buf.ofBytes (callBytes ++ extBytes)) 0 ≠ .ok (call, 6) := by
  obtain ⟨es, h⟩ := unmarked_parsed
  refine ⟨es, h, ?_⟩
  rw [show decodeAsCallUnmarked chain (Buf.ofBytes (callBytes ++ extBytes)) 0 = .ok (call, 7) from rfl]
  intro h
  cases h

/-- The call of the signed example extrinsic, which starts at byte 36. -/
example : ∃ pos q, decodeAsCallUnmarked extrinsicChain.toMetadata (Buf.ofBytes signedBytes) pos = .ok (call, q) := by
  have h : ∃ u, decodeUncheckedExtrinsic extrinsicChain (Buf.ofBytes signedBytes) = .ok u ∧ u.call = call := ⟨_, rfl, rfl⟩
  obtain ⟨u, h1, h2⟩ := h
  rw [← h2]
  exact decodeUncheckedExtrinsic_call (params := ⟨0, 2, 5, 7⟩) rfl rfl h1

/-- The call of the payload, sent in an unsigned extrinsic. -/
example : decodeUncheckedExtrinsic extrinsicChain (Buf.ofBytes unsignedBytes) = .ok (.unsigned call) :=
  decodeUncheckedExtrinsic_unsigned_call (b := payload) (pos := 1) (q := 8) (params := ⟨0, 2, 5, 7⟩) (version := 4)
    rfl rfl rfl (by decide) rfl (by decide) (reliable_ofBytes _) rfl

end Example

end Verif
