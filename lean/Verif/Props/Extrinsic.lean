import Verif.Props.Transaction
import Verif.Model.Extrinsic
/-!
# Unchecked extrinsics
-/
namespace Verif
open Spec

variable {ME : Type} {M : CompleteMetadata ME} {R : Registry} {b : Buf}

/-- Spec: the bytes `bs` after the version byte are the parts of the extrinsic, then
`tail`. -/
def Spec.ExtrinsicParts (R : Registry) (params : ExtrinsicParams) (isSigned : Bool) (u : UncheckedExtrinsic)
    (bs tail : Bytes) : Prop :=
  match u with
  | .unsigned call => isSigned = false ∧ ∃ c, IsCall R params.callTy call c ∧ bs = c ++ tail
  | .signed address signature extra call => isSigned = true ∧ ∃ a s e c,
      Enc R false params.addressTy (edValue address) a ∧ Enc R false params.signatureTy (edValue signature) s ∧
      Enc R false params.extraTy (edValue extra) e ∧ IsCall R params.callTy call c ∧
      bs = a ++ s ++ e ++ c ++ tail

theorem extrinsicPart_ok {id pos pos' : Nat} {d : ED}
    (h : extrinsicPart (ME := ME) R b id pos = .ok (d, pos')) :
    Enc R false id (edValue d) (between b pos pos') ∧ pos ≤ pos' ∧ (pos ≤ b.len → pos' ≤ b.len) := by
  unfold extrinsicPart decodeAsTypeAtPosition at h
  rw [mapErr_ok] at h
  exact ⟨decode_sound ⟨rfl, rfl⟩ h, (decode_position h).1, (decode_position h).2.1⟩

theorem extrinsicCall_ok {id pos : Nat} {c : Call} (h : extrinsicCall (ME := ME) R b id pos = .ok c) :
    ∃ pos', IsCall R id c (between b pos pos') ∧ pos ≤ pos' := by
  unfold extrinsicCall at h
  obtain ⟨⟨d, q⟩, h1, h⟩ := ebind_ok.1 h
  unfold extrinsicPart decodeAsTypeAtPosition at h1
  rw [mapErr_ok] at h1
  dsimp only at h
  split at h
  · rename_i call hcall
    cases h
    obtain ⟨bs, g1, rfl, g3⟩ := (decode_parses R b _ _).sound h1
    refine ⟨pos + bs.length, ?_, by omega⟩
    rw [has_between g1]
    exact run_call (p := Propagated.new) rfl g3 hcall
  · cases h

theorem drop_split (b : Buf) {pos pos' : Nat} (h : pos ≤ pos') :
    b.bytes.drop pos = between b pos pos' ++ b.bytes.drop pos' := by
  unfold between
  conv => lhs; rw [← List.take_append_drop (pos' - pos) (b.bytes.drop pos)]
  rw [List.drop_drop, show pos + (pos' - pos) = pos' by omega]

theorem sign_bit (v : UInt8) : v &&& ~~~0x7f = 0 ↔ v.toNat < 128 := by
  have h : ∀ n : Fin 256, (UInt8.ofNat n.val &&& ~~~0x7f = 0 ↔ n.val < 128) := by
    set_option maxRecDepth 4000 in decide
  have := h ⟨v.toNat, v.toNat_lt⟩
  simpa using this

theorem version_bits (v w : UInt8) : v &&& 0x7f ≠ w ↔ v.toNat % 128 ≠ w.toNat := by
  have : (v &&& 0x7f).toNat = v.toNat % 128 := by
    rw [UInt8.toNat_and]; exact Nat.and_two_pow_sub_one_eq_mod _ 7
  rw [← this, ne_eq, ne_eq, UInt8.toNat_inj]

/-! ### C30 framing -/

/-- C30, C31. An accepted extrinsic is a compact length, which
is the number of bytes after it; a version byte with the version of the metadata in the
lower seven bits; and the parts, with address, signature and extra present exactly if the
upper bit is set. Nothing is said of `tail`: it is ignored (C31). -/
theorem decodeUncheckedExtrinsic_sound {u : UncheckedExtrinsic}
    (h : decodeUncheckedExtrinsic M b = .ok u) :
    ∃ params version, ∃ (vb : UInt8) (body tail : Bytes), M.extrinsicTypeParams = .ok params ∧
      M.extrinsicVersion = .ok version ∧ body.length + 1 < 2 ^ 32 ∧
      b.bytes = compactEncode (body.length + 1) ++ vb :: body ∧
      vb.toNat % 128 = version.toNat ∧
      ExtrinsicParts M.types params (decide (128 ≤ vb.toNat)) u body tail := by
  unfold decodeUncheckedExtrinsic at h
  obtain ⟨params, h1, h⟩ := ebind_ok.1 h
  obtain ⟨⟨n, start⟩, h2, h⟩ := ebind_ok.1 h
  dsimp only at h
  rw [mapOut_ok] at h1
  rw [mapErr_ok] at h2
  obtain ⟨g1, g2, g3⟩ := getCompact_sound h2
  rw [Nat.zero_add] at g3
  split at h
  · cases h
  split at h
  · cases h
  rename_i hlt hgt
  have hlen : b.len = start + n := by omega
  obtain ⟨vb, h3, h⟩ := ebind_ok.1 h
  obtain ⟨version, h4, h⟩ := ebind_ok.1 h
  rw [mapErr_ok] at h3
  rw [mapOut_ok] at h4
  have hvb := readByte_ok h3
  obtain ⟨pre', post', q1, q2⟩ := g2
  have : pre' = [] := List.length_eq_zero_iff.1 q2
  subst this
  rw [List.nil_append] at q1
  have hpost : b.bytes.drop start = post' := by rw [q1, List.drop_left' g3.symm]
  have hbody : b.bytes.drop start = vb :: b.bytes.drop (start + 1) := by
    have := (at_iff.1 hvb).2
    rw [← List.take_append_drop 1 (b.bytes.drop start), List.drop_drop]
    simp only [List.length_cons, List.length_nil] at this
    rw [this]; rfl
  have hn : n = (b.bytes.drop (start + 1)).length + 1 := by
    have e := congrArg List.length hbody
    unfold Buf.len at hlen
    simp only [List.length_drop, List.length_cons] at e ⊢
    omega
  unfold extrinsicContent at h
  split at h
  · cases h
  rename_i hver
  have hver : vb.toNat % 128 = version.toNat := by
    apply Decidable.byContradiction
    intro hc
    exact hver ((version_bits _ _).2 hc)
  have key : ∃ tail, ExtrinsicParts M.types params (decide (128 ≤ vb.toNat)) u (b.bytes.drop (start + 1)) tail := by
    split at h
    · rename_i hs
      rw [sign_bit] at hs
      obtain ⟨c, h5, h⟩ := ebind_ok.1 h
      cases h
      obtain ⟨q, k1, k2⟩ := extrinsicCall_ok h5
      exact ⟨b.bytes.drop q, by simpa using hs, _, k1, drop_split b k2⟩
    · rename_i hs
      rw [sign_bit] at hs
      obtain ⟨⟨a, p1⟩, e1, h⟩ := ebind_ok.1 h
      obtain ⟨⟨s, p2⟩, e2, h⟩ := ebind_ok.1 h
      obtain ⟨⟨e, p3⟩, e3, h⟩ := ebind_ok.1 h
      obtain ⟨c, e4, h⟩ := ebind_ok.1 h
      cases h
      obtain ⟨k1, k2, _⟩ := extrinsicPart_ok e1
      obtain ⟨l1, l2, _⟩ := extrinsicPart_ok e2
      obtain ⟨m1, m2, _⟩ := extrinsicPart_ok e3
      obtain ⟨q, n1, n2⟩ := extrinsicCall_ok e4
      refine ⟨b.bytes.drop q, by simpa using hs, _, _, _, _, k1, l1, m1, n1, ?_⟩
      rw [drop_split b k2, drop_split b l2, drop_split b m2, drop_split b n2]
      simp only [List.append_assoc]
  obtain ⟨tail, key⟩ := key
  refine ⟨params, version, vb, b.bytes.drop (start + 1), tail, h1, h4, ?_, ?_, hver, key⟩
  · rw [← hn]; simpa [UW.bytes] using g1
  · rw [← hn, ← hbody, hpost]; exact q1

/-- C30. A length prefix that tells more bytes than there are. -/
theorem decodeUncheckedExtrinsic_short (hr : Reliable b) {params : ExtrinsicParams}
    (hp : M.extrinsicTypeParams = .ok params) {n : Nat} {rest : Bytes} (hn : n < 2 ^ 32)
    (hb : b.bytes = compactEncode n ++ rest) (hlt : rest.length < n) :
    decodeUncheckedExtrinsic M b =
      .error (.err (.parsing (.buffer (.dataTooShort b.len (n - rest.length))))) := by
  have h1 := getCompact_complete (w := .u32) hr (pos := 0) (v := n) (by simpa [UW.bytes] using hn)
    ⟨[], rest, by simp [hb], rfl⟩
  unfold decodeUncheckedExtrinsic
  rw [mapOut_ok.2 hp, eok_bind, mapErr_ok.2 h1, eok_bind]
  have hlen : b.len = (compactEncode n).length + rest.length := by unfold Buf.len; rw [hb]; simp
  dsimp only
  rw [if_pos (by omega), show 0 + (compactEncode n).length + n - b.len = n - rest.length by omega]

/-- C30. A length prefix that tells fewer bytes than there are. -/
theorem decodeUncheckedExtrinsic_long (hr : Reliable b) {params : ExtrinsicParams}
    (hp : M.extrinsicTypeParams = .ok params) {n : Nat} {rest : Bytes} (hn : n < 2 ^ 32)
    (hb : b.bytes = compactEncode n ++ rest) (hlt : n < rest.length) :
    decodeUncheckedExtrinsic M b =
      .error (.err (.parsing (.someDataNotUsedBlob ((compactEncode n).length + n)))) := by
  have h1 := getCompact_complete (w := .u32) hr (pos := 0) (v := n) (by simpa [UW.bytes] using hn)
    ⟨[], rest, by simp [hb], rfl⟩
  unfold decodeUncheckedExtrinsic
  rw [mapOut_ok.2 hp, eok_bind, mapErr_ok.2 h1, eok_bind]
  have hlen : b.len = (compactEncode n).length + rest.length := by unfold Buf.len; rw [hb]; simp
  dsimp only
  rw [if_neg (by omega), if_pos (by omega), Nat.zero_add]

/-- With a right frame, the outcome is that of the content. -/
theorem decodeUncheckedExtrinsic_frame (hr : Reliable b) {params : ExtrinsicParams} {version vb : UInt8}
    (hp : M.extrinsicTypeParams = .ok params) (hv : M.extrinsicVersion = .ok version) {body : Bytes}
    (hn : body.length + 1 < 2 ^ 32) (hb : b.bytes = compactEncode (body.length + 1) ++ vb :: body) :
    decodeUncheckedExtrinsic M b = extrinsicContent M.types params b vb version
      ((compactEncode (body.length + 1)).length + 1) := by
  have h1 := getCompact_complete (w := .u32) hr (pos := 0) (v := body.length + 1) (by simpa [UW.bytes] using hn)
    ⟨[], vb :: body, by simp [hb], rfl⟩
  have h2 : b.readByte (compactEncode (body.length + 1)).length = .ok vb :=
    readByte_of_at hr ⟨compactEncode (body.length + 1), body, by simp [hb], rfl⟩
  unfold decodeUncheckedExtrinsic
  rw [mapOut_ok.2 hp, eok_bind, mapErr_ok.2 h1, eok_bind]
  have hlen : b.len = (compactEncode (body.length + 1)).length + (body.length + 1) := by
    unfold Buf.len; rw [hb]; simp
  dsimp only
  rw [if_neg (by omega), if_neg (by omega), Nat.zero_add, mapErr_ok.2 h2, eok_bind, mapOut_ok.2 hv, eok_bind]

/-- C30. A version byte with another version is an error that tells both. -/
theorem decodeUncheckedExtrinsic_version (hr : Reliable b) {params : ExtrinsicParams} {version vb : UInt8}
    (hp : M.extrinsicTypeParams = .ok params) (hv : M.extrinsicVersion = .ok version) {body : Bytes}
    (hn : body.length + 1 < 2 ^ 32) (hb : b.bytes = compactEncode (body.length + 1) ++ vb :: body)
    (hne : vb.toNat % 128 ≠ version.toNat) :
    decodeUncheckedExtrinsic M b = .error (.err (.versionMismatch vb version)) := by
  rw [decodeUncheckedExtrinsic_frame hr hp hv hn hb]
  unfold extrinsicContent
  rw [if_pos ((version_bits _ _).2 hne)]

/-- C30. The outcome is a value or an error. -/
theorem decodeUncheckedExtrinsic_calm (h1 : Calm M.extrinsicTypeParams) (h2 : Calm M.extrinsicVersion) (b : Buf) :
    Calm (decodeUncheckedExtrinsic M b) := by
  have part : ∀ id pos, Calm (extrinsicPart (ME := ME) M.types b id pos) :=
    fun id pos => (decode_fine _ _ _).mapErr _
  have call : ∀ id pos, Calm (extrinsicCall (ME := ME) M.types b id pos) := by
    intro id pos
    refine .bind (part _ _) fun x _ => ?_
    dsimp only
    split
    · exact .ok _
    · exact .err _
  unfold decodeUncheckedExtrinsic
  refine .bind (h1.mapOut _) fun params _ => .bind ((getCompact_fine _ _ _).mapErr _) fun x _ => ?_
  dsimp only
  split
  · exact .err _
  split
  · exact .err _
  refine .bind ((readByte_fine _ _).mapErr _) fun vb _ => .bind (h2.mapOut _) fun version _ => ?_
  unfold extrinsicContent
  split
  · exact .err _
  split
  · exact .bind (call _ _) fun _ _ => .ok _
  · exact .bind (part _ _) fun _ _ => .bind (part _ _) fun _ _ => .bind (part _ _) fun _ _ =>
      .bind (call _ _) fun _ _ => .ok _

theorem extrinsicCall_complete (hk : EmptyArraysGrounded R) (hr : Reliable b) {id pos : Nat} {c : Call}
    {bs : Bytes} (hc : IsCall R id c bs) (hat : At b.bytes pos bs) :
    ∃ c', extrinsicCall (ME := ME) R b id pos = .ok c' ∧ c'.palletName = c.palletName ∧
      c'.variantName = c.variantName ∧ fdsValue c'.fields = fdsValue c.fields := by
  obtain ⟨c', h1, h2⟩ := decodeAsCallUnmarked_complete (M := (⟨R, .error .panic, .ok id, .error .panic⟩ : Metadata ME))
    hk hr rfl hc hat
  refine ⟨c', ?_, h2⟩
  unfold decodeAsCallUnmarked at h1
  rw [mapOut_ok.2 rfl, eok_bind] at h1
  obtain ⟨⟨d, q⟩, g1, g2⟩ := ebind_ok.1 h1
  rw [mapErr_ok] at g1
  unfold extrinsicCall extrinsicPart decodeAsTypeAtPosition
  rw [mapErr_ok.2 g1, eok_bind]
  dsimp only at g2 ⊢
  split at g2
  · rename_i call hcall
    cases g2
    rw [hcall]
  · cases g2

/-- C30. Every signed extrinsic made of encoded parts is decoded (whatever `tail`
follows the call). -/
theorem decodeUncheckedExtrinsic_signed (hk : EmptyArraysGrounded M.types) (hr : Reliable b)
    {params : ExtrinsicParams} {version vb : UInt8} (hp : M.extrinsicTypeParams = .ok params)
    (hv : M.extrinsicVersion = .ok version) (hver : vb.toNat % 128 = version.toNat) (hs : 128 ≤ vb.toNat)
    {va vs ve : Value} {c : Call} {a s e cb tail : Bytes} (ha : Enc M.types false params.addressTy va a)
    (hsg : Enc M.types false params.signatureTy vs s) (hex : Enc M.types false params.extraTy ve e)
    (hc : IsCall M.types params.callTy c cb) (hn : (a ++ s ++ e ++ cb ++ tail).length + 1 < 2 ^ 32)
    (hb : b.bytes = compactEncode ((a ++ s ++ e ++ cb ++ tail).length + 1) ++ vb :: (a ++ s ++ e ++ cb ++ tail)) :
    ∃ da ds de c', decodeUncheckedExtrinsic M b = .ok (.signed da ds de c') ∧ edValue da = va ∧
      edValue ds = vs ∧ edValue de = ve ∧ c'.palletName = c.palletName ∧ c'.variantName = c.variantName ∧
      fdsValue c'.fields = fdsValue c.fields := by
  rw [decodeUncheckedExtrinsic_frame hr hp hv hn hb]
  generalize hst : (compactEncode ((a ++ s ++ e ++ cb ++ tail).length + 1)).length + 1 = st
  have hat : At b.bytes st (a ++ (s ++ (e ++ (cb ++ tail)))) :=
    ⟨compactEncode ((a ++ s ++ e ++ cb ++ tail).length + 1) ++ [vb], [], by rw [hb]; simp, by simpa using hst⟩
  obtain ⟨a1, hat⟩ := at_append.1 hat
  obtain ⟨a2, hat⟩ := at_append.1 hat
  obtain ⟨a3, hat⟩ := at_append.1 hat
  obtain ⟨a4, _⟩ := at_append.1 hat
  obtain ⟨da, d1, d2⟩ := decode_complete hk hr (p := Propagated.new) ⟨rfl, rfl⟩ ha a1
  obtain ⟨ds, e1, e2⟩ := decode_complete hk hr (p := Propagated.new) ⟨rfl, rfl⟩ hsg a2
  obtain ⟨de, f1, f2⟩ := decode_complete hk hr (p := Propagated.new) ⟨rfl, rfl⟩ hex a3
  obtain ⟨c', g1, g2⟩ := extrinsicCall_complete (ME := ME) hk hr hc a4
  refine ⟨da, ds, de, c', ?_, d2, e2, f2, g2⟩
  unfold extrinsicContent
  rw [if_neg (fun h => (version_bits _ _).1 h hver), if_neg (fun h => by have := (sign_bit _).1 h; omega)]
  have part : ∀ {id pos q d}, decode M.types b (.symbol id) pos Propagated.new = .ok (d, q) →
      extrinsicPart (ME := ME) M.types b id pos = .ok (d, q) := fun h => mapErr_ok.2 h
  rw [part d1, eok_bind]
  dsimp only
  rw [part e1, eok_bind]
  dsimp only
  rw [part f1, eok_bind]
  dsimp only
  rw [g1, eok_bind]

/-- C30. Every unsigned extrinsic is decoded (whatever `tail` follows the call). -/
theorem decodeUncheckedExtrinsic_unsigned (hk : EmptyArraysGrounded M.types) (hr : Reliable b)
    {params : ExtrinsicParams} {version vb : UInt8} (hp : M.extrinsicTypeParams = .ok params)
    (hv : M.extrinsicVersion = .ok version) (hver : vb.toNat % 128 = version.toNat) (hs : vb.toNat < 128)
    {c : Call} {cb tail : Bytes} (hc : IsCall M.types params.callTy c cb)
    (hn : (cb ++ tail).length + 1 < 2 ^ 32)
    (hb : b.bytes = compactEncode ((cb ++ tail).length + 1) ++ vb :: (cb ++ tail)) :
    ∃ c', decodeUncheckedExtrinsic M b = .ok (.unsigned c') ∧ c'.palletName = c.palletName ∧
      c'.variantName = c.variantName ∧ fdsValue c'.fields = fdsValue c.fields := by
  rw [decodeUncheckedExtrinsic_frame hr hp hv hn hb]
  have hat : At b.bytes ((compactEncode ((cb ++ tail).length + 1)).length + 1) (cb ++ tail) :=
    ⟨compactEncode ((cb ++ tail).length + 1) ++ [vb], [], by rw [hb]; simp, by simp⟩
  obtain ⟨a4, _⟩ := at_append.1 hat
  obtain ⟨c', g1, g2⟩ := extrinsicCall_complete (ME := ME) hk hr hc a4
  refine ⟨c', ?_, g2⟩
  unfold extrinsicContent
  rw [if_neg (fun h => (version_bits _ _).1 h hver), if_pos ((sign_bit _).2 hs), g1, eok_bind]

/-! ### C31 bytes after the call -/

theorem extrinsicPart_local {b' : Buf} (hr : Reliable b') {pos pos' : Nat} {tail : Bytes}
    (hd : b'.bytes.drop pos' = b.bytes.drop pos ++ tail) (hpos' : pos' ≤ b'.len)
    {id k q : Nat} {d : ED} (hk : pos + k ≤ b.len) (h : extrinsicPart (ME := ME) R b id (pos + k) = .ok (d, q)) :
    extrinsicPart (ME := ME) R b' id (pos' + k) = .ok (d, pos' + (q - pos)) ∧ pos + k ≤ q ∧ q ≤ b.len := by
  unfold extrinsicPart decodeAsTypeAtPosition at h ⊢
  rw [mapErr_ok] at h
  obtain ⟨p1, p2, _⟩ := decode_position h
  have p2 := p2 hk
  refine ⟨?_, p1, p2⟩
  have hat : At b'.bytes (pos' + k) (between b (pos + k) q) := by
    have hx : b'.bytes = b'.bytes.take pos' ++ (b.bytes.drop pos ++ tail) := by
      rw [← hd, List.take_append_drop]
    refine ⟨b'.bytes.take pos' ++ (b.bytes.drop pos).take k, b.bytes.drop q ++ tail, ?_, ?_⟩
    · conv => lhs; rw [hx]
      have e : b.bytes.drop pos = (b.bytes.drop pos).take k ++ (between b (pos + k) q ++ b.bytes.drop q) := by
        rw [← drop_split b p1, ← List.drop_drop, List.take_append_drop]
      conv => lhs; rw [e]
      simp only [List.append_assoc]
    · unfold Buf.len at hk hpos'
      simp only [List.length_append, List.length_take, List.length_drop]
      omega
  have := decode_local hr h hat
  rw [mapErr_ok, this]
  congr 2
  omega

theorem extrinsicCall_local {b' : Buf} (hr : Reliable b') {pos pos' : Nat} {tail : Bytes}
    (hd : b'.bytes.drop pos' = b.bytes.drop pos ++ tail) (hpos' : pos' ≤ b'.len)
    {id k : Nat} {c : Call} (hk : pos + k ≤ b.len) (h : extrinsicCall (ME := ME) R b id (pos + k) = .ok c) :
    extrinsicCall (ME := ME) R b' id (pos' + k) = .ok c := by
  unfold extrinsicCall at h ⊢
  obtain ⟨⟨d, q⟩, h1, h⟩ := ebind_ok.1 h
  rw [(extrinsicPart_local hr hd hpos' hk h1).1, eok_bind]
  exact h

theorem extrinsicContent_local {b' : Buf} (hr : Reliable b') {pos pos' : Nat} {tail : Bytes}
    (hd : b'.bytes.drop pos' = b.bytes.drop pos ++ tail) (hpos : pos ≤ b.len) (hpos' : pos' ≤ b'.len)
    {params : ExtrinsicParams} {vb version : UInt8} {u : UncheckedExtrinsic}
    (h : extrinsicContent (ME := ME) R params b vb version pos = .ok u) :
    extrinsicContent (ME := ME) R params b' vb version pos' = .ok u := by
  unfold extrinsicContent at h ⊢
  split at h
  · cases h
  rename_i hv
  rw [if_neg hv]
  split at h
  · rename_i hs
    rw [if_pos hs]
    obtain ⟨c, h1, h⟩ := ebind_ok.1 h
    have := extrinsicCall_local (k := 0) hr hd hpos' hpos h1
    rw [Nat.add_zero] at this
    rw [this]; exact h
  · rename_i hs
    rw [if_neg hs]
    obtain ⟨⟨a, p1⟩, e1, h⟩ := ebind_ok.1 h
    obtain ⟨⟨s, p2⟩, e2, h⟩ := ebind_ok.1 h
    obtain ⟨⟨e, p3⟩, e3, h⟩ := ebind_ok.1 h
    obtain ⟨c, e4, hu⟩ := ebind_ok.1 h
    cases hu
    obtain ⟨g1, g2, g3⟩ := extrinsicPart_local (k := 0) hr hd hpos' hpos e1
    have x1 : p1 = pos + (p1 - pos) := by omega
    rw [x1] at e2
    obtain ⟨k1, k2, k3⟩ := extrinsicPart_local hr hd hpos' (by omega) e2
    have x2 : p2 = pos + (p2 - pos) := by omega
    rw [x2] at e3
    obtain ⟨l1, l2, l3⟩ := extrinsicPart_local hr hd hpos' (by omega) e3
    have x3 : p3 = pos + (p3 - pos) := by omega
    rw [x3] at e4
    have m1 := extrinsicCall_local hr hd hpos' (by omega) e4
    rw [Nat.add_zero] at g1
    rw [g1, eok_bind]
    dsimp only
    rw [k1, eok_bind]
    dsimp only
    rw [l1, eok_bind]
    dsimp only
    rw [m1, eok_bind]

/-- C31. Bytes after the call are ignored: to every accepted extrinsic any bytes can be
appended (with the length prefix adjusted), with the same result. -/
theorem decodeUncheckedExtrinsic_tail {u : UncheckedExtrinsic} {body tail : Bytes} {b' : Buf} (hr : Reliable b')
    (h : decodeUncheckedExtrinsic M b = .ok u)
    (hb : b.bytes = compactEncode body.length ++ body) (hn : (body ++ tail).length < 2 ^ 32)
    (hb' : b'.bytes = compactEncode (body ++ tail).length ++ (body ++ tail)) :
    decodeUncheckedExtrinsic M b' = .ok u := by
  obtain ⟨params, version, vb, body', _, h1, h2, h3, h4, h5, _⟩ := decodeUncheckedExtrinsic_sound h
  have hlt : body.length < 2 ^ 32 := by simp at hn; omega
  have hc : compactEncode body.length = compactEncode (body'.length + 1) ∧ body = vb :: body' := by
    have e1 := getCompact_complete (w := .u32) (reliable_ofBytes b.bytes) (pos := 0)
      (v := body.length) (by simpa [UW.bytes]) ⟨[], body, hb, rfl⟩
    have e2 := getCompact_complete (w := .u32) (reliable_ofBytes b.bytes) (pos := 0)
      (v := body'.length + 1) (by simpa [UW.bytes]) ⟨[], vb :: body', by simpa [Buf.ofBytes] using h4, rfl⟩
    rw [e2] at e1
    simp only [Except.ok.injEq, Prod.mk.injEq] at e1
    rw [← e1.1]
    rw [hb, ← e1.1] at h4
    exact ⟨rfl, List.append_cancel_left h4⟩
  obtain ⟨hc, rfl⟩ := hc
  have hcontent : extrinsicContent (ME := ME) M.types params b vb version ((compactEncode (body'.length + 1)).length + 1) = .ok u := by
    unfold decodeUncheckedExtrinsic at h
    obtain ⟨params', g1, h⟩ := ebind_ok.1 h
    obtain ⟨⟨n, start⟩, g2, h⟩ := ebind_ok.1 h
    dsimp only at h
    rw [mapOut_ok, h1] at g1
    cases g1
    rw [mapErr_ok] at g2
    obtain ⟨k1, k2, k3⟩ := getCompact_sound g2
    have e1 := getCompact_complete (w := .u32) (reliable_ofBytes b.bytes) (pos := 0) k1 k2
    have e2 := getCompact_complete (w := .u32) (reliable_ofBytes b.bytes) (pos := 0)
      (v := body'.length + 1) (by simpa [UW.bytes]) ⟨[], vb :: body', by simpa [Buf.ofBytes] using h4, rfl⟩
    rw [e2] at e1
    simp only [Except.ok.injEq, Prod.mk.injEq] at e1
    rw [← e1.2, Nat.zero_add] at k3
    subst k3
    split at h
    · cases h
    split at h
    · cases h
    obtain ⟨vb', g3, h⟩ := ebind_ok.1 h
    obtain ⟨version', g4, h⟩ := ebind_ok.1 h
    rw [mapErr_ok] at g3
    rw [mapOut_ok, h2] at g4
    cases g4
    have hv : vb' = vb := by
      have a1 := readByte_ok g3
      have a2 : At b.bytes (compactEncode (body'.length + 1)).length [vb] := ⟨_, body', by rw [h4]; simp, rfl⟩
      simpa using a1.unique a2 rfl
    subst hv
    exact h
  have hlen : ((vb :: body') ++ tail).length = (body' ++ tail).length + 1 := by simp
  rw [hlen] at hb' hn
  rw [decodeUncheckedExtrinsic_frame hr h1 h2 hn hb']
  refine extrinsicContent_local (tail := tail) hr ?_ ?_ ?_ hcontent
  · have key : ∀ (p x : Bytes), (p ++ vb :: x).drop (p.length + 1) = x := by
      intro p x
      rw [List.append_cons, List.drop_left' (by simp)]
    rw [h4, hb', List.cons_append, key, key]
  · unfold Buf.len; rw [h4]; simp
  · unfold Buf.len; rw [hb']; simp

/-! ### Examples -/

namespace Example

/-- Metadata for extrinsics: address `u8`, signature `H256`, extra `CheckMortality`,
version 4. -/
def extrinsicChain : CompleteMetadata Unit :=
  { chain with extrinsicTypeParams := .ok ⟨0, 2, 5, 7⟩, extrinsicVersion := .ok 4 }

/-- Unsigned extrinsic. -/
def unsignedBytes : Bytes := [32, 4] ++ callBytes

/-- Signed extrinsic. -/
def signedBytes : Bytes := [168, 132] ++ [77] ++ genesis ++ [0] ++ callBytes

example : decodeUncheckedExtrinsic extrinsicChain (Buf.ofBytes unsignedBytes) = .ok (.unsigned call) := rfl

example : ∃ a s e, decodeUncheckedExtrinsic extrinsicChain (Buf.ofBytes signedBytes) = .ok (.signed a s e call) :=
  ⟨_, _, _, rfl⟩

example : decodeUncheckedExtrinsic extrinsicChain (Buf.ofBytes ([32, 5] ++ callBytes)) =
    .error (.err (.versionMismatch 5 4)) := rfl

example : decodeUncheckedExtrinsic extrinsicChain (Buf.ofBytes ([28, 4] ++ callBytes)) =
    .error (.err (.parsing (.someDataNotUsedBlob 8))) := rfl

example : Calm extrinsicChain.extrinsicTypeParams ∧ Calm extrinsicChain.extrinsicVersion := ⟨.ok _, .ok _⟩

end Example

/-- C31. A witness: three bytes after the call are not reported. -/
theorem decodeUncheckedExtrinsic_not_all_used :
    decodeUncheckedExtrinsic Example.extrinsicChain
      (Buf.ofBytes ([44, 4] ++ Example.callBytes ++ [0xde, 0xad, 0xbe])) = .ok (.unsigned Example.call) ∧
    ∀ q, decodeAsCallUnmarked Example.extrinsicChain.toMetadata
      (Buf.ofBytes ([44, 4] ++ Example.callBytes ++ [0xde, 0xad, 0xbe])) 2 = .ok (Example.call, q) →
      q + 3 = ([44, 4] ++ Example.callBytes ++ [0xde, 0xad, 0xbe]).length :=
  ⟨rfl, fun q h => by cases h; rfl⟩

end Verif
