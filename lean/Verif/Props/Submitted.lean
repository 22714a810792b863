import Verif.Spec.Submitted
import Verif.Props.Node
import Verif.Proof.Inversion
import Verif.Props.Westend
/-!
# C84: what is submitted is what was signed
-/
namespace Verif
open Spec

variable {ME : Type} {M : CompleteMetadata ME} {b : Buf} {R : Registry} {params : ExtrinsicParams} {version : UInt8}
  {signed : List SignedExt} {expected : Option Bytes}

theorem itemsEnc_append {l l' : List (String × Nat)} {vs : List Value} {bs : Bytes} :
    ItemsEnc R (l ++ l') vs bs ↔ ∃ us ws xs ys, vs = us ++ ws ∧ bs = xs ++ ys ∧ us.length = l.length ∧
      ItemsEnc R l us xs ∧ ItemsEnc R l' ws ys := by
  constructor
  · rintro ⟨ps, rfl, rfl, hl, h⟩
    rw [List.length_append] at hl
    have ht : (ps.take l.length).length = l.length := by rw [List.length_take]; omega
    have hz : (l ++ l').zip ps = l.zip (ps.take l.length) ++ l'.zip (ps.drop l.length) := by
      rw [← List.zip_append (by rw [ht]), List.take_append_drop]
    rw [hz] at h
    refine ⟨Parts.values (ps.take l.length), Parts.values (ps.drop l.length), Parts.bytes (ps.take l.length),
      Parts.bytes (ps.drop l.length), ?_, ?_, ?_, ⟨_, rfl, rfl, ht, ?_⟩, ⟨_, rfl, rfl, ?_, ?_⟩⟩
    · unfold Parts.values; rw [← List.map_append, List.take_append_drop]
    · unfold Parts.bytes; rw [← List.flatMap_append, List.take_append_drop]
    · unfold Parts.values; rw [List.length_map, ht]
    · exact fun x hx => h x (List.mem_append_left _ hx)
    · rw [List.length_drop]; omega
    · exact fun x hx => h x (List.mem_append_right _ hx)
  · rintro ⟨us, ws, xs, ys, rfl, rfl, hu, ⟨ps, rfl, rfl, hp, h⟩, ⟨qs, rfl, rfl, hq, h'⟩⟩
    refine ⟨ps ++ qs, by simp [Parts.values], by simp [Parts.bytes], by simp [hp, hq], ?_⟩
    rw [List.zip_append hp.symm]
    intro x hx
    rcases List.mem_append.1 hx with hx | hx
    · exact h x hx
    · exact h' x hx

/-- The extensions in an extrinsic: the tuple of the values of the signed extensions, one after another. -/
theorem extra_enc {id : Nat} (h : ∃ t, R.resolve id = .ok t ∧ Structural t.path ∧ t.typeDef = .tuple (signed.map (·.ty)))
    {v : Value} {bs : Bytes} :
    Enc R false id v bs ↔ ∃ vs, v = .tuple vs ∧ vs.length = signed.length ∧ ItemsEnc R (sentItems signed) vs bs := by
  obtain ⟨t, hr, hs, hd⟩ := h
  have e : ∀ ps : Parts, (∀ x ∈ (signed.map (·.ty)).zip ps, Enc R false x.1 x.2.1 x.2.2) ↔
      ∀ x ∈ (sentItems signed).zip ps, Enc R false x.1.2 x.2.1 x.2.2 := by
    intro ps
    unfold sentItems
    rw [List.zip_map_left, List.zip_map_left]
    constructor
    · intro h x hx
      obtain ⟨y, hy, rfl⟩ := List.mem_map.1 hx
      exact h _ (List.mem_map.2 ⟨y, hy, rfl⟩)
    · intro h x hx
      obtain ⟨y, hy, rfl⟩ := List.mem_map.1 hx
      exact h _ (List.mem_map.2 ⟨y, hy, rfl⟩)
  rw [enc_as hr, encAs_structural hs]
  unfold EncDef
  rw [hd]
  dsimp only
  constructor
  · rintro ⟨-, ps, hl, h, rfl, rfl⟩
    rw [List.length_map] at hl
    exact ⟨_, rfl, by simp [Parts.values, hl], ps, rfl, rfl, by simp [sentItems, hl], (e ps).1 h⟩
  · rintro ⟨vs, rfl, hl, ps, rfl, rfl, hl', h⟩
    exact ⟨fun _ => rfl, ps, by simpa [sentItems] using hl', (e ps).2 h, rfl, rfl⟩

theorem sentBody_length (version : UInt8) (ab sb eb cb : Bytes) :
    (sentBody version ab sb eb cb).length = (ab ++ sb ++ eb ++ cb).length + 1 := rfl

/-- **C84.** From the payload to the extrinsic. An accepted payload is a call, extensions, and what they add; an extrinsic made
of its call and its extensions, with any address and any signature, is decoded, and shows the call and the values of the
extensions that were shown of the payload. -/
theorem submitted_as_signed (hk : EmptyArraysGrounded M.types) (ho : OneChain M params version signed) (hr : Reliable b)
    {r : TransactionParsed ME} {c : Call} (h : parseTransaction M.toMetadata b expected = .ok r) (hc : r.callResult = .ok c) :
    ∃ call extra added, b.bytes = signedPayload call extra added ∧
      ∀ {b' : Buf} {a s : Value} {ab sb : Bytes}, Reliable b' → Enc M.types false params.addressTy a ab →
        Enc M.types false params.signatureTy s sb → (sentBody version ab sb extra call).length < 2 ^ 32 →
        b'.bytes = sentExtrinsic version ab sb extra call →
        ∃ u, decodeUncheckedExtrinsic M b' = .ok u ∧
          extrinsicOf u = .signed a s (.tuple ((r.extensions.take signed.length).map edValue)) (callOf c) := by
  obtain ⟨call, extBytes, hb, hl, id, signed', spec, h1, h2, -, h4, h5, -⟩ :=
    (parseTransaction_exact (M := M.toMetadata) hk hr).1 ⟨r, c, h, hc, rfl, rfl⟩
  cases ho.hasSigned.symm.trans h2
  cases ho.call.symm.trans h1
  obtain ⟨us, ws, extra, added, hv, rfl, hu, hi, -⟩ := itemsEnc_append.1 (show ItemsEnc _ (sentItems signed ++ unsentItems signed) _ _ from h5)
  have hu' : us.length = signed.length := by rw [hu]; simp [sentItems]
  have hv' : (r.extensions.take signed.length).map edValue = us := by
    rw [List.map_take, hv, List.take_left' hu']
  refine ⟨call, extra, added, by rw [hb]; simp [signedPayload], ?_⟩
  intro b' a s ab sb hr' ha hs hlen hb'
  rw [hv']
  refine (decodeUncheckedExtrinsic_exact hk hr').2 ⟨params, version, _, ab ++ sb ++ extra ++ call, [], ho.hasParams, ho.hasVersion,
    ho.bit, version_byte version ho.bit (.signed a s (.tuple us) (callOf c)), ?_, ?_, ab, sb, extra, call, rfl, ha, hs,
    (extra_enc ho.extra).2 ⟨us, rfl, hu', hi⟩, h4⟩
  · rw [sentBody_length] at hlen; simpa using hlen
  · rw [hb', sentExtrinsic, sentBody_length]; simp [sentBody, versionByteOf]

/-- **C84.** From the extrinsic to the payload. A signed extrinsic that is decoded is an address, a signature, extensions
and a call (and whatever may follow); each proper payload made of its call, its extensions, and something added, is
accepted, and shows the call and the values of the extensions that are shown of the extrinsic. -/
theorem signed_as_submitted (hk : EmptyArraysGrounded M.types) (ho : OneChain M params version signed)
    {a s e : ED} {c : Call} (h : decodeUncheckedExtrinsic M b = .ok (.signed a s e c)) :
    ∃ vs ab sb extra call tail, edValue e = .tuple vs ∧ vs.length = signed.length ∧
      b.bytes = compactEncode (sentBody version ab sb extra call ++ tail).length ++ sentBody version ab sb extra call ++ tail ∧
      ∀ {b' : Buf} {spec : SpecNameVersion} {ws : List Value} {added : Bytes}, Reliable b' → M.specNameVersion = .ok spec →
        ItemsEnc M.types (unsentItems signed) ws added →
        Proper M.types (extItems signed) (vs ++ ws) spec.printedSpecVersion expected →
        b'.bytes = signedPayload call extra added →
        ∃ r k, parseTransaction M.toMetadata b' expected = .ok r ∧ r.callResult = .ok k ∧ callOf k = callOf c ∧
          r.extensions.map edValue = vs ++ ws := by
  obtain ⟨params', version', vb, body, tail, h1, h2, h3, h4, h5, h6⟩ := decodeUncheckedExtrinsic_sound h
  cases ho.hasParams.symm.trans h1
  cases ho.hasVersion.symm.trans h2
  obtain ⟨hs, ab, sb, extra, call, ha, hsg, he, hc, rfl⟩ := h6
  obtain ⟨vs, hv, hl, hi⟩ := (extra_enc ho.extra).1 he
  have hvb : vb = UInt8.ofNat (version.toNat + 128) := by
    have hs : 128 ≤ vb.toNat := by simpa using hs
    have := vb.toNat_lt
    refine UInt8.toNat_inj.1 ?_
    have e := version_byte version ho.bit (.signed (edValue a) (edValue s) (edValue e) (callOf c))
    simp only [versionByteOf] at e
    omega
  subst hvb
  refine ⟨vs, ab, sb, extra, call, tail, hv, hl, ?_, ?_⟩
  · rw [h4]; simp [sentBody]
  · intro b' spec ws added hr hspec hw hp hb
    refine (parseTransaction_exact (M := M.toMetadata) hk hr).2 ⟨call, extra ++ added, by rw [hb]; simp [signedPayload], ?_,
      params.callTy, signed, spec, ho.call, ho.hasSigned, hspec, hc.callEnc, ?_, hp⟩
    · simp only [List.length_append] at h3; omega
    · exact itemsEnc_append.2 ⟨vs, ws, extra, added, rfl, rfl, by simp [sentItems, hl], hi, hw⟩

theorem payload_call {call call' : Bytes} {x x' : Westend.Extensions} (hl : call.length < 2 ^ 32) (hl' : call'.length < 2 ^ 32)
    (h : Westend.payload call x = Westend.payload call' x') : call = call' := by
  unfold Westend.payload at h
  rw [List.append_assoc, List.append_assoc] at h
  obtain ⟨e, h⟩ := compactEncode_inj (by omega) (by omega) h
  exact (List.append_inj h e).1

/-- **C84.** On Westend 9111, byte by byte: if a payload of a call and extensions is accepted, every extrinsic with this call and
the era, nonce and tip of these extensions shows the call and the values of the seven extensions that were shown of the
payload. -/
theorem westend_submitted {b' : Buf} {call : Bytes} {x : Westend.Extensions} {s : Westend.Signed} (hr : Reliable b) (hr' : Reliable b')
    (hb : b.bytes = Westend.payload call x) (hl : call.length < 2 ^ 32) (hx : x.Valid expected)
    {r : TransactionParsed V14Err} {c : Call}
    (h : parseTransaction westend.toMetadata b expected = .ok r) (hc : r.callResult = .ok c)
    (h1 : s.sender.length = 32) (h2 : s.signature.length = s.scheme.length)
    (h3 : s.era = x.era) (h4 : s.nonce = x.nonce) (h5 : s.tip = x.tip) (hl' : (s.bytes call).length < 2 ^ 32)
    (hb' : b'.bytes = compactEncode (s.bytes call).length ++ s.bytes call) :
    ∃ u, decodeUncheckedExtrinsic westend b' = .ok u ∧
      extrinsicOf u = .signed (.variant "Id" [(none, .fixed .id s.sender)])
        (.variant s.scheme.name [(none, .fixed s.scheme.kind s.signature)])
        (.tuple ((r.extensions.take 7).map edValue)) (callOf c) := by
  obtain ⟨call', x', e, hl2, -, -, he⟩ := (westend_transaction hr).1 ⟨r, c, h, hc, rfl, rfl⟩
  obtain rfl : call = call' := payload_call hl hl2 (hb.symm.trans e)
  obtain ⟨r', k', g1, g2, -, hv⟩ := (westend_transaction (expected := expected) hr).2 ⟨call, x, hb, hl, hx, rfl, he⟩
  cases h.symm.trans g1
  have e : (r.extensions.take 7).map edValue =
      [.record [], .record [], .record [], .era s.era, .uint .u32 s.nonce, .record [], .uint .u128 s.tip] := by
    rw [List.map_take, hv, h3, h4, h5]; rfl
  rw [e]
  exact (westend_extrinsic hr').2 ⟨⟨h1, h2, h3 ▸ hx.era, h4 ▸ hx.nonce, h5 ▸ hx.tip⟩, call, [], he, by simpa using hl', by simpa using hb'⟩

/-- **C84.** Westend 9111 is as these theorems assume. -/
theorem westend_oneChain : OneChain westend ⟨180, 267, 436, 587⟩ 4 Verif.Westend.signedExtensions where
  hasParams := westend_metadata.2.2.2.1
  hasVersion := westend_metadata.2.2.1
  bit := by decide
  hasSigned := westend_metadata.2.2.2.2
  call := westend_metadata.2.1
  extra := by
    obtain ⟨t, hr, hp, hd⟩ := Verif.Westend.has_type (id := 587) (path := []) (d := .tuple [588, 589, 590, 591, 593, 594, 595])
      (by decide +kernel)
    have e : westend.types = Verif.Westend.registry := rfl
    dsimp only
    rw [e]
    refine ⟨t, hr, ?_, hd⟩
    rw [hp]; exact Wallet'.structural_iff.1 (by decide)

end Verif
