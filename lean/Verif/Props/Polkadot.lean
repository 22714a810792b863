import Verif.Proof.Polkadot
import Verif.Proof.Legible
import Verif.Props.Proper
import Verif.Props.Base58
import Verif.Props.Node
import Verif.Props.Westend
import Verif.Props.Submitted
/-!
# C91: an actual chain with V15 metadata

As C82 and C83 for Westend, here for Polkadot 1003003 (`for_tests/polkadot1003003_v15`, without documentation texts), whose
metadata has version 15: the types of extrinsics, calls, addresses and signatures are listed in it and not looked for.
Nothing is assumed of it: the kernel checks its 968 types.
-/
namespace Verif
open Spec Verif.Polkadot Spec.Polkadot

/-- The metadata of Polkadot 1003003, as the crate uses it. -/
abbrev polkadot : CompleteMetadata VersionErr := v15.metadata

variable {b b' : Buf} {expected expected' : Option Bytes}

/-- C91. What the crate reads from the metadata: name and version of the chain, the types of calls, addresses and signatures. -/
theorem polkadot_metadata :
    polkadot.specNameVersion = .ok ⟨"1003003", "polkadot"⟩ ∧ polkadot.callTy = .ok 93 ∧ polkadot.extrinsicVersion = .ok 4 ∧
      polkadot.extrinsicTypeParams = .ok ⟨113, 93, 341, 842⟩ ∧ polkadot.signedExtensions = .ok signedExtensions :=
  ⟨Westend.ok_of_toOption (by decide +kernel), Westend.ok_of_toOption (by decide +kernel), Westend.ok_of_toOption (by decide +kernel),
    Westend.ok_of_toOption (by decide +kernel), rfl⟩

/-- C91. The registry is as the theorems on registries assume. -/
theorem polkadot_registry : EmptyArraysGrounded polkadot.types ∧ NamesDistinct polkadot.types ∧ IndicesDistinct polkadot.types ∧
    SignaturesDistinct polkadot.types ∧ LeavesNameless polkadot.types ∧ NoCompactArray polkadot.types ∧
    SolidVectors polkadot.types ∧ ¬ HasU64Bits polkadot.types ∧ Ranked polkadot.types rank :=
  ⟨emptyArraysGrounded, Polkadot.namesDistinct, Polkadot.indicesDistinct, signaturesDistinct, leavesNameless, noCompactArray, solidVectors, noU64Bits,
    ranked⟩

/-- C91. Values of any type of the chain: exactly their encodings are decoded. -/
theorem polkadot_values (hr : Reliable b) {id : Nat} {v : Value} :
    (∃ d, decodeAllAsType polkadot.types b id = .ok d ∧ edValue d = v) ↔ Enc polkadot.types false id v b.bytes := by
  constructor
  · rintro ⟨d, h, rfl⟩
    exact decodeAllAsType_sound h
  · intro h
    obtain ⟨d, hd, hv⟩ := decode_complete emptyArraysGrounded hr (pos := 0) (p := Propagated.new) ⟨rfl, rfl⟩ h
      ⟨[], [], by simp, rfl⟩
    rw [Nat.zero_add] at hd
    exact ⟨d, decodeAllAsType_iff.2 hd, hv⟩

theorem leBytes_1003003 : leBytes 4 1003003 = [0xfb, 0x4d, 0x0f, 0] := by decide

theorem valuesOf_1003003 (x : Extensions) : valuesOf 1003003 x = x.values := rfl

theorem bytesOf_1003003 (x : Extensions) : bytesOf 1003003 x = x.bytes := by
  unfold bytesOf Extensions.bytes
  rw [leBytes_1003003]

theorem proper_polkadot {c : CallOf} {vs : List Value} {callBytes extBytes : Bytes} :
    ProperTransaction polkadot.toMetadata expected c vs callBytes extBytes ↔
      CallEnc registry 93 c callBytes ∧ ∃ x : Extensions, x.Valid expected ∧ vs = x.values ∧ extBytes = x.bytes := by
  obtain ⟨hspec, hcall, -, -, hsig⟩ := polkadot_metadata
  constructor
  · rintro ⟨id, signed, spec, h1, h2, h3, hc, hi, hp⟩
    cases hcall.symm.trans h1
    cases hsig.symm.trans h2
    cases hspec.symm.trans h3
    obtain ⟨s, x, hf, rfl, rfl⟩ := items_iff.1 hi
    obtain ⟨p1, p2, p3⟩ := proper_values.1 hp
    obtain rfl : s = 1003003 := toString_nat_inj (p1.trans (by decide))
    exact ⟨hc, x, ⟨hf.era, hf.nonce, hf.tip, hf.txVersion, hf.genesis, hf.blockHash, hf.metadataHash, p3, p2⟩, valuesOf_1003003 x, bytesOf_1003003 x⟩
  · rintro ⟨hc, x, hx, rfl, rfl⟩
    refine ⟨93, signedExtensions, ⟨"1003003", "polkadot"⟩, hcall, hsig, hspec, hc, ?_, ?_⟩
    · exact items_iff.2 ⟨1003003, x, ⟨hx.era, hx.nonce, hx.tip, by decide, hx.txVersion, hx.genesis, hx.blockHash, hx.metadataHash⟩,
        (valuesOf_1003003 x).symm, (bytesOf_1003003 x).symm⟩
    · rw [← valuesOf_1003003]
      exact proper_values.2 ⟨by decide, hx.expected, hx.immortal⟩

/-- C91. Transactions of the chain: a payload is accepted, as the call `c` with extension values `vs`, exactly if it is the
length of a call, the call, and extensions with spec version 1003003, byte by byte as in `Spec/Polkadot.lean`. -/
theorem polkadot_transaction (hr : Reliable b) {c : CallOf} {vs : List Value} :
    (∃ r k, parseTransaction polkadot.toMetadata b expected = .ok r ∧ r.callResult = .ok k ∧ callOf k = c ∧
        r.extensions.map edValue = vs) ↔
      ∃ (call : Bytes) (x : Extensions), b.bytes = payload call x ∧ call.length < 2 ^ 32 ∧ x.Valid expected ∧ vs = x.values ∧
        CallEnc polkadot.types 93 c call := by
  rw [parseTransaction_exact emptyArraysGrounded hr]
  constructor
  · rintro ⟨cb, eb, h1, h2, h3⟩
    obtain ⟨hc, x, hx, rfl, rfl⟩ := proper_polkadot.1 h3
    exact ⟨cb, x, h1, h2, hx, rfl, hc⟩
  · rintro ⟨cb, x, h1, h2, hx, rfl, hc⟩
    exact ⟨cb, x.bytes, h1, h2, proper_polkadot.2 ⟨hc, x, hx, rfl, rfl⟩⟩

/-- C91. The same for payloads without the length of the call: a payload is accepted exactly if it is a call followed by such
extensions. -/
theorem polkadot_unmarked (hr : Reliable b) {c : CallOf} {vs : List Value} :
    (∃ r, parseTransactionUnmarked polkadot.toMetadata b expected = .ok r ∧ callOf r.call = c ∧ r.extensions.map edValue = vs) ↔
      ∃ (call : Bytes) (x : Extensions), b.bytes = call ++ x.bytes ∧ x.Valid expected ∧ vs = x.values ∧ CallEnc polkadot.types 93 c call := by
  rw [parseTransactionUnmarked_exact emptyArraysGrounded hr]
  constructor
  · rintro ⟨cb, eb, h1, h3⟩
    obtain ⟨hc, x, hx, rfl, rfl⟩ := proper_polkadot.1 h3
    exact ⟨cb, x, h1, hx, rfl, hc⟩
  · rintro ⟨cb, x, h1, hx, rfl, hc⟩
    exact ⟨cb, x.bytes, h1, proper_polkadot.2 ⟨hc, x, hx, rfl, rfl⟩⟩

/-- C91. A transfer: the payload is shown as the call `Balances.transfer_keep_alive` with this destination and amount
exactly if its call is, byte by byte, this transfer. -/
theorem polkadot_transfer (hr : Reliable b) {account : Bytes} {amount : Nat} :
    (∃ r k, parseTransaction polkadot.toMetadata b expected = .ok r ∧ r.callResult = .ok k ∧
        callOf k = transfer account amount) ↔
      account.length = 32 ∧ amount < 2 ^ 128 ∧
        ∃ x : Extensions, x.Valid expected ∧ b.bytes = payload (transferKeepAlive account amount) x := by
  constructor
  · rintro ⟨r, k, h1, h2, h3⟩
    obtain ⟨call, x, hb, hl, hx, -, hc⟩ := (polkadot_transaction hr).1 ⟨r, k, h1, h2, h3, rfl⟩
    obtain ⟨ha, hn, rfl⟩ := transfer_iff.1 hc
    exact ⟨ha, hn, x, hx, hb⟩
  · rintro ⟨ha, hn, x, hx, hb⟩
    have hl : (transferKeepAlive account amount).length < 2 ^ 32 := by
      have := compactEncode_length_le (v := amount) (by omega)
      simp only [transferKeepAlive, List.length_append, List.length_cons, List.length_nil, ha]
      omega
    obtain ⟨r, k, h1, h2, h3, -⟩ := (polkadot_transaction hr).2 ⟨_, x, hb, hl, hx, rfl, transfer_iff.2 ⟨ha, hn, rfl⟩⟩
    exact ⟨r, k, h1, h2, h3⟩

theorem modeValue_inj {m m' : Bool} (h : modeValue m = modeValue m') : m = m' := by
  cases m <;> cases m' <;> first | rfl | simp [modeValue] at h

/-- C91. An extrinsic is shown as signed by this account, with this signature, and with the call `c`, exactly if it is, byte
by byte, such an extrinsic with an encoding of the call; behind the call anything may follow. -/
theorem polkadot_extrinsic (hr : Reliable b) {x : Signed} {c : CallOf} :
    (∃ u, decodeUncheckedExtrinsic polkadot b = .ok u ∧ extrinsicOf u = x.extrinsic c) ↔
      x.Valid ∧ ∃ (call tail : Bytes), CallEnc polkadot.types 93 c call ∧ (x.bytes call ++ tail).length < 2 ^ 32 ∧
        b.bytes = compactEncode (x.bytes call ++ tail).length ++ x.bytes call ++ tail := by
  obtain ⟨-, -, hver, hpar, -⟩ := polkadot_metadata
  rw [decodeUncheckedExtrinsic_exact emptyArraysGrounded hr]
  constructor
  · rintro ⟨params, version, vb, body, tail, h1, h2, h3, h4, h5, h6, ab, sb, eb, cb, rfl, ha, hs, he, hc⟩
    cases hpar.symm.trans h1
    cases hver.symm.trans h2
    obtain ⟨a, a1, a2, rfl⟩ := address_iff.1 ha
    cases a2
    obtain ⟨s1, rfl⟩ := scheme_iff.1 hs
    obtain ⟨era, nonce, tip, mode, e1, e2, e3, e4, rfl⟩ := extra_iff.1 he
    simp only [Value.tuple.injEq, List.cons.injEq, Value.era.injEq, Value.uint.injEq, true_and, and_true] at e4
    obtain ⟨rfl, rfl, rfl, e4⟩ := e4
    obtain rfl := modeValue_inj e4
    obtain rfl : vb = 0x84 := UInt8.toNat_inj.1 h4
    have e : (0x84 :: (0 :: x.sender ++ x.scheme.index :: x.signature ++
        (eraEncode x.era ++ compactEncode x.nonce ++ compactEncode x.tip ++ modeBytes x.mode) ++ cb) : Bytes) = x.bytes cb := by
      simp [Signed.bytes, List.append_assoc]
    refine ⟨⟨a1, s1, e1, e2, e3⟩, cb, tail, hc, ?_, ?_⟩
    · rw [← e]; simpa using h5
    · rw [h6, ← e]; simp [List.append_assoc]
  · rintro ⟨hx, cb, tail, hc, hl, hb⟩
    have e : (0x84 :: (0 :: x.sender ++ x.scheme.index :: x.signature ++
        (eraEncode x.era ++ compactEncode x.nonce ++ compactEncode x.tip ++ modeBytes x.mode) ++ cb) : Bytes) = x.bytes cb := by
      simp [Signed.bytes, List.append_assoc]
    refine ⟨_, _, 0x84, _, tail, hpar, hver, by decide, rfl, ?_, ?_, _, _, _, cb, rfl, address_iff.2 ⟨_, hx.sender, rfl, rfl⟩,
      scheme_iff.2 ⟨hx.signature, rfl⟩, extra_iff.2 ⟨_, _, _, _, hx.era, hx.nonce, hx.tip, rfl, rfl⟩, hc⟩
    · rw [← e] at hl; simpa using hl
    · rw [hb, ← e]; simp [List.append_assoc]

theorem modeValue_firm (m : Bool) : Firm (modeValue m) := by
  cases m <;> exact .variant (by simp)

theorem hashValue_firm (h : Option Bytes) : Firm (hashValue h) := by
  cases h with
  | none => exact .variant (by simp)
  | some x =>
    refine .variant ?_
    simp only [List.forall_mem_cons, List.not_mem_nil, false_implies, implies_true, and_true]
    refine .seq fun v hv => ?_
    obtain ⟨y, -, rfl⟩ := List.mem_map.1 hv
    exact .uint _ _

theorem polkadot_values_firm (x : Extensions) : ∀ v ∈ x.values, Firm v := by
  simp only [Extensions.values, List.forall_mem_cons, List.not_mem_nil, false_implies, implies_true, and_true]
  exact ⟨.record (by simp), .record (by simp), .record (by simp), .record (by simp), .era _, .uint _ _, .record (by simp), .uint _ _,
    .record (by simp), modeValue_firm _, .tuple (by simp), .uint _ _, .uint _ _, .hash _, .hash _, .tuple (by simp), .tuple (by simp),
    .tuple (by simp), .tuple (by simp), hashValue_firm _⟩

/-- C91. What is shown tells the payload: two accepted payloads with the same lines shown are the same, if the values
of the call leave no freedom to the encoding (no partly filled bit sequences, no parts of one at the maximum). -/
theorem polkadot_signs {specs : ShortSpecs} {checksum : Bytes → UInt8 × UInt8} {icon : Bytes → Bytes} {specName : String}
    {showBits : BitStore → BitOrder → List Bool → String} (hd : specs.decimals < 256) (hb : ShowsBits showBits) (hr : Reliable b)
    {r r' : TransactionParsed VersionErr} {c c' : Call}
    (h : parseTransaction polkadot.toMetadata b expected = .ok r) (h' : parseTransaction polkadot.toMetadata b' expected' = .ok r')
    (hc : r.callResult = .ok c) (hc' : r'.callResult = .ok c') (hf : ∀ f ∈ fdsValue c.fields, Firm f.2)
    (w : cardLines showBits (c.card (ss58Printers checksum icon) specs specName 0) =
      cardLines showBits (c'.card (ss58Printers checksum icon) specs specName 0))
    (w' : cardLines showBits (r.card (ss58Printers checksum icon) specs specName).extensions =
      cardLines showBits (r'.card (ss58Printers checksum icon) specs specName).extensions) : b.bytes = b'.bytes := by
  obtain ⟨-, x, -, -, -, hx, -⟩ := (polkadot_transaction hr).1 ⟨r, c, h, hc, rfl, rfl⟩
  refine parseTransaction_signs_ss58 Polkadot.namesDistinct signaturesDistinct hd hb h h' hc hc' hf ?_ w w'
  intro d hd
  exact polkadot_values_firm x _ (hx ▸ List.mem_map_of_mem hd)

theorem polkadot_payload_call {call call' : Bytes} {x x' : Extensions} (hl : call.length < 2 ^ 32) (hl' : call'.length < 2 ^ 32)
    (h : payload call x = payload call' x') : call = call' := by
  unfold payload at h
  rw [List.append_assoc, List.append_assoc] at h
  obtain ⟨e, h⟩ := compactEncode_inj (by omega) (by omega) h
  exact (List.append_inj h e).1

/-- C91. As C84: if a payload of a call and extensions is accepted, every extrinsic with this call and the era, nonce, tip and mode
of these extensions shows the call and the values of the ten extensions that were shown of the payload. -/
theorem polkadot_submitted {call : Bytes} {x : Extensions} {s : Signed} (hr : Reliable b) (hr' : Reliable b')
    (hb : b.bytes = payload call x) (hl : call.length < 2 ^ 32) (hx : x.Valid expected)
    {r : TransactionParsed VersionErr} {c : Call}
    (h : parseTransaction polkadot.toMetadata b expected = .ok r) (hc : r.callResult = .ok c)
    (h1 : s.sender.length = 32) (h2 : s.signature.length = s.scheme.length)
    (h3 : s.era = x.era) (h4 : s.nonce = x.nonce) (h5 : s.tip = x.tip) (h6 : s.mode = x.mode)
    (hl' : (s.bytes call).length < 2 ^ 32) (hb' : b'.bytes = compactEncode (s.bytes call).length ++ s.bytes call) :
    ∃ u, decodeUncheckedExtrinsic polkadot b' = .ok u ∧
      extrinsicOf u = .signed (.variant "Id" [(none, .fixed .id s.sender)]) (.fixed s.scheme.kind s.signature)
        (.tuple ((r.extensions.take 10).map edValue)) (callOf c) := by
  obtain ⟨call', x', e, hl2, -, -, he⟩ := (polkadot_transaction hr).1 ⟨r, c, h, hc, rfl, rfl⟩
  obtain rfl : call = call' := polkadot_payload_call hl hl2 (hb.symm.trans e)
  obtain ⟨r', k', g1, g2, -, hv⟩ := (polkadot_transaction (expected := expected) hr).2 ⟨call, x, hb, hl, hx, rfl, he⟩
  cases h.symm.trans g1
  have e : (r.extensions.take 10).map edValue =
      [.record [], .record [], .record [], .record [], .era s.era, .uint .u32 s.nonce, .record [], .uint .u128 s.tip, .record [],
        modeValue s.mode] := by
    rw [List.map_take, hv, h3, h4, h5, h6]; rfl
  rw [e]
  exact (polkadot_extrinsic hr').2 ⟨⟨h1, h2, h3 ▸ hx.era, h4 ▸ hx.nonce, h5 ▸ hx.tip⟩, call, [], he, by simpa using hl', by simpa using hb'⟩

/-- C91. Polkadot 1003003 is as the theorems of C84 assume. -/
theorem polkadot_oneChain : OneChain polkadot ⟨113, 93, 341, 842⟩ 4 signedExtensions where
  hasParams := polkadot_metadata.2.2.2.1
  hasVersion := polkadot_metadata.2.2.1
  bit := by decide
  hasSigned := polkadot_metadata.2.2.2.2
  call := polkadot_metadata.2.1
  extra := by
    obtain ⟨t, hr, hp, hd⟩ := Layout.has_type (ts := types) (id := 842) (path := [])
      (d := .tuple [843, 844, 845, 846, 847, 849, 850, 851, 852, 853]) (by decide +kernel)
    have e : signedExtensions.map (·.ty) = [843, 844, 845, 846, 847, 849, 850, 851, 852, 853] := rfl
    have e' : polkadot.types = registry := rfl
    refine ⟨t, ?_, ?_, by rw [e]; exact hd⟩
    · dsimp only; rw [e']; unfold registry; exact hr
    · rw [hp]; exact Wallet'.structural_iff.1 (by decide)

/-- C91. On 32-bit targets all functions have the same outcomes on this chain (data below 64 MiB). -/
theorem polkadot_32bit (hu : Usual b) (g : Option Bytes) (H : HashFns) {key : Buf} (hk : Usual key) (entry : Entry) :
    With.parseTransaction decode32 polkadot.toMetadata b g = parseTransaction polkadot.toMetadata b g ∧
      With.parseTransactionUnmarked decode32 polkadot.toMetadata b g = parseTransactionUnmarked polkadot.toMetadata b g ∧
      With.decodeUncheckedExtrinsic decode32 polkadot b = decodeUncheckedExtrinsic polkadot b ∧
      With.decodeStorageEntry decode32 H polkadot.types key b entry = decodeStorageEntry H polkadot.types key b entry :=
  functions32_same noU64Bits hu g H hk entry

end Verif
