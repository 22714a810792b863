import Verif.Proof.Westend
import Verif.Real.WestendBounds
import Verif.Proof.Legible
import Verif.Props.Proper
import Verif.Props.Base58
import Verif.Props.Cost
import Verif.Props.Weight
import Verif.Props.Node
/-!
# C82, C83: an actual chain

The other properties are about all registries, and some of them assume something of the registry. Here they are about
one: Westend 9111, the chain of the crate's documentation and tests (`for_tests/westend9111`, without documentation
texts). Nothing is assumed of it: the kernel checks its 597 types.
-/
namespace Verif
open Spec Westend Spec.Westend

/-- The metadata of Westend 9111, as the crate uses it. -/
abbrev westend : CompleteMetadata V14Err := v14.metadata

variable {b b' : Buf} {expected expected' : Option Bytes}

/-- C82. What the crate reads from the metadata: name and version of the chain, the types of calls, addresses and signatures. -/
theorem westend_metadata :
    westend.specNameVersion = .ok ⟨"9111", "westend"⟩ ∧ westend.callTy = .ok 267 ∧ westend.extrinsicVersion = .ok 4 ∧
      westend.extrinsicTypeParams = .ok ⟨180, 267, 436, 587⟩ ∧ westend.signedExtensions = .ok signedExtensions :=
  ⟨ok_of_toOption (by decide +kernel), ok_of_toOption (by decide +kernel), ok_of_toOption (by decide +kernel),
    ok_of_toOption (by decide +kernel), rfl⟩

/-- C82. The registry is as the theorems on registries assume. -/
theorem westend_registry : EmptyArraysGrounded westend.types ∧ NamesDistinct westend.types ∧ IndicesDistinct westend.types ∧
    SignaturesDistinct westend.types ∧ LeavesNameless westend.types ∧ NoCompactArray westend.types ∧
    SolidVectors westend.types ∧ ¬ HasU64Bits westend.types ∧ Ranked westend.types rank :=
  ⟨emptyArraysGrounded, Westend.namesDistinct, Westend.indicesDistinct, signaturesDistinct, leavesNameless, noCompactArray, solidVectors, noU64Bits,
    ranked⟩

/-- C82. Values of any type of the chain: exactly their encodings are decoded. -/
theorem westend_values (hr : Reliable b) {id : Nat} {v : Value} :
    (∃ d, decodeAllAsType westend.types b id = .ok d ∧ edValue d = v) ↔ Enc westend.types false id v b.bytes := by
  constructor
  · rintro ⟨d, h, rfl⟩
    exact decodeAllAsType_sound h
  · intro h
    obtain ⟨d, hd, hv⟩ := decode_complete emptyArraysGrounded hr (pos := 0) (p := Propagated.new) ⟨rfl, rfl⟩ h
      ⟨[], [], by simp, rfl⟩
    rw [Nat.zero_add] at hd
    exact ⟨d, decodeAllAsType_iff.2 hd, hv⟩

theorem leBytes_9111 : leBytes 4 9111 = [0x97, 0x23, 0, 0] := by decide

theorem valuesOf_9111 (x : Extensions) : valuesOf 9111 x = x.values := rfl

theorem bytesOf_9111 (x : Extensions) : bytesOf 9111 x = x.bytes := by
  unfold bytesOf Extensions.bytes
  rw [leBytes_9111]

theorem proper_westend {c : CallOf} {vs : List Value} {callBytes extBytes : Bytes} :
    ProperTransaction westend.toMetadata expected c vs callBytes extBytes ↔
      CallEnc registry 267 c callBytes ∧ ∃ x : Extensions, x.Valid expected ∧ vs = x.values ∧ extBytes = x.bytes := by
  obtain ⟨hspec, hcall, -, -, hsig⟩ := westend_metadata
  constructor
  · rintro ⟨id, signed, spec, h1, h2, h3, hc, hi, hp⟩
    cases hcall.symm.trans h1
    cases hsig.symm.trans h2
    cases hspec.symm.trans h3
    obtain ⟨s, x, hf, rfl, rfl⟩ := items_iff.1 hi
    obtain ⟨p1, p2, p3⟩ := proper_values.1 hp
    obtain rfl : s = 9111 := toString_nat_inj (p1.trans (by decide))
    exact ⟨hc, x, ⟨hf.era, hf.nonce, hf.tip, hf.txVersion, hf.genesis, hf.blockHash, p3, p2⟩, valuesOf_9111 x, bytesOf_9111 x⟩
  · rintro ⟨hc, x, hx, rfl, rfl⟩
    refine ⟨267, signedExtensions, ⟨"9111", "westend"⟩, hcall, hsig, hspec, hc, ?_, ?_⟩
    · exact items_iff.2 ⟨9111, x, ⟨hx.era, hx.nonce, hx.tip, by decide, hx.txVersion, hx.genesis, hx.blockHash⟩,
        (valuesOf_9111 x).symm, (bytesOf_9111 x).symm⟩
    · rw [← valuesOf_9111]
      exact proper_values.2 ⟨by decide, hx.expected, hx.immortal⟩

/-- C82. Transactions of the chain: a payload is accepted, as the call `c` with extension values `vs`, exactly if it is the
length of a call, the call, and extensions with spec version 9111, byte by byte as in `Spec/Westend.lean`. -/
theorem westend_transaction (hr : Reliable b) {c : CallOf} {vs : List Value} :
    (∃ r k, parseTransaction westend.toMetadata b expected = .ok r ∧ r.callResult = .ok k ∧ callOf k = c ∧
        r.extensions.map edValue = vs) ↔
      ∃ (call : Bytes) (x : Extensions), b.bytes = payload call x ∧ call.length < 2 ^ 32 ∧ x.Valid expected ∧ vs = x.values ∧
        CallEnc westend.types 267 c call := by
  rw [parseTransaction_exact emptyArraysGrounded hr]
  constructor
  · rintro ⟨cb, eb, h1, h2, h3⟩
    obtain ⟨hc, x, hx, rfl, rfl⟩ := proper_westend.1 h3
    exact ⟨cb, x, h1, h2, hx, rfl, hc⟩
  · rintro ⟨cb, x, h1, h2, hx, rfl, hc⟩
    exact ⟨cb, x.bytes, h1, h2, proper_westend.2 ⟨hc, x, hx, rfl, rfl⟩⟩

/-- C82. The same for payloads without the length of the call: a payload is accepted exactly if it is a call followed by such
extensions. -/
theorem westend_unmarked (hr : Reliable b) {c : CallOf} {vs : List Value} :
    (∃ r, parseTransactionUnmarked westend.toMetadata b expected = .ok r ∧ callOf r.call = c ∧ r.extensions.map edValue = vs) ↔
      ∃ (call : Bytes) (x : Extensions), b.bytes = call ++ x.bytes ∧ x.Valid expected ∧ vs = x.values ∧ CallEnc westend.types 267 c call := by
  rw [parseTransactionUnmarked_exact emptyArraysGrounded hr]
  constructor
  · rintro ⟨cb, eb, h1, h3⟩
    obtain ⟨hc, x, hx, rfl, rfl⟩ := proper_westend.1 h3
    exact ⟨cb, x, h1, hx, rfl, hc⟩
  · rintro ⟨cb, x, h1, hx, rfl, hc⟩
    exact ⟨cb, x.bytes, h1, proper_westend.2 ⟨hc, x, hx, rfl, rfl⟩⟩

/-- C83. A transfer: the payload is shown as the call `Balances.transfer_keep_alive` with this destination and amount
exactly if its call is, byte by byte, this transfer. -/
theorem westend_transfer (hr : Reliable b) {account : Bytes} {amount : Nat} :
    (∃ r k, parseTransaction westend.toMetadata b expected = .ok r ∧ r.callResult = .ok k ∧
        callOf k = transfer account amount) ↔
      account.length = 32 ∧ amount < 2 ^ 128 ∧
        ∃ x : Extensions, x.Valid expected ∧ b.bytes = payload (transferKeepAlive account amount) x := by
  constructor
  · rintro ⟨r, k, h1, h2, h3⟩
    obtain ⟨call, x, hb, hl, hx, -, hc⟩ := (westend_transaction hr).1 ⟨r, k, h1, h2, h3, rfl⟩
    obtain ⟨ha, hn, rfl⟩ := transfer_iff.1 hc
    exact ⟨ha, hn, x, hx, hb⟩
  · rintro ⟨ha, hn, x, hx, hb⟩
    have hl : (transferKeepAlive account amount).length < 2 ^ 32 := by
      have := compactEncode_length_le (v := amount) (by omega)
      simp only [transferKeepAlive, List.length_append, List.length_cons, List.length_nil, ha]
      omega
    obtain ⟨r, k, h1, h2, h3, -⟩ := (westend_transaction hr).2 ⟨_, x, hb, hl, hx, rfl, transfer_iff.2 ⟨ha, hn, rfl⟩⟩
    exact ⟨r, k, h1, h2, h3⟩

/-- C83. An extrinsic is shown as signed by this account, with this signature, and with the call `c`, exactly if it is, byte
by byte, such an extrinsic with an encoding of the call; behind the call anything may follow. -/
theorem westend_extrinsic (hr : Reliable b) {x : Signed} {c : CallOf} :
    (∃ u, decodeUncheckedExtrinsic westend b = .ok u ∧ extrinsicOf u = x.extrinsic c) ↔
      x.Valid ∧ ∃ (call tail : Bytes), CallEnc westend.types 267 c call ∧ (x.bytes call ++ tail).length < 2 ^ 32 ∧
        b.bytes = compactEncode (x.bytes call ++ tail).length ++ x.bytes call ++ tail := by
  obtain ⟨-, -, hver, hpar, -⟩ := westend_metadata
  rw [decodeUncheckedExtrinsic_exact emptyArraysGrounded hr]
  constructor
  · rintro ⟨params, version, vb, body, tail, h1, h2, h3, h4, h5, h6, ab, sb, eb, cb, rfl, ha, hs, he, hc⟩
    cases hpar.symm.trans h1
    cases hver.symm.trans h2
    obtain ⟨a, a1, a2, rfl⟩ := address_iff.1 ha
    cases a2
    obtain ⟨s, s1, s2, rfl⟩ := scheme_iff.1 hs
    cases s2
    obtain ⟨era, nonce, tip, e1, e2, e3, e4, rfl⟩ := extra_iff.1 he
    cases e4
    obtain rfl : vb = 0x84 := UInt8.toNat_inj.1 h4
    have e : (0x84 :: (0 :: x.sender ++ x.scheme.index :: x.signature ++
        (eraEncode x.era ++ compactEncode x.nonce ++ compactEncode x.tip) ++ cb) : Bytes) = x.bytes cb := by
      simp [Signed.bytes, List.append_assoc]
    refine ⟨⟨a1, s1, e1, e2, e3⟩, cb, tail, hc, ?_, ?_⟩
    · rw [← e]; simpa using h5
    · rw [h6, ← e]; simp [List.append_assoc]
  · rintro ⟨hx, cb, tail, hc, hl, hb⟩
    have e : (0x84 :: (0 :: x.sender ++ x.scheme.index :: x.signature ++
        (eraEncode x.era ++ compactEncode x.nonce ++ compactEncode x.tip) ++ cb) : Bytes) = x.bytes cb := by
      simp [Signed.bytes, List.append_assoc]
    refine ⟨_, _, 0x84, _, tail, hpar, hver, by decide, rfl, ?_, ?_, _, _, _, cb, rfl, address_iff.2 ⟨_, hx.sender, rfl, rfl⟩,
      scheme_iff.2 ⟨_, hx.signature, rfl, rfl⟩, extra_iff.2 ⟨_, _, _, hx.era, hx.nonce, hx.tip, rfl, rfl⟩, hc⟩
    · rw [← e] at hl; simpa using hl
    · rw [hb, ← e]; simp [List.append_assoc]

theorem values_firm (x : Extensions) : ∀ v ∈ x.values, Firm v := by
  simp only [Extensions.values, List.forall_mem_cons, List.not_mem_nil, false_implies, implies_true, and_true]
  exact ⟨.record (by simp), .record (by simp), .record (by simp), .era _, .uint _ _, .record (by simp), .uint _ _, .uint _ _, .uint _ _,
    .hash _, .hash _, .tuple (by simp), .tuple (by simp), .tuple (by simp)⟩

/-- C82. What is shown tells the payload: two accepted payloads with the same lines shown are the same, if the values
of the call leave no freedom to the encoding (no partly filled bit sequences, no parts of one at the maximum). -/
theorem westend_signs {specs : ShortSpecs} {checksum : Bytes → UInt8 × UInt8} {icon : Bytes → Bytes} {specName : String}
    {showBits : BitStore → BitOrder → List Bool → String} (hd : specs.decimals < 256) (hb : ShowsBits showBits) (hr : Reliable b)
    {r r' : TransactionParsed V14Err} {c c' : Call}
    (h : parseTransaction westend.toMetadata b expected = .ok r) (h' : parseTransaction westend.toMetadata b' expected' = .ok r')
    (hc : r.callResult = .ok c) (hc' : r'.callResult = .ok c') (hf : ∀ f ∈ fdsValue c.fields, Firm f.2)
    (w : cardLines showBits (c.card (ss58Printers checksum icon) specs specName 0) =
      cardLines showBits (c'.card (ss58Printers checksum icon) specs specName 0))
    (w' : cardLines showBits (r.card (ss58Printers checksum icon) specs specName).extensions =
      cardLines showBits (r'.card (ss58Printers checksum icon) specs specName).extensions) : b.bytes = b'.bytes := by
  obtain ⟨-, x, -, -, -, hx, -⟩ := (westend_transaction hr).1 ⟨r, c, h, hc, rfl, rfl⟩
  refine parseTransaction_signs_ss58 Westend.namesDistinct signaturesDistinct hd hb h h' hc hc' hf ?_ w w'
  intro d hd
  exact values_firm x _ (hx ▸ List.mem_map_of_mem hd)

/-- C82. On 32-bit targets all functions have the same outcomes on this chain (data below 64 MiB). -/
theorem westend_32bit (hu : Usual b) (g : Option Bytes) (H : HashFns) {key : Buf} (hk : Usual key) (entry : Entry) :
    With.parseTransaction decode32 westend.toMetadata b g = parseTransaction westend.toMetadata b g ∧
      With.parseTransactionUnmarked decode32 westend.toMetadata b g = parseTransactionUnmarked westend.toMetadata b g ∧
      With.decodeUncheckedExtrinsic decode32 westend b = decodeUncheckedExtrinsic westend b ∧
      With.decodeStorageEntry decode32 H westend.types key b entry = decodeStorageEntry H westend.types key b entry :=
  functions32_same noU64Bits hu g H hk entry

/-- C82. The cost of parsing a transaction of this chain is linear in its length, whatever the memory does. -/
theorem westend_cost {σ : Type} (D : Device σ) (data : Bytes) (g : Option Bytes) (s : σ) (h : Flaky D westend.types data) :
    (parseTransactionD (metered D) westend.toMetadata g (s, 0)).2.2 ≤ 4326344 * (1 + data.length) := by
  have := transaction_cost_linear (X := westend.toMetadata) (c := (·.2)) toll solidVectors (metered_flaky h) (metered_meters D) g (s, 0)
  have hx : extensionCount westend.toMetadata = 7 := rfl
  rw [hx] at this
  refine Nat.le_trans this ?_
  simp only []
  omega

/-- C82. The size of what is parsed is linear in the length of the payload. -/
theorem westend_size {g : Option Bytes} {t : TransactionParsed V14Err} (h : parseTransaction westend.toMetadata b g = .ok t) :
    txSize t ≤ 56581 * (1 + b.len) := by
  have := transaction_size_linear (M := westend.toMetadata) budget solidVectors (signed := signedExtensions) rfl h
  have hx : signedExtensions.length = 7 := rfl
  rw [hx] at this
  omega

end Verif
