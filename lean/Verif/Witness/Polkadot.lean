import Verif.Props.Polkadot
import Verif.Witness.Westend
/-! # Every theorem applied to a concrete case: C91

The extrinsic of `unchecked_extrinsic_2` (src/tests.rs:1238) and a transfer. -/
namespace Verif.Witness.Polkadot
open Spec Verif.Polkadot Spec.Polkadot
open Witness.Westend (account)

/-- src/tests.rs:1238 -/
def tested : Bytes :=
  [0x35, 0x02, 0x84, 0x00, 0x94, 0xaf, 0x1b, 0x41, 0xd3, 0x34, 0x6c, 0x8b, 0x50, 0xf9, 0xf2, 0xd2, 0x29, 0x42, 0x2d, 0xdb, 0xbc, 0x53, 0xe7, 0xa5, 0x9d, 0xf3, 0xb4, 0x9a, 0xbd, 0x04, 0x9f, 0xf0, 0x59, 0x12, 0x2d, 0x6e, 0x01, 0xc2, 0x40, 0x49, 0x7d, 0x62, 0xb6, 0x3d, 0x2e, 0x61, 0x44, 0xbd, 0x59, 0xd4, 0x3f, 0x38, 0x5f, 0x5d, 0x37, 0x7d, 0x03, 0xc2, 0x1d, 0x06, 0x43, 0x51, 0x30, 0x54, 0x49, 0x1c, 0xf9, 0x0c, 0x67, 0xf7, 0x1c, 0x5f, 0x32, 0xae, 0x4a, 0xc3, 0x7d, 0x16, 0xf5, 0x5e, 0xb1, 0x00, 0xda, 0xe0, 0x06, 0xb7, 0x74, 0xf5, 0x72, 0x83, 0xd2, 0x1b, 0xb7, 0xaf, 0xb8, 0x4c, 0x8b, 0xbf, 0xb5, 0xde, 0x87, 0x35, 0x00, 0x28, 0x00, 0x00, 0x00, 0x0a, 0x04, 0x00, 0x36, 0x98, 0x8c, 0x47, 0x6f, 0xff, 0x14, 0xe9, 0x88, 0x5c, 0x49, 0xf9, 0x38, 0x19, 0x3f, 0x2f, 0xc4, 0xb5, 0x4b, 0xa9, 0xe4, 0xcf, 0x67, 0x3f, 0xfe, 0xd3, 0xdc, 0x4e, 0x41, 0x3a, 0xeb, 0x3a, 0x00]

def signed : Signed where
  sender := [0x94, 0xaf, 0x1b, 0x41, 0xd3, 0x34, 0x6c, 0x8b, 0x50, 0xf9, 0xf2, 0xd2, 0x29, 0x42, 0x2d, 0xdb, 0xbc, 0x53, 0xe7, 0xa5, 0x9d, 0xf3, 0xb4, 0x9a, 0xbd, 0x04, 0x9f, 0xf0, 0x59, 0x12, 0x2d, 0x6e]
  scheme := .sr25519
  signature := [0xc2, 0x40, 0x49, 0x7d, 0x62, 0xb6, 0x3d, 0x2e, 0x61, 0x44, 0xbd, 0x59, 0xd4, 0x3f, 0x38, 0x5f, 0x5d, 0x37, 0x7d, 0x03, 0xc2, 0x1d, 0x06, 0x43, 0x51, 0x30, 0x54, 0x49, 0x1c, 0xf9, 0x0c, 0x67, 0xf7, 0x1c, 0x5f, 0x32, 0xae, 0x4a, 0xc3, 0x7d, 0x16, 0xf5, 0x5e, 0xb1, 0x00, 0xda, 0xe0, 0x06, 0xb7, 0x74, 0xf5, 0x72, 0x83, 0xd2, 0x1b, 0xb7, 0xaf, 0xb8, 0x4c, 0x8b, 0xbf, 0xb5, 0xde, 0x87]
  era := .mortal 64 3
  nonce := 10
  tip := 0
  mode := false

/-- What the crate takes for the hash of code. -/
def codeHash : Bytes := [0x04, 0x00, 0x36, 0x98, 0x8c, 0x47, 0x6f, 0xff, 0x14, 0xe9, 0x88, 0x5c, 0x49, 0xf9, 0x38, 0x19, 0x3f, 0x2f, 0xc4, 0xb5, 0x4b, 0xa9, 0xe4, 0xcf, 0x67, 0x3f, 0xfe, 0xd3, 0xdc, 0x4e, 0x41, 0x3a]

/-- The call `System.authorize_upgrade_without_checks`. -/
def authorize (hash : Bytes) : CallOf := ⟨"System", "authorize_upgrade_without_checks", [(some "code_hash", .hash hash)]⟩

theorem authorize_iff {hash bs : Bytes} : CallEnc registry 93 (authorize hash) bs ↔ hash.length = 32 ∧ bs = [0, 10] ++ hash := by
  unfold authorize
  rw [Layout.call_iff namesDistinct indicesDistinct (p := ⟨"System", [⟨none, 94, some "self::sp_api_hidden_includes_construct_runtime::hidden_include::dispatch\n::CallableCallFor<System, Runtime>", []⟩], 0, []⟩)
    (w := ⟨"authorize_upgrade_without_checks", [⟨some "code_hash", 13, some "T::Hash", []⟩], 10, []⟩)
    (by decide +kernel) rfl (by decide +kernel) (by decide +kernel) (by decide +kernel)]
  constructor
  · rintro ⟨ps, hl, he, ha, rfl⟩
    obtain ⟨⟨v, b⟩, rfl⟩ := one_length hl
    simp only [Parts.named, Parts.values, List.map_cons, List.map_nil, List.zip_cons_cons, List.zip_nil_right, List.cons.injEq,
      Prod.mk.injEq, true_and, and_true] at ha
    subst ha
    have he : Enc registry false 13 (.hash hash) b := he (13, _, b) (by simp)
    obtain ⟨h1, h2⟩ := h256_iff.1 he
    cases h1
    exact ⟨h2, by simp [Parts.bytes]⟩
  · rintro ⟨h, rfl⟩
    refine ⟨[(.hash hash, hash)], rfl, ?_, rfl, by simp [Parts.bytes]⟩
    simp [h256_iff, h]

/-- The extrinsic of the test is shown as an authorization of the code with the hash 040036…413a, although its last three bytes
are not part of that call: they are ignored (finding 1). -/
example : (∃ u, decodeUncheckedExtrinsic polkadot (.ofBytes tested) = .ok u ∧ extrinsicOf u = signed.extrinsic (authorize codeHash)) ∧
    tested = compactEncode 141 ++ signed.bytes ([0, 10] ++ codeHash) ++ [0xeb, 0x3a, 0x00] := by
  have e : tested = compactEncode 141 ++ signed.bytes ([0, 10] ++ codeHash) ++ [0xeb, 0x3a, 0x00] := by decide +kernel
  refine ⟨(polkadot_extrinsic (reliable_ofBytes _)).2 ⟨⟨by decide, by decide, ⟨⟨6, by decide, by decide, by decide⟩, by decide, by decide⟩,
    by decide, by decide⟩, _, [0xeb, 0x3a, 0x00], authorize_iff.2 ⟨by decide, rfl⟩, by decide +kernel, ?_⟩, e⟩
  show tested = _
  rw [e]
  have : (signed.bytes ([0, 10] ++ codeHash) ++ [0xeb, 0x3a, 0x00]).length = 141 := by decide +kernel
  rw [this]

/-- It is not shown as a call of the staking pallets or any other call: the call shown is the authorization. -/
example {c : CallOf} (h : ∃ u, decodeUncheckedExtrinsic polkadot (.ofBytes tested) = .ok u ∧ extrinsicOf u = signed.extrinsic c) :
    ∃ call tail : Bytes, CallEnc polkadot.types 93 c call ∧ [0, 10] ++ codeHash ++ [0xeb, 0x3a, 0x00] = call ++ tail := by
  obtain ⟨-, call, tail, hc, -, hb⟩ := (polkadot_extrinsic (reliable_ofBytes _)).1 h
  refine ⟨call, tail, hc, ?_⟩
  have e : tested = compactEncode 141 ++ signed.bytes ([0, 10] ++ codeHash) ++ [0xeb, 0x3a, 0x00] := by decide +kernel
  have hb : tested = compactEncode (signed.bytes call ++ tail).length ++ signed.bytes call ++ tail := hb
  have hl : (signed.bytes call ++ tail).length = 141 := by
    have h1 : tested.length = 143 := by decide +kernel
    rw [hb, List.append_assoc, List.length_append] at h1
    generalize (signed.bytes call ++ tail).length = n at h1
    unfold compactEncode at h1
    split at h1
    · rw [leBytes_length] at h1; omega
    · split at h1
      · rw [leBytes_length] at h1; omega
      · split at h1
        · rw [leBytes_length] at h1; omega
        · rw [List.length_cons] at h1; omega
  rw [hl, e, List.append_assoc, List.append_assoc] at hb
  have hb := List.append_cancel_left hb
  simpa [Signed.bytes, List.append_assoc] using hb

/-- Genesis hash of Polkadot. -/
def genesis : Bytes := [0x91, 0xb1, 0x71, 0xbb, 0x15, 0x8e, 0x2d, 0x38, 0x48, 0xfa, 0x23, 0xa9, 0xf1, 0xc2, 0x51, 0x82, 0xfb, 0x8e, 0x20, 0x31, 0x3b, 0x2c, 0x1e, 0xb4, 0x92, 0x19, 0xda, 0x7a, 0x70, 0xce, 0x90, 0xc3]

/-- Immortal, with the hash of the metadata. -/
def extensions : Extensions where
  era := .immortal
  nonce := 7
  tip := 1000
  mode := true
  txVersion := 26
  genesis := genesis
  blockHash := genesis
  metadataHash := some (List.replicate 32 9)

theorem extensions_valid (mode : Bool) (h : Option Bytes) (hh : ∀ x, h = some x → x.length = 32) :
    ({ extensions with mode := mode, metadataHash := h } : Extensions).Valid (some genesis) where
  era := trivial
  nonce := by show 7 < _; decide
  tip := by show 1000 < _; decide
  txVersion := by show 26 < _; decide
  genesis := by show genesis.length = 32; decide
  blockHash := by show genesis.length = 32; decide
  metadataHash := hh
  immortal := fun _ => rfl
  expected := by intro g h; cases h; rfl

theorem valid : extensions.Valid (some genesis) := extensions_valid true _ (by intro x h; cases h; rfl)

/-- A transfer of 3 DOT. -/
def transferred : Bytes := payload (transferKeepAlive account 30000000000) extensions

abbrev b : Buf := .ofBytes transferred

theorem transferred_shown : ∃ r k, parseTransaction polkadot.toMetadata b (some genesis) = .ok r ∧ r.callResult = .ok k ∧
    callOf k = transfer account 30000000000 :=
  (polkadot_transfer (reliable_ofBytes _)).2 ⟨by decide, by decide, extensions, valid, rfl⟩

example : ∃ r k, parseTransaction polkadot.toMetadata b (some genesis) = .ok r ∧ r.callResult = .ok k ∧
    callOf k = transfer account 30000000000 ∧ r.extensions.map edValue = extensions.values :=
  (polkadot_transaction (reliable_ofBytes _)).2 ⟨_, extensions, rfl, by decide +kernel, valid, rfl,
    transfer_iff.2 ⟨by decide, by decide, rfl⟩⟩

example : ∃ r, parseTransactionUnmarked polkadot.toMetadata (.ofBytes (transferKeepAlive account 30000000000 ++ extensions.bytes))
    (some genesis) = .ok r ∧ callOf r.call = transfer account 30000000000 ∧ r.extensions.map edValue = extensions.values :=
  (polkadot_unmarked (reliable_ofBytes _)).2 ⟨_, extensions, rfl, valid, rfl, transfer_iff.2 ⟨by decide, by decide, rfl⟩⟩

/-- Nothing relates mode and hash: a transaction that says it vouches for a metadata hash, without one, is accepted; and one with a
hash that says it does not. -/
example : (∃ r k, parseTransaction polkadot.toMetadata
      (.ofBytes (payload (transferKeepAlive account 5) { extensions with mode := true, metadataHash := none })) (some genesis) = .ok r ∧
      r.callResult = .ok k ∧ callOf k = transfer account 5) ∧
    (∃ r k, parseTransaction polkadot.toMetadata
      (.ofBytes (payload (transferKeepAlive account 5) { extensions with mode := false })) (some genesis) = .ok r ∧
      r.callResult = .ok k ∧ callOf k = transfer account 5) :=
  ⟨(polkadot_transfer (reliable_ofBytes _)).2 ⟨by decide, by decide, _, extensions_valid true none (by intro x h; cases h), rfl⟩,
   (polkadot_transfer (reliable_ofBytes _)).2 ⟨by decide, by decide, _, extensions_valid false _ (by intro x h; cases h; rfl), rfl⟩⟩

/-- The transaction of the documentation, made for Westend, is not shown as this transfer on Polkadot: pallet 4 instead of 5. -/
example {amount : Nat} : ¬ ∃ r k, parseTransaction polkadot.toMetadata (.ofBytes Witness.Westend.documented) none = .ok r ∧
    r.callResult = .ok k ∧ callOf k = transfer account amount := by
  intro h
  obtain ⟨-, ha, x, -, hb⟩ := (polkadot_transfer (reliable_ofBytes _)).1 h
  have e : (payload (transferKeepAlive account amount) x) = compactEncode (transferKeepAlive account amount).length ++
      5 :: ([3, 0] ++ account ++ compactEncode amount ++ x.bytes) := by
    simp [payload, transferKeepAlive, List.append_assoc]
  have hb : Witness.Westend.documented = _ := hb.trans e
  have h1 : Witness.Westend.documented[1]? = some 4 := by decide +kernel
  have hn : (transferKeepAlive account amount).length < 2 ^ 6 := by
    have := compactEncode_length_le ha
    have h32 : account.length = 32 := by decide
    simp only [transferKeepAlive, List.length_append, List.length_cons, List.length_nil, h32]
    omega
  rw [compactEncode, if_pos hn] at hb
  rw [hb, List.getElem?_append_right (by rw [leBytes_length]; omega), leBytes_length] at h1
  cases h1

example := polkadot_metadata
example := polkadot_registry

/-- Any type: the number 5 as a `Compact<u128>`. -/
example : ∃ d, decodeAllAsType polkadot.types (.ofBytes [20]) 63 = .ok d ∧ edValue d = .uint .u128 5 :=
  (polkadot_values (reliable_ofBytes _)).2 (balance_iff.2 ⟨5, by decide, rfl, rfl⟩)

theorem transfer_firm : ∀ f ∈ (transfer account 30000000000).args, Firm f.2 := by
  simp only [transfer, List.forall_mem_cons, List.not_mem_nil, false_implies, implies_true, and_true]
  exact ⟨.variant (by simp; exact .fixed _ _), .uint _ _⟩

/-- What is shown of the transfer tells its bytes. -/
example : ∀ {b' : Buf} {r r' : TransactionParsed VersionErr} {c c' : Call}, parseTransaction polkadot.toMetadata b (some genesis) = .ok r →
    parseTransaction polkadot.toMetadata b' none = .ok r' → r.callResult = .ok c → r'.callResult = .ok c' →
    cardLines Example.bitsText (c.card (ss58Printers (fun _ => (29, 33)) (fun _ => [])) exampleSpecs "polkadot" 0) =
      cardLines Example.bitsText (c'.card (ss58Printers (fun _ => (29, 33)) (fun _ => [])) exampleSpecs "polkadot" 0) →
    cardLines Example.bitsText (r.card (ss58Printers (fun _ => (29, 33)) (fun _ => [])) exampleSpecs "polkadot").extensions =
      cardLines Example.bitsText (r'.card (ss58Printers (fun _ => (29, 33)) (fun _ => [])) exampleSpecs "polkadot").extensions →
    transferred = b'.bytes := by
  intro b' r r' c c' h h' hc hc' w w'
  obtain ⟨r0, k, h0, hk, e⟩ := transferred_shown
  cases h.symm.trans h0
  cases hc.symm.trans hk
  have hf : ∀ f ∈ fdsValue c.fields, Firm f.2 := by
    have : fdsValue c.fields = (transfer account 30000000000).args := by rw [← e]; rfl
    rw [this]; exact transfer_firm
  exact polkadot_signs (by decide) Meaning.bits_shown (reliable_ofBytes _) h h' hc hc' hf w w'

/-- The extrinsic with the transfer that was shown. -/
def sent : Signed := ⟨account, .ed25519, List.replicate 64 3, .immortal, 7, 1000, true⟩

example : ∀ r c, parseTransaction polkadot.toMetadata b (some genesis) = .ok r → r.callResult = .ok c →
    ∃ u, decodeUncheckedExtrinsic polkadot (.ofBytes (compactEncode (sent.bytes (transferKeepAlive account 30000000000)).length ++
        sent.bytes (transferKeepAlive account 30000000000))) = .ok u ∧
      extrinsicOf u = .signed (.variant "Id" [(none, .fixed .id account)]) (.fixed .signatureEd25519 (List.replicate 64 3))
        (.tuple ((r.extensions.take 10).map edValue)) (callOf c) := fun r c h hc =>
  polkadot_submitted (x := extensions) (s := sent) (reliable_ofBytes _) (reliable_ofBytes _) rfl (by decide +kernel) valid h hc (by decide)
    (by decide) rfl rfl rfl rfl (by decide +kernel) rfl

example := polkadot_oneChain

theorem usual : Usual b := ⟨reliable_ofBytes _, by decide +kernel⟩
example (H : HashFns) := polkadot_32bit usual (some genesis) H usual ⟨.plain 0, []⟩

end Verif.Witness.Polkadot
