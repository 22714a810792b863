import Verif.Props.Westend
import Verif.Witness.Meaning
import Verif.Witness.Device
/-! # Every theorem applied to a concrete case: C82, C83

The transaction of the crate's documentation (src/lib.rs:174). -/
namespace Verif.Witness.Westend
open Spec Verif.Westend Spec.Westend

/-- src/lib.rs:174 -/
def documented : Bytes :=
  [0x9c, 0x04, 0x03, 0x00, 0x8e, 0xaf, 0x04, 0x15, 0x16, 0x87, 0x73, 0x63, 0x26, 0xc9, 0xfe, 0xa1, 0x7e, 0x25, 0xfc, 0x52, 0x87, 0x61, 0x36, 0x93, 0xc9, 0x12, 0x90, 0x9c, 0xb2, 0x26, 0xaa, 0x47, 0x94, 0xf2, 0x6a, 0x48, 0x02, 0x84, 0xd7, 0x17, 0xd5, 0x03, 0x15, 0x04, 0x02, 0x5a, 0x62, 0x02, 0x97, 0x23, 0x00, 0x00, 0x07, 0x00, 0x00, 0x00, 0xe1, 0x43, 0xf2, 0x38, 0x03, 0xac, 0x50, 0xe8, 0xf6, 0xf8, 0xe6, 0x26, 0x95, 0xd1, 0xce, 0x9e, 0x4e, 0x1d, 0x68, 0xaa, 0x36, 0xc1, 0xcd, 0x2c, 0xfd, 0x15, 0x34, 0x02, 0x13, 0xf3, 0x42, 0x3e, 0x98, 0xa8, 0xee, 0x9e, 0x38, 0x90, 0x43, 0xcd, 0x8a, 0x99, 0x54, 0xb2, 0x54, 0xd8, 0x22, 0xd3, 0x41, 0x38, 0xb9, 0xae, 0x97, 0xd3, 0xb7, 0xf5, 0x0d, 0xc6, 0x78, 0x1b, 0x13, 0xdf, 0x8d, 0x84]

/-- The receiver of src/lib.rs:221. -/
def account : Bytes :=
  [0x8e, 0xaf, 0x04, 0x15, 0x16, 0x87, 0x73, 0x63, 0x26, 0xc9, 0xfe, 0xa1, 0x7e, 0x25, 0xfc, 0x52, 0x87, 0x61, 0x36, 0x93, 0xc9, 0x12, 0x90, 0x9c, 0xb2, 0x26, 0xaa, 0x47, 0x94, 0xf2, 0x6a, 0x48]
/-- src/lib.rs:187 -/
def genesis : Bytes :=
  [0xe1, 0x43, 0xf2, 0x38, 0x03, 0xac, 0x50, 0xe8, 0xf6, 0xf8, 0xe6, 0x26, 0x95, 0xd1, 0xce, 0x9e, 0x4e, 0x1d, 0x68, 0xaa, 0x36, 0xc1, 0xcd, 0x2c, 0xfd, 0x15, 0x34, 0x02, 0x13, 0xf3, 0x42, 0x3e]
def blockHash : Bytes :=
  [0x98, 0xa8, 0xee, 0x9e, 0x38, 0x90, 0x43, 0xcd, 0x8a, 0x99, 0x54, 0xb2, 0x54, 0xd8, 0x22, 0xd3, 0x41, 0x38, 0xb9, 0xae, 0x97, 0xd3, 0xb7, 0xf5, 0x0d, 0xc6, 0x78, 0x1b, 0x13, 0xdf, 0x8d, 0x84]

def extensions : Extensions where
  era := .mortal 64 61
  nonce := 261
  tip := 10000000
  txVersion := 7
  genesis := genesis
  blockHash := blockHash

/-- The transaction of the documentation is, byte by byte, a transfer of 100000000. -/
theorem documented_eq : documented = payload (transferKeepAlive account 100000000) extensions := by decide +kernel

theorem extensions_valid : extensions.Valid (some genesis) where
  era := by refine ⟨⟨6, by decide, by decide, by decide⟩, by decide, by decide⟩
  nonce := by decide
  tip := by decide
  txVersion := by decide
  genesis := by decide
  blockHash := by decide
  immortal := by intro h; cases h
  expected := by intro g h; cases h; rfl

abbrev b : Buf := .ofBytes documented

theorem documented_shown : ∃ r k, parseTransaction westend.toMetadata b (some genesis) = .ok r ∧ r.callResult = .ok k ∧
    callOf k = transfer account 100000000 :=
  (westend_transfer (reliable_ofBytes _)).2 ⟨by decide, by decide, extensions, extensions_valid, documented_eq⟩

/-- It is not shown as a transfer of less. -/
example : ¬ ∃ r k, parseTransaction westend.toMetadata b (some genesis) = .ok r ∧ r.callResult = .ok k ∧
    callOf k = transfer account 10000000 := by
  intro h
  obtain ⟨-, -, x, -, hb⟩ := (westend_transfer (reliable_ofBytes _)).1 h
  have h2 : documented[37]? = some 0x84 := by decide +kernel
  have h3 : (payload (transferKeepAlive account 10000000) x)[37]? = some 0x5a := by
    rw [payload, List.getElem?_append_left (by decide +kernel)]; decide +kernel
  rw [show documented = _ from hb, h3] at h2
  cases h2

/-- Accepted as a transaction, with the values of the extensions of src/lib.rs:251-. -/
example : ∃ r k, parseTransaction westend.toMetadata b (some genesis) = .ok r ∧ r.callResult = .ok k ∧
    callOf k = transfer account 100000000 ∧ r.extensions.map edValue = extensions.values :=
  (westend_transaction (reliable_ofBytes _)).2 ⟨_, extensions, documented_eq, by decide, extensions_valid, rfl,
    transfer_iff.2 ⟨by decide, by decide, rfl⟩⟩

/-- Without the length of the call (`parse_transaction_unmarked`). -/
example : ∃ r, parseTransactionUnmarked westend.toMetadata (.ofBytes (transferKeepAlive account 100000000 ++ extensions.bytes))
    (some genesis) = .ok r ∧ callOf r.call = transfer account 100000000 ∧ r.extensions.map edValue = extensions.values :=
  (westend_unmarked (reliable_ofBytes _)).2 ⟨_, extensions, rfl, extensions_valid, rfl, transfer_iff.2 ⟨by decide, by decide, rfl⟩⟩

theorem version_byte {call : Bytes} {x : Extensions} (hx : x.Valid g) : (payload call x)[(payload call x).length - 72]? = some 0x97 := by
  have e : payload call x = (compactEncode call.length ++ call ++ (eraEncode x.era ++ compactEncode x.nonce ++ compactEncode x.tip)) ++
      (0x97 :: ([0x23, 0, 0] ++ leBytes 4 x.txVersion ++ x.genesis ++ x.blockHash)) := by
    simp only [payload, Extensions.bytes, List.append_assoc, List.cons_append, List.nil_append]
  rw [e]
  generalize compactEncode call.length ++ call ++ _ = a
  rw [List.length_append, List.getElem?_append_right (by simp [hx.genesis, hx.blockHash, leBytes_length])]
  have : (0x97 :: ([0x23, 0, 0] ++ leBytes 4 x.txVersion ++ x.genesis ++ x.blockHash)).length = 72 := by
    simp [hx.genesis, hx.blockHash, leBytes_length]
  rw [this]
  simp

/-- One byte of the spec version changed: not accepted. -/
example : ¬ ∃ r k, parseTransaction westend.toMetadata (.ofBytes (documented.set 48 0x98)) (some genesis) = .ok r ∧ r.callResult = .ok k := by
  rintro ⟨r, k, h, hk⟩
  obtain ⟨call, x, hb, -, hx, -, -⟩ := (westend_transaction (reliable_ofBytes _)).1 ⟨r, k, h, hk, rfl, rfl⟩
  have h1 : (documented.set 48 0x98)[(documented.set 48 0x98).length - 72]? = some 0x98 := by decide +kernel
  rw [show documented.set 48 0x98 = payload call x from hb, version_byte hx] at h1
  cases h1

/-- An extrinsic with the documented call, signed by the receiver. -/
def signed : Signed := ⟨account, .ecdsa, List.replicate 65 7, .immortal, 3, 0⟩

example : ∃ u, decodeUncheckedExtrinsic westend (.ofBytes (compactEncode (signed.bytes (transferKeepAlive account 100000000)).length ++
    signed.bytes (transferKeepAlive account 100000000))) = .ok u ∧ extrinsicOf u = signed.extrinsic (transfer account 100000000) :=
  (westend_extrinsic (reliable_ofBytes _)).2 ⟨⟨by decide, by decide, trivial, by decide, by decide⟩, _, [],
    transfer_iff.2 ⟨by decide, by decide, rfl⟩, by decide +kernel, by simp [Buf.ofBytes]⟩

example := westend_metadata
example := westend_registry

/-- Any type: the number 5 as a `Compact<u128>`. -/
example : ∃ d, decodeAllAsType westend.types (.ofBytes [20]) 46 = .ok d ∧ edValue d = .uint .u128 5 :=
  (westend_values (reliable_ofBytes _)).2 (balance_iff.2 ⟨5, by decide, rfl, rfl⟩)

theorem transfer_firm : ∀ f ∈ (transfer account 100000000).args, Firm f.2 := by
  simp only [transfer, List.forall_mem_cons, List.not_mem_nil, false_implies, implies_true, and_true]
  exact ⟨.variant (by simp; exact .fixed _ _), .uint _ _⟩

/-- What is shown of the documented transaction tells its bytes. -/
example : ∀ {b' : Buf} {r r' : TransactionParsed V14Err} {c c' : Call}, parseTransaction westend.toMetadata b (some genesis) = .ok r →
    parseTransaction westend.toMetadata b' none = .ok r' → r.callResult = .ok c → r'.callResult = .ok c' →
    cardLines Example.bitsText (c.card (ss58Printers (fun _ => (29, 33)) (fun _ => [])) exampleSpecs "westend" 0) =
      cardLines Example.bitsText (c'.card (ss58Printers (fun _ => (29, 33)) (fun _ => [])) exampleSpecs "westend" 0) →
    cardLines Example.bitsText (r.card (ss58Printers (fun _ => (29, 33)) (fun _ => [])) exampleSpecs "westend").extensions =
      cardLines Example.bitsText (r'.card (ss58Printers (fun _ => (29, 33)) (fun _ => [])) exampleSpecs "westend").extensions →
    documented = b'.bytes := by
  intro b' r r' c c' h h' hc hc' w w'
  obtain ⟨r0, k, h0, hk, e⟩ := documented_shown
  cases h.symm.trans h0
  cases hc.symm.trans hk
  have hf : ∀ f ∈ fdsValue c.fields, Firm f.2 := by
    have : fdsValue c.fields = (transfer account 100000000).args := by rw [← e]; rfl
    rw [this]; exact transfer_firm
  exact westend_signs (by decide) Meaning.bits_shown (reliable_ofBytes _) h h' hc hc' hf w w'

theorem usual : Usual b := ⟨reliable_ofBytes _, by decide⟩
example (H : HashFns) := westend_32bit usual (some genesis) H usual ⟨.plain 0, []⟩
/-- At most 4326344 * 121 for the 120 bytes, however often the memory fails. -/
example (fails : Nat → Bool) : (parseTransactionD (metered (scripted (usize64 false) westend.types documented fails)) westend.toMetadata (some genesis) (0, 0)).2.2 ≤
    4326344 * (1 + documented.length) := westend_cost _ _ _ _ (scripted_flaky _ ⟨by decide +kernel, by have : (usize64 false).cap = 2 ^ 64 := rfl; have : documented.length = 120 := rfl; omega⟩ fails)
example : ∀ r, parseTransaction westend.toMetadata b (some genesis) = .ok r → txSize r ≤ 56581 * 121 := fun _ h => westend_size h

end Verif.Witness.Westend
