import Verif.Props.Printed
import Verif.Witness.Batch
import Verif.Witness.PolkadotScreen
/-! # Every theorem applied to a concrete case: C94 -/
namespace Verif.Witness.Printed
open Spec

theorem bits_unbroken : ∀ (s : BitStore) (o : BitOrder) (l : List Bool), Unbroken (Example.bitsText s o l) := by
  intro s o l h
  simp only [Example.bitsText, String.toList_ofList, List.mem_map] at h
  obtain ⟨x, -, h⟩ := h
  cases x <;> revert h <;> decide

theorem printers_unbroken (specName : String) (h : Unbroken specName) : UnbrokenPrinters Example.printers exampleSpecs specName Example.bitsText :=
  ⟨fun _ a => hexEncode_oneLine _, bits_unbroken, by unfold Unbroken; decide, h⟩

theorem good_unbroken : UnbrokenNames Example.good := Verif.Westend.names_unbroken (by decide +kernel)
theorem chain_unbroken : UnbrokenNames Example.chain.types := Verif.Westend.names_unbroken (by decide +kernel)

/-- A struct with bytes that are no text. -/
def bytes : Bytes := [7, 0xb1, 0x04, 4, 0xff]

/-- Among all encodings of this type, some with texts, none other is printed like this. -/
example : ∃ d, decodeAllAsType Example.good (.ofBytes bytes) 4 = .ok d ∧
    d.show Example.bitsText Example.printers exampleSpecs "example" 0 false =
      "Struct: 3 field(s)\n  Field Name: a\n    u8: 7\n  Field Name: b\n    u32: 300\n  Field Name: c\n    Sequence u8: ff" ∧
    ∀ b' d', decodeAllAsType Example.good b' 4 = .ok d' →
      d.show Example.bitsText Example.printers exampleSpecs "example" 0 false =
        d'.show Example.bitsText Example.printers exampleSpecs "example" 0 false → d = d' ∧ bytes = b'.bytes := by
  have h : ∃ d, decodeAllAsType Example.good (.ofBytes bytes) 4 = .ok d ∧
      edValue d = .record [(some "a", .uint .u8 7), (some "b", .uint .u32 300), (some "c", .seq [.uint .u8 255])] ∧
      Spec.Westend.screen Example.bitsText (d.card Example.printers exampleSpecs "example" 0 false) =
        ["Struct: 3 field(s)", "  Field Name: a", "    u8: 7", "  Field Name: b", "    u32: 300", "  Field Name: c", "    Sequence u8: ff"] := by
    exact ⟨_, rfl, rfl, by decide +kernel⟩
  obtain ⟨d, h, hv, hs⟩ := h
  have hf : Firm (edValue d) := by
    rw [hv]
    refine .record ?_
    simp only [List.forall_mem_cons, List.not_mem_nil, false_implies, implies_true, and_true]
    exact ⟨.uint _ _, .uint _ _, .seq (by simp; exact .uint _ _)⟩
  have hw : Wordless (d.card Example.printers exampleSpecs "example" 0 false) := wordless_of_screen hs (by decide +kernel)
  refine ⟨d, h, ?_, fun b' d' h' w => ⟨?_, ?_⟩⟩
  · have := printout_screen hs
    unfold printout at this
    unfold ED.show
    rw [this]
    decide +kernel
  · exact decodeAllAsType_printed (namesDistinct_of_check (by decide)) Example.faithful good_unbroken (printers_unbroken _ (by unfold Unbroken; decide)) h h' hw w
  · exact decodeAllAsType_printed_bytes (b := .ofBytes bytes) (namesDistinct_of_check (by decide)) (signaturesDistinct_of_check (by decide)) Example.faithful good_unbroken
      (printers_unbroken _ (by unfold Unbroken; decide)) h h' hf hw w

/-- Nothing else can be signed below the display of the example payload. -/
example : ∃ r c, parseTransaction Example.chain Example.payload (some Example.genesis) = .ok r ∧ r.callResult = .ok c ∧
    ∀ b' expected' r' c', parseTransaction Example.chain b' expected' = .ok r' → r'.callResult = .ok c' →
      printout Example.bitsText (c.card Example.printers exampleSpecs "example" 0 ++ (r.card Example.printers exampleSpecs "example").extensions) =
        printout Example.bitsText (c'.card Example.printers exampleSpecs "example" 0 ++
          (r'.card Example.printers exampleSpecs "example").extensions) → r = r' ∧ Example.payload.bytes = b'.bytes := by
  have h : ∃ e, parseTransaction Example.chain Example.payload (some Example.genesis) = .ok ⟨.ok Example.call, e⟩ ∧
      (∀ d ∈ e, Firm (edValue d)) ∧
      (Spec.Westend.screen Example.bitsText (Example.call.card Example.printers exampleSpecs "example" 0 ++
        cardExtensions Example.printers exampleSpecs "example" e)).all (fun s => decide (PlainLine s)) = true := by
    refine ⟨_, rfl, ?_, by decide +kernel⟩
    simp only [List.forall_mem_append, List.forall_mem_cons, List.not_mem_nil, false_imp_iff, implies_true, and_true,
      edValue, pdValue]
    have t : Firm (.tuple (edsValue [])) := .tuple (by simp [edsValue])
    exact ⟨⟨t, t, .era _⟩, .uint _ _, .hash _, .hash _⟩
  obtain ⟨e, h, hf, hs⟩ := h
  have hw := wordless_of_screen (showBits := Example.bitsText) (l := Example.call.card Example.printers exampleSpecs "example" 0 ++
    cardExtensions Example.printers exampleSpecs "example" e) rfl (by simpa using hs)
  refine ⟨_, Example.call, h, rfl, fun b' expected' r' c' h' hc' w => ⟨?_, ?_⟩⟩
  · exact parseTransaction_printed Example.chain_names Example.faithful chain_unbroken (printers_unbroken _ (by unfold Unbroken; decide)) h h' rfl hc' hw w
  · refine parseTransaction_printed_bytes Example.chain_names Example.chain_signatures Example.faithful chain_unbroken
      (printers_unbroken _ (by unfold Unbroken; decide)) h h' rfl hc' ?_ hf hw w
    simp only [Example.call, fdsValue, fdValue, edValue, pdValue, List.forall_mem_cons, List.not_mem_nil, false_imp_iff, implies_true, and_true]
    exact ⟨.uint _ _, .uint _ _⟩

section
open Verif.Westend Spec.Westend Witness.Westend Witness.Screen Witness.Batch

/-- A batch of transfers on Westend. -/
example (b' : Buf) (hr : Reliable b') : (∃ r k, parseTransaction westend.toMetadata b' (some genesis) = .ok r ∧ r.callResult = .ok k ∧
    printout Example.bitsText (k.card Witness.Screen.printers specs "westend" 0 ++ (r.card Witness.Screen.printers specs "westend").extensions) =
      "\n".intercalate (orders.screen specs (fun a => ss58 (fun _ => (0x73, 0x82)) a specs.base58prefix) 0 ++
        extensionsScreen specs extensions)) ↔
    b'.bytes = payload orders.bytes extensions :=
  westend_orders_printed (by decide) Meaning.bits_shown bits_unbroken (by unfold Unbroken; decide) hr orders_valid orders_short extensions_valid

/-- The documented transfer: any payload, with any call in it, printed like this is this one. -/
example : ∃ r k, parseTransaction westend.toMetadata (.ofBytes documented) (some genesis) = .ok r ∧ r.callResult = .ok k ∧
    ∀ b' expected' r' c', parseTransaction westend.toMetadata b' expected' = .ok r' → r'.callResult = .ok c' →
      printout Example.bitsText (k.card Witness.Screen.printers specs "westend" 0 ++ (r.card Witness.Screen.printers specs "westend").extensions) =
        printout Example.bitsText (c'.card Witness.Screen.printers specs "westend" 0 ++ (r'.card Witness.Screen.printers specs "westend").extensions) →
      documented = b'.bytes := by
  obtain ⟨r, k, h1, h2, h3, h4⟩ := (westend_transaction (b := .ofBytes documented) (expected := some genesis) (reliable_ofBytes _)).2
    ⟨_, _, documented_eq, by decide +kernel, extensions_valid, rfl, (Verif.Westend.callEnc_iff (c := (Order.pay true account 100000000).call)).2
      ((Verif.Westend.order_iff (.pay true account 100000000) _).2 ⟨by simp [Order.Valid, show account.length = 32 from by decide], by decide +kernel⟩)⟩
  obtain ⟨e1, e2⟩ := cards_of_orders Witness.Screen.printers specs Example.bitsText h1 h2 h3 h4
  refine ⟨r, k, h1, h2, fun b' expected' r' c' h' hc' w => ?_⟩
  refine westend_printed (b := .ofBytes documented) (by decide) Meaning.bits_shown bits_unbroken (by unfold Unbroken; decide) (reliable_ofBytes _)
    h1 h' h2 hc' ?_ (wordless_of_screen (screen_append e1 e2) ?_) w
  · have : fdsValue k.fields = (Order.pay true account 100000000).args := congrArg CallOf.args h3
    rw [this]
    exact order_firm _
  · intro s hs
    replace hs := List.mem_append.1 hs
    rcases hs with hs | hs
    · exact order_plain _ _ _ _ s hs
    · exact westend_extensions_plain _ _ s hs
end

section
open Verif.Polkadot Spec.Polkadot Witness.Polkadot Witness.PolkadotScreen
open Witness.Westend (account)
open Spec.Westend (callScreen)

theorem no_text : ∀ h, hashed.metadataHash = some h → stringFromUtf8 h = none := by
  intro h e
  cases e
  decide +kernel

/-- A transfer on Polkadot, with a hash of the metadata that is no text. -/
example (b' : Buf) (hr : Reliable b') : (∃ r k, parseTransaction polkadot.toMetadata b' (some genesis) = .ok r ∧ r.callResult = .ok k ∧
    printout Example.bitsText (k.card Witness.PolkadotScreen.printers specs "polkadot" 0 ++
      (r.card Witness.PolkadotScreen.printers specs "polkadot").extensions) =
      "\n".intercalate (callScreen specs (ss58 (fun _ => (29, 33)) account 0) 30000000000 ++ extensionsScreen specs hashed)) ↔
    b'.bytes = payload (transferKeepAlive account 30000000000) hashed :=
  polkadot_transfer_printed (by decide) Meaning.bits_shown bits_unbroken (by unfold Unbroken; decide) hr (by decide) (by decide) hashed_valid no_text

/-- Any other call, too. -/
example {r : TransactionParsed VersionErr} {k : Call}
    (h1 : parseTransaction polkadot.toMetadata (.ofBytes (payload (transferKeepAlive account 30000000000) hashed)) (some genesis) = .ok r)
    (h2 : r.callResult = .ok k) (hf : ∀ f ∈ fdsValue k.fields, Firm f.2)
    (hw : Wordless (k.card Witness.PolkadotScreen.printers specs "polkadot" 0 ++ (r.card Witness.PolkadotScreen.printers specs "polkadot").extensions))
    (b' : Buf) (expected' : Option Bytes) (r' : TransactionParsed VersionErr) (c' : Call)
    (h' : parseTransaction polkadot.toMetadata b' expected' = .ok r') (hc' : r'.callResult = .ok c')
    (w : printout Example.bitsText (k.card Witness.PolkadotScreen.printers specs "polkadot" 0 ++
        (r.card Witness.PolkadotScreen.printers specs "polkadot").extensions) =
      printout Example.bitsText (c'.card Witness.PolkadotScreen.printers specs "polkadot" 0 ++
        (r'.card Witness.PolkadotScreen.printers specs "polkadot").extensions)) :
    payload (transferKeepAlive account 30000000000) hashed = b'.bytes :=
  polkadot_printed (b := .ofBytes (payload (transferKeepAlive account 30000000000) hashed)) (by decide) Meaning.bits_shown bits_unbroken
    (by unfold Unbroken; decide) (reliable_ofBytes _) h1 h' h2 hc' hf hw w
end

end Verif.Witness.Printed
