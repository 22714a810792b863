import Verif.Props.Unforged
import Verif.Witness.Printed
/-! # Every theorem applied to a concrete case: C95 -/
namespace Verif.Witness.Unforged
open Spec
open Verif.Witness.Printed (printers_unbroken bits_unbroken chain_unbroken no_text)

/-- A struct with two texts. -/
def types : List Typ := [{ typeDef := .primitive .str }, { typeDef := .composite [⟨some "f", 0, none, []⟩, ⟨some "g", 0, none, []⟩] }]
def reg : Registry := .portable types
theorem reg_names : NamesDistinct reg := namesDistinct_of_check (by decide)
theorem reg_signatures : SignaturesDistinct reg := signaturesDistinct_of_check (by decide)
theorem reg_unbroken : UnbrokenNames reg := Verif.Westend.names_unbroken (by decide +kernel)

/-- The texts "x" and "y". -/
def honest : Bytes := [4, 0x78, 4, 0x79]

theorem oneLine_check {showBits : BitStore → BitOrder → List Bool → String} {l : List ExtendedCard} {lines : List String}
    (h : Spec.Westend.screen showBits l = lines) (hl : lines.all (fun s => !s.toList.contains '\n') = true) : EachOneLine showBits l := by
  intro c hc hn
  have := List.all_eq_true.1 hl (c.show showBits) (by rw [← h]; exact List.mem_map_of_mem hc)
  simp [hn] at this

/-- Texts on one line each: no other two texts, with any line breaks, are printed like this. -/
example : ∃ d, decodeAllAsType reg (.ofBytes honest) 1 = .ok d ∧
    Spec.Westend.screen Example.bitsText (d.card Example.printers exampleSpecs "example" 0 false) =
      ["Struct: 2 field(s)", "  Field Name: f", "    Text: x", "  Field Name: g", "    Text: y"] ∧
    ∀ b' d', decodeAllAsType reg b' 1 = .ok d' →
      d.show Example.bitsText Example.printers exampleSpecs "example" 0 false =
        d'.show Example.bitsText Example.printers exampleSpecs "example" 0 false → d = d' ∧ honest = b'.bytes := by
  have h : ∃ d, decodeAllAsType reg (.ofBytes honest) 1 = .ok d ∧
      edValue d = .record [(some "f", .str "x"), (some "g", .str "y")] ∧
      Spec.Westend.screen Example.bitsText (d.card Example.printers exampleSpecs "example" 0 false) =
        ["Struct: 2 field(s)", "  Field Name: f", "    Text: x", "  Field Name: g", "    Text: y"] := by
    exact ⟨_, rfl, rfl, by decide +kernel⟩
  obtain ⟨d, h, hv, hs⟩ := h
  have hf : Firm (edValue d) := by
    rw [hv]
    refine .record ?_
    simp only [List.forall_mem_cons, List.not_mem_nil, false_implies, implies_true, and_true]
    exact ⟨.str _, .str _⟩
  have hw : EachOneLine Example.bitsText (d.card Example.printers exampleSpecs "example" 0 false) := oneLine_check hs (by decide +kernel)
  refine ⟨d, h, hs, fun b' d' h' w => ⟨?_, ?_⟩⟩
  · exact decodeAllAsType_unforged reg_names Example.faithful reg_unbroken (printers_unbroken _ (by unfold Unbroken; decide)) h h' hw w
  · exact decodeAllAsType_unforged_bytes (b := .ofBytes honest) reg_names reg_signatures Example.faithful reg_unbroken
      (printers_unbroken _ (by unfold Unbroken; decide)) h h' hf hw w

/-- The texts "x\n  Field Name: g\n    Text: y" and "z". -/
def forged : Bytes := [116, 120, 10, 32, 32, 70, 105, 101, 108, 100, 32, 78, 97, 109, 101, 58, 32, 103, 10, 32, 32, 32, 32, 84, 101, 120, 116, 58, 32, 121, 4, 122]
/-- The texts "x" and "y\n  Field Name: g\n    Text: z". -/
def forged' : Bytes := [4, 120, 116, 121, 10, 32, 32, 70, 105, 101, 108, 100, 32, 78, 97, 109, 101, 58, 32, 103, 10, 32, 32, 32, 32, 84, 101, 120, 116, 58, 32, 122]

/-- With line breaks in texts on both sides it is not so. -/
example : ∃ d d', decodeAllAsType reg (.ofBytes forged) 1 = .ok d ∧
    decodeAllAsType reg (.ofBytes forged') 1 = .ok d' ∧
    edValue d ≠ edValue d' ∧
    d.show Example.bitsText Example.printers exampleSpecs "example" 0 false =
        d'.show Example.bitsText Example.printers exampleSpecs "example" 0 false := by
  have h1 : ∃ d, decodeAllAsType reg (.ofBytes forged) 1 = .ok d ∧
      edValue d = .record [(some "f", .str "x\n  Field Name: g\n    Text: y"), (some "g", .str "z")] ∧
      d.show Example.bitsText Example.printers exampleSpecs "example" 0 false =
        "Struct: 2 field(s)\n  Field Name: f\n    Text: x\n  Field Name: g\n    Text: y\n  Field Name: g\n    Text: z" := by
    exact ⟨_, rfl, rfl, by decide +kernel⟩
  have h2 : ∃ d, decodeAllAsType reg (.ofBytes forged') 1 = .ok d ∧
      edValue d = .record [(some "f", .str "x"), (some "g", .str "y\n  Field Name: g\n    Text: z")] ∧
      d.show Example.bitsText Example.printers exampleSpecs "example" 0 false =
        "Struct: 2 field(s)\n  Field Name: f\n    Text: x\n  Field Name: g\n    Text: y\n  Field Name: g\n    Text: z" := by
    exact ⟨_, rfl, rfl, by decide +kernel⟩
  obtain ⟨d, a1, a2, a3⟩ := h1
  obtain ⟨d', b1, b2, b3⟩ := h2
  exact ⟨d, d', a1, b1, by rw [a2, b2]; simp, a3.trans b3.symm⟩

/-- Nothing else can be signed below the display of the example payload. -/
example : ∃ r c, parseTransaction Example.chain Example.payload (some Example.genesis) = .ok r ∧ r.callResult = .ok c ∧
    ∀ b' expected' r' c', parseTransaction Example.chain b' expected' = .ok r' → r'.callResult = .ok c' →
      printout Example.bitsText (c.card Example.printers exampleSpecs "example" 0 ++ (r.card Example.printers exampleSpecs "example").extensions) =
        printout Example.bitsText (c'.card Example.printers exampleSpecs "example" 0 ++
          (r'.card Example.printers exampleSpecs "example").extensions) → r = r' ∧ Example.payload.bytes = b'.bytes := by
  have h : ∃ e, parseTransaction Example.chain Example.payload (some Example.genesis) = .ok ⟨.ok Example.call, e⟩ ∧
      (∀ d ∈ e, Firm (edValue d)) ∧
      (Spec.Westend.screen Example.bitsText (Example.call.card Example.printers exampleSpecs "example" 0 ++
        cardExtensions Example.printers exampleSpecs "example" e)).all (fun s => !s.toList.contains '\n') = true := by
    refine ⟨_, rfl, ?_, by decide +kernel⟩
    simp only [List.forall_mem_append, List.forall_mem_cons, List.not_mem_nil, false_imp_iff, implies_true, and_true,
      edValue, pdValue]
    have t : Firm (.tuple (edsValue [])) := .tuple (by simp [edsValue])
    exact ⟨⟨t, t, .era _⟩, .uint _ _, .hash _, .hash _⟩
  obtain ⟨e, h, hf, hs⟩ := h
  have hw := oneLine_check (showBits := Example.bitsText) (l := Example.call.card Example.printers exampleSpecs "example" 0 ++
    cardExtensions Example.printers exampleSpecs "example" e) rfl hs
  refine ⟨_, Example.call, h, rfl, fun b' expected' r' c' h' hc' w => ⟨?_, ?_⟩⟩
  · exact parseTransaction_unforged Example.chain_names Example.faithful chain_unbroken (printers_unbroken _ (by unfold Unbroken; decide)) h h' rfl hc' hw w
  · refine parseTransaction_unforged_bytes Example.chain_names Example.chain_signatures Example.faithful chain_unbroken
      (printers_unbroken _ (by unfold Unbroken; decide)) h h' rfl hc' ?_ hf hw w
    simp only [Example.call, fdsValue, fdValue, edValue, pdValue, List.forall_mem_cons, List.not_mem_nil, false_imp_iff, implies_true, and_true]
    exact ⟨.uint _ _, .uint _ _⟩

/-- The same without the length prefix. -/
example : ∃ r, parseTransactionUnmarked Example.chain (Buf.ofBytes (Example.callBytes ++ Example.extBytes)) (some Example.genesis) = .ok r ∧
    ∀ b' expected' r', parseTransactionUnmarked Example.chain b' expected' = .ok r' →
      printout Example.bitsText ((r.card Example.printers exampleSpecs "example").call ++ (r.card Example.printers exampleSpecs "example").extensions) =
        printout Example.bitsText ((r'.card Example.printers exampleSpecs "example").call ++
          (r'.card Example.printers exampleSpecs "example").extensions) → r = r' ∧ Example.callBytes ++ Example.extBytes = b'.bytes := by
  have h : ∃ e, parseTransactionUnmarked Example.chain (Buf.ofBytes (Example.callBytes ++ Example.extBytes)) (some Example.genesis) =
        .ok ⟨Example.call, e⟩ ∧
      (∀ d ∈ e, Firm (edValue d)) ∧
      (Spec.Westend.screen Example.bitsText (Example.call.card Example.printers exampleSpecs "example" 0 ++
        cardExtensions Example.printers exampleSpecs "example" e)).all (fun s => !s.toList.contains '\n') = true := by
    refine ⟨_, rfl, ?_, by decide +kernel⟩
    simp only [List.forall_mem_append, List.forall_mem_cons, List.not_mem_nil, false_imp_iff, implies_true, and_true,
      edValue, pdValue]
    have t : Firm (.tuple (edsValue [])) := .tuple (by simp [edsValue])
    exact ⟨⟨t, t, .era _⟩, .uint _ _, .hash _, .hash _⟩
  obtain ⟨e, h, hf, hs⟩ := h
  have hw := oneLine_check (showBits := Example.bitsText) (l := Example.call.card Example.printers exampleSpecs "example" 0 ++
    cardExtensions Example.printers exampleSpecs "example" e) rfl hs
  refine ⟨_, h, fun b' expected' r' h' w => ⟨?_, ?_⟩⟩
  · exact parseTransactionUnmarked_unforged Example.chain_names Example.faithful chain_unbroken (printers_unbroken _ (by unfold Unbroken; decide)) h h' hw w
  · refine parseTransactionUnmarked_unforged_bytes (b := Buf.ofBytes (Example.callBytes ++ Example.extBytes)) Example.chain_names
      Example.chain_signatures Example.faithful chain_unbroken
      (printers_unbroken _ (by unfold Unbroken; decide)) h h' ?_ hf hw w
    simp only [Example.call, fdsValue, fdValue, edValue, pdValue, List.forall_mem_cons, List.not_mem_nil, false_imp_iff, implies_true, and_true]
    exact ⟨.uint _ _, .uint _ _⟩

section
open Verif.Westend Spec.Westend Witness.Westend Witness.Screen Witness.Batch

/-- The documented transfer on Westend. -/
example : ∃ r k, parseTransaction westend.toMetadata (.ofBytes documented) (some genesis) = .ok r ∧ r.callResult = .ok k ∧
    ∀ b' expected' r' c', parseTransaction westend.toMetadata b' expected' = .ok r' → r'.callResult = .ok c' →
      printout Example.bitsText (k.card Witness.Screen.printers specs "westend" 0 ++ (r.card Witness.Screen.printers specs "westend").extensions) =
        printout Example.bitsText (c'.card Witness.Screen.printers specs "westend" 0 ++ (r'.card Witness.Screen.printers specs "westend").extensions) →
      documented = b'.bytes := by
  obtain ⟨r, k, h1, h2, h3, h4⟩ := (westend_transaction (b := .ofBytes documented) (expected := some genesis) (reliable_ofBytes _)).2
    ⟨_, _, documented_eq, by decide +kernel, extensions_valid, rfl, (Verif.Westend.callEnc_iff (c := (Order.pay true account 100000000).call)).2
      ((Verif.Westend.order_iff (.pay true account 100000000) _).2 ⟨by simp [Order.Valid, show account.length = 32 from by decide], by decide +kernel⟩)⟩
  obtain ⟨e1, e2⟩ := cards_of_orders Witness.Screen.printers specs Example.bitsText h1 h2 h3 h4
  refine ⟨r, k, h1, h2, fun b' expected' r' c' h' hc' w => ?_⟩
  refine westend_unforged (b := .ofBytes documented) (by decide) Meaning.bits_shown bits_unbroken (by unfold Unbroken; decide) (reliable_ofBytes _)
    h1 h' h2 hc' ?_ (oneLine_of_screen (parsed_tidy Verif.Westend.unbrokenNames
      (ss58_unbroken _ _ bits_unbroken (by unfold Unbroken; decide) (by unfold Unbroken; decide)) h1 h2) (screen_append e1 e2) ?_) w
  · have : fdsValue k.fields = (Order.pay true account 100000000).args := congrArg CallOf.args h3
    rw [this]
    exact order_firm _
  · intro s hs
    replace hs := List.mem_append.1 hs
    rcases hs with hs | hs
    · exact .inl (order_plain _ _ _ _ s hs)
    · exact .inl (westend_extensions_plain _ _ s hs)
end

section
open Verif.Polkadot Spec.Polkadot Witness.Polkadot Witness.PolkadotScreen
open Witness.Westend (account)
open Spec.Westend (callScreen)

/-- A hash that happens to be a text of one line. -/
def zeros : Extensions := { extensions with metadataHash := some (List.replicate 32 0x30) }

theorem zeros_text : stringFromUtf8 (List.replicate 32 0x30) = some "00000000000000000000000000000000" := by decide +kernel

/-- A transfer on Polkadot, with this hash. -/
example (b' : Buf) (hr : Reliable b') : (∃ r k, parseTransaction polkadot.toMetadata b' (some genesis) = .ok r ∧ r.callResult = .ok k ∧
    printout Example.bitsText (k.card Witness.PolkadotScreen.printers specs "polkadot" 0 ++
      (r.card Witness.PolkadotScreen.printers specs "polkadot").extensions) =
      "\n".intercalate (callScreen specs (ss58 (fun _ => (29, 33)) account 0) 30000000000 ++ extensionsScreen specs zeros)) ↔
    b'.bytes = payload (transferKeepAlive account 30000000000) zeros :=
  polkadot_transfer_unforged (by decide) Meaning.bits_shown bits_unbroken (by unfold Unbroken; decide) hr (by decide) (by decide)
    (extensions_valid true _ (by intro x h; cases h; decide +kernel))
    (by intro h s e e'; cases e; rw [zeros_text] at e'; cases e'; unfold Unbroken; decide)

/-- Any other call, too. -/
example {r : TransactionParsed VersionErr} {k : Call}
    (h1 : parseTransaction polkadot.toMetadata (.ofBytes (payload (transferKeepAlive account 30000000000) zeros)) (some genesis) = .ok r)
    (h2 : r.callResult = .ok k) (hf : ∀ f ∈ fdsValue k.fields, Firm f.2)
    (hw : EachOneLine Example.bitsText (k.card Witness.PolkadotScreen.printers specs "polkadot" 0 ++
      (r.card Witness.PolkadotScreen.printers specs "polkadot").extensions))
    (b' : Buf) (expected' : Option Bytes) (r' : TransactionParsed VersionErr) (c' : Call)
    (h' : parseTransaction polkadot.toMetadata b' expected' = .ok r') (hc' : r'.callResult = .ok c')
    (w : printout Example.bitsText (k.card Witness.PolkadotScreen.printers specs "polkadot" 0 ++
        (r.card Witness.PolkadotScreen.printers specs "polkadot").extensions) =
      printout Example.bitsText (c'.card Witness.PolkadotScreen.printers specs "polkadot" 0 ++
        (r'.card Witness.PolkadotScreen.printers specs "polkadot").extensions)) :
    payload (transferKeepAlive account 30000000000) zeros = b'.bytes :=
  polkadot_unforged (b := .ofBytes (payload (transferKeepAlive account 30000000000) zeros)) (by decide) Meaning.bits_shown bits_unbroken
    (by unfold Unbroken; decide) (reliable_ofBytes _) h1 h' h2 hc' hf hw w
end

end Verif.Witness.Unforged
