import Verif.Props.Remark
import Verif.Witness.Unforged
/-! # Every theorem applied to a concrete case: C97 -/
namespace Verif.Witness.Remark
open Spec Verif.Polkadot Spec.Polkadot Witness.Polkadot
open Spec.Westend (screen)
open Witness.PolkadotScreen (specs printers hashed hashed_valid)
open Verif.Witness.Printed (bits_unbroken)

/-- The message "hello". -/
def hello : Bytes := [0x68, 0x65, 0x6c, 0x6c, 0x6f]
/-- Bytes that are no text. -/
def opaqueBytes : Bytes := [0xff, 0x00]
/-- A message of two lines, the second looks like a card. -/
def twoLines : Bytes := [0x68, 0x69, 0x0a, 0x45, 0x72, 0x61, 0x3a, 0x20, 0x49]

theorem hello_text : stringFromUtf8 hello = some "hello" := by decide +kernel

example : remarkCall hello = [0, 0, 0x14, 0x68, 0x65, 0x6c, 0x6c, 0x6f] := by decide +kernel
example : remarkScreen hello = ["Pallet: System", "  Call: remark", "    Field Name: remark", "      Text: hello"] := by decide +kernel
example : remarkScreen opaqueBytes = ["Pallet: System", "  Call: remark", "    Field Name: remark", "      Sequence u8: ff00"] := by
  decide +kernel
example : remarkScreen [] = ["Pallet: System", "  Call: remark", "    Field Name: remark", "      Sequence: 0 element(s)"] := by
  decide +kernel
example : remarkScreen twoLines = ["Pallet: System", "  Call: remark", "    Field Name: remark", "      Text: hi\nEra: I"] := by
  decide +kernel

/-- Read as this remark. -/
example : ∃ r k, parseTransaction polkadot.toMetadata (.ofBytes (payload (remarkCall hello) hashed)) (some genesis) = .ok r ∧
    r.callResult = .ok k ∧ callOf k = remark hello :=
  (polkadot_remark (reliable_ofBytes _)).2 ⟨by decide, hashed, hashed_valid, rfl⟩

/-- And no other payload is. -/
example (b' : Buf) (hr : Reliable b') (e : Option Bytes) (r : TransactionParsed VersionErr) (k : Call)
    (h : parseTransaction polkadot.toMetadata b' e = .ok r) (hk : r.callResult = .ok k) (hc : callOf k = remark hello) :
    ∃ x : Extensions, x.Valid e ∧ b'.bytes = payload (remarkCall hello) x :=
  ((polkadot_remark hr).1 ⟨r, k, h, hk, hc⟩).2

/-- The lines of "hello". -/
example : ∃ r k, parseTransaction polkadot.toMetadata (.ofBytes (payload (remarkCall hello) hashed)) (some genesis) = .ok r ∧
    r.callResult = .ok k ∧ screen Example.bitsText (k.card printers specs "polkadot" 0) =
      ["Pallet: System", "  Call: remark", "    Field Name: remark", "      Text: hello"] ∧
    screen Example.bitsText (r.card printers specs "polkadot").extensions =
      ["Era: Immortal",
       "Nonce: 7",
       "Tip: 100.0 nDOT",
       "Struct: 1 field(s)",
       "  Field Name: mode",
       "    Enum",
       "      Enum Variant Name: Enabled",
       "Chain: polkadot1003003",
       "Tx Version: 26",
       "Genesis Hash: 91b171bb158e2d3848fa23a9f1c25182fb8e20313b2c1eb49219da7a70ce90c3",
       "Block Hash: 91b171bb158e2d3848fa23a9f1c25182fb8e20313b2c1eb49219da7a70ce90c3",
       "Enum",
       "  Enum Variant Name: Some",
       "    Sequence u8: ffababababababababababababababababababababababababababababababab"] := by
  have := polkadot_remark_screen (b := .ofBytes (payload (remarkCall hello) hashed)) printers specs Example.bitsText
    (reliable_ofBytes _) (by decide) hashed_valid rfl
  have e : remarkScreen hello = ["Pallet: System", "  Call: remark", "    Field Name: remark", "      Text: hello"] := by decide +kernel
  rwa [e, Witness.PolkadotScreen.extensions_text] at this

/-- Line by line also a message with line breaks has lines of its own. -/
example (b' : Buf) (hr : Reliable b') : (∃ r k, parseTransaction polkadot.toMetadata b' (some genesis) = .ok r ∧ r.callResult = .ok k ∧
    screen Example.bitsText (k.card printers specs "polkadot" 0) = remarkScreen twoLines ∧
    screen Example.bitsText (r.card printers specs "polkadot").extensions = extensionsScreen specs hashed) ↔
    b'.bytes = payload (remarkCall twoLines) hashed :=
  polkadot_remark_screen_only (by decide) Meaning.bits_shown hr (by decide) hashed_valid

theorem no_text32 : stringFromUtf8 Witness.PolkadotScreen.opaque32 = none := by decide +kernel

/-- As one text: no other payload is printed like the one with "hello". -/
example (b' : Buf) (hr : Reliable b') : (∃ r k, parseTransaction polkadot.toMetadata b' (some genesis) = .ok r ∧ r.callResult = .ok k ∧
    printout Example.bitsText (k.card printers specs "polkadot" 0 ++ (r.card printers specs "polkadot").extensions) =
      "\n".intercalate (remarkScreen hello ++ extensionsScreen specs hashed)) ↔
    b'.bytes = payload (remarkCall hello) hashed :=
  polkadot_remark_unforged (by decide) Meaning.bits_shown bits_unbroken (by unfold Unbroken; decide) hr (by decide) hashed_valid
    (by intro s e; rw [hello_text] at e; cases e; unfold Unbroken; decide)
    (by intro h s e e'; cases e; rw [no_text32] at e'; cases e')

/-- A message that goes on like the extensions, and a hash of the metadata with line breaks in it: still only this payload is
printed like this. -/
example (b' : Buf) (hr : Reliable b') : (∃ r k, parseTransaction polkadot.toMetadata b' (some genesis) = .ok r ∧ r.callResult = .ok k ∧
    printout Example.bitsText (k.card printers specs "polkadot" 0 ++ (r.card printers specs "polkadot").extensions) =
      "\n".intercalate (remarkScreen twoLines ++ extensionsScreen specs { extensions with metadataHash := some Witness.PolkadotScreen.spelling })) ↔
    b'.bytes = payload (remarkCall twoLines) { extensions with metadataHash := some Witness.PolkadotScreen.spelling } :=
  polkadot_remark_unforgeable (by decide) Meaning.bits_shown bits_unbroken (by unfold Unbroken; decide) hr (by decide)
    (extensions_valid true _ (by intro x h; cases h; decide +kernel))

end Verif.Witness.Remark
